/-
Model of the equation-of-state formulas of /repo/quantas/eosfit/utils/pv_eos.py and /repo/quantas/qha/utils/ev_eos.py in the
arithmetic of the computer: every operation is rounded, and `**`, `np.power`, `np.log`, `np.exp` are those of the library.
Simplification: exponents are not limited, so nothing overflows or underflows.
-/
import Verif.EoS.Model

noncomputable section

namespace Verif.EoS.Rounded
open Verif.EoS

/-- The rounding of the results of `+ - * /`; `x ** y` for a positive `x`; `x ** 2` and `x ** 3`; `np.log`; `np.exp`. -/
structure Machine where
  rnd : ℝ → ℝ
  pow : ℝ → ℝ → ℝ
  npow : ℝ → ℕ → ℝ
  log : ℝ → ℝ
  exp : ℝ → ℝ

variable (m : Machine)

/-- `p[1]` of a second order fit (pv_eos.py:323-326, 538-541, 729-732, 931-934): the constants are doubles. -/
def setKp (f : Formulation) (p : Pars) (order : ℕ) (linear dofit : Bool) : Pars := EoS.setKp f p order linear dofit

/-- `p[2]` (pv_eos.py:220, 327-330, 542-543, 735, 935-936). -/
def setKpp (f : Formulation) (p : Pars) (order : ℕ) (dofit : Bool) : Pars :=
  match f with
  | .murnaghan => { p with Kpp := 0 }
  | .birchMurnaghan =>
    if dofit ∧ order < 4 then
      { p with Kpp := m.rnd (m.rnd (-1 / p.K0) *
          m.rnd (m.rnd (m.rnd (3 - p.Kp) * m.rnd (4 - p.Kp)) + m.rnd (35 / 9))) }
    else p
  | .naturalStrain =>
    if dofit ∧ order < 4 then
      { p with Kpp := m.rnd (m.rnd (-1 / p.K0) *
          m.rnd (m.rnd (1 + m.rnd (p.Kp - 2)) + m.npow (m.rnd (p.Kp - 2)) 2)) }
    else p
  | .vinet =>
    { p with Kpp := m.rnd (m.rnd (-1 / p.K0) *
        m.rnd (m.rnd (m.npow (m.rnd (p.Kp / 2)) 2 + m.rnd (p.Kp / 2)) - m.rnd (19 / 46))) }
  | .tait => if dofit ∧ order < 4 then { p with Kpp := m.rnd (-p.Kp / p.K0) } else p

/-- `fE` (pv_eos.py:332). -/
def fE (p : Pars) (V : ℝ) : ℝ := m.rnd (0.5 * m.rnd (m.pow (m.rnd (p.V0 / V)) (m.rnd (2 / 3)) - 1))

/-- `fN` (pv_eos.py:545). -/
def fN (p : Pars) (V : ℝ) : ℝ := m.rnd (m.rnd (1 / 3) * m.log (m.rnd (p.V0 / V)))

/-- `fV` (pv_eos.py:737). -/
def fV (p : Pars) (V : ℝ) : ℝ := m.rnd (1 - m.pow (m.rnd (V / p.V0)) (m.rnd (1 / 3)))

/-- The pressure formulas (pv_eos.py:221-222, 332-338, 545-549, 737-739, 938-941). -/
def formula : Formulation → Pars → ℝ → ℝ
  | .murnaghan, p, V =>
    m.rnd (m.rnd (p.K0 / p.Kp) * m.rnd (m.pow (m.rnd (p.V0 / V)) p.Kp - 1))
  | .birchMurnaghan, p, V =>
    let f := fE m p V
    m.rnd (m.rnd (m.rnd (m.rnd (3 * p.K0) * f) * m.pow (m.rnd (1 + m.rnd (2 * f))) 2.5) *
      m.rnd (m.rnd (1 + m.rnd (m.rnd (1.5 * m.rnd (p.Kp - 4)) * f)) +
        m.rnd (m.rnd (1.5 * m.rnd (m.rnd (m.rnd (p.K0 * p.Kpp) + m.rnd (m.rnd (p.Kp - 4) * m.rnd (p.Kp - 3))) +
          m.rnd (35 / 9))) * m.npow f 2)))
  | .naturalStrain, p, V =>
    let f := fN m p V
    let a := m.rnd (1.5 * m.rnd (p.Kp - 2))
    let b := m.rnd (1.5 * m.rnd (m.rnd (m.rnd (1 + m.rnd (p.Kpp * p.K0)) + m.rnd (p.Kp - 2)) + m.npow (m.rnd (p.Kp - 2)) 2))
    m.rnd (m.rnd (m.rnd (m.rnd (3 * p.K0) * m.rnd (p.V0 / V)) * f) *
      m.rnd (m.rnd (1 + m.rnd (a * f)) + m.rnd (b * m.npow f 2)))
  | .vinet, p, V =>
    let f := fV m p V
    let eta := m.rnd (1.5 * m.rnd (p.Kp - 1))
    m.rnd (m.rnd (m.rnd (3 * p.K0) * m.rnd (f / m.npow (m.rnd (1 - f)) 2)) * m.exp (m.rnd (eta * f)))
  | .tait, p, V =>
    let s := m.rnd (m.rnd (1 + p.Kp) + m.rnd (p.K0 * p.Kpp))
    let a := m.rnd (m.rnd (1 + p.Kp) / s)
    let b := m.rnd (m.rnd (p.Kp / p.K0) - m.rnd (p.Kpp / m.rnd (1 + p.Kp)))
    let c := m.rnd (s / m.rnd (m.rnd (m.npow p.Kp 2 + p.Kp) - m.rnd (p.K0 * p.Kpp)))
    m.rnd (m.rnd (1 / b) *
      m.rnd (m.pow (m.rnd (m.rnd (m.rnd (m.rnd (V / p.V0) + a) - 1) / a)) (m.rnd (-1 / c)) - 1))

/-- The parameter array after a call of `eos`. -/
def parsAfter (f : Formulation) (p : Pars) (order : ℕ) (linear dofit : Bool) : Pars :=
  setKpp m f (setKp f p order linear dofit) order dofit

/-- `eos(p, V, order, linear, dofit)` (pv_eos.py:171-223, 249-340, 456-550, 663-741, 855-943). -/
def eos (f : Formulation) (p : Pars) (V : ℝ) (order : ℕ) (linear dofit : Bool) : ℝ × Pars :=
  let q := parsAfter m f p order linear dofit
  (formula m f q V, q)

/-- `murnaghan`, `birchmurnaghan`, `pouriertarantola`, `vinet` (ev_eos.py:192, 232-234, 279-281, 327-330). -/
def energy : EForm → (E0 K0 Kp V0 : ℝ) → ℝ → ℝ
  | .murnaghan, E0, K0, Kp, V0, V =>
    m.rnd (m.rnd (E0 + m.rnd (m.rnd (m.rnd (K0 * V) / Kp) *
      m.rnd (m.rnd (m.pow (m.rnd (V0 / V)) Kp / m.rnd (Kp - 1)) + 1))) - m.rnd (m.rnd (V0 * K0) / m.rnd (Kp - 1)))
  | .birchMurnaghan, E0, K0, Kp, V0, V =>
    let eta := m.pow (m.rnd (V0 / V)) (m.rnd (1 / 3))
    let d := m.rnd (m.npow eta 2 - 1)
    m.rnd (E0 + m.rnd (m.rnd (m.rnd (m.rnd (9 * K0) * V0) / 16) *
      m.rnd (m.rnd (Kp * m.npow d 3) + m.rnd (m.npow d 2 * m.rnd (6 - m.rnd (4 * m.npow eta 2))))))
  | .pourierTarantola, E0, K0, Kp, V0, V =>
    let eta := m.pow (m.rnd (V / V0)) (m.rnd (1 / 3))
    let rho := m.rnd (-3 * m.log eta)
    m.rnd (E0 + m.rnd (m.rnd (m.rnd (m.rnd (K0 * V0) * m.npow rho 2) / 6) *
      m.rnd (3 + m.rnd (rho * m.rnd (Kp - 2)))))
  | .vinet, E0, K0, Kp, V0, V =>
    let eta := m.pow (m.rnd (V / V0)) (m.rnd (1 / 3))
    let d := m.rnd (eta - 1)
    m.rnd (E0 + m.rnd (m.rnd (m.rnd (m.rnd (2 * K0) * V0) / m.npow (m.rnd (Kp - 1)) 2) *
      m.rnd (2 - m.rnd (m.rnd (m.rnd (5 + m.rnd (m.rnd (3 * Kp) * d)) - m.rnd (3 * eta)) *
        m.exp (m.rnd (m.rnd (m.rnd (-3 * m.rnd (Kp - 1)) * d) / 2))))))

/-- `EnergyEOS.pressure` (ev_eos.py:335-374). -/
def pressure (f : EForm) (K0 Kp V0 : ℝ) (V : ℝ) : ℝ := (eos m (pvType f) ⟨K0, Kp, 0, V0⟩ V 3 false false).1

end Verif.EoS.Rounded
