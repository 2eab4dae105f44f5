/-
Model of the equation-of-state formulas: /repo/quantas/eosfit/utils/pv_eos.py (pressure) and
/repo/quantas/qha/utils/ev_eos.py (energy).  Values at one volume; numpy applies them
elementwise.  `p` is the parameter array `[K0, K', K'', V0]`, which `eos` overwrites in part: the
model returns the array after the call beside the pressure.
-/
import Mathlib.Analysis.SpecialFunctions.Pow.Real
import Verif.Tac
import Verif.Py.Basic

namespace Verif.EoS
open Verif.Py

/-- The parameter array `p = [K0, K', K'', V0]`. -/
@[ext] structure Pars where
  K0 : ℝ
  Kp : ℝ
  Kpp : ℝ
  V0 : ℝ

/-- The five classes derived from `EOS`. -/
inductive Formulation | murnaghan | birchMurnaghan | naturalStrain | vinet | tait
  deriving DecidableEq

/-- Value of `K'` forced by a second-order volumetric fit (pv_eos.py:323-324, 538-539, 729-730,
931-932); `None` where no value is forced. -/
noncomputable def impliedKp : Formulation → Option ℝ
  | .murnaghan => none
  | .birchMurnaghan => some 4
  | .naturalStrain => some 2
  | .vinet => some 1
  | .tait => some 4

/-- Value of `K'` forced by a second-order linearised fit (pv_eos.py:325-326, 540-541, 731-732,
933-934). -/
noncomputable def impliedKpLinear : Formulation → Option ℝ
  | .murnaghan => none
  | .birchMurnaghan => some 12
  | .naturalStrain => some 6
  | .vinet => some 3
  | .tait => some 12

/-- First assignments of `eos`: `p[1]` for second order fits (same lines). -/
noncomputable def setKp (f : Formulation) (p : Pars) (order : ℕ) (linear dofit : Bool) : Pars :=
  if dofit then
    let p := if order = 2 ∧ linear = false then { p with Kp := (impliedKp f).getD p.Kp } else p
    if order = 2 ∧ linear = true then { p with Kp := (impliedKpLinear f).getD p.Kp } else p
  else p

/-- Second assignments of `eos`: `p[2]` (pv_eos.py:220, 327-330, 542-543, 735, 935-936).
Murnaghan and Vinet set it at every call, the others when fitting below fourth order. -/
noncomputable def setKpp (f : Formulation) (p : Pars) (order : ℕ) (dofit : Bool) : Pars :=
  match f with
  | .murnaghan => { p with Kpp := 0 }
  | .birchMurnaghan =>
    if dofit ∧ order < 4 then
      { p with Kpp := (-1 / p.K0) * ((3 - p.Kp) * (4 - p.Kp) + 35 / 9) }
    else p
  | .naturalStrain =>
    if dofit ∧ order < 4 then
      { p with Kpp := (-1 / p.K0) * (1 + (p.Kp - 2) + (p.Kp - 2) ^ 2) }
    else p
  | .vinet => { p with Kpp := (-1 / p.K0) * ((p.Kp / 2) ^ 2 + p.Kp / 2 - 19 / 46) }
  | .tait => if dofit ∧ order < 4 then { p with Kpp := -p.Kp / p.K0 } else p

/-- The pressure formulas (pv_eos.py:221-222, 332-338, 545-549, 737-739, 938-941). -/
noncomputable def formula : Formulation → Pars → ℝ → ℝ
  | .murnaghan, p, V =>
    let eta := (p.V0 / V) ^ p.Kp
    (p.K0 / p.Kp) * (eta - 1)
  | .birchMurnaghan, p, V =>
    let fE := 0.5 * ((p.V0 / V) ^ ((2:ℝ) / 3) - 1)
    3 * p.K0 * fE * (1 + 2 * fE) ^ (2.5 : ℝ) *
      (1 + 1.5 * (p.Kp - 4) * fE +
        1.5 * (p.K0 * p.Kpp + (p.Kp - 4) * (p.Kp - 3) + 35 / 9) * fE ^ 2)
  | .naturalStrain, p, V =>
    let fN := 1 / 3 * Real.log (p.V0 / V)
    let a := 1.5 * (p.Kp - 2)
    let b := 1.5 * (1 + p.Kpp * p.K0 + (p.Kp - 2) + (p.Kp - 2) ^ 2)
    (3 * p.K0 * (p.V0 / V) * fN) * (1 + a * fN + b * fN ^ 2)
  | .vinet, p, V =>
    let fV := 1 - (V / p.V0) ^ ((1:ℝ) / 3)
    let eta := 1.5 * (p.Kp - 1)
    3 * p.K0 * (fV / (1 - fV) ^ 2) * Real.exp (eta * fV)
  | .tait, p, V =>
    let a := (1 + p.Kp) / (1 + p.Kp + p.K0 * p.Kpp)
    let b := p.Kp / p.K0 - p.Kpp / (1 + p.Kp)
    let c := (1 + p.Kp + p.K0 * p.Kpp) / (p.Kp ^ 2 + p.Kp - p.K0 * p.Kpp)
    (1 / b) * (((V / p.V0 + a - 1) / a) ^ (-1 / c) - 1)

/-- The parameter array after a call of `eos`. -/
noncomputable def parsAfter (f : Formulation) (p : Pars) (order : ℕ) (linear dofit : Bool) : Pars :=
  setKpp f (setKp f p order linear dofit) order dofit

/-- `eos(p, V, order, linear, dofit)`: the pressure and the parameter array after the call
(pv_eos.py:171-223, 249-340, 456-550, 663-741, 855-943). -/
noncomputable def eos (f : Formulation) (p : Pars) (V : ℝ) (order : ℕ) (linear dofit : Bool) :
    ℝ × Pars :=
  let q := parsAfter f p order linear dofit
  (formula f q V, q)

/-! ### E(V) formulations -/

/-- The four E(V) formulations (ev_eos.py:41-52). -/
inductive EForm | murnaghan | birchMurnaghan | pourierTarantola | vinet
  deriving DecidableEq

/-- `murnaghan`, `birchmurnaghan`, `pouriertarantola`, `vinet` (ev_eos.py:158-333). -/
noncomputable def energy : EForm → (E0 K0 Kp V0 : ℝ) → ℝ → ℝ
  | .murnaghan, E0, K0, Kp, V0, V =>
    E0 + K0 * V / Kp * (((V0 / V) ^ Kp) / (Kp - 1) + 1) - V0 * K0 / (Kp - 1)
  | .birchMurnaghan, E0, K0, Kp, V0, V =>
    let eta := (V0 / V) ^ ((1:ℝ) / 3)
    E0 + (9 * K0 * V0 / 16) *
      (Kp * (eta ^ 2 - 1) ^ 3 + ((eta ^ 2 - 1) ^ 2) * (6 - 4 * eta ^ 2))
  | .pourierTarantola, E0, K0, Kp, V0, V =>
    let eta := (V / V0) ^ ((1:ℝ) / 3)
    let rho := -3 * Real.log eta
    E0 + (K0 * V0 * rho ^ 2) / 6 * (3 + rho * (Kp - 2))
  | .vinet, E0, K0, Kp, V0, V =>
    let eta := (V / V0) ^ ((1:ℝ) / 3)
    E0 + 2 * K0 * V0 / (Kp - 1) ^ 2 *
      (2 - (5 + 3 * Kp * (eta - 1) - 3 * eta) * Real.exp (-3 * (Kp - 1) * (eta - 1) / 2))

/-- `_set_pv_eos_type` (ev_eos.py:54-65). -/
def pvType : EForm → Formulation
  | .murnaghan => .murnaghan
  | .birchMurnaghan => .birchMurnaghan
  | .pourierTarantola => .naturalStrain
  | .vinet => .vinet

/-- `EnergyEOS.pressure` (ev_eos.py:335-374): the P-V class is called with
`pv_pars = [K0, K', 0, V0]` and `order=3`, not fitting. -/
noncomputable def pressure (f : EForm) (K0 Kp V0 : ℝ) (V : ℝ) : ℝ :=
  (eos (pvType f) ⟨K0, Kp, 0, V0⟩ V 3 false false).1

end Verif.EoS
