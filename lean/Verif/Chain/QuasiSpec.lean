/-
Specification of a quasi-harmonic analysis: equilibrium volumes of a fitted free energy.
-/
import Verif.Chain.PhononSpec
import Verif.Chain.QuasiModel
import Verif.QHA.Spec

noncomputable section

namespace Verif.Chain.Spec
open Verif.Py Verif.IO.Spec Verif.Units Verif.QHA.Spec Filter Topology

/-- In units `u`, the slope of the free energy with the coefficients `c` at the volume `V` is minus the pressure `p`, and the
curve bends upwards there. -/
def Equilibrium {m : ℕ} (k : Consts) (u : Choice) (c : Fin m → ℝ) (p V : ℝ) : Prop :=
  deriv (Poly.Spec.value c) V * u.e.joule k / u.v.m3 k = -(p * u.p.pascal) ∧ 0 < deriv (deriv (Poly.Spec.value c)) V

/-- The free energy plus pressure times volume (joule). -/
def potential {m : ℕ} (k : Consts) (u : Choice) (c : Fin m → ℝ) (p V : ℝ) : ℝ :=
  Poly.Spec.value c V * u.e.joule k + p * u.p.pascal * (V * u.v.m3 k)

/-- At `V` the potential is smaller than at all other volumes nearby. -/
def Minimal {m : ℕ} (k : Consts) (u : Choice) (c : Fin m → ℝ) (p V : ℝ) : Prop :=
  ∀ᶠ W in 𝓝[≠] V, potential k u c p V < potential k u c p W

/-- `y` is the value at `V` of a least-squares polynomial with `m` coefficients through the points `(X, Y)`. -/
def Fitted {n : ℕ} (m : ℕ) (X Y : Fin n → ℝ) (V y : ℝ) : Prop :=
  ∃ c : Fin m → ℝ, Poly.Spec.IsLeastSquares X Y c ∧ y = Poly.Spec.value c V

/-- The mean over points with the weights `w` of the sum over their vibrations with positive frequency `ω` (hertz). -/
def modeMean {nb nf : ℕ} (f : ℝ → ℝ) (w : Fin nb → ℝ) (ω : Fin nb → Fin nf → ℝ) : ℝ :=
  (∑ q, w q * ∑ b, if 0 < ω q b then f (ω q b) else 0) / ∑ q, w q

/-- These are the results at the volume `V` and the temperature `T > 0` of Planck's oscillators whose frequencies are the values
at `V` of polynomials with `m` coefficients fitted to the frequencies `points n` at the volumes `X n`. -/
def Interpolated {nv : ℕ} (k : Consts) (u : Choice) (T V : ℝ) (m : ℕ) (X : Fin nv → ℝ) (points : Fin nv → List (ℚ × List ℚ))
    (Uzp Uth S Cv Fvib : ℝ) : Prop :=
  ∃ (nb nf : ℕ) (w : Fin nb → ℝ) (ω : Fin nb → Fin nf → ℝ),
    (∀ n, (points n).length = nb ∧ ∀ p ∈ points n, p.2.length = nf) ∧
    (∀ n (q : Fin nb) p, (points n)[(q : ℕ)]? = some p → w q = p.1) ∧
    (∀ q b, ∃ Y : Fin nv → ℝ, Fitted m X Y V (ω q b) ∧ ∀ n p ν, (points n)[(q : ℕ)]? = some p →
      p.2[(b : ℕ)]? = some ν → Y n = ν * u.f.hertz k) ∧
    u.e.joule k * Uzp = modeMean (Spec.zeroPoint k) w ω ∧ u.e.joule k * Uth = modeMean (thermal k T) w ω ∧
    u.e.joule k * S / 1000 = modeMean (entropyOf k T) w ω ∧ u.e.joule k * Cv / 1000 = modeMean (heatCapacity k T) w ω ∧
    u.e.joule k * Fvib = modeMean (free k T) w ω

/-- `out` is the outcome of the quasi-harmonic approximation (minimisation by polynomials) for crystals of these volumes, static
energies and vibrations (`points n` at the volume with the number `n`), where `ha` are the results of the harmonic approximation.
The volumes `X` are those given rounded to eight decimals, `ha` are the results of Planck's oscillators above zero, and the
polynomials `c` fit the free energies of each temperature.  When one of them has no equilibrium volume at some pressure, the
outcome is `IndexError`.  Otherwise an equilibrium volume is returned for every temperature and pressure, where the potential is
smaller than nearby.  With the interpolation of thermodynamic functions all other functions are values there of fitted
polynomials; with the interpolation of frequencies they are those of oscillators with the fitted frequencies. -/
def Analysed {nt np nv : ℕ} (k : Consts) (u : Choice) (s : QHA.Settings nt np) (volumes energies : List ℚ)
    (points : Fin nv → List (ℚ × List ℚ)) (ha : HA.Results nt nv)
    (out : Except PyErr (Except QuasiError (QHA.Results nt np))) : Prop :=
  ∃ (X : Fin nv → ℝ) (c : Fin nt → Fin (s.edeg + 1) → ℝ), nv = volumes.length ∧
    (∀ (n : Fin nv) V, volumes[(n : ℕ)]? = some V → ∃ y : ℚ, X n = y ∧ Rounded 8 V y) ∧
    (∀ i (n : Fin nv) (U : ℚ), 0 < u.t.kelvin (s.temperature i) → energies[(n : ℕ)]? = some U →
      Describes k (u.e.joule k) (u.f.hertz k) (u.t.kelvin (s.temperature i)) U (1 / (2 * 10 ^ 12)) (points n)
        (ha.Uzp 0 n) (ha.Uth i n) (ha.S i n) (ha.Cv i n) (ha.Fvib i n) (ha.Utot i n) (ha.F i n)) ∧
    (∀ i, Poly.Spec.IsLeastSquares X (ha.F i) (c i)) ∧
    ((¬ ∀ i j, ∃ V, Equilibrium k u (c i) (s.pressure j) V) → out = .error .indexError) ∧
    ((∀ i j, ∃ V, Equilibrium k u (c i) (s.pressure j) V) →
      ∃ r, out = .ok (.ok r) ∧
        ∀ i j, Equilibrium k u (c i) (s.pressure j) (r.VT i j) ∧ Minimal k u (c i) (s.pressure j) (r.VT i j) ∧
          (s.scheme = .td → Fitted (s.edeg + 1) X (ha.S i) (r.VT i j) (r.S i j) ∧
            Fitted (s.edeg + 1) X (ha.Cv i) (r.VT i j) (r.Cv i j) ∧
            Fitted (s.edeg + 1) X (ha.Utot i) (r.VT i j) (r.Utot i j) ∧
            r.F i j = Poly.Spec.value (c i) (r.VT i j)) ∧
          (s.scheme = .freq → 0 < u.t.kelvin (s.temperature i) →
            Interpolated k u (u.t.kelvin (s.temperature i)) (r.VT i j) (s.fdeg + 1) X points (r.Uzp i j) (r.Uth i j) (r.S i j)
              (r.Cv i j) (r.Fvib i j)))

end Verif.Chain.Spec
