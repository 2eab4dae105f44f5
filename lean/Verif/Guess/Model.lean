/-
Model of the starting values of the fits: `EOS.guess` (/repo/quantas/eosfit/utils/pv_eos.py) for
pressure-volume data and `EnergyEOS.guess` (/repo/quantas/qha/utils/ev_eos.py) for energy-volume
data.  numpy's `polyfit` and `roots` are parameters.  Coefficients are listed by increasing degree
(`np.polyfit` lists them by decreasing degree, and `np.polyval`, `np.polyder` and `np.roots` read
them in that order, so the order cannot be observed).
-/
import Verif.Poly.Model
import Verif.EoS.Model

namespace Verif.Guess
open Verif.Py Verif.Poly

/-- `np.polyfit(X, Y, deg)`. -/
abbrev Polyfit := (n : ℕ) → (X Y : Fin n → ℝ) → (deg : ℕ) → Fin (deg + 1) → ℝ

/-- `EOS.guess` (pv_eos.py:43-69): `[K0, 4., 0.0, V0]`. -/
noncomputable def pvGuess (polyfit : Polyfit) {n : ℕ} (V P : Fin n → ℝ) : EoS.Pars :=
  let V0 := polyval (List.ofFn (polyfit n P V 3)) 0
  let dp := polyder (List.ofFn (polyfit n V P 3))
  let K0 := -V0 * polyval dp V0
  ⟨K0, 4, 0, V0⟩

/-- `np.argmin(z * np.conj(z))` followed by `z[...]` (ev_eos.py:150-152): the first element of
least squared modulus; `argmin` of an empty array raises ValueError. -/
noncomputable def smallest : List ℂ → Except PyErr ℂ
  | [] => .error .valueError
  | z :: zs => .ok (zs.foldl (fun best w => if Complex.normSq w < Complex.normSq best then w else best) z)

/-- `EnergyEOS.guess` (ev_eos.py:103-156): `[E0, K0, 4., V0]`. -/
noncomputable def evGuess (polyfit : Polyfit) (roots : List ℝ → List ℂ) {n : ℕ} (V E : Fin n → ℝ) :
    Except PyErr (Fin 4 → ℝ) := do
  let pars := List.ofFn (polyfit n V E 4)
  let first := polyder pars
  let second := polyder (polyder pars)
  let z ← smallest (roots first)
  let V0 := z.re
  let E0 := polyval pars V0
  let K0 := V0 * polyval second V0
  pure ![E0, K0, 4, V0]

end Verif.Guess
