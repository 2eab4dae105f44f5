/-
Model of the pressures listed in the input report of a quasi-harmonic run
(/repo/quantas/qha/qha.py, `report_input_data`).  An array of length `n` is a function read at the
indices below `n`.
-/
import Verif.QHA.Model
import Verif.EoS.Model

namespace Verif.Report
open Verif.Py Verif.QHA

/-- `np.diff(x) == np.diff(x)[0]` everywhere, numpy's test for an even spacing. -/
def EvenlySpaced (n : ℕ) (x : ℕ → ℝ) : Prop := ∀ j, j + 1 < n → x (j + 1) - x j = x 1 - x 0

/-- One element of `np.gradient(f, x)` (numpy, used at qha.py:382-383): second-order differences
inside, one-sided differences at both ends. -/
noncomputable def gradientAt (n : ℕ) (f x : ℕ → ℝ) (i : ℕ) : ℝ :=
  if i = 0 then (f 1 - f 0) / (x 1 - x 0)
  else if i + 1 = n then (f i - f (i - 1)) / (x i - x (i - 1))
  else
    open Classical in
    if EvenlySpaced n x then (f (i + 1) - f (i - 1)) / (2 * (x 1 - x 0))
    else
      let dx1 := x i - x (i - 1)
      let dx2 := x (i + 1) - x i
      let a := -dx2 / (dx1 * (dx1 + dx2))
      let b := (dx2 - dx1) / (dx1 * dx2)
      let c := dx1 / (dx2 * (dx1 + dx2))
      a * f (i - 1) + b * f i + c * f (i + 1)

/-- `np.gradient(f, x)`: ValueError for arrays that are too small. -/
noncomputable def gradient (n : ℕ) (f x : ℕ → ℝ) : Except PyErr (ℕ → ℝ) :=
  if n < 2 then .error .valueError else .ok (gradientAt n f x)

/-- The array `pressures` of `QHACalculator.report_input_data` (qha.py:371-384).  `eosFit` is
`find_eos_minimum(self.volume, self.static_energy, 0.)` (qha.py:961-987), the parameters
`[E0, K0, K', V0]` of the E(V) fit: the target pressure is zero, so `F + 0 V` is fitted. -/
noncomputable def staticPressures (k : Units.Consts) (eunit vunit punit : Str)
    (eosMinimization : Option EoS.EForm) (eosFit : EoS.EForm → Fin 4 → ℝ)
    (n : ℕ) (volume energy : ℕ → ℝ) : Except PyErr (ℕ → ℝ) := do
  match eosMinimization with
  | some f =>
    let e2p ← e2pMap k eunit vunit punit
    let pars := eosFit f
    .ok fun i => EoS.pressure f (e2p (pars 1)) (pars 2) (pars 3) (volume i)
  | none =>
    let g ← gradient n energy volume
    let e2p ← e2pMap k eunit vunit punit
    .ok fun i => -e2p (g i)

end Verif.Report
