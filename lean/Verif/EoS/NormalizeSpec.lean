/-
Strain and normalised pressure in the literature: the pressure is `F(f)` times a function of the volume that
vanishes at `V0`.
-/
import Verif.EoS.Spec

namespace Verif.EoS.Spec

/-- The formulations that have an f-F plot. -/
def HasPlot (f : Formulation) : Prop := f = .birchMurnaghan ∨ f = .naturalStrain ∨ f = .vinet

/-- Eulerian strain, natural strain and the strain of Vinet. -/
noncomputable def strain : Formulation → (V0 V : ℝ) → ℝ
  | .birchMurnaghan, V0, V => ((V0 / V) ^ ((2:ℝ) / 3) - 1) / 2
  | .naturalStrain, V0, V => (Real.log V0 - Real.log V) / 3
  | .vinet, V0, V => 1 - (V / V0) ^ ((1:ℝ) / 3)
  | _, _, _ => 0

/-- The factor between pressure and normalised pressure, `P = F g(V)`: `3/2 (x^(7/3) - x^(5/3))`, `x log x` and
`3 (x^(2/3) - x^(1/3))` with `x = V0 / V`. -/
noncomputable def factor : Formulation → (V0 V : ℝ) → ℝ
  | .birchMurnaghan, V0, V => 3 / 2 * ((V0 / V) ^ ((7:ℝ) / 3) - (V0 / V) ^ ((5:ℝ) / 3))
  | .naturalStrain, V0, V => V0 / V * Real.log (V0 / V)
  | .vinet, V0, V => 3 * ((V0 / V) ^ ((2:ℝ) / 3) - (V0 / V) ^ ((1:ℝ) / 3))
  | _, _, _ => 0

/-- The largest error, to first order, of the ratio `V / V0` for errors `s` of `V` and `s0` of `V0`. -/
noncomputable def ratioError (V0 s0 V s : ℝ) : ℝ := s / V0 + V * s0 / V0 ^ 2

end Verif.EoS.Spec
