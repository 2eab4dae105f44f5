/-
What a user expects of the derived quasi-harmonic quantities in the arithmetic of the computer.
-/
import Verif.QHA.BinaryModel
import Verif.EoS.BinarySpec

noncomputable section

namespace Verif.QHA.Rounded.Spec
open Verif.Elastic.Rounded.Spec (u)
open Verif.EoS.Rounded (Machine)

/-- `x` is `X` up to `n` halves of a unit in the last place. -/
def Near (n x X : ℝ) : Prop := |x - X| ≤ n * u * |X|

/-- The same for every element of a table. -/
def NearAll {nt np : ℕ} (n : ℝ) (x X : Fin nt → Fin np → ℝ) : Prop := ∀ i j, Near n (x i j) (X i j)

/-- The isobaric less the isochoric heat capacity, `alpha^2 KT V T` for one mole (J/mol/K). -/
def capacityDifference {nt np : ℕ} (k : Units.Consts) (T : Fin nt → ℝ) (V KT alpha : Fin nt → Fin np → ℝ) : Fin nt → Fin np → ℝ :=
  fun i j => alpha i j ^ 2 * KT i j * V i j * (k.N * T i)

/-- The row whose volume is compared with that of row `i`: the next one, and for the last row the one before. -/
def partner {nt : ℕ} (i : Fin nt) : Fin nt := if h : i.val + 1 < nt then ⟨i + 1, h⟩ else ⟨i - 1, by omega⟩

/-- A double: rounding leaves it alone. -/
def Representable (m : Machine) (x : ℝ) : Prop := m.rnd x = x

end Verif.QHA.Rounded.Spec
