/-
What a user expects of the unit converters in the arithmetic of the computer.
-/
import Verif.Units.BinaryModel
import Verif.Units.Spec

namespace Verif.Units.Rounded.Spec
open Verif.Py Verif.Units Verif.Units.Spec

/-- Half a unit in the last place of a double, relative to its value. -/
noncomputable def u : ℝ := 1 / 2 ^ 53

/-- Operations are rounded to 53 binary digits, powers are off by at most one unit in the last place. -/
structure Accurate (m : Machine) : Prop where
  rnd : ∀ x, |m.rnd x - x| ≤ u * |x|
  pow : ∀ x n, |m.pow x n - x ^ n| ≤ 2 * u * |x ^ n|

/-- A converter accepts the names of these scales and no others, and the quantity that it returns differs from the one that it
was given by at most `bound` of the latter (in the reference unit). -/
structure Within (bound : ℝ → ℝ) (scales : List Scale) (conv : List ℝ → Str → Str → Except PyErr (List ℝ)) : Prop where
  accepts : ∀ v a b, (∃ w, conv v a b = .ok w) ↔ (∃ A, Means scales a A) ∧ ∃ B, Means scales b B
  reject : ∀ v a b, ((∀ A, ¬ Means scales a A) ∨ (∀ B, ¬ Means scales b B)) → conv v a b = .error .notImplemented
  close : ∀ v a b w A B, conv v a b = .ok w → Means scales a A → Means scales b B →
    List.Forall₂ (fun x y => |B.toRef y - A.toRef x| ≤ bound (A.toRef x)) v w

end Verif.Units.Rounded.Spec
