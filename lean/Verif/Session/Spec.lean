/- Specification vocabulary for interactive sessions. -/
import Verif.Session.Model

namespace Verif.Session.Spec
open Verif.Py Verif.EoS

/-- Orders in which each formulation exists. -/
def supported : Formulation → List ℕ
  | .murnaghan => [3]
  | .birchMurnaghan => [2, 3, 4]
  | .naturalStrain => [2, 3, 4]
  | .vinet => [2, 3]
  | .tait => [2, 3, 4]

/-- Positions, in `[K0, K', K'', V0]`, of the parameters that a fit of the given order does not
refine. -/
def implied : ℕ → List ℕ
  | 2 => [1, 2]
  | 3 => [2]
  | _ => []

/-- A component after editing: the typed number, or the displayed one rounded as displayed. -/
def Edited (w : World) (x y : ℝ) : Prop :=
  y = w.round5 x ∨ ∃ l, l ≠ [] ∧ w.parseFloat l = some y

end Verif.Session.Spec
