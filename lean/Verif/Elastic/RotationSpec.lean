/-
What it means that two matrices describe the same crystal in two Cartesian frames.
-/
import Verif.Elastic.Spec

namespace Verif.Elastic.Spec
open Verif.Elastic

/-- `R` preserves lengths and angles: a rotation, possibly with a reflection. -/
def Orthogonal (R : Fin 3 → Fin 3 → ℝ) : Prop := ∀ i j, ∑ k, R k i * R k j = if i = j then 1 else 0

/-- A turned vector. -/
def turn (R : Fin 3 → Fin 3 → ℝ) (a : V3) : V3 := fun i => ∑ j, R i j * a j

/-- A turned stress or strain. -/
def turnTensor (R : Fin 3 → Fin 3 → ℝ) (t : T2) : T2 := fun i j => ∑ k, ∑ l, R i k * R j l * t k l

/-- `C'` is the stiffness of the turned crystal: it answers turned strains with turned stresses. -/
def Turned (R : Fin 3 → Fin 3 → ℝ) (C C' : M6) : Prop :=
  ∀ ε σ, Hooke C ε σ → Hooke C' (turnTensor R ε) (turnTensor R σ)

end Verif.Elastic.Spec
