/-
The stiffness matrices of the crystal classes, and the symmetry operations they stand for.
-/
import Mathlib.Analysis.SpecialFunctions.Trigonometric.Basic
import Verif.Elastic.RotationSpec

namespace Verif.Elastic.Spec
open Verif.Elastic

/-- No coupling between axial and shear strains or between shear strains (orthorhombic and higher). -/
def Uncoupled (C : M6) : Prop := ∀ i j : Fin 6, i ≠ j → (3 ≤ i.val ∨ 3 ≤ j.val) → C i j = 0

/-- Hexagonal crystals, sixfold axis along z. -/
def Hexagonal (C : M6) : Prop :=
  C.IsSymm ∧ Uncoupled C ∧ C 0 0 = C 1 1 ∧ C 0 2 = C 1 2 ∧ C 3 3 = C 4 4 ∧ C 5 5 = (C 0 0 - C 0 1) / 2

/-- Tetragonal crystals, fourfold axis along z; `C16 = -C26` is zero in the classes of higher symmetry. -/
def Tetragonal (C : M6) : Prop :=
  C.IsSymm ∧ C 0 0 = C 1 1 ∧ C 0 2 = C 1 2 ∧ C 3 3 = C 4 4 ∧ C 0 5 = -C 1 5 ∧ C 0 3 = 0 ∧ C 0 4 = 0 ∧ C 1 3 = 0 ∧
    C 1 4 = 0 ∧ C 2 3 = 0 ∧ C 2 4 = 0 ∧ C 2 5 = 0 ∧ C 3 4 = 0 ∧ C 3 5 = 0 ∧ C 4 5 = 0

/-- Trigonal crystals, threefold axis along z; `C15 = -C25 = -C46` is zero in the classes of higher symmetry. -/
def Trigonal (C : M6) : Prop :=
  C.IsSymm ∧ C 0 0 = C 1 1 ∧ C 0 2 = C 1 2 ∧ C 3 3 = C 4 4 ∧ C 5 5 = (C 0 0 - C 0 1) / 2 ∧ C 0 3 = -C 1 3 ∧
    C 0 3 = C 4 5 ∧ C 0 4 = -C 1 4 ∧ C 0 4 = -C 3 5 ∧ C 0 5 = 0 ∧ C 1 5 = 0 ∧ C 2 3 = 0 ∧ C 2 4 = 0 ∧ C 2 5 = 0 ∧
    C 3 4 = 0

/-- Orthorhombic crystals. -/
def Orthorhombic (C : M6) : Prop := C.IsSymm ∧ Uncoupled C

/-- Cubic crystals. -/
def Cubic (C : M6) : Prop :=
  C.IsSymm ∧ Uncoupled C ∧ C 0 0 = C 1 1 ∧ C 0 0 = C 2 2 ∧ C 0 1 = C 0 2 ∧ C 0 1 = C 1 2 ∧ C 3 3 = C 4 4 ∧ C 3 3 = C 5 5

/-- The angles about z by which the properties of a crystal repeat. -/
def Repeat (C : M6) (α : ℝ) : Prop :=
  Hexagonal C ∨ (Tetragonal C ∧ α = Real.pi / 2) ∨ (Trigonal C ∧ α = 2 * Real.pi / 3)

/-- Two directions equivalent in an orthorhombic crystal: they differ by the signs of the components. -/
def SignsOnly (a b : V3) : Prop := ∀ i, b i = a i ∨ b i = -a i

/-- Two directions equivalent in a cubic crystal: they differ by the order and the signs of the components. -/
def OrderAndSigns (a b : V3) : Prop := ∃ π : Equiv.Perm (Fin 3), ∀ i, b i = a (π i) ∨ b i = -a (π i)

end Verif.Elastic.Spec
