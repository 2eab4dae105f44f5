/- Concrete cases for the theorems about chemical symbols. -/
import Verif.Chemistry.Props

namespace Verif.Chemistry.Cases
open Verif.Py Verif.Chemistry Verif.Chemistry.Spec

theorem no_mg : ∀ Z, ¬ Known c!"mg" Z := by
  intro Z h
  have h := C61_symbol2number.2 h
  have : symbol2number c!"mg" = .error .keyError := by decide +kernel
  rw [this] at h
  cases h

example := C61_unique 12 (by norm_num)
example : symbol2number c!"mg" = .error .keyError := C61_unknown_symbol no_mg
example : number2symbol 119 = .error .indexError := C61_unknown_number (by norm_num)
/-- `-1` stands for the last element, number 118. -/
example : number2symbol (-1) = .ok c!"Og" :=
  (C61_negative_number (k := 1) (by norm_num) (by norm_num)).2 (.inl (by decide +kernel))

end Verif.Chemistry.Cases
