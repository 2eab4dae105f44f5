/-
C06: which conversions return the array they were given.
-/
import Verif.Units.Props

namespace Verif.Units.Alias
open Verif.Py Verif.Units

/-- The names (in lower case) of the unit through which each converter works. -/
def Spec.base : Converter → List Str
  | .temperature => [c!"kelvin", c!"k"]
  | .energy => [c!"ha"]
  | .pressure => [c!"pa"]
  | .frequency => [c!"cm^-1"]
  | .length => [c!"metre", c!"m"]
  | .volume => [c!"metre", c!"m"]

/-- A chain hands the array on for the names of the base unit only, and makes a new one or fails for the others. -/
def Sorted (t : Table) (names : List Str) : Prop :=
  ∀ s, t.find s = some .keep ∧ lower s ∈ names ∨ lower s ∉ names ∧ (t.find s = none ∨ ∃ f, t.find s = some (.fresh f))

theorem sorted_nil (names : List Str) (s : Str) (h : lower s ∉ names) :
    Table.find [] s = some .keep ∧ lower s ∈ names ∨ lower s ∉ names ∧
      (Table.find [] s = none ∨ ∃ f, Table.find [] s = some (.fresh f)) := .inr ⟨h, .inl rfl⟩

theorem sorted_fresh {t : Table} {names l : List Str} {f : ℝ → ℝ} (hl : ∀ n ∈ l, n ∉ names) (h : Sorted t names) :
    Sorted ((l, .fresh f) :: t) names := by
  intro s
  simp only [Table.find]
  split_ifs with hs
  · exact .inr ⟨hl _ hs, .inr ⟨f, rfl⟩⟩
  · exact h s

/-- The same below the base unit, where no name of the base unit can arrive. -/
def Rest (t : Table) : Prop := ∀ s, t.find s = none ∨ ∃ f, t.find s = some (.fresh f)

theorem rest_nil : Rest [] := fun _ => .inl rfl

theorem rest_fresh {t : Table} {l : List Str} {f : ℝ → ℝ} (h : Rest t) : Rest ((l, .fresh f) :: t) := by
  intro s
  simp only [Table.find]
  split_ifs
  · exact .inr ⟨f, rfl⟩
  · exact h s

theorem sorted_keep {t : Table} {names l : List Str} (hl : ∀ s, lower s ∈ l ↔ lower s ∈ names) (h : Rest t) :
    Sorted ((l, .keep) :: t) names := by
  intro s
  simp only [Table.find]
  split_ifs with hs
  · exact .inl ⟨rfl, (hl s).1 hs⟩
  · exact .inr ⟨fun hn => hs ((hl s).2 hn), h s⟩

theorem chains_sorted (k : Consts) (c : Converter) :
    Sorted (c.chains k).1 (Spec.base c) ∧ Sorted (c.chains k).2 (Spec.base c) := by
  have r {t : Table} {l : List Str} {f : ℝ → ℝ} := @rest_fresh t l f
  cases c
  · exact ⟨sorted_fresh (by decide) (sorted_keep (fun _ => Iff.rfl) (r (r rest_nil))),
      sorted_fresh (by decide) (sorted_keep (fun _ => Iff.rfl) (r (r rest_nil)))⟩
  · have e (s : Str) : lower s ∈ [c!"Hartree", c!"Ha", c!"ha"] ↔ lower s ∈ [c!"ha"] := by
      rw [lower_mem_cons_cap (s := s) (t := c!"Hartree") (by decide), lower_mem_cons_cap (s := s) (t := c!"Ha") (by decide)]
    exact ⟨sorted_keep e (r (r (r rest_nil))), sorted_keep e (r (r (r rest_nil)))⟩
  · exact ⟨sorted_fresh (by decide) (sorted_fresh (by decide) (sorted_fresh (by decide)
        (sorted_keep (fun _ => Iff.rfl) (r (r (r (r rest_nil))))))),
      sorted_fresh (by decide) (sorted_fresh (by decide) (sorted_fresh (by decide)
        (sorted_keep (fun _ => Iff.rfl) (r (r (r (r rest_nil)))))))⟩
  · exact ⟨sorted_keep (fun _ => Iff.rfl) (r (r rest_nil)), sorted_keep (fun _ => Iff.rfl) (r (r rest_nil))⟩
  · exact ⟨sorted_keep (fun _ => Iff.rfl) (r (r rest_nil)), sorted_keep (fun _ => Iff.rfl) (r (r rest_nil))⟩
  · exact ⟨sorted_keep (fun _ => Iff.rfl) (r (r rest_nil)), sorted_keep (fun _ => Iff.rfl) (r (r rest_nil))⟩

/-- **C06 (which results are the argument).**  A `convert_*` function returns the array it was given, not a copy, exactly when both
units are the unit through which it works: kelvin, hartree, pascal, reciprocal centimetre, metre, cubic metre.  In all other cases
the result is a new array. -/
theorem C06_same_object (k : Consts) (c : Converter) (h : Heap) (a : ℕ) (old new : Str) (ha : a < h.length) :
    (c.call k h a old new).2 = .ok a ↔ lower old ∈ Spec.base c ∧ lower new ∈ Spec.base c := by
  obtain ⟨s1, s2⟩ := chains_sorted k c
  simp only [Converter.call, run]
  rcases s1 old with ⟨e1, b1⟩ | ⟨b1, e1 | ⟨f, e1⟩⟩ <;> rcases s2 new with ⟨e2, b2⟩ | ⟨b2, e2 | ⟨g, e2⟩⟩ <;>
    simp [e1, e2, b1, b2, Op.exec] <;> omega

/-- **C06 (new arrays).**  A result that is not the argument is no array that existed before the call. -/
theorem C06_new_object (k : Consts) (c : Converter) (h : Heap) (a b : ℕ) (old new : Str)
    (hb : (c.call k h a old new).2 = .ok b) (hne : ¬ (lower old ∈ Spec.base c ∧ lower new ∈ Spec.base c)) : h.length ≤ b := by
  obtain ⟨s1, s2⟩ := chains_sorted k c
  simp only [Converter.call, run] at hb
  rcases s1 old with ⟨e1, b1⟩ | ⟨b1, e1 | ⟨f, e1⟩⟩ <;> rcases s2 new with ⟨e2, b2⟩ | ⟨b2, e2 | ⟨g, e2⟩⟩ <;>
    simp [e1, e2, Op.exec] at hb <;> first | omega | exact absurd ⟨b1, b2⟩ hne

/-- Pressures from pascal to pascal are handed back as they are; from gigapascal to gigapascal they are a copy. -/
example (k : Consts) (h : Heap) (a : ℕ) (ha : a < h.length) :
    (Converter.pressure.call k h a c!"Pa" c!"pa").2 = .ok a ∧ (Converter.pressure.call k h a c!"GPa" c!"GPa").2 ≠ .ok a :=
  ⟨(C06_same_object k .pressure h a _ _ ha).2 (by decide), fun e => absurd ((C06_same_object k .pressure h a _ _ ha).1 e) (by decide)⟩

example (k : Consts) (b : ℕ) (hb : (Converter.pressure.call k [[1, 2]] 0 c!"GPa" c!"kbar").2 = .ok b) : 1 ≤ b :=
  C06_new_object k .pressure [[1, 2]] 0 b _ _ hb (by decide)

end Verif.Units.Alias
