/-
Property C44: what exactly the symmetry classifier tests, system by system.
-/
import Verif.Elastic.Symmetry

namespace Verif.Elastic.Spec
open Verif.Elastic

/-- The order in which the systems are tried. -/
def order : List System :=
  [.cubic, .hexagonal, .trigonalHigh, .trigonalLow, .tetragonalHigh, .tetragonalLow, .orthorhombic, .monoclinic, .triclinic]

/-- The moduli (upper triangle, indices from 0) that a system makes the classifier compare with zero. -/
def Vanishing : System → List (Fin 6 × Fin 6)
  | .cubic | .tetragonalHigh | .orthorhombic =>
      [(0, 3), (0, 4), (0, 5), (1, 3), (1, 4), (1, 5), (2, 3), (2, 4), (2, 5), (3, 4), (3, 5), (4, 5)]
  | .hexagonal | .trigonalHigh => [(0, 5), (1, 3), (1, 5), (2, 3), (2, 4), (2, 5), (3, 4), (3, 5), (4, 5)]
  | .trigonalLow => [(0, 5), (1, 5), (2, 3), (2, 4), (2, 5), (3, 4)]
  | .tetragonalLow => [(0, 3), (0, 4), (1, 3), (1, 4), (2, 3), (2, 4), (2, 5), (3, 4), (3, 5), (4, 5)]
  | .monoclinic => [(0, 3), (0, 5), (1, 3), (1, 5), (2, 3), (2, 5), (3, 4), (4, 5)]
  | .triclinic => []

/-- The pairs of moduli that a system makes the classifier compare with each other. -/
def Equated : System → List ((Fin 6 × Fin 6) × (Fin 6 × Fin 6))
  | .cubic => [((0, 0), (1, 1)), ((0, 0), (2, 2)), ((1, 1), (2, 2)), ((0, 1), (0, 2)), ((0, 1), (1, 2)), ((0, 2), (1, 2)),
      ((3, 3), (4, 4)), ((3, 3), (5, 5)), ((4, 4), (5, 5))]
  | .hexagonal | .trigonalHigh | .tetragonalHigh | .tetragonalLow => [((0, 0), (1, 1)), ((0, 2), (1, 2)), ((3, 3), (4, 4))]
  | .trigonalLow => [((0, 0), (1, 1)), ((0, 2), (1, 2)), ((3, 3), (4, 4)), ((0, 3), (4, 5))]
  | .orthorhombic | .monoclinic | .triclinic => []

/-- The test of a system, for a symmetric matrix. -/
def Passes (s : System) (m : M6) : Prop :=
  (∀ p ∈ Vanishing s, Near (m p.1 p.2) 0) ∧ (∀ p ∈ Equated s, Near (m p.1.1 p.1.2) (m p.2.1 p.2.2)) ∧
  (s = .hexagonal → Near (m 5 5) ((m 0 0 - m 0 1) / 2))

end Verif.Elastic.Spec

namespace Verif.Elastic
open Verif.Py Spec

/-- A place in the upper triangle. -/
def upper (k : Fin 6 × Fin 6) : Fin 6 × Fin 6 := (min k.1 k.2, max k.1 k.2)

theorem upper_eq {m : M6} (h : m.IsSymm) (k : Fin 6 × Fin 6) : m (upper k).1 (upper k).2 = m k.1 k.2 := by
  rcases le_total k.1 k.2 with hk | hk
  · simp [upper, hk]
  · simp only [upper, min_eq_right hk, max_eq_left hk]
    exact h.apply _ _

theorem vanishing_iff : ∀ (s : System) (k : Fin 6 × Fin 6), cijMap s k = 0 ↔ upper k ∈ Vanishing s := by
  intro s; cases s <;> decide +kernel

theorem equated_iff : ∀ (s : System) (k k' : Fin 6 × Fin 6), cijMap s k = cijMap s k' ∧ 0 < cijMap s k ∧ upper k ≠ upper k' →
    (upper k, upper k') ∈ Equated s ∨ (upper k', upper k) ∈ Equated s := by
  intro s; cases s <;> decide +kernel

theorem equated_code : ∀ (s : System), ∀ p ∈ Equated s, cijMap s p.1 = cijMap s p.2 ∧ 0 < cijMap s p.1 := by
  intro s; cases s <;> decide +kernel

theorem vanishing_code : ∀ (s : System), ∀ p ∈ Vanishing s, cijMap s p = 0 := by
  intro s; cases s <;> decide +kernel

theorem passes_iff {m : M6} (h : m.IsSymm) (s : System) : runCheck m s ↔ Passes s m := by
  rw [runCheck_iff]
  constructor
  · rintro ⟨h0, h1, h2⟩
    refine ⟨fun p hp => ?_, fun p hp => ?_, h2⟩
    · simpa [Near, tol] using h0 p (vanishing_code s p hp)
    · obtain ⟨a, b⟩ := equated_code s p hp
      exact h1 p.1 p.2 a b
  · rintro ⟨h0, h1, h2⟩
    refine ⟨fun k hk => ?_, fun k k' hk hp => ?_, h2⟩
    · have := h0 _ ((vanishing_iff s k).1 hk)
      rw [upper_eq h] at this
      simpa [Near, tol] using this
    · by_cases e : upper k = upper k'
      · rw [← upper_eq h k, ← upper_eq h k', e]
        simp [tol]
      · rcases equated_iff s k k' ⟨hk, hp, e⟩ with a | a
        · have := h1 _ a
          simp only [upper_eq h] at this
          exact this
        · have := h1 _ a
          simp only [upper_eq h] at this
          rw [abs_sub_comm]
          exact this

/-- C44, exactly: a symmetric matrix is assigned to a system if and only if it passes the test of that system and of none that is
tried before. -/
theorem C44_exact {m : M6} (h : m.IsSymm) (s : System) :
    checkSymmetry m = .ok s ↔ Passes s m ∧ ∀ before after, order = before ++ s :: after → ∀ s' ∈ before, ¬ Passes s' m := by
  have key : ∀ s before after, order = before ++ s :: after → ∀ s', s' ∈ before ↔ systems.idxOf s' < systems.idxOf s := by
    intro s before after e s'
    have hs : systems = before ++ s :: after := e
    have nd : (before ++ s :: after).Nodup := by rw [← hs]; decide
    have hn : s ∉ before := fun hm => (List.nodup_append.1 nd).2.2 s hm s (by simp) rfl
    have i0 : systems.idxOf s = before.length := by
      rw [hs, List.idxOf_append_of_notMem hn]
      simp
    rw [i0, hs]
    constructor
    · intro hm
      rw [List.idxOf_append_of_mem hm]
      exact List.idxOf_lt_length_iff.2 hm
    · intro hlt
      by_contra hm
      rw [List.idxOf_append_of_notMem hm] at hlt
      omega
  constructor
  · intro hc
    obtain ⟨h1, h2⟩ := check_ok hc
    exact ⟨(passes_iff h s).1 h1, fun before after e s' hm hp => h2 s' ((key s before after e s').1 hm) ((passes_iff h s').2 hp)⟩
  · rintro ⟨h1, h2⟩
    obtain ⟨s0, hc⟩ := (C44_total_first m).1 fun i j => by rw [h.apply]; simp
    obtain ⟨c1, c2⟩ := check_ok hc
    have mem : ∀ s : System, s ∈ order := by intro s; cases s <;> decide
    obtain ⟨b, a, e⟩ := List.append_of_mem (mem s)
    obtain ⟨b0, a0, e0⟩ := List.append_of_mem (mem s0)
    rcases lt_trichotomy (systems.idxOf s) (systems.idxOf s0) with hlt | heq | hlt
    · exact absurd ((passes_iff h s).2 h1) (c2 s hlt)
    · have : s = s0 := by
        have inj : ∀ s s' : System, systems.idxOf s = systems.idxOf s' → s = s' := by
          intro s s'; cases s <;> cases s' <;> decide
        exact inj _ _ heq
      rw [this]; exact hc
    · exact absurd ((passes_iff h s0).1 c1) (h2 b a e s0 ((key s b a e s0).2 hlt))

/-- The quartz-like matrix passes the test of the low trigonal classes and no earlier one. -/
example : Passes .trigonalLow (ofInt quartz) :=
  ((C44_exact (by ext i j; fin_cases i <;> fin_cases j <;> rfl) .trigonalLow).1 (check_int (by decide +kernel))).1

end Verif.Elastic
