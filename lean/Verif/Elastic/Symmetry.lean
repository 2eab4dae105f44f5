/-
Properties C44 (symmetry classification), C45 (stability check) and C46 (reported axes).
-/
import Mathlib.Algebra.Order.Star.Real
import Verif.Elastic.Props

namespace Verif.Elastic.Spec
open Verif.Elastic

/-- Equality within the tolerance of the classifier. -/
def Near (x y : ℝ) : Prop := |x - y| ≤ 1 / 1000

/-- The relations between elastic constants that define each crystal system (Nye, Physical
Properties of Crystals, ch. 8), for a symmetric matrix: indices start from 0, only the upper
triangle is mentioned. -/
def Defines : System → M6 → Prop
  | .cubic, m => Near (m 0 0) (m 1 1) ∧ Near (m 0 0) (m 2 2) ∧ Near (m 0 1) (m 0 2) ∧
      Near (m 0 1) (m 1 2) ∧ Near (m 3 3) (m 4 4) ∧ Near (m 3 3) (m 5 5) ∧
      Near (m 0 3) 0 ∧ Near (m 0 4) 0 ∧ Near (m 0 5) 0 ∧ Near (m 1 3) 0 ∧ Near (m 1 4) 0 ∧
      Near (m 1 5) 0 ∧ Near (m 2 3) 0 ∧ Near (m 2 4) 0 ∧ Near (m 2 5) 0 ∧ Near (m 3 4) 0 ∧
      Near (m 3 5) 0 ∧ Near (m 4 5) 0
  | .hexagonal, m => Near (m 0 0) (m 1 1) ∧ Near (m 0 2) (m 1 2) ∧ Near (m 3 3) (m 4 4) ∧
      Near (m 5 5) ((m 0 0 - m 0 1) / 2) ∧
      Near (m 0 3) 0 ∧ Near (m 0 4) 0 ∧ Near (m 0 5) 0 ∧ Near (m 1 3) 0 ∧ Near (m 1 4) 0 ∧
      Near (m 1 5) 0 ∧ Near (m 2 3) 0 ∧ Near (m 2 4) 0 ∧ Near (m 2 5) 0 ∧ Near (m 3 4) 0 ∧
      Near (m 3 5) 0 ∧ Near (m 4 5) 0
  | .trigonalHigh, m => Near (m 0 0) (m 1 1) ∧ Near (m 0 2) (m 1 2) ∧ Near (m 3 3) (m 4 4) ∧
      Near (m 5 5) ((m 0 0 - m 0 1) / 2) ∧ Near (m 0 3) (-m 1 3) ∧ Near (m 0 3) (m 4 5) ∧
      Near (m 0 4) 0 ∧ Near (m 0 5) 0 ∧ Near (m 1 4) 0 ∧
      Near (m 1 5) 0 ∧ Near (m 2 3) 0 ∧ Near (m 2 4) 0 ∧ Near (m 2 5) 0 ∧ Near (m 3 4) 0 ∧
      Near (m 3 5) 0
  | .trigonalLow, m => Near (m 0 0) (m 1 1) ∧ Near (m 0 2) (m 1 2) ∧ Near (m 3 3) (m 4 4) ∧
      Near (m 5 5) ((m 0 0 - m 0 1) / 2) ∧ Near (m 0 3) (-m 1 3) ∧ Near (m 0 3) (m 4 5) ∧
      Near (m 0 4) (-m 1 4) ∧ Near (m 0 4) (-m 3 5) ∧
      Near (m 0 5) 0 ∧ Near (m 1 5) 0 ∧ Near (m 2 3) 0 ∧ Near (m 2 4) 0 ∧ Near (m 2 5) 0 ∧
      Near (m 3 4) 0
  | .tetragonalHigh, m => Near (m 0 0) (m 1 1) ∧ Near (m 0 2) (m 1 2) ∧ Near (m 3 3) (m 4 4) ∧
      Near (m 0 3) 0 ∧ Near (m 0 4) 0 ∧ Near (m 0 5) 0 ∧ Near (m 1 3) 0 ∧ Near (m 1 4) 0 ∧
      Near (m 1 5) 0 ∧ Near (m 2 3) 0 ∧ Near (m 2 4) 0 ∧ Near (m 2 5) 0 ∧ Near (m 3 4) 0 ∧
      Near (m 3 5) 0 ∧ Near (m 4 5) 0
  | .tetragonalLow, m => Near (m 0 0) (m 1 1) ∧ Near (m 0 2) (m 1 2) ∧ Near (m 3 3) (m 4 4) ∧
      Near (m 0 5) (-m 1 5) ∧
      Near (m 0 3) 0 ∧ Near (m 0 4) 0 ∧ Near (m 1 3) 0 ∧ Near (m 1 4) 0 ∧
      Near (m 2 3) 0 ∧ Near (m 2 4) 0 ∧ Near (m 2 5) 0 ∧ Near (m 3 4) 0 ∧
      Near (m 3 5) 0 ∧ Near (m 4 5) 0
  | .orthorhombic, m =>
      Near (m 0 3) 0 ∧ Near (m 0 4) 0 ∧ Near (m 0 5) 0 ∧ Near (m 1 3) 0 ∧ Near (m 1 4) 0 ∧
      Near (m 1 5) 0 ∧ Near (m 2 3) 0 ∧ Near (m 2 4) 0 ∧ Near (m 2 5) 0 ∧ Near (m 3 4) 0 ∧
      Near (m 3 5) 0 ∧ Near (m 4 5) 0
  | .monoclinic, m =>
      Near (m 0 3) 0 ∧ Near (m 0 5) 0 ∧ Near (m 1 3) 0 ∧ Near (m 1 5) 0 ∧ Near (m 2 3) 0 ∧
      Near (m 2 5) 0 ∧ Near (m 3 4) 0 ∧ Near (m 4 5) 0
  | .triclinic, _ => True

end Verif.Elastic.Spec

namespace Verif.Elastic
open Verif.Py Spec

/-! ### Reading the code tables -/

theorem mem_mapKeys : ∀ k : Fin 6 × Fin 6, k ∈ mapKeys := by decide

theorem code_lt : ∀ (s : System) (k : Fin 6 × Fin 6), cijMap s k < 22 := by
  intro s; cases s <;> decide

/-- The classifier's test without lists. -/
theorem runCheck_iff (m : M6) (s : System) : runCheck m s ↔
    (∀ k, cijMap s k = 0 → |m k.1 k.2| ≤ tol) ∧
    (∀ k k', cijMap s k = cijMap s k' → 0 < cijMap s k → |m k.1 k.2 - m k'.1 k'.2| ≤ tol) ∧
    (s = .hexagonal → |m 5 5 - (m 0 0 - m 0 1) / 2| ≤ tol) := by
  have htol : (0 : ℝ) ≤ tol := by unfold tol; norm_num
  unfold runCheck
  constructor
  · rintro ⟨h, hx⟩
    refine ⟨fun k hk => ?_, fun k k' hkk hpos => ?_, hx⟩
    · have h0 := h 0 (by simp)
      simp only [codeHolds, if_true] at h0
      exact h0 k (by simp [mem_mapKeys, hk])
    · obtain ⟨n, hn⟩ := Int.eq_ofNat_of_zero_le hpos.le
      have hlt : n < 22 := by
        have := code_lt s k; rw [hn] at this; exact_mod_cast this
      have hn0 : n ≠ 0 := by rintro rfl; rw [hn] at hpos; simp at hpos
      have hc := h n (List.mem_range.2 hlt)
      simp only [codeHolds, if_neg hn0] at hc
      by_cases he : k = k'
      · subst he; simpa using htol
      · have hm : k ∈ mapKeys.filter fun k => cijMap s k = n := by simp [mem_mapKeys, hn]
        have hm' : k' ∈ mapKeys.filter fun k => cijMap s k = n := by
          simp [mem_mapKeys, ← hkk, hn]
        haveI : Std.Symm (fun k k' : Fin 6 × Fin 6 => |m k.1 k.2 - m k'.1 k'.2| ≤ tol) :=
          ⟨fun a b hab => by rw [abs_sub_comm]; exact hab⟩
        exact hc.forall hm hm' he
  · rintro ⟨h0, h1, hx⟩
    refine ⟨fun i _ => ?_, hx⟩
    unfold codeHolds
    simp only
    split
    · rename_i hi
      subst hi
      intro k hk
      exact h0 k (by simpa using (List.mem_filter.1 hk).2)
    · rename_i hi
      refine List.Pairwise.imp_of_mem (R := fun _ _ => True) ?_ (by simp [List.pairwise_iff_forall_sublist])
      intro k k' hk hk' _
      have e1 : cijMap s k = i := by simpa using (List.mem_filter.1 hk).2
      have e2 : cijMap s k' = i := by simpa using (List.mem_filter.1 hk').2
      exact h1 k k' (by rw [e1, e2]) (by rw [e1]; exact_mod_cast Nat.pos_of_ne_zero hi)

theorem near_zero {m : M6} {s : System} (h : runCheck m s) (i j : Fin 6)
    (hc : cijMap s (i, j) = 0) : Near (m i j) 0 := by
  have := ((runCheck_iff m s).1 h).1 (i, j) hc
  simpa [Near, tol] using this

theorem near_eq {m : M6} {s : System} (h : runCheck m s) (i j i' j' : Fin 6)
    (hc : cijMap s (i, j) = cijMap s (i', j') ∧ 0 < cijMap s (i, j)) :
    Near (m i j) (m i' j') := by
  have := ((runCheck_iff m s).1 h).2.1 (i, j) (i', j') hc.1 hc.2
  simpa [Near, tol] using this

theorem check_ok {m : M6} {s : System} (h : checkSymmetry m = .ok s) :
    runCheck m s ∧ ∀ s', systems.idxOf s' < systems.idxOf s → ¬ runCheck m s' := by
  unfold checkSymmetry at h
  split at h
  · rename_i s0 hf
    cases h
    obtain ⟨h1, as, bs, hsys, has⟩ := List.find?_eq_some_iff_append.1 hf
    refine ⟨by simpa using h1, fun s' hlt hr => ?_⟩
    have hi : systems.idxOf s ≤ as.length := by
      rw [hsys, List.idxOf_append]
      split
      · rename_i hm
        exact absurd (has s hm) (by simpa using h1)
      · simp
    have hmem : s' ∈ as := by
      by_contra hn
      rw [hsys] at hlt
      rw [List.idxOf_append_of_notMem hn] at hlt
      rw [hsys] at hi
      omega
    have := has s' hmem
    simp [hr] at this
  · cases h

/-! ### C44 -/

/-- C44: every matrix that is symmetric within the tolerance gets a class; the class passes the
classifier's own test and no class listed before it does.  A matrix that passes no test raises
`UnboundLocalError`, which symmetric matrices never do. -/
theorem C44_total_first (m : M6) :
    ((∀ i j, |m i j - m j i| ≤ 1 / 1000) → ∃ s, checkSymmetry m = .ok s) ∧
    (∀ s, checkSymmetry m = .ok s →
      runCheck m s ∧ ∀ s', systems.idxOf s' < systems.idxOf s → ¬ runCheck m s') ∧
    (∀ e, checkSymmetry m = .error e → e = .unboundLocal ∧ ∀ s, ¬ runCheck m s) := by
  refine ⟨fun h => ?_, fun s h => check_ok h, fun e h => ?_⟩
  · have ht : runCheck m .triclinic := by
      rw [runCheck_iff]
      refine ⟨fun k hk => ?_, fun k k' hkk _ => ?_, by simp⟩
      · exact absurd hk (by revert k; decide)
      · have : k' = k ∨ k' = (k.2, k.1) := by revert k k'; decide
        rcases this with rfl | rfl
        · simp [tol]
        · exact h _ _
    unfold checkSymmetry
    split
    · exact ⟨_, rfl⟩
    · rename_i hn
      have := List.find?_eq_none.1 hn .triclinic (by decide)
      simp [ht] at this
  · unfold checkSymmetry at h
    split at h
    · cases h
    · rename_i hn
      cases h
      refine ⟨rfl, fun s hs => ?_⟩
      have := List.find?_eq_none.1 hn s (by cases s <;> decide)
      simp [hs] at this

/-- C44, the part that holds: a matrix reported as cubic, tetragonal (high), orthorhombic,
monoclinic or triclinic satisfies the relations that define that system, within the tolerance.
Missing: the other systems (see `C44_hexagonal_violated`, `C44_tetragonal_violated`,
`C44_trigonal_violated`). -/
theorem C44_sound_partial (m : M6) (s : System) (h : checkSymmetry m = .ok s)
    (hs : s = .cubic ∨ s = .tetragonalHigh ∨ s = .orthorhombic ∨ s = .monoclinic ∨ s = .triclinic) :
    Defines s m := by
  obtain ⟨hr, -⟩ := check_ok h
  rcases hs with rfl | rfl | rfl | rfl | rfl
  · exact ⟨near_eq hr 0 0 1 1 (by decide), near_eq hr 0 0 2 2 (by decide), near_eq hr 0 1 0 2 (by decide),
      near_eq hr 0 1 1 2 (by decide), near_eq hr 3 3 4 4 (by decide), near_eq hr 3 3 5 5 (by decide),
      near_zero hr 0 3 (by decide), near_zero hr 0 4 (by decide), near_zero hr 0 5 (by decide),
      near_zero hr 1 3 (by decide), near_zero hr 1 4 (by decide), near_zero hr 1 5 (by decide),
      near_zero hr 2 3 (by decide), near_zero hr 2 4 (by decide), near_zero hr 2 5 (by decide),
      near_zero hr 3 4 (by decide), near_zero hr 3 5 (by decide), near_zero hr 4 5 (by decide)⟩
  · exact ⟨near_eq hr 0 0 1 1 (by decide), near_eq hr 0 2 1 2 (by decide), near_eq hr 3 3 4 4 (by decide),
      near_zero hr 0 3 (by decide), near_zero hr 0 4 (by decide), near_zero hr 0 5 (by decide),
      near_zero hr 1 3 (by decide), near_zero hr 1 4 (by decide), near_zero hr 1 5 (by decide),
      near_zero hr 2 3 (by decide), near_zero hr 2 4 (by decide), near_zero hr 2 5 (by decide),
      near_zero hr 3 4 (by decide), near_zero hr 3 5 (by decide), near_zero hr 4 5 (by decide)⟩
  · exact ⟨near_zero hr 0 3 (by decide), near_zero hr 0 4 (by decide), near_zero hr 0 5 (by decide),
      near_zero hr 1 3 (by decide), near_zero hr 1 4 (by decide), near_zero hr 1 5 (by decide),
      near_zero hr 2 3 (by decide), near_zero hr 2 4 (by decide), near_zero hr 2 5 (by decide),
      near_zero hr 3 4 (by decide), near_zero hr 3 5 (by decide), near_zero hr 4 5 (by decide)⟩
  · exact ⟨near_zero hr 0 3 (by decide), near_zero hr 0 5 (by decide), near_zero hr 1 3 (by decide),
      near_zero hr 1 5 (by decide), near_zero hr 2 3 (by decide), near_zero hr 2 5 (by decide),
      near_zero hr 3 4 (by decide), near_zero hr 4 5 (by decide)⟩
  · trivial

/-- Cubic stiffness with constants `a = C11`, `b = C12`, `c = C44`. -/
def cubicMatrix (a b c : ℝ) : M6 :=
  Matrix.of ![![a, b, b, 0, 0, 0], ![b, a, b, 0, 0, 0], ![b, b, a, 0, 0, 0], ![0, 0, 0, c, 0, 0],
    ![0, 0, 0, 0, c, 0], ![0, 0, 0, 0, 0, c]]

/-- C44: every cubic matrix is reported cubic, and every exactly hexagonal matrix is reported
hexagonal unless it is cubic within the tolerance. -/
theorem C44_recognised :
    (∀ a b c, checkSymmetry (cubicMatrix a b c) = .ok .cubic) ∧
    (∀ m : M6, m.IsSymm →
      m 0 0 = m 1 1 → m 0 2 = m 1 2 → m 3 3 = m 4 4 → m 5 5 = (m 0 0 - m 0 1) / 2 →
      (∀ i j : Fin 6, i ≠ j → (3 ≤ i.val ∨ 3 ≤ j.val) → m i j = 0) →
      checkSymmetry m = .ok .cubic ∨ checkSymmetry m = .ok .hexagonal) := by
  have htol : (0 : ℝ) ≤ tol := by unfold tol; norm_num
  constructor
  · intro a b c
    have hc : runCheck (cubicMatrix a b c) .cubic := by
      rw [runCheck_iff]
      have key : ∀ k, cubicMatrix a b c k.1 k.2 =
          if cijMap .cubic k = 1 then a else if cijMap .cubic k = 7 then b
            else if cijMap .cubic k = 4 then c else 0 := by
        rintro ⟨i, j⟩
        fin_cases i <;> fin_cases j <;> rfl
      refine ⟨fun k hk => ?_, fun k k' hkk _ => ?_, by simp⟩
      · rw [key, hk]; norm_num; exact htol
      · rw [key, key, hkk, sub_self, abs_zero]; exact htol
    unfold checkSymmetry systems
    rw [List.find?_cons_of_pos (by simpa using hc)]
  · intro m hs
    intro e1 e2 e3 e4 hz
    have hh : runCheck m .hexagonal := by
      rw [runCheck_iff]
      have z : ∀ i j : Fin 6, i ≠ j → (3 ≤ i.val ∨ 3 ≤ j.val) → m i j = 0 := hz
      have sy : ∀ i j : Fin 6, m i j = m j i := fun i j => hs.apply j i
      refine ⟨fun k hk => ?_, fun k k' hkk hp => ?_, fun _ => ?_⟩
      · have : k.1 ≠ k.2 ∧ (3 ≤ k.1.val ∨ 3 ≤ k.2.val) := by revert k; decide
        rw [z _ _ this.1 this.2, abs_zero]; exact htol
      · have key : m k.1 k.2 = m k'.1 k'.2 := by
          obtain ⟨i, j⟩ := k
          obtain ⟨i', j'⟩ := k'
          fin_cases i <;> fin_cases j <;> first
            | exact absurd hp (by decide)
            | (fin_cases i' <;> fin_cases j' <;> first
                | rfl
                | exact absurd hkk (by decide)
                | exact sy _ _
                | exact e1
                | exact e1.symm
                | exact e2
                | exact e2.symm
                | exact e2.trans (sy _ _)
                | exact e2.symm.trans (sy _ _)
                | exact (sy _ _).trans e2
                | exact (sy _ _).trans e2.symm
                | exact (sy _ _).trans (e2.trans (sy _ _))
                | exact (sy _ _).trans (e2.symm.trans (sy _ _))
                | exact e3
                | exact e3.symm
                | (show m _ _ = m _ _; rw [z _ _ (by decide) (by decide), z _ _ (by decide) (by decide)]))
        rw [key, sub_self, abs_zero]; exact htol
      · rw [e4, sub_self, abs_zero]; exact htol
    unfold checkSymmetry systems
    by_cases hc : runCheck m .cubic
    · left
      rw [List.find?_cons_of_pos (by simpa using hc)]
    · right
      rw [List.find?_cons_of_neg (by simpa using hc), List.find?_cons_of_pos (by simpa using hh)]

/-- A matrix of integers. -/
def ofInt (q : Fin 6 → Fin 6 → ℤ) : M6 := Matrix.of fun i j => (q i j : ℝ)

/-- The classifier's test on integers: differences of integers within the tolerance vanish. -/
def intCheck (q : Fin 6 → Fin 6 → ℤ) (s : System) : Prop :=
  (∀ i j, cijMap s (i, j) = 0 → q i j = 0) ∧
  (∀ i j i' j', cijMap s (i, j) = cijMap s (i', j') → 0 < cijMap s (i, j) → q i j = q i' j') ∧
  (s = .hexagonal → 2 * q 5 5 = q 0 0 - q 0 1)

instance (q : Fin 6 → Fin 6 → ℤ) (s : System) : Decidable (intCheck q s) := by
  unfold intCheck; infer_instance

theorem small_int (n : ℤ) : |(n : ℝ)| ≤ tol ↔ n = 0 := by
  unfold tol
  constructor
  · intro h
    have h1 : |(n : ℝ)| < 1 := h.trans_lt (by norm_num)
    have h2 : |n| < 1 := by exact_mod_cast h1
    exact Int.abs_lt_one_iff.1 h2
  · rintro rfl; norm_num

theorem runCheck_int (q : Fin 6 → Fin 6 → ℤ) (s : System) : runCheck (ofInt q) s ↔ intCheck q s := by
  rw [runCheck_iff]
  unfold intCheck
  refine and_congr ?_ (and_congr ?_ ?_)
  · constructor
    · intro h i j hc
      exact (small_int _).1 (h (i, j) hc)
    · rintro h ⟨i, j⟩ hc
      exact (small_int _).2 (h i j hc)
  · constructor
    · intro h i j i' j' hc hp
      have := h (i, j) (i', j') hc hp
      have e : (ofInt q i j - ofInt q i' j') = ((q i j - q i' j' : ℤ) : ℝ) := by
        simp [ofInt]
      simp only [e] at this
      exact sub_eq_zero.1 ((small_int _).1 this)
    · rintro h ⟨i, j⟩ ⟨i', j'⟩ hc hp
      simp only [ofInt, Matrix.of_apply, h i j i' j' hc hp, sub_self, abs_zero, tol]
      norm_num
  · refine forall_congr' fun _ => ?_
    constructor
    · intro h
      have h1 : |((2 * q 5 5 - (q 0 0 - q 0 1) : ℤ) : ℝ)| < 1 := by
        have e : ((2 * q 5 5 - (q 0 0 - q 0 1) : ℤ) : ℝ) =
            2 * (ofInt q 5 5 - (ofInt q 0 0 - ofInt q 0 1) / 2) := by
          simp [ofInt]; ring
        rw [e, abs_mul]
        unfold tol at h
        rw [abs_of_pos (by norm_num : (0 : ℝ) < 2)]
        linarith
      have h2 : |2 * q 5 5 - (q 0 0 - q 0 1)| < 1 := by exact_mod_cast h1
      have := Int.abs_lt_one_iff.1 h2
      omega
    · intro h
      have e : ofInt q 5 5 - (ofInt q 0 0 - ofInt q 0 1) / 2 = 0 := by
        have h' : (2 * q 5 5 : ℝ) = q 0 0 - q 0 1 := by exact_mod_cast h
        simp only [ofInt, Matrix.of_apply]
        linarith
      rw [e, abs_zero, tol]; norm_num

theorem check_int {q : Fin 6 → Fin 6 → ℤ} {s : System}
    (h : systems.find? (fun s => decide (intCheck q s)) = some s) :
    checkSymmetry (ofInt q) = .ok s := by
  unfold checkSymmetry
  have : (fun s => @decide (runCheck (ofInt q) s) (Classical.propDecidable _)) =
      fun s => decide (intCheck q s) := by
    funext s
    exact decide_eq_decide.2 (runCheck_int q s)
  rw [this, h]

/-- Rutile-like tetragonal constants. -/
def rutile : Fin 6 → Fin 6 → ℤ :=
  ![![3, 0, 0, 0, 0, 0], ![0, 3, 0, 0, 0, 0], ![0, 0, 4, 0, 0, 0], ![0, 0, 0, 1, 0, 0],
    ![0, 0, 0, 0, 1, 0], ![0, 0, 0, 0, 0, 2]]

theorem rutile_posDef : (ofInt rutile).PosDef := by
  have : ofInt rutile = Matrix.diagonal ![3, 3, 4, 1, 1, 2] := by
    ext i j
    fin_cases i <;> fin_cases j <;> simp [ofInt, rutile, Matrix.diagonal_apply] <;> rfl
  rw [this, Matrix.posDef_diagonal_iff]
  intro i
  fin_cases i <;> simp

/-- C44 is violated: no symmetric matrix is ever reported as tetragonal (high), because its test
implies the test of "trigonal_high", which is tried first; e.g. the rutile-like matrix satisfies
the tetragonal relations exactly, is not trigonal, and is reported "trigonal_high". -/
theorem C44_tetragonal_violated :
    (∀ m : M6, m.IsSymm → checkSymmetry m ≠ .ok .tetragonalHigh) ∧
    (∃ m : M6, m.PosDef ∧ Defines .tetragonalHigh m ∧ ¬ Defines .trigonalHigh m ∧
      checkSymmetry m = .ok .trigonalHigh) := by
  constructor
  · intro m hs h
    obtain ⟨h1, h2⟩ := check_ok h
    refine h2 .trigonalHigh (by decide) ?_
    rw [runCheck_iff] at h1 ⊢
    obtain ⟨a, b, -⟩ := h1
    refine ⟨fun k hk => a k (by revert k; decide), fun k k' hkk hp => ?_, by simp⟩
    have htol : (0 : ℝ) ≤ tol := by unfold tol; norm_num
    by_cases h9 : 0 < cijMap .tetragonalHigh k
    · exact b k k' (by revert k k'; decide) h9
    · have : k' = k ∨ k' = (k.2, k.1) := by revert k k'; decide
      rcases this with rfl | rfl
      · simpa using htol
      · show |m k.1 k.2 - m k.2 k.1| ≤ tol
        rw [hs.apply, sub_self, abs_zero]; exact htol
  · refine ⟨ofInt rutile, rutile_posDef, ?_, ?_, check_int (by decide +kernel)⟩
    · simp [Defines, Near, ofInt, rutile]
    · simp [Defines, Near, ofInt, rutile]
      norm_num

/-- A matrix with an isolated `C14`. -/
def fakeHexagonal : Fin 6 → Fin 6 → ℤ :=
  ![![4, 0, 0, 1, 0, 0], ![0, 4, 0, 0, 0, 0], ![0, 0, 3, 0, 0, 0], ![1, 0, 0, 2, 0, 0],
    ![0, 0, 0, 0, 2, 0], ![0, 0, 0, 0, 0, 2]]

/-- C44 is violated: a matrix with `C14 = 1` is reported hexagonal, although hexagonal symmetry
requires `C14 = 0` (the table leaves that entry free). -/
theorem C44_hexagonal_violated : ∃ m : M6, m.IsSymm ∧ checkSymmetry m = .ok .hexagonal ∧
    m 0 3 = 1 ∧ ¬ Defines .hexagonal m := by
  refine ⟨ofInt fakeHexagonal, ?_, check_int (by decide +kernel), ?_, ?_⟩
  · ext i j; fin_cases i <;> fin_cases j <;> rfl
  · simp [ofInt, fakeHexagonal]
  · simp [Defines, Near, ofInt, fakeHexagonal]
    norm_num

/-- Quartz-like trigonal constants: `C14 = -C24 = C56`, `C66 = (C11 - C12)/2`. -/
def quartz : Fin 6 → Fin 6 → ℤ :=
  ![![8, 2, 1, -1, 0, 0], ![2, 8, 1, 1, 0, 0], ![1, 1, 9, 0, 0, 0], ![-1, 1, 0, 5, 0, 0],
    ![0, 0, 0, 0, 5, -1], ![0, 0, 0, 0, -1, 3]]

/-- A matrix with unrelated `C14` and `C24`. -/
def fakeTrigonal : Fin 6 → Fin 6 → ℤ :=
  ![![8, 2, 1, 1, 0, 0], ![2, 8, 1, 2, 0, 0], ![1, 1, 9, 0, 0, 0], ![1, 2, 0, 5, 0, 0],
    ![0, 0, 0, 0, 5, 1], ![0, 0, 0, 0, 1, 3]]

/-- C44 is violated for trigonal crystals: the quartz-like matrix satisfies the relations of the
high-symmetry trigonal classes exactly, yet it is reported "trigonal_low"; and a matrix whose
`C24` is not `-C14` is reported "trigonal_low" too, because negative table entries are skipped. -/
theorem C44_trigonal_violated :
    (∃ m : M6, m.IsSymm ∧ Defines .trigonalHigh m ∧ checkSymmetry m = .ok .trigonalLow) ∧
    (∃ m : M6, m.IsSymm ∧ checkSymmetry m = .ok .trigonalLow ∧ ¬ Defines .trigonalLow m) := by
  constructor
  · refine ⟨ofInt quartz, ?_, ?_, check_int (by decide +kernel)⟩
    · ext i j; fin_cases i <;> fin_cases j <;> rfl
    · simp [Defines, Near, ofInt, quartz]
      norm_num
  · refine ⟨ofInt fakeTrigonal, ?_, check_int (by decide +kernel), ?_⟩
    · ext i j; fin_cases i <;> fin_cases j <;> rfl
    · simp [Defines, Near, ofInt, fakeTrigonal]
      norm_num

/-- Olivine-like orthorhombic constants. -/
def olivine : Fin 6 → Fin 6 → ℤ :=
  ![![3, 0, 0, 0, 0, 0], ![0, 5, 0, 0, 0, 0], ![0, 0, 4, 0, 0, 0], ![0, 0, 0, 1, 0, 0],
    ![0, 0, 0, 0, 2, 0], ![0, 0, 0, 0, 0, 2]]

theorem olivine_diagonal : ofInt olivine = Matrix.diagonal ![3, 5, 4, 1, 2, 2] := by
  ext i j
  fin_cases i <;> fin_cases j <;> simp [ofInt, olivine] <;> rfl

theorem olivine_posDef : (ofInt olivine).PosDef := by
  rw [olivine_diagonal, Matrix.posDef_diagonal_iff]
  intro i
  fin_cases i <;> simp

/-- The hypotheses of C34 are met with the fast path switched on. -/
example : ∃ o, load (ofInt olivine) 3300 = .ok (.orthorhombic, o) ∧ o.ortho = true ∧
    OrthorhombicForm (ofInt olivine) ∧ ∃ s, soec (ofInt olivine) 3300 = .ok s := by
  obtain ⟨s, hs⟩ := soec_of_det (posDef_det olivine_posDef) 3300
  have hc : s.C = ofInt olivine := by obtain ⟨-, rfl⟩ := soec_ok hs; rfl
  have hk : checkSymmetry (ofInt olivine) = .ok .orthorhombic := check_int (by decide +kernel)
  refine ⟨{ soec := s, ortho := true }, ?_, rfl, ⟨?_, ?_⟩, s, hs⟩
  · simp [load, bind, Except.bind, hs, hc, hk, pure, Except.pure]
  · ext i j; fin_cases i <;> fin_cases j <;> rfl
  · intro i j hij h3
    rw [olivine_diagonal, Matrix.diagonal_apply_ne _ hij]

/-! ### C45 -/

/-- `λ` is an eigenvalue of the matrix. -/
def Spec.Eigenvalue (m : M6) (l : ℝ) : Prop := ∃ v : Fin 6 → ℝ, v ≠ 0 ∧ m.mulVec v = l • v

/-- The numerical eigenvalue routine: lists exactly the eigenvalues. -/
def Spec.EigenSolver (eigvals : M6 → List ℝ) : Prop := ∀ m, m.IsSymm → ∀ l, l ∈ eigvals m ↔ Spec.Eigenvalue m l

/-- An unstable crystal: shear constant `C66 = -2`. -/
def unstable : Fin 6 → Fin 6 → ℤ :=
  ![![3, 0, 0, 0, 0, 0], ![0, 5, 0, 0, 0, 0], ![0, 0, 4, 0, 0, 0], ![0, 0, 0, 1, 0, 0],
    ![0, 0, 0, 0, 2, 0], ![0, 0, 0, 0, 0, -2]]

/-- C45 is violated: the stability check never fires for a matrix that could be loaded with at
least one eigenvalue computed, so the unstable matrix is analysed to the end and the run is marked
completed. -/
theorem C45_unstable_violated :
    (∀ C density s (ortho : Bool) eigvals min2 min3, soec C density = .ok s → C.IsSymm →
      EigenSolver eigvals → (∃ l, Eigenvalue C l) →
      (run eigvals min2 min3 { soec := s, ortho := ortho }).completed = true ∧
      (run eigvals min2 min3 { soec := s, ortho := ortho }).variations ≠ none) ∧
    (∃ C : M6, C.IsSymm ∧ Eigenvalue C (-2) ∧ ∃ s, soec C 3000 = .ok s) := by
  constructor
  · intro C density s ortho eigvals min2 min3 hs hsym he hl
    obtain ⟨hd, rfl⟩ := soec_ok hs
    obtain ⟨l, hl⟩ := hl
    have hl0 : l ≠ 0 := by
      rintro rfl
      obtain ⟨v, hv, hm⟩ := hl
      rw [zero_smul] at hm
      exact hv (Matrix.eq_zero_of_mulVec_eq_zero hd hm)
    have hr : ¬ refusal (eigvals C) := by
      unfold refusal pyAny
      rw [not_not]
      exact ⟨l, (he C hsym l).2 hl, hl0⟩
    simp [run, hr]
  · refine ⟨ofInt unstable, ?_, ⟨![0, 0, 0, 0, 0, 1], ?_, ?_⟩, ?_⟩
    · ext i j; fin_cases i <;> fin_cases j <;> rfl
    · exact ne0 5 (by show (1 : ℝ) ≠ 0; norm_num)
    · funext i
      fin_cases i <;> simp [Matrix.mulVec, dotProduct, Fin.sum_univ_six, ofInt, unstable]
    · apply soec_of_det
      have : ofInt unstable = Matrix.diagonal ![3, 5, 4, 1, 2, -2] := by
        ext i j
        fin_cases i <;> fin_cases j <;> simp [ofInt, unstable] <;> rfl
      rw [this, Matrix.det_diagonal]
      simp [Fin.prod_univ_succ]

/-- C45, the part that holds: the eigenvalues are part of the report, so a non-positive one is
visible there.  The check fires when all eigenvalues are zero; then the run is not completed and nothing else is
reported, and otherwise it is completed and reports the variations. -/
theorem C45_reported_partial (eigvals : M6 → List ℝ) (min2 : Search (ℝ × ℝ))
    (min3 : Search (ℝ × ℝ × ℝ)) (o : Solid) :
    (run eigvals min2 min3 o).eigv = eigvals o.soec.C ∧
    ((∀ x ∈ eigvals o.soec.C, x = 0) →
      (run eigvals min2 min3 o).completed = false ∧ (run eigvals min2 min3 o).variations = none) ∧
    ((∃ x ∈ eigvals o.soec.C, x ≠ 0) →
      (run eigvals min2 min3 o).completed = true ∧ (run eigvals min2 min3 o).variations ≠ none) := by
  by_cases h : refusal (eigvals o.soec.C) <;> simp [run, h] <;> simpa [refusal, pyAny] using h

/-- Both cases of the theorem: eigenvalues that vanish, and others. -/
example (min2 : Search (ℝ × ℝ)) (min3 : Search (ℝ × ℝ × ℝ)) (o : Solid) :
    (run (fun _ => [0, 0]) min2 min3 o).completed = false ∧ (run (fun _ => [-2, 5]) min2 min3 o).completed = true :=
  ⟨((C45_reported_partial _ min2 min3 o).2.1 (by simp)).1, ((C45_reported_partial _ min2 min3 o).2.2 ⟨5, by simp⟩).1⟩

/-! ### C46 -/

/-- The search returns the value of the function at the point it returns. -/
def Spec.Consistent {X : Type} (minimize : Search X) : Prop :=
  ∀ f, (minimize f).value = f (minimize f).point

/-- C46, the part that holds: for Young's modulus and linear compressibility the reported axes
are unit vectors that realise the reported extremes, and the anisotropy is their ratio when the
minimum is positive and `inf` otherwise.  Missing: shear modulus and Poisson's ratio (see
`C46_two_axes_violated`). -/
theorem C46_single_axis_partial (s : Soec) (minimize : Search (ℝ × ℝ)) (hm : Consistent minimize) :
    (let r := variation2 minimize s.youngModulus
     UnitVector r.minAxis1 ∧ UnitVector r.maxAxis1 ∧
     youngAlong s.Smat r.minAxis1 = r.minimum ∧ youngAlong s.Smat r.maxAxis1 = r.maximum ∧
     (r.minimum > 0 → r.anisotropy = some (r.maximum / r.minimum)) ∧
     (r.minimum ≤ 0 → r.anisotropy = none)) ∧
    (let r := variation2 minimize s.linearCompressibility
     UnitVector r.minAxis1 ∧ UnitVector r.maxAxis1 ∧
     compressibilityAlong s.Smat r.minAxis1 = r.minimum ∧
     compressibilityAlong s.Smat r.maxAxis1 = r.maximum ∧
     (r.minimum > 0 → r.anisotropy = some (r.maximum / r.minimum)) ∧
     (r.minimum ≤ 0 → r.anisotropy = none)) := by
  refine ⟨⟨vector_unit _ _, vector_unit _ _, ?_, ?_, fun h => ?_, fun h => ?_⟩,
    ⟨vector_unit _ _, vector_unit _ _, ?_, ?_, fun h => ?_, fun h => ?_⟩⟩
  · exact (hm s.youngModulus).symm
  · have := hm fun x => -s.youngModulus x
    simp only [variation2, maximize]
    rw [this, neg_neg]; rfl
  · exact if_pos h
  · exact if_neg (not_lt.2 h)
  · exact (hm s.linearCompressibility).symm
  · have := hm fun x => -s.linearCompressibility x
    simp only [variation2, maximize]
    rw [this, neg_neg]; rfl
  · exact if_pos h
  · exact if_neg (not_lt.2 h)

theorem iso_shear_orthonormal {K G : ℝ} (hK : 0 < K) (hG : 0 < G) {a b : V3}
    (h : Orthonormal a b) : shearAlong (sTensor (isotropic K G)⁻¹) a b = G := by
  obtain ⟨ha, hb, hab⟩ := h
  have hba : dot b a = 0 := by rw [← hab]; simp only [dot, mul_comm]
  have hG' := hG.ne'
  rw [shearAlong_eq, iso_inv hK.ne' hG', iso_contract, hab, hba, show dot a a = 1 from ha,
    show dot b b = 1 from hb]
  field_simp
  ring

theorem iso_shear_same {K G : ℝ} (hK : 0 < K) (hG : 0 < G) {b : V3} (hb : UnitVector b) :
    shearAlong (sTensor (isotropic K G)⁻¹) b b ≠ G := by
  have hK' := hK.ne'
  have hG' := hG.ne'
  rw [shearAlong_eq, iso_inv hK' hG', iso_contract, show dot b b = 1 from hb]
  intro h
  have : 4 * ((1 / (9 * K) - 1 / (6 * G)) * (1 * 1) + 1 / (4 * G) * (1 * 1 + 1 * 1)) =
      4 * (3 * K + G) / (9 * K * G) := by field_simp; ring
  rw [this, one_div_div, div_eq_iff (by positivity)] at h
  have : 0 < K * G := by positivity
  have : 0 < G * G := by positivity
  nlinarith

theorem iso_poisson_orthonormal {K G : ℝ} (hK : 0 < K) (hG : 0 < G) {a b : V3}
    (h : Orthonormal a b) :
    poissonAlong (sTensor (isotropic K G)⁻¹) a b = (3 * K - 2 * G) / (2 * (3 * K + G)) := by
  obtain ⟨ha, hb, hab⟩ := h
  have hK' := hK.ne'
  have hG' := hG.ne'
  have h3 : 3 * K + G ≠ 0 := by positivity
  rw [poissonAlong_eq, iso_inv hK' hG', iso_contract, iso_contract, hab, show dot a a = 1 from ha,
    show dot b b = 1 from hb]
  have h1 : -((1 / (9 * K) - 1 / (6 * G)) * (1 * 1) + 1 / (4 * G) * (0 * 0 + 0 * 0)) =
      (3 * K - 2 * G) / (18 * K * G) := by field_simp; ring
  have h2 : (1 / (9 * K) - 1 / (6 * G)) * (1 * 1) + 1 / (4 * G) * (1 * 1 + 1 * 1) =
      (3 * K + G) / (9 * K * G) := by field_simp; ring
  rw [h1, h2]
  field_simp
  ring

theorem iso_poisson_same {K G : ℝ} (hK : 0 < K) (hG : 0 < G) {b : V3} (hb : UnitVector b) :
    poissonAlong (sTensor (isotropic K G)⁻¹) b b ≠ (3 * K - 2 * G) / (2 * (3 * K + G)) := by
  rw [poissonAlong_eq, neg_div,
    div_self (young_denominator_pos (isotropic_posDef hK hG) hb).ne']
  intro h
  rw [eq_div_iff (by positivity)] at h
  nlinarith

/-- C46 is violated for shear modulus and Poisson's ratio: whatever the function and the search,
the two reported axes are one and the same vector, the reported "first" axis is orthogonal to the
true one; and for every isotropic solid evaluating the properties at the reported axes gives values
different from the reported ones. -/
theorem C46_two_axes_violated (minimize : Search (ℝ × ℝ × ℝ)) (hm : Consistent minimize) :
    (∀ f, let r := variation3 minimize f
      r.minAxis2 = some r.minAxis1 ∧ r.maxAxis2 = some r.maxAxis1 ∧
      dot r.minAxis1 (vector (minimize f).point.1 (minimize f).point.2.1) = 0) ∧
    (∀ K G density s, 0 < K → 0 < G → soec (isotropic K G) density = .ok s →
      (let r := variation3 minimize s.shearModulus
       r.minimum = G ∧ ∀ b, r.minAxis2 = some b → shearAlong s.Smat r.minAxis1 b ≠ r.minimum) ∧
      (let r := variation3 minimize s.poissonRatio
       r.minimum = (3 * K - 2 * G) / (2 * (3 * K + G)) ∧
       ∀ b, r.minAxis2 = some b → poissonAlong s.Smat r.minAxis1 b ≠ r.minimum)) := by
  constructor
  · intro f
    refine ⟨rfl, rfl, ?_⟩
    have h := vector_orthogonal (minimize f).point.1 (minimize f).point.2.1 (minimize f).point.2.2
    have c : ∀ a b : V3, dot a b = dot b a := fun a b => by
      simp only [dot, mul_comm]
    rw [c]
    exact h
  · intro K G density s hK hG hs
    have hS : s.Smat = sTensor (isotropic K G)⁻¹ := by
      obtain ⟨-, hs'⟩ := soec_ok hs
      rw [hs']
    have hv := fun t p c => (⟨vector_unit t p, vectorChi_unit t p c, vector_orthogonal t p c⟩ :
      Orthonormal (vector t p) (vectorChi t p c))
    have e1 : (minimize s.shearModulus).value = G := by
      rw [hm, Soec.shearModulus, hS]
      exact iso_shear_orthonormal hK hG (hv _ _ _)
    have e2 : (minimize s.poissonRatio).value = (3 * K - 2 * G) / (2 * (3 * K + G)) := by
      rw [hm, Soec.poissonRatio, hS]
      exact iso_poisson_orthonormal hK hG (hv _ _ _)
    refine ⟨⟨e1, fun b hb h => ?_⟩, ⟨e2, fun b hb h => ?_⟩⟩
    · rw [hS] at h
      cases hb
      exact iso_shear_same hK hG (vectorChi_unit _ _ _) (h.trans e1)
    · rw [hS] at h
      cases hb
      exact iso_poisson_same hK hG (vectorChi_unit _ _ _) (h.trans e2)

example : Consistent (X := ℝ × ℝ × ℝ) fun f => ⟨(1, 1, 1), f (1, 1, 1)⟩ := fun _ => rfl

end Verif.Elastic
