/- Proof work for the unit converters. -/
import Verif.Tac
import Verif.Units.Spec

namespace Verif.Units
open Verif.Py Verif.Units.Spec

/-- Names determine the scale. -/
def Unambiguous (scales : List Scale) : Prop :=
  ∀ s A B, Means scales s A → Means scales s B → A = B

theorem faithful_of {scales : List Scale} {f g : Str → Except PyErr (ℝ → ℝ)} {r : ℝ}
    (hr : r ≠ 0) (hs : ∀ A ∈ scales, A.slope ≠ 0)
    (hf : ∀ s A, Means scales s A → f s = .ok (fun x => A.toRef x / r))
    (hf' : ∀ s, (∀ A, ¬ Means scales s A) → f s = .error .notImplemented)
    (hg : ∀ s B, Means scales s B → g s = .ok (fun y => (r * y - B.offset) / B.slope))
    (hg' : ∀ s, (∀ A, ¬ Means scales s A) → g s = .error .notImplemented)
    {conv : List ℝ → Str → Str → Except PyErr (List ℝ)}
    (hc : ∀ v a b, conv v a b = (do
      let F ← f a
      let t := v.map F
      let G ← g b
      return t.map G)) :
    Faithful scales conv := by
  constructor
  · intro v a b w
    rw [hc]
    constructor
    · intro h
      by_cases ha : ∃ A, Means scales a A
      · obtain ⟨A, hA⟩ := ha
        by_cases hb : ∃ B, Means scales b B
        · obtain ⟨B, hB⟩ := hb
          refine ⟨A, B, hA, hB, ?_⟩
          rw [hf a A hA, hg b B hB] at h
          simp only [bind, Except.bind, pure, Except.pure, Except.ok.injEq] at h
          subst h
          rw [List.map_map, List.forall₂_map_right_iff, List.forall₂_same]
          intro x _
          have := hs B hB.1
          simp only [Scale.toRef, Function.comp]
          field_simp
          ring
        · have hb' : ∀ B, ¬ Means scales b B := fun B hB => hb ⟨B, hB⟩
          rw [hf a A hA, hg' b hb'] at h
          simp [bind, Except.bind] at h
      · have ha' : ∀ B, ¬ Means scales a B := fun B hB => ha ⟨B, hB⟩
        rw [hf' a ha'] at h
        simp [bind, Except.bind] at h
    · rintro ⟨A, B, hA, hB, h⟩
      rw [hf a A hA, hg b B hB]
      simp only [bind, Except.bind, pure, Except.pure, Except.ok.injEq, List.map_map]
      have hB0 := hs B hB.1
      induction h with
      | nil => rfl
      | cons hxy _ ih =>
        simp only [List.map_cons, ih, List.cons.injEq, and_true, Function.comp]
        rw [mul_div_cancel₀ _ hr, hxy]
        simp only [Scale.toRef]
        field_simp
        ring
  · intro v a b h
    rw [hc]
    by_cases ha : ∃ A, Means scales a A
    · obtain ⟨A, hA⟩ := ha
      rcases h with h | h
      · exact absurd hA (h A)
      · rw [hf a A hA, hg' b h]; rfl
    · rw [hf' a (fun B hB => ha ⟨B, hB⟩)]; rfl

theorem Spec.Faithful.roundTrip {scales conv} (h : Faithful scales conv) {v w : List ℝ} {a b : Str}
    (hw : conv v a b = .ok w) : conv w b a = .ok v := by
  obtain ⟨A, B, hA, hB, hf⟩ := (h.ok_iff _ _ _ _).1 hw
  refine (h.ok_iff _ _ _ _).2 ⟨B, A, hB, hA, ?_⟩
  exact (List.Forall₂.flip hf).imp fun _ _ e => e.symm

theorem forall₂_trans_eq {α β γ δ : Type*} {f : α → δ} {g : β → δ} {k : γ → δ}
    {v : List α} {w : List β} {u : List γ}
    (h1 : List.Forall₂ (fun x y => f x = g y) v w)
    (h2 : List.Forall₂ (fun x y => g x = k y) w u) :
    List.Forall₂ (fun x y => f x = k y) v u := by
  induction h1 generalizing u with
  | nil => cases h2; exact .nil
  | cons e _ ih =>
    cases h2 with
    | cons e' t => exact .cons (e.trans e') (ih t)

theorem Spec.Faithful.compose {scales conv} (h : Faithful scales conv) (hu : Unambiguous scales)
    {v w u : List ℝ} {a b c : Str}
    (hw : conv v a b = .ok w) (hz : conv w b c = .ok u) : conv v a c = .ok u := by
  obtain ⟨A, B, hA, hB, hf⟩ := (h.ok_iff _ _ _ _).1 hw
  obtain ⟨B', C, hB', hC, hg⟩ := (h.ok_iff _ _ _ _).1 hz
  obtain rfl := hu b B B' hB hB'
  exact (h.ok_iff _ _ _ _).2 ⟨A, C, hA, hC, forall₂_trans_eq hf hg⟩

theorem Spec.Faithful.identity {scales conv} (h : Faithful scales conv) {a : Str} {A : Scale}
    (ha : Means scales a A) (v : List ℝ) : conv v a a = .ok v :=
  (h.ok_iff _ _ _ _).2 ⟨A, A, ha, ha, List.forall₂_same.2 fun _ _ => rfl⟩

theorem Spec.Faithful.linear {scales conv} (h : Faithful scales conv)
    (h0 : ∀ A ∈ scales, A.offset = 0) {a b : Str} {v w : List ℝ} (c : ℝ)
    (hw : conv v a b = .ok w) : conv (v.map (c * ·)) a b = .ok (w.map (c * ·)) := by
  obtain ⟨A, B, hA, hB, hf⟩ := (h.ok_iff _ _ _ _).1 hw
  refine (h.ok_iff _ _ _ _).2 ⟨A, B, hA, hB, ?_⟩
  rw [List.forall₂_map_left_iff, List.forall₂_map_right_iff]
  refine hf.imp fun x y e => ?_
  simp only [Scale.toRef, h0 A hA.1, h0 B hB.1] at e ⊢
  linear_combination c * e

theorem Spec.Faithful.additive {scales conv} (h : Faithful scales conv)
    (h0 : ∀ A ∈ scales, A.offset = 0) {a b : Str} {x y x' y' : ℝ} (hu : Unambiguous scales)
    (hx : conv [x] a b = .ok [x']) (hy : conv [y] a b = .ok [y']) :
    conv [x + y] a b = .ok [x' + y'] := by
  obtain ⟨A, B, hA, hB, hf⟩ := (h.ok_iff _ _ _ _).1 hx
  obtain ⟨A', B', hA', hB', hf'⟩ := (h.ok_iff _ _ _ _).1 hy
  obtain rfl := hu _ _ _ hA hA'
  obtain rfl := hu _ _ _ hB hB'
  refine (h.ok_iff _ _ _ _).2 ⟨A, B, hA, hB, ?_⟩
  simp only [List.forall₂_cons, List.forall₂_nil_left_iff, and_true, Scale.toRef, h0 A hA.1,
    h0 B hB.1] at hf hf' ⊢
  linear_combination hf + hf'

theorem Spec.Faithful.strictMono {scales conv} (h : Faithful scales conv) (hu : Unambiguous scales)
    (hp : ∀ A ∈ scales, 0 < A.slope) {a b : Str} {x y x' y' : ℝ}
    (hx : conv [x] a b = .ok [x']) (hy : conv [y] a b = .ok [y']) (hlt : x < y) : x' < y' := by
  obtain ⟨A, B, hA, hB, hf⟩ := (h.ok_iff _ _ _ _).1 hx
  obtain ⟨A', B', hA', hB', hf'⟩ := (h.ok_iff _ _ _ _).1 hy
  obtain rfl := hu _ _ _ hA hA'
  obtain rfl := hu _ _ _ hB hB'
  simp only [List.forall₂_cons, List.forall₂_nil_left_iff, and_true, Scale.toRef] at hf hf'
  have h1 := mul_lt_mul_of_pos_left hlt (hp A hA.1)
  have : B.slope * x' < B.slope * y' := by linarith
  exact lt_of_mul_lt_mul_left this (hp B hB.1).le

/-! ### The six branch chains -/

/-- Expand `Means` over a concrete list of scales. -/
theorem means_cons {a : Scale} {l : List Scale} {s : Str} {A : Scale} :
    Means (a :: l) s A ↔ (A = a ∧ lower s ∈ a.names) ∨ Means l s A := by
  simp only [Means, List.mem_cons]
  constructor
  · rintro ⟨rfl | h, h2⟩
    · exact .inl ⟨rfl, h2⟩
    · exact .inr ⟨h, h2⟩
  · rintro (⟨rfl, h⟩ | ⟨h, h2⟩)
    · exact ⟨.inl rfl, h⟩
    · exact ⟨.inr h, h2⟩

theorem means_nil {s : Str} {A : Scale} : ¬ Means [] s A := by simp [Means]

theorem not_means_iff {l : List Scale} {s : Str} :
    (∀ A, ¬ Means l s A) ↔ ∀ A ∈ l, lower s ∉ A.names := by
  simp only [Means, not_and]

theorem unambiguous_of {scales : List Scale}
    (h : scales.Pairwise fun A B => List.Disjoint A.names B.names) : Unambiguous scales := by
  intro s A B hA hB
  by_contra hne
  have : List.Disjoint A.names B.names := by
    refine List.Pairwise.forall_of_forall_of_flip (R := fun A B => A ≠ B → List.Disjoint A.names B.names) ?_ ?_ ?_ hA.1 hB.1 hne
    · intro x _ hx; exact absurd rfl hx
    · exact h.imp fun {a b} h (_ : a ≠ b) => h
    · exact h.imp fun {a b} (h : List.Disjoint a.names b.names) (_ : b ≠ a) => h.symm
  exact this hA.2 hB.2

theorem temperatures_unambiguous : Unambiguous temperatures :=
  unambiguous_of (by simp [temperatures, List.Disjoint])

theorem energiesDocumented_unambiguous (k : Consts) : Unambiguous (energiesDocumented k) :=
  unambiguous_of (by simp [energiesDocumented, List.Disjoint])

theorem energiesShort_unambiguous (k : Consts) : Unambiguous (energiesShort k) :=
  unambiguous_of (by simp [energiesShort, List.Disjoint])

theorem pressures_unambiguous : Unambiguous pressures :=
  unambiguous_of (by simp [pressures, List.Disjoint])

theorem frequencies_unambiguous (k : Consts) : Unambiguous (frequencies k) :=
  unambiguous_of (by simp [frequencies, List.Disjoint])

theorem lengths_unambiguous (k : Consts) : Unambiguous (lengths k) :=
  unambiguous_of (by simp [lengths, List.Disjoint])

theorem volumes_unambiguous (k : Consts) : Unambiguous (volumes k) :=
  unambiguous_of (by simp [volumes, List.Disjoint])

theorem tempToKelvin_ok (s : Str) (A : Scale) (h : Means temperatures s A) :
    tempToKelvin s = .ok (fun x => A.toRef x / 1) := by
  simp only [temperatures, means_cons, means_nil, or_false, List.mem_cons, List.not_mem_nil] at h
  rcases h with ⟨rfl, h | h | h⟩ | ⟨rfl, h | h⟩ | ⟨rfl, h | h⟩ | ⟨rfl, h | h⟩ <;>
    (simp [tempToKelvin, h, Scale.toRef, zeroCelsius]; try (funext x; ring))

theorem tempFromKelvin_ok (s : Str) (A : Scale) (h : Means temperatures s A) :
    tempFromKelvin s = .ok (fun y => (1 * y - A.offset) / A.slope) := by
  simp only [temperatures, means_cons, means_nil, or_false, List.mem_cons, List.not_mem_nil] at h
  rcases h with ⟨rfl, h | h | h⟩ | ⟨rfl, h | h⟩ | ⟨rfl, h | h⟩ | ⟨rfl, h | h⟩ <;>
    (simp [tempFromKelvin, h, zeroCelsius]; try (funext x; ring))

theorem tempToKelvin_err (s : Str) (h : ∀ A, ¬ Means temperatures s A) :
    tempToKelvin s = .error .notImplemented := by
  rw [not_means_iff] at h
  simp only [temperatures, List.forall_mem_cons] at h
  simp only [tempToKelvin, if_neg h.1, if_neg h.2.1, if_neg h.2.2.1, if_neg h.2.2.2.1]

theorem tempFromKelvin_err (s : Str) (h : ∀ A, ¬ Means temperatures s A) :
    tempFromKelvin s = .error .notImplemented := by
  rw [not_means_iff] at h
  simp only [temperatures, List.forall_mem_cons] at h
  simp only [tempFromKelvin, if_neg h.1, if_neg h.2.1, if_neg h.2.2.1, if_neg h.2.2.2.1]

/-- `lower` is idempotent. -/
theorem lower_lower (s : Str) : lower (lower s) = lower s := by
  simp only [lower, List.map_map]
  congr 1
  funext c
  simp only [Function.comp]
  by_cases h : c.val ≥ 'A'.val ∧ c.val ≤ 'Z'.val
  · have h1 : (c.toLower).val = c.val + 32 := by simp only [Char.toLower, dif_pos h]; rfl
    have h2 : ¬ ((c.toLower).val ≥ 'A'.val ∧ (c.toLower).val ≤ 'Z'.val) := by
      rw [h1]
      simp only [ge_iff_le, UInt32.le_iff_toNat_le, UInt32.toNat_add] at h ⊢
      have e1 : ('A'.val).toNat = 65 := rfl
      have e2 : ('Z'.val).toNat = 90 := rfl
      have e3 : (32 : UInt32).toNat = 32 := rfl
      rw [e1, e2] at h
      rw [e1, e2, e3]
      omega
    conv_lhs => rw [Char.toLower, dif_neg h2]
  · have : c.toLower = c := by rw [Char.toLower, dif_neg h]
    rw [this, this]

/-- A string with a capital letter is not the result of `lower`. -/
theorem lower_ne {s t : Str} (h : lower t ≠ t) : lower s ≠ t := by
  rintro rfl
  exact h (lower_lower s)

theorem lower_mem_cons_cap {s t : Str} {l : List Str} (h : lower t ≠ t) :
    lower s ∈ t :: l ↔ lower s ∈ l := by
  simp [lower_ne h]


/-! Energy -/

theorem energyToHartree_ok (k : Consts) (s : Str) (A : Scale) (h : Means (energiesShort k) s A) :
    energyToHartree k s = .ok (fun x => A.toRef x / k.Ha) := by
  have h1 := k.Ha_pos.ne'
  have h2 := k.N_pos.ne'
  simp only [energiesShort, means_cons, means_nil, or_false, List.mem_cons, List.not_mem_nil] at h
  rcases h with ⟨rfl, h⟩ | ⟨rfl, h | h⟩ | ⟨rfl, h⟩ | ⟨rfl, h | h⟩ <;>
    (simp [energyToHartree, h, Scale.toRef]; try (funext x; field_simp))

theorem energyFromHartree_ok (k : Consts) (s : Str) (A : Scale) (h : Means (energiesShort k) s A) :
    energyFromHartree k s = .ok (fun y => (k.Ha * y - A.offset) / A.slope) := by
  have h1 := k.Ha_pos.ne'
  have h2 := k.N_pos.ne'
  simp only [energiesShort, means_cons, means_nil, or_false, List.mem_cons, List.not_mem_nil] at h
  rcases h with ⟨rfl, h⟩ | ⟨rfl, h | h⟩ | ⟨rfl, h⟩ | ⟨rfl, h | h⟩ <;>
    (simp [energyFromHartree, h]; try (funext x; field_simp))

theorem energyToHartree_err (k : Consts) (s : Str) (h : ∀ A, ¬ Means (energiesShort k) s A) :
    energyToHartree k s = .error .notImplemented := by
  rw [not_means_iff] at h
  simp only [energiesShort, List.forall_mem_cons] at h
  simp only [energyToHartree, lower_mem_cons_cap (s := s) (t := c!"Hartree") (by decide),
    lower_mem_cons_cap (s := s) (t := c!"Ha") (by decide),
    lower_mem_cons_cap (s := s) (t := c!"Ry") (by decide),
    lower_mem_cons_cap (s := s) (t := c!"Rydberg") (by decide),
    lower_mem_cons_cap (s := s) (t := c!"kJ/mol") (by decide), if_neg h.1, if_neg h.2.2.1,
    if_neg h.2.2.2.1]
  have h' : lower s ∉ [c!"electron volt", c!"eV", c!"ev"] := by
    have := lower_ne (s := s) (t := c!"eV") (by decide)
    simpa [this] using h.2.1
  rw [if_neg h']

theorem energyFromHartree_err (k : Consts) (s : Str) (h : ∀ A, ¬ Means (energiesShort k) s A) :
    energyFromHartree k s = .error .notImplemented := by
  rw [not_means_iff] at h
  simp only [energiesShort, List.forall_mem_cons] at h
  simp only [energyFromHartree, lower_mem_cons_cap (s := s) (t := c!"Hartree") (by decide),
    lower_mem_cons_cap (s := s) (t := c!"Ha") (by decide),
    lower_mem_cons_cap (s := s) (t := c!"Ry") (by decide),
    lower_mem_cons_cap (s := s) (t := c!"Rydberg") (by decide),
    lower_mem_cons_cap (s := s) (t := c!"kJ/mol") (by decide), if_neg h.1, if_neg h.2.2.1,
    if_neg h.2.2.2.1]
  have h' : lower s ∉ [c!"electron volt", c!"eV", c!"ev"] := by
    have := lower_ne (s := s) (t := c!"eV") (by decide)
    simpa [this] using h.2.1
  rw [if_neg h']

/-! Pressure -/

theorem pressureToPa_ok (s : Str) (A : Scale) (h : Means pressures s A) :
    pressureToPa s = .ok (fun x => A.toRef x / 1) := by
  simp only [pressures, means_cons, means_nil, or_false, List.mem_cons, List.not_mem_nil] at h
  rcases h with ⟨rfl, h⟩ | ⟨rfl, h⟩ | ⟨rfl, h⟩ | ⟨rfl, h⟩ | ⟨rfl, h⟩ | ⟨rfl, h⟩ | ⟨rfl, h⟩ |
    ⟨rfl, h⟩ <;>
    (simp [pressureToPa, h, Scale.toRef]; try (funext x; ring))

theorem pressureFromPa_ok (s : Str) (A : Scale) (h : Means pressures s A) :
    pressureFromPa s = .ok (fun y => (1 * y - A.offset) / A.slope) := by
  simp only [pressures, means_cons, means_nil, or_false, List.mem_cons, List.not_mem_nil] at h
  rcases h with ⟨rfl, h⟩ | ⟨rfl, h⟩ | ⟨rfl, h⟩ | ⟨rfl, h⟩ | ⟨rfl, h⟩ | ⟨rfl, h⟩ | ⟨rfl, h⟩ |
    ⟨rfl, h⟩ <;>
    (simp [pressureFromPa, h]; try (funext x; ring))

theorem pressureToPa_err (s : Str) (h : ∀ A, ¬ Means pressures s A) :
    pressureToPa s = .error .notImplemented := by
  rw [not_means_iff] at h
  simp only [pressures, List.forall_mem_cons] at h
  obtain ⟨h1, h2, h3, h4, h5, h6, h7, h8, -⟩ := h
  simp only [pressureToPa, if_neg h1, if_neg h2, if_neg h3, if_neg h4, if_neg h5, if_neg h6,
    if_neg h7, if_neg h8]

theorem pressureFromPa_err (s : Str) (h : ∀ A, ¬ Means pressures s A) :
    pressureFromPa s = .error .notImplemented := by
  rw [not_means_iff] at h
  simp only [pressures, List.forall_mem_cons] at h
  obtain ⟨h1, h2, h3, h4, h5, h6, h7, h8, -⟩ := h
  simp only [pressureFromPa, if_neg h1, if_neg h2, if_neg h3, if_neg h4, if_neg h5, if_neg h6,
    if_neg h7, if_neg h8]

/-! Frequency -/

theorem freqToCm_ok (k : Consts) (s : Str) (A : Scale) (h : Means (frequencies k) s A) :
    freqToCm k s = .ok (fun x => A.toRef x / (100 * k.c)) := by
  have h1 := k.c_pos.ne'
  simp only [frequencies, means_cons, means_nil, or_false, List.mem_cons, List.not_mem_nil] at h
  rcases h with ⟨rfl, h⟩ | ⟨rfl, h⟩ | ⟨rfl, h⟩ <;>
    (simp [freqToCm, h, Scale.toRef]; try (funext x; field_simp))

theorem freqFromCm_ok (k : Consts) (s : Str) (A : Scale) (h : Means (frequencies k) s A) :
    freqFromCm k s = .ok (fun y => ((100 * k.c) * y - A.offset) / A.slope) := by
  have h1 := k.c_pos.ne'
  simp only [frequencies, means_cons, means_nil, or_false, List.mem_cons, List.not_mem_nil] at h
  rcases h with ⟨rfl, h⟩ | ⟨rfl, h⟩ | ⟨rfl, h⟩ <;>
    (simp [freqFromCm, h]; try (funext x; field_simp))

theorem freqToCm_err (k : Consts) (s : Str) (h : ∀ A, ¬ Means (frequencies k) s A) :
    freqToCm k s = .error .notImplemented := by
  rw [not_means_iff] at h
  simp only [frequencies, List.forall_mem_cons] at h
  simp only [freqToCm, lower_mem_cons_cap (s := s) (t := c!"Hz") (by decide),
    lower_mem_cons_cap (s := s) (t := c!"THz") (by decide), if_neg h.1, if_neg h.2.1,
    if_neg h.2.2.1]

theorem freqFromCm_err (k : Consts) (s : Str) (h : ∀ A, ¬ Means (frequencies k) s A) :
    freqFromCm k s = .error .notImplemented := by
  rw [not_means_iff] at h
  simp only [frequencies, List.forall_mem_cons] at h
  simp only [freqFromCm, lower_mem_cons_cap (s := s) (t := c!"Hz") (by decide),
    lower_mem_cons_cap (s := s) (t := c!"THz") (by decide), if_neg h.1, if_neg h.2.1,
    if_neg h.2.2.1]

/-! Length and volume -/

theorem lengthToM_ok (k : Consts) (s : Str) (A : Scale) (h : Means (lengths k) s A) :
    lengthToM k s = .ok (fun x => A.toRef x / 1) := by
  simp only [lengths, means_cons, means_nil, or_false, List.mem_cons, List.not_mem_nil] at h
  rcases h with ⟨rfl, h | h⟩ | ⟨rfl, h | h⟩ | ⟨rfl, h⟩ <;>
    (simp [lengthToM, h, Scale.toRef]; try (funext x; ring))

theorem lengthFromM_ok (k : Consts) (s : Str) (A : Scale) (h : Means (lengths k) s A) :
    lengthFromM k s = .ok (fun y => (1 * y - A.offset) / A.slope) := by
  simp only [lengths, means_cons, means_nil, or_false, List.mem_cons, List.not_mem_nil] at h
  rcases h with ⟨rfl, h | h⟩ | ⟨rfl, h | h⟩ | ⟨rfl, h⟩ <;>
    simp [lengthFromM, h]

theorem lengthToM_err (k : Consts) (s : Str) (h : ∀ A, ¬ Means (lengths k) s A) :
    lengthToM k s = .error .notImplemented := by
  rw [not_means_iff] at h
  simp only [lengths, List.forall_mem_cons] at h
  simp only [lengthToM, if_neg h.1, if_neg h.2.1, if_neg h.2.2.1]

theorem lengthFromM_err (k : Consts) (s : Str) (h : ∀ A, ¬ Means (lengths k) s A) :
    lengthFromM k s = .error .notImplemented := by
  rw [not_means_iff] at h
  simp only [lengths, List.forall_mem_cons] at h
  simp only [lengthFromM, if_neg h.1, if_neg h.2.1, if_neg h.2.2.1]

theorem volumeToM3_ok (k : Consts) (s : Str) (A : Scale) (h : Means (volumes k) s A) :
    volumeToM3 k s = .ok (fun x => A.toRef x / 1) := by
  simp only [volumes, means_cons, means_nil, or_false, List.mem_cons, List.not_mem_nil] at h
  rcases h with ⟨rfl, h | h⟩ | ⟨rfl, h | h⟩ | ⟨rfl, h⟩ <;>
    (simp [volumeToM3, h, Scale.toRef]; try (funext x; ring))

theorem volumeFromM3_ok (k : Consts) (s : Str) (A : Scale) (h : Means (volumes k) s A) :
    volumeFromM3 k s = .ok (fun y => (1 * y - A.offset) / A.slope) := by
  simp only [volumes, means_cons, means_nil, or_false, List.mem_cons, List.not_mem_nil] at h
  rcases h with ⟨rfl, h | h⟩ | ⟨rfl, h | h⟩ | ⟨rfl, h⟩ <;>
    simp [volumeFromM3, h]

theorem volumeToM3_err (k : Consts) (s : Str) (h : ∀ A, ¬ Means (volumes k) s A) :
    volumeToM3 k s = .error .notImplemented := by
  rw [not_means_iff] at h
  simp only [volumes, List.forall_mem_cons] at h
  simp only [volumeToM3, if_neg h.1, if_neg h.2.1, if_neg h.2.2.1]

theorem volumeFromM3_err (k : Consts) (s : Str) (h : ∀ A, ¬ Means (volumes k) s A) :
    volumeFromM3 k s = .error .notImplemented := by
  rw [not_means_iff] at h
  simp only [volumes, List.forall_mem_cons] at h
  simp only [volumeFromM3, if_neg h.1, if_neg h.2.1, if_neg h.2.2.1]

/-! ### Energy densities -/

/-- The factor that turns one `energy/volume` unit into one `pressure` unit. -/
theorem chain_e2pEnergy {k : Consts} {s : Str} {E : Scale} (h : Means (densityEnergies k) s E) :
    chain (e2pEnergy k) s = some (fun v => v * E.slope) := by
  simp only [densityEnergies, means_cons, means_nil, or_false, List.mem_cons,
    List.not_mem_nil] at h
  rcases h with ⟨rfl, h | h⟩ | ⟨rfl, h | h⟩ | ⟨rfl, h | h⟩ <;> simp [chain, e2pEnergy, h]

theorem chain_p2eEnergy {k : Consts} {s : Str} {E : Scale} (h : Means (densityEnergies k) s E) :
    chain (p2eEnergy k) s = some (fun v => v / E.slope) := by
  simp only [densityEnergies, means_cons, means_nil, or_false, List.mem_cons,
    List.not_mem_nil] at h
  rcases h with ⟨rfl, h | h⟩ | ⟨rfl, h | h⟩ | ⟨rfl, h | h⟩ <;> simp [chain, p2eEnergy, h]

theorem chain_e2pVolume {k : Consts} {s : Str} {E : Scale} (h : Means (densityVolumes k) s E) :
    chain (e2pVolume k) s = some (fun v => v / E.slope) := by
  simp only [densityVolumes, means_cons, means_nil, or_false, List.mem_cons,
    List.not_mem_nil] at h
  rcases h with ⟨rfl, h | h | h⟩ | ⟨rfl, h | h⟩ <;> simp [chain, e2pVolume, h]

theorem chain_p2eVolume {k : Consts} {s : Str} {E : Scale} (h : Means (densityVolumes k) s E) :
    chain (p2eVolume k) s = some (fun v => v * E.slope) := by
  simp only [densityVolumes, means_cons, means_nil, or_false, List.mem_cons,
    List.not_mem_nil] at h
  rcases h with ⟨rfl, h | h | h⟩ | ⟨rfl, h | h⟩ <;> simp [chain, p2eVolume, h]

theorem chain_e2pPressure {s : Str} {P : Scale} (h : Means pressures s P) :
    chain e2pPressure s = some (fun v => v / P.slope) := by
  simp only [pressures, means_cons, means_nil, or_false, List.mem_cons, List.not_mem_nil] at h
  rcases h with ⟨rfl, h⟩ | ⟨rfl, h⟩ | ⟨rfl, h⟩ | ⟨rfl, h⟩ | ⟨rfl, h⟩ | ⟨rfl, h⟩ | ⟨rfl, h⟩ |
    ⟨rfl, h⟩ <;> (simp [chain, e2pPressure, h]; try (funext v; ring))

theorem chain_p2ePressure {s : Str} {P : Scale} (h : Means pressures s P) :
    chain p2ePressure s = some (fun v => v * P.slope) := by
  simp only [pressures, means_cons, means_nil, or_false, List.mem_cons, List.not_mem_nil] at h
  rcases h with ⟨rfl, h⟩ | ⟨rfl, h⟩ | ⟨rfl, h⟩ | ⟨rfl, h⟩ | ⟨rfl, h⟩ | ⟨rfl, h⟩ | ⟨rfl, h⟩ |
    ⟨rfl, h⟩ <;> (simp [chain, p2ePressure, h]; try (funext v; ring))

theorem chain_none_of {table : List (List Str × (ℝ → ℝ))} {s : Str}
    (h : ∀ p ∈ table, lower s ∉ p.1) : chain table s = none := by
  induction table with
  | nil => rfl
  | cons p t ih =>
    obtain ⟨names, f⟩ := p
    rw [chain, if_neg (h _ (List.mem_cons_self ..))]
    exact ih fun q hq => h q (List.mem_cons_of_mem _ hq)

end Verif.Units
