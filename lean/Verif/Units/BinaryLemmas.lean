/- Proof work for the unit converters in the arithmetic of the computer. -/
import Verif.Units.BinarySpec
import Verif.Units.Props
import Mathlib.Algebra.Order.Ring.Pow

noncomputable section

namespace Verif.Units.Rounded
open Verif.Py Verif.Units Verif.Units.Spec
open Spec (u Accurate)

theorem u_pos : 0 < u := by unfold u; positivity
theorem u_lt : u < 1 := by unfold u; norm_num

/-- `y` is `x` after at most `n` relative errors of half a unit in the last place. -/
def Near (n : ℕ) (y x : ℝ) : Prop := ∃ θ, y = x * θ ∧ (1 - u) ^ n ≤ θ ∧ θ * (1 - u) ^ n ≤ 1

theorem one_sub_pos : 0 < 1 - u := by linarith [u_lt]

theorem Near.refl (x : ℝ) : Near 0 x x := ⟨1, by simp, by simp, by simp⟩

theorem Near.mono {n p : ℕ} {x y : ℝ} (hnp : n ≤ p) (h : Near n y x) : Near p y x := by
  obtain ⟨θ, e, h1, h2⟩ := h
  have hle : (1 - u) ^ p ≤ (1 - u) ^ n := pow_le_pow_of_le_one one_sub_pos.le (by linarith [u_pos]) hnp
  have h0 : 0 < (1 - u) ^ n := pow_pos one_sub_pos n
  exact ⟨θ, e, hle.trans h1, (mul_le_mul_of_nonneg_left hle (h0.le.trans h1)).trans h2⟩

theorem Near.mul {n p : ℕ} {x y x' y' : ℝ} (h : Near n y x) (h' : Near p y' x') : Near (n + p) (y * y') (x * x') := by
  obtain ⟨θ, rfl, h1, h2⟩ := h
  obtain ⟨θ', rfl, h1', h2'⟩ := h'
  have a := pow_pos one_sub_pos n
  have b := pow_pos one_sub_pos p
  refine ⟨θ * θ', by ring, ?_, ?_⟩
  · rw [pow_add]
    exact mul_le_mul h1 h1' b.le (a.le.trans h1)
  · rw [pow_add]
    calc θ * θ' * ((1 - u) ^ n * (1 - u) ^ p) = (θ * (1 - u) ^ n) * (θ' * (1 - u) ^ p) := by ring
      _ ≤ 1 * 1 := mul_le_mul h2 h2' (mul_nonneg (b.le.trans h1') b.le) zero_le_one
      _ = 1 := by ring

theorem Near.inv {n : ℕ} {x y : ℝ} (h : Near n y x) : Near n y⁻¹ x⁻¹ := by
  obtain ⟨θ, rfl, h1, h2⟩ := h
  have a := pow_pos one_sub_pos n
  have hθ := a.trans_le h1
  refine ⟨θ⁻¹, by rw [mul_inv], ?_, ?_⟩
  · rw [le_inv_comm₀ a hθ, ← one_div, le_div_iff₀ a]; exact h2
  · rw [inv_mul_le_iff₀ hθ, mul_one]; exact h1

theorem Near.div {n p : ℕ} {x y x' y' : ℝ} (h : Near n y x) (h' : Near p y' x') : Near (n + p) (y / y') (x / x') := by
  rw [div_eq_mul_inv, div_eq_mul_inv]
  exact h.mul h'.inv

theorem Near.rnd {m : Machine} (hm : Accurate m) {n : ℕ} {x y : ℝ} (h : Near n y x) : Near (n + 1) (m.rnd y) x := by
  have h1 : Near 1 (m.rnd y) y := by
    by_cases hy : y = 0
    · subst hy
      have := hm.rnd 0
      simp only [abs_zero, mul_zero, sub_zero, abs_nonpos_iff] at this
      rw [this]
      exact (Near.refl 0).mono (by omega)
    · have := hm.rnd y
      have hδ : |m.rnd y / y - 1| ≤ u := by
        rw [div_sub_one hy, abs_div, div_le_iff₀ (abs_pos.2 hy)]
        exact this
      obtain ⟨h2, h3⟩ := abs_le.1 hδ
      refine ⟨m.rnd y / y, by field_simp, by rw [pow_one]; linarith, ?_⟩
      rw [pow_one]
      nlinarith [u_pos, u_lt]
  obtain ⟨θ, e, -⟩ := id h
  have := h.mul (h1.div (Near.refl y))
  by_cases hy : y = 0
  · subst hy
    have h0 := hm.rnd 0
    simp only [abs_zero, mul_zero, sub_zero, abs_nonpos_iff] at h0
    rw [h0]
    exact h.mono (by omega)
  · have hx : y * (m.rnd y / y) = m.rnd y := by field_simp
    have hy' : x * (y / y) = x := by rw [div_self hy, mul_one]
    rw [hx, hy'] at this
    simpa using this

theorem Near.pow {m : Machine} (hm : Accurate m) (x : ℝ) (n : ℕ) : Near 3 (m.pow x n) (x ^ n) := by
  have := hm.pow x n
  by_cases hx : x ^ n = 0
  · rw [hx] at this ⊢
    simp only [abs_zero, mul_zero, sub_zero, abs_nonpos_iff] at this
    rw [this]
    exact (Near.refl 0).mono (by omega)
  · have hδ : |m.pow x n / x ^ n - 1| ≤ 2 * u := by
      rw [div_sub_one hx, abs_div, div_le_iff₀ (abs_pos.2 hx)]
      exact this
    obtain ⟨h2, h3⟩ := abs_le.1 hδ
    have hu := u_pos
    have hu1 : u < 1 / 100 := by unfold u; norm_num
    refine ⟨m.pow x n / x ^ n, by field_simp, ?_, ?_⟩
    · have h4 : (1 - u) ^ 3 = 1 - 3 * u + u * u * (3 - u) := by ring
      have h5 : u * u * (3 - u) ≤ u * 1 := by
        rw [mul_assoc]
        exact mul_le_mul_of_nonneg_left (by nlinarith) hu.le
      linarith
    · have : (1 + 2 * u) * (1 - u) ^ 3 ≤ 1 := by
        have h4 : (1 + 2 * u) * (1 - u) ^ 3 = 1 - u * (1 + 3 * u - 5 * u ^ 2 + 2 * u ^ 3) := by ring
        have h5 : 0 ≤ u * (1 + 3 * u - 5 * u ^ 2 + 2 * u ^ 3) := mul_nonneg hu.le (by nlinarith [pow_pos hu 3])
        linarith
      exact (mul_le_mul_of_nonneg_right (by linarith) (pow_pos one_sub_pos 3).le).trans this

/-- The relative error. -/
theorem Near.error {n : ℕ} {x y : ℝ} (h : Near n y x) (hn : n * (n + 1) * u ≤ 1) : |y - x| ≤ (n + 1) * u * |x| := by
  obtain ⟨θ, rfl, h1, h2⟩ := h
  have hu := u_pos
  have hb : 1 - n * u ≤ (1 - u) ^ n := by
    have := one_add_mul_le_pow (a := -u) (by linarith [u_lt]) n
    simpa [sub_eq_add_neg] using this
  rw [show x * θ - x = (θ - 1) * x by ring, abs_mul]
  refine mul_le_mul_of_nonneg_right (abs_le.2 ⟨by linarith, ?_⟩) (abs_nonneg _)
  have hθ : 0 < θ := (pow_pos one_sub_pos n).trans_le h1
  have h3 : θ * (1 - n * u) ≤ 1 := (mul_le_mul_of_nonneg_left hb hθ.le).trans h2
  have h4 : 1 ≤ (1 + (n + 1) * u) * (1 - n * u) := by nlinarith
  have h5 : 0 < 1 - n * u := by
    by_contra hc
    push Not at hc
    nlinarith
  have := h3.trans h4
  linarith [le_of_mul_le_mul_right this h5]

/-! ### Branches -/

/-- A rounded branch and the exact one: the same exceptions, and `n` more errors. -/
def Follows (n : ℕ) (e r : Except PyErr (ℝ → ℝ)) : Prop :=
  (∃ x, e = .error x ∧ r = .error x) ∨
    ∃ f g, e = .ok f ∧ r = .ok g ∧ ∀ p x y, Near p y x → Near (p + n) (g y) (f x)

/-- Find the errors of a composed operation. -/
macro "near" hm:ident h:ident : tactic => `(tactic|
  (apply Near.mono
   rotate_left
   · repeat' first
       | exact $h
       | exact Near.refl _
       | exact Near.pow $hm _ _
       | apply Near.rnd $hm
       | apply Near.div
       | apply Near.mul
   · omega))

macro "follows" hm:ident : tactic => `(tactic|
  (split_ifs <;> first
    | exact .inl ⟨_, rfl, rfl⟩
    | (refine .inr ⟨_, _, rfl, rfl, fun p x y h => ?_⟩; near $hm h)))

variable {m : Machine} (hm : Accurate m) (k : Consts) (s : Str)
include hm

theorem energyToHartree_follows : Follows 3 (Units.energyToHartree k s) (energyToHartree m k s) := by
  unfold Units.energyToHartree energyToHartree; follows hm
theorem energyFromHartree_follows : Follows 3 (Units.energyFromHartree k s) (energyFromHartree m k s) := by
  unfold Units.energyFromHartree energyFromHartree; follows hm
theorem pressureToPa_follows : Follows 4 (Units.pressureToPa s) (pressureToPa m s) := by
  unfold Units.pressureToPa pressureToPa; follows hm
theorem pressureFromPa_follows : Follows 4 (Units.pressureFromPa s) (pressureFromPa m s) := by
  unfold Units.pressureFromPa pressureFromPa; follows hm
theorem freqToCm_follows : Follows 6 (Units.freqToCm k s) (freqToCm m k s) := by
  unfold Units.freqToCm freqToCm; follows hm
theorem freqFromCm_follows : Follows 6 (Units.freqFromCm k s) (freqFromCm m k s) := by
  unfold Units.freqFromCm freqFromCm; follows hm
theorem lengthToM_follows : Follows 1 (Units.lengthToM k s) (lengthToM m k s) := by
  unfold Units.lengthToM lengthToM; follows hm
theorem lengthFromM_follows : Follows 1 (Units.lengthFromM k s) (lengthFromM m k s) := by
  unfold Units.lengthFromM lengthFromM; follows hm
theorem volumeToM3_follows : Follows 4 (Units.volumeToM3 k s) (volumeToM3 m k s) := by
  unfold Units.volumeToM3 volumeToM3; follows hm
theorem volumeFromM3_follows : Follows 4 (Units.volumeFromM3 k s) (volumeFromM3 m k s) := by
  unfold Units.volumeFromM3 volumeFromM3; follows hm

omit hm in
theorem within_of {scales : List Scale} {f g f' g' : Str → Except PyErr (ℝ → ℝ)} {r : ℝ} {n p : ℕ} (hr : r ≠ 0)
    (hs : ∀ A ∈ scales, A.slope ≠ 0) (ho : ∀ A ∈ scales, A.offset = 0)
    (hf : ∀ s A, Means scales s A → f s = .ok (fun x => A.toRef x / r))
    (hf' : ∀ s, (∀ A, ¬ Means scales s A) → f s = .error .notImplemented)
    (hg : ∀ s B, Means scales s B → g s = .ok (fun y => (r * y - B.offset) / B.slope))
    (hg' : ∀ s, (∀ A, ¬ Means scales s A) → g s = .error .notImplemented)
    (ff : ∀ s, Follows n (f s) (f' s)) (gg : ∀ s, Follows p (g s) (g' s)) (hn : (n + p) * (n + p + 1) * u ≤ 1) :
    Spec.Within (fun x => (n + p + 1) * u * |x|) scales (convert f' g') := by
  have rejF : ∀ s, (∀ A, ¬ Means scales s A) → f' s = .error .notImplemented := by
    intro s h
    rcases ff s with ⟨e, h1, h2⟩ | ⟨F, F', h1, -⟩
    · rw [h2, ← h1, hf' s h]
    · rw [hf' s h] at h1; cases h1
  have rejG : ∀ s, (∀ A, ¬ Means scales s A) → g' s = .error .notImplemented := by
    intro s h
    rcases gg s with ⟨e, h1, h2⟩ | ⟨F, F', h1, -⟩
    · rw [h2, ← h1, hg' s h]
    · rw [hg' s h] at h1; cases h1
  have okF : ∀ s A, Means scales s A → ∃ F', f' s = .ok F' ∧ ∀ x, Near n (F' x) (A.toRef x / r) := by
    intro s A h
    rcases ff s with ⟨e, h1, -⟩ | ⟨F, F', h1, h2, h3⟩
    · rw [hf s A h] at h1; cases h1
    · rw [hf s A h] at h1
      cases h1
      exact ⟨F', h2, fun x => by simpa using h3 0 x x (Near.refl x)⟩
  have okG : ∀ s B, Means scales s B → ∃ G', g' s = .ok G' ∧
      ∀ q x y, Near q y x → Near (q + p) (G' y) ((r * x - B.offset) / B.slope) := by
    intro s A h
    rcases gg s with ⟨e, h1, -⟩ | ⟨F, F', h1, h2, h3⟩
    · rw [hg s A h] at h1; cases h1
    · rw [hg s A h] at h1
      cases h1
      exact ⟨F', h2, h3⟩
  have ok : ∀ v a b A B, Means scales a A → Means scales b B → ∃ w, convert f' g' v a b = .ok w ∧
      List.Forall₂ (fun x y => |B.toRef y - A.toRef x| ≤ (n + p + 1) * u * |A.toRef x|) v w := by
    intro v a b A B hA hB
    obtain ⟨F, h1, h2⟩ := okF a A hA
    obtain ⟨G, h3, h4⟩ := okG b B hB
    refine ⟨(v.map F).map G, by simp [convert, h1, h3, bind, Except.bind, pure, Except.pure], ?_⟩
    rw [List.map_map, List.forall₂_map_right_iff, List.forall₂_same]
    intro x _
    have := (h4 n _ _ (h2 x)).error (by exact_mod_cast hn)
    have hB0 := hs B hB.1
    rw [mul_div_cancel₀ _ hr, ho B hB.1, sub_zero] at this
    simp only [Function.comp]
    have e1 : B.toRef (G (F x)) - A.toRef x = (G (F x) - A.toRef x / B.slope) * B.slope := by
      rw [Scale.toRef, ho B hB.1, add_zero, sub_mul, div_mul_cancel₀ _ hB0, mul_comm]
    rw [e1, abs_mul]
    refine (mul_le_mul_of_nonneg_right this (abs_nonneg _)).trans_eq ?_
    rw [mul_assoc, ← abs_mul, div_mul_cancel₀ _ hB0]
    push_cast
    ring
  constructor
  · intro v a b
    constructor
    · rintro ⟨w, hw⟩
      by_contra hc
      rw [not_and_or, not_exists, not_exists] at hc
      by_cases ha : ∃ A, Means scales a A
      · obtain ⟨A, hA⟩ := ha
        rcases hc with hc | hc
        · exact hc A hA
        · obtain ⟨F, h1, -⟩ := okF a A hA
          simp [convert, h1, rejG b hc, bind, Except.bind] at hw
      · rw [not_exists] at ha
        simp [convert, rejF a ha, bind, Except.bind] at hw
    · rintro ⟨⟨A, hA⟩, B, hB⟩
      obtain ⟨w, h, -⟩ := ok v a b A B hA hB
      exact ⟨w, h⟩
  · intro v a b hc
    by_cases ha : ∃ A, Means scales a A
    · obtain ⟨A, hA⟩ := ha
      rcases hc with hc | hc
      · exact absurd hA (hc A)
      · obtain ⟨F, h1, -⟩ := okF a A hA
        simp [convert, h1, rejG b hc, bind, Except.bind]
    · rw [not_exists] at ha
      simp [convert, rejF a ha, bind, Except.bind]
  · intro v a b w A B hw hA hB
    obtain ⟨w', h, h'⟩ := ok v a b A B hA hB
    rw [h] at hw
    cases hw
    exact h'

/-! ### Energy densities -/

/-- The same for a chain of in-place operations. -/
def ChainFollows (n : ℕ) (e r : Option (ℝ → ℝ)) : Prop :=
  (e = none ∧ r = none) ∨ ∃ f g, e = some f ∧ r = some g ∧ ∀ p x y, Near p y x → Near (p + n) (g y) (f x)

macro "chainFollows" hm:ident : tactic => `(tactic|
  (simp only [chain]
   split_ifs <;> first
    | exact .inl ⟨rfl, rfl⟩
    | (refine .inr ⟨_, _, rfl, rfl, fun p x y h => ?_⟩; near $hm h)))

theorem e2pEnergy_follows : ChainFollows 1 (chain (Units.e2pEnergy k) s) (chain (e2pEnergy m k) s) := by
  unfold Units.e2pEnergy e2pEnergy; chainFollows hm
theorem e2pVolume_follows : ChainFollows 4 (chain (Units.e2pVolume k) s) (chain (e2pVolume m k) s) := by
  unfold Units.e2pVolume e2pVolume; chainFollows hm
theorem e2pPressure_follows : ChainFollows 4 (chain Units.e2pPressure s) (chain (e2pPressure m) s) := by
  unfold Units.e2pPressure e2pPressure; chainFollows hm
theorem p2eEnergy_follows : ChainFollows 1 (chain (Units.p2eEnergy k) s) (chain (p2eEnergy m k) s) := by
  unfold Units.p2eEnergy p2eEnergy; chainFollows hm
theorem p2eVolume_follows : ChainFollows 4 (chain (Units.p2eVolume k) s) (chain (p2eVolume m k) s) := by
  unfold Units.p2eVolume p2eVolume; chainFollows hm
theorem p2ePressure_follows : ChainFollows 4 (chain Units.p2ePressure s) (chain (p2ePressure m) s) := by
  unfold Units.p2ePressure p2ePressure; chainFollows hm

omit hm in
theorem finish_follows (v : PyVal) {a b c a' b' c' : List (List Str × (ℝ → ℝ))} {s t r : Str} {n p q : ℕ}
    (ha : ChainFollows n (chain a s) (chain a' s)) (hb : ChainFollows p (chain b t) (chain b' t))
    (hc : ChainFollows q (chain c r) (chain c' r)) :
    (∀ e, (finish v (run3 (step a s) (step b t) (step c r) v.floats)).2 = .error e →
      (finish v (run3 (step a' s) (step b' t) (step c' r) v.floats)).2 = .error e) ∧
    ∀ w, (finish v (run3 (step a s) (step b t) (step c r) v.floats)).2 = .ok w →
      ∃ w', (finish v (run3 (step a' s) (step b' t) (step c' r) v.floats)).2 = .ok w' ∧
        List.Forall₂ (fun x y => Near (n + p + q) y x) w w' := by
  rcases ha with ⟨ha, ha'⟩ | ⟨f, f', ha, ha', hf⟩
  · simp [run3, step, ha, ha', finish]
  rcases hfl : v.floats with _ | l
  · simp [run3, step, ha, ha', finish, inplace]
  rcases hb with ⟨hb, hb'⟩ | ⟨g, g', hb, hb', hg⟩
  · simp [run3, step, ha, ha', hb, hb', inplace, finish]
  rcases hc with ⟨hc, hc'⟩ | ⟨h, h', hc, hc', hh⟩
  · simp [run3, step, ha, ha', hb, hb', hc, hc', inplace, finish]
  simp only [run3, step, ha, ha', hb, hb', hc, hc', inplace, finish]
  refine ⟨fun e he => (by cases he), fun w hw => ⟨_, rfl, ?_⟩⟩
  cases hw
  rw [List.map_map, List.map_map, List.map_map, List.map_map, List.forall₂_map_left_iff, List.forall₂_map_right_iff,
    List.forall₂_same]
  intro x _
  have := hh _ _ _ (hg _ _ _ (hf 0 x x (Near.refl x)))
  simpa using this

/-! ### Temperatures -/

omit hm in
theorem abs_rnd (hm : Accurate m) {x y e : ℝ} (h : |y - x| ≤ e) : |m.rnd y - x| ≤ e + u * (|x| + e) := by
  have h1 := hm.rnd y
  have h2 : |y| ≤ |x| + e := by
    have := abs_sub_abs_le_abs_sub y x
    linarith
  have h3 : |m.rnd y - x| ≤ |m.rnd y - y| + |y - x| := abs_sub_le _ _ _
  nlinarith [u_pos, mul_le_mul_of_nonneg_left h2 u_pos.le]

theorem abs_zero : |zeroCelsius m - 273.15| ≤ 273.15 * u := by
  have := hm.rnd 273.15
  rw [abs_of_pos (by norm_num : (0:ℝ) < 273.15)] at this
  rw [zeroCelsius]
  linarith

theorem tempTo_follows : (∃ x, Units.tempToKelvin s = .error x ∧ tempToKelvin m s = .error x) ∨
    ∃ f g, Units.tempToKelvin s = .ok f ∧ tempToKelvin m s = .ok g ∧
      ∀ x, |g x - f x| ≤ 6 * u * (|f x| + 275) := by
  have hz := abs_zero hm
  have hu := u_pos
  have hu1 : u < 1 / 10 ^ 6 := by unfold u; norm_num
  unfold Units.tempToKelvin tempToKelvin
  split_ifs
  · refine .inr ⟨_, _, rfl, rfl, fun x => ?_⟩
    have := abs_rnd hm (x := x + 273.15) (y := x + zeroCelsius m) (e := 273.15 * u) (by simpa using hz)
    rw [Units.zeroCelsius]
    have h0 := abs_nonneg (x + 273.15)
    nlinarith [mul_nonneg hu.le h0]
  · exact .inr ⟨_, _, rfl, rfl, fun x => by simp; positivity⟩
  · refine .inr ⟨_, _, rfl, rfl, fun x => ?_⟩
    have h1 : Near 3 (m.rnd (m.rnd (m.rnd (x - 32) * 5) / 9)) ((x - 32) * 5 / 9) := by
      have h : Near 0 x x := Near.refl x
      near hm h
    have h2 := h1.error (by norm_num [u])
    rw [Units.zeroCelsius]
    set a := (x - 32) * 5 / 9
    have ha : |a| ≤ |a + 273.15| + 273.15 := by
      have := abs_sub_abs_le_abs_sub a (a + 273.15)
      rw [show a - (a + 273.15) = -273.15 by ring, abs_neg, abs_of_pos (by norm_num : (0:ℝ) < 273.15)] at this
      linarith
    set T := a + 273.15
    have h3 : |m.rnd (m.rnd (m.rnd (x - 32) * 5) / 9) + zeroCelsius m - T| ≤ 4 * u * |a| + 273.15 * u := by
      rw [show m.rnd (m.rnd (m.rnd (x - 32) * 5) / 9) + zeroCelsius m - T =
        (m.rnd (m.rnd (m.rnd (x - 32) * 5) / 9) - a) + (zeroCelsius m - 273.15) by ring]
      refine (abs_add_le _ _).trans (add_le_add ?_ hz)
      push_cast at h2
      linarith
    have h4 := abs_rnd hm h3
    have h0 := abs_nonneg T
    have h5 : u * |a| ≤ u * (|T| + 273.15) := mul_le_mul_of_nonneg_left ha hu.le
    nlinarith [mul_nonneg hu.le h0, mul_le_mul_of_nonneg_left h5 hu.le, mul_nonneg hu.le (mul_nonneg hu.le h0)]
  · refine .inr ⟨_, _, rfl, rfl, fun x => ?_⟩
    have h1 : Near 2 (m.rnd (m.rnd (x * 5) / 9)) (x * 5 / 9) := by
      have h : Near 0 x x := Near.refl x
      near hm h
    have h2 := h1.error (by norm_num [u])
    push_cast at h2
    nlinarith [abs_nonneg (x * 5 / 9), mul_nonneg hu.le (abs_nonneg (x * 5 / 9))]
  · exact .inl ⟨_, rfl, rfl⟩

theorem tempFrom_follows : (∃ x, Units.tempFromKelvin s = .error x ∧ tempFromKelvin m s = .error x) ∨
    ∃ f g c, Units.tempFromKelvin s = .ok f ∧ tempFromKelvin m s = .ok g ∧ 0 < c ∧ (∀ x y, c * (f x - f y) = x - y) ∧
      ∀ t T, |t - T| ≤ 6 * u * (|T| + 275) → c * |g t - f T| ≤ 12 * u * (|T| + 300) := by
  have hz := abs_zero hm
  have hu := u_pos
  have hu1 : u < 1 / 10 ^ 6 := by unfold u; norm_num
  unfold Units.tempFromKelvin tempFromKelvin
  have hsub : ∀ t T, |t - T| ≤ 6 * u * (|T| + 275) →
      |m.rnd (t - zeroCelsius m) - (T - 273.15)| ≤ 7.01 * u * |T| + 2200 * u := by
    intro t T h
    have h0 := abs_nonneg T
    have h1 : |t - zeroCelsius m - (T - 273.15)| ≤ 6 * u * (|T| + 275) + 273.15 * u := by
      rw [show t - zeroCelsius m - (T - 273.15) = (t - T) - (zeroCelsius m - 273.15) by ring]
      exact (abs_sub _ _).trans (add_le_add h hz)
    have h2 := abs_rnd hm h1
    have h3 : |T - 273.15| ≤ |T| + 273.15 := by
      have := abs_sub T 273.15
      rwa [abs_of_pos (by norm_num : (0:ℝ) < 273.15)] at this
    have h4 : u * |T - 273.15| ≤ u * (|T| + 273.15) := mul_le_mul_of_nonneg_left h3 hu.le
    have h5 : u * (u * |T|) ≤ 1 / 10 ^ 6 * (u * |T|) := mul_le_mul_of_nonneg_right hu1.le (mul_nonneg hu.le h0)
    nlinarith [mul_nonneg hu.le h0]
  split_ifs
  · refine .inr ⟨_, _, 1, rfl, rfl, one_pos, fun x y => by ring, fun t T h => ?_⟩
    rw [Units.zeroCelsius, one_mul]
    have := hsub t T h
    nlinarith [mul_nonneg hu.le (abs_nonneg T)]
  · refine .inr ⟨_, _, 1, rfl, rfl, one_pos, fun x y => by ring, fun t T h => ?_⟩
    rw [one_mul]
    nlinarith [mul_nonneg hu.le (abs_nonneg T)]
  · refine .inr ⟨_, _, 5 / 9, rfl, rfl, by norm_num, fun x y => by ring, fun t T h => ?_⟩
    have hd := hsub t T h
    rw [Units.zeroCelsius]
    set d := m.rnd (t - zeroCelsius m)
    have h1 : Near 2 (m.rnd (m.rnd (d * 9) / 5)) (d * 9 / 5) := by
      have h : Near 0 d d := Near.refl d
      near hm h
    have h2 := h1.error (by norm_num [u])
    have h0 := abs_nonneg T
    have h6 : |T - 273.15| ≤ |T| + 273.15 := by
      have := abs_sub T 273.15
      rwa [abs_of_pos (by norm_num : (0:ℝ) < 273.15)] at this
    have h7 : |d| ≤ |T| + 273.15 + (7.01 * u * |T| + 2200 * u) := by
      have := abs_sub_abs_le_abs_sub d (T - 273.15)
      linarith
    have h8 : u * (u * |T|) ≤ 1 / 10 ^ 6 * (u * |T|) := mul_le_mul_of_nonneg_right hu1.le (mul_nonneg hu.le h0)
    have h9 : u * |d| ≤ u * (|T| + 273.15 + (7.01 * u * |T| + 2200 * u)) := mul_le_mul_of_nonneg_left h7 hu.le
    have h10 : |d * 9 / 5| = 9 / 5 * |d| := by
      rw [show d * 9 / 5 = 9 / 5 * d by ring, abs_mul, abs_of_pos (by norm_num : (0:ℝ) < 9 / 5)]
    push_cast at h2
    rw [h10] at h2
    -- before the last rounding
    have h3 : |m.rnd (m.rnd (d * 9) / 5) + 32 - ((T - 273.15) * 9 / 5 + 32)| ≤
        9 / 5 * (10.02 * u * |T| + 3021 * u) := by
      rw [show m.rnd (m.rnd (d * 9) / 5) + 32 - ((T - 273.15) * 9 / 5 + 32) =
        (m.rnd (m.rnd (d * 9) / 5) - d * 9 / 5) + 9 / 5 * (d - (T - 273.15)) by ring]
      refine (abs_add_le _ _).trans ?_
      rw [abs_mul, abs_of_pos (by norm_num : (0:ℝ) < 9 / 5)]
      nlinarith [mul_nonneg hu.le h0]
    have h4 := abs_rnd hm h3
    have h5 : |(T - 273.15) * 9 / 5 + 32| ≤ 9 / 5 * (|T| + 273.15) + 32 := by
      refine (abs_add_le _ _).trans ?_
      rw [show (T - 273.15) * 9 / 5 = 9 / 5 * (T - 273.15) by ring, abs_mul, abs_of_pos (by norm_num : (0:ℝ) < 9 / 5),
        abs_of_pos (by norm_num : (0:ℝ) < 32)]
      linarith
    have h11 := mul_le_mul_of_nonneg_left h5 hu.le
    nlinarith [mul_nonneg hu.le h0]
  · refine .inr ⟨_, _, 5 / 9, rfl, rfl, by norm_num, fun x y => by ring, fun t T h => ?_⟩
    have h1 : Near 2 (m.rnd (m.rnd (t * 9) / 5)) (t * 9 / 5) := by
      have h : Near 0 t t := Near.refl t
      near hm h
    have h2 := h1.error (by norm_num [u])
    have h0 := abs_nonneg T
    push_cast at h2
    have h10 : |t * 9 / 5| = 9 / 5 * |t| := by
      rw [show t * 9 / 5 = 9 / 5 * t by ring, abs_mul, abs_of_pos (by norm_num : (0:ℝ) < 9 / 5)]
    rw [h10] at h2
    have h7 : |t| ≤ |T| + 6 * u * (|T| + 275) := by
      have := abs_sub_abs_le_abs_sub t T
      linarith
    have h9 := mul_le_mul_of_nonneg_left h7 hu.le
    have h8 : u * (u * |T|) ≤ 1 / 10 ^ 6 * (u * |T|) := mul_le_mul_of_nonneg_right hu1.le (mul_nonneg hu.le h0)
    have h3 : |m.rnd (m.rnd (t * 9) / 5) - T * 9 / 5| ≤ 3 * u * (9 / 5 * |t|) + 9 / 5 * |t - T| := by
      rw [show m.rnd (m.rnd (t * 9) / 5) - T * 9 / 5 = (m.rnd (m.rnd (t * 9) / 5) - t * 9 / 5) + 9 / 5 * (t - T) by ring]
      refine (abs_add_le _ _).trans ?_
      rw [abs_mul, abs_of_pos (by norm_num : (0:ℝ) < 9 / 5)]
      linarith
    nlinarith [mul_nonneg hu.le h0]
  · exact .inl ⟨_, rfl, rfl⟩

end Verif.Units.Rounded
