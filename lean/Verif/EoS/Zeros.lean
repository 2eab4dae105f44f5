/- Counting zeros with Rolle's theorem; polynomials and exponential sums that agree at many points. -/
import Mathlib.Analysis.Calculus.LocalExtr.Rolle
import Mathlib.Analysis.SpecialFunctions.Pow.Deriv
import Mathlib.Order.Fin.Basic
import Mathlib.Data.Finset.Sort
import Verif.Tac

namespace Verif.EoS

/-- Between points with equal values lie zeros of the derivative, one fewer. -/
theorem rolle_chain {f f' : ℝ → ℝ} {s : Set ℝ} (hs : s.OrdConnected)
    (hf : ∀ x ∈ s, HasDerivAt f (f' x) x) {n : ℕ} {x : Fin (n + 2) → ℝ} (hx : StrictMono x)
    (hxs : ∀ i, x i ∈ s) (h0 : ∀ i j, f (x i) = f (x j)) :
    ∃ y : Fin (n + 1) → ℝ, StrictMono y ∧ (∀ i, y i ∈ s) ∧ ∀ i, f' (y i) = 0 := by
  have key : ∀ i : Fin (n + 1), ∃ y, x i.castSucc < y ∧ y < x i.succ ∧ f' y = 0 := by
    intro i
    have hlt : x i.castSucc < x i.succ := hx Fin.castSucc_lt_succ
    have hsub : ∀ z ∈ Set.Icc (x i.castSucc) (x i.succ), z ∈ s := fun z hz =>
      hs.out (hxs _) (hxs _) hz
    obtain ⟨c, hc, h⟩ := exists_hasDerivAt_eq_zero hlt
      (fun z hz => (hf z (hsub z hz)).continuousAt.continuousWithinAt) (h0 _ _)
      (fun z hz => hf z (hsub z ⟨hz.1.le, hz.2.le⟩))
    exact ⟨c, hc.1, hc.2, h⟩
  choose y h1 h2 h3 using key
  refine ⟨y, ?_, fun i => hs.out (hxs _) (hxs _) ⟨(h1 i).le, (h2 i).le⟩, h3⟩
  rw [Fin.strictMono_iff_lt_succ]
  intro i
  refine (h2 i.castSucc).trans ?_
  rw [Fin.succ_castSucc]
  exact h1 i.succ

/-- Distinct points can be listed in increasing order. -/
theorem sorted_points {n m : ℕ} {V : Fin n → ℝ} (hV : Function.Injective V) (hm : m ≤ n) :
    ∃ σ : Fin m → Fin n, StrictMono fun i => V (σ i) := by
  classical
  have hcard : (Finset.univ.image V).card = n := by
    rw [Finset.card_image_of_injective _ hV, Finset.card_univ, Fintype.card_fin]
  let e := (Finset.univ.image V).orderEmbOfFin hcard
  have hmem : ∀ i, ∃ k, V k = e i := fun i => by
    have := (Finset.univ.image V).orderEmbOfFin_mem hcard i
    obtain ⟨k, _, hk⟩ := Finset.mem_image.1 this
    exact ⟨k, hk⟩
  choose k hk using hmem
  refine ⟨fun i => k (Fin.castLE hm i), fun i j hij => ?_⟩
  simp only [hk]
  exact e.strictMono (by simpa using hij)

/-! ### cubics -/

/-- Two cubics that agree at four points have equal coefficients. -/
theorem cubic_unique {a b c d a' b' c' d' : ℝ} {x : Fin 4 → ℝ} (hx : Function.Injective x)
    (h : ∀ i, a + b * x i + c * x i ^ 2 + d * x i ^ 3 = a' + b' * x i + c' * x i ^ 2 + d' * x i ^ 3) :
    a = a' ∧ b = b' ∧ c = c' ∧ d = d' := by
  have n01 : x 1 - x 0 ≠ 0 := sub_ne_zero.2 (hx.ne (by decide))
  have n02 : x 2 - x 0 ≠ 0 := sub_ne_zero.2 (hx.ne (by decide))
  have n03 : x 3 - x 0 ≠ 0 := sub_ne_zero.2 (hx.ne (by decide))
  have n12 : x 2 - x 1 ≠ 0 := sub_ne_zero.2 (hx.ne (by decide))
  have n13 : x 3 - x 1 ≠ 0 := sub_ne_zero.2 (hx.ne (by decide))
  have n23 : x 3 - x 2 ≠ 0 := sub_ne_zero.2 (hx.ne (by decide))
  have h0 := h 0
  have h1 := h 1
  have h2 := h 2
  have h3 := h 3
  have e1 : (b - b') + (c - c') * (x 0 + x 1) + (d - d') * (x 0 ^ 2 + x 0 * x 1 + x 1 ^ 2) = 0 := by
    refine mul_left_cancel₀ n01 ?_
    linear_combination h1 - h0
  have e2 : (b - b') + (c - c') * (x 0 + x 2) + (d - d') * (x 0 ^ 2 + x 0 * x 2 + x 2 ^ 2) = 0 := by
    refine mul_left_cancel₀ n02 ?_
    linear_combination h2 - h0
  have e3 : (b - b') + (c - c') * (x 0 + x 3) + (d - d') * (x 0 ^ 2 + x 0 * x 3 + x 3 ^ 2) = 0 := by
    refine mul_left_cancel₀ n03 ?_
    linear_combination h3 - h0
  have f1 : (c - c') + (d - d') * (x 0 + x 1 + x 2) = 0 := by
    refine mul_left_cancel₀ n12 ?_
    linear_combination e2 - e1
  have f2 : (c - c') + (d - d') * (x 0 + x 1 + x 3) = 0 := by
    refine mul_left_cancel₀ n13 ?_
    linear_combination e3 - e1
  have hd : d - d' = 0 := by
    refine mul_left_cancel₀ n23 ?_
    linear_combination f2 - f1
  have hc : c - c' = 0 := by rw [hd] at f1; linarith
  have hb : b - b' = 0 := by rw [hd, hc] at e1; linarith
  have hd' : d = d' := by linarith
  have hc' : c = c' := by linarith
  have hb' : b = b' := by linarith
  refine ⟨?_, hb', hc', hd'⟩
  rw [hb', hc', hd'] at h0
  linarith

/-- Two quadratics that agree at three points have equal coefficients. -/
theorem quadratic_unique {a b c a' b' c' : ℝ} {x : Fin 3 → ℝ} (hx : Function.Injective x)
    (h : ∀ i, a + b * x i + c * x i ^ 2 = a' + b' * x i + c' * x i ^ 2) :
    a = a' ∧ b = b' ∧ c = c' := by
  have n01 : x 1 - x 0 ≠ 0 := sub_ne_zero.2 (hx.ne (by decide))
  have n02 : x 2 - x 0 ≠ 0 := sub_ne_zero.2 (hx.ne (by decide))
  have n12 : x 2 - x 1 ≠ 0 := sub_ne_zero.2 (hx.ne (by decide))
  have h0 := h 0
  have h1 := h 1
  have h2 := h 2
  have e1 : (b - b') + (c - c') * (x 0 + x 1) = 0 := by
    refine mul_left_cancel₀ n01 ?_
    linear_combination h1 - h0
  have e2 : (b - b') + (c - c') * (x 0 + x 2) = 0 := by
    refine mul_left_cancel₀ n02 ?_
    linear_combination h2 - h0
  have hc : c - c' = 0 := by
    refine mul_left_cancel₀ n12 ?_
    linear_combination e2 - e1
  have hb : b - b' = 0 := by rw [hc] at e1; linarith
  have hc' : c = c' := by linarith
  have hb' : b = b' := by linarith
  refine ⟨?_, hb', hc'⟩
  rw [hb', hc'] at h0
  linarith

/-- A cubic has at most one minimum: the parameters of `e + p (x - r)² + q (x - r)³` with `p > 0` can be
read off the curve. -/
theorem cubic_minimum {e p q r e' p' q' r' : ℝ} (hp : 0 < p) (hp' : 0 < p') {x : Fin 4 → ℝ}
    (hx : Function.Injective x)
    (h : ∀ i, e + p * (x i - r) ^ 2 + q * (x i - r) ^ 3 = e' + p' * (x i - r') ^ 2 + q' * (x i - r') ^ 3) :
    e = e' ∧ p = p' ∧ q = q' ∧ r = r' := by
  obtain ⟨c0, c1, c2, c3⟩ := cubic_unique (a := e + p * r ^ 2 - q * r ^ 3) (b := -2 * p * r + 3 * q * r ^ 2)
    (c := p - 3 * q * r) (d := q) (a' := e' + p' * r' ^ 2 - q' * r' ^ 3)
    (b' := -2 * p' * r' + 3 * q' * r' ^ 2) (c' := p' - 3 * q' * r') (d' := q') hx
    (fun i => by linear_combination h i)
  subst c3
  have hr : r = r' := by
    have e1 : p = p' - 3 * q * (r' - r) := by linarith
    have e2 : (r' - r) * (p + p') = 0 := by
      rw [e1] at c1
      have : p' = p + 3 * q * (r' - r) := by linarith
      nlinarith
    rcases mul_eq_zero.1 e2 with h | h
    · linarith
    · linarith
  subst hr
  have hpp : p = p' := by linarith
  subst hpp
  exact ⟨by linarith, rfl, rfl, rfl⟩

/-! ### powers -/

theorem line_unique {a b : ℝ} {x y : ℝ} (hxy : x ≠ y) (h1 : a + b * x = 0) (h2 : a + b * y = 0) :
    a = 0 ∧ b = 0 := by
  have hb : b = 0 := by
    have : b * (x - y) = 0 := by linarith
    rcases mul_eq_zero.1 this with h | h
    · exact h
    · exact absurd (sub_eq_zero.1 h) hxy
  subst hb
  exact ⟨by linarith, rfl⟩

/-- `α y ^ a = β y ^ b` at two positive points with `α ≠ 0`, `β ≠ 0` forces `a = b`. -/
theorem power_ratio {α β a b : ℝ} (hα : α ≠ 0) {y z : ℝ} (hy : 0 < y) (hz : 0 < z)
    (hyz : y ≠ z) (h1 : α * y ^ a = β * y ^ b) (h2 : α * z ^ a = β * z ^ b) : a = b := by
  by_contra hab
  have e : ∀ {t : ℝ}, 0 < t → α * t ^ a = β * t ^ b → t ^ (a - b) = β / α := by
    intro t ht h
    rw [Real.rpow_sub ht, div_eq_div_iff (Real.rpow_pos_of_pos ht b).ne' hα]
    linarith
  exact hyz (Real.rpow_left_injOn (sub_ne_zero.2 hab) hy.le hz.le ((e hy h1).trans (e hz h2).symm))

/-- Curves `A + B V + C V ^ s` with `s` neither zero nor one that agree at four volumes are equal. -/
theorem power_curve_unique {A B C s A' B' C' s' : ℝ} (hC : C ≠ 0) (hC' : C' ≠ 0)
    (h0 : s ≠ 0) (h1 : s ≠ 1) (h0' : s' ≠ 0) (h1' : s' ≠ 1) {x : Fin 4 → ℝ} (hx : StrictMono x)
    (hpos : ∀ i, 0 < x i)
    (h : ∀ i, A + B * x i + C * x i ^ s = A' + B' * x i + C' * x i ^ s') :
    A = A' ∧ B = B' ∧ C = C' ∧ s = s' := by
  set g : ℝ → ℝ := fun V => (A - A') + (B - B') * V + (C * V ^ s - C' * V ^ s') with hg
  set g1 : ℝ → ℝ := fun V => (B - B') + (C * s * V ^ (s - 1) - C' * s' * V ^ (s' - 1)) with hg1
  set g2 : ℝ → ℝ := fun V => C * s * (s - 1) * V ^ (s - 1 - 1) - C' * s' * (s' - 1) * V ^ (s' - 1 - 1)
    with hg2
  have hp : ∀ (a : ℝ) {V : ℝ}, 0 < V → HasDerivAt (fun V : ℝ => V ^ a) (a * V ^ (a - 1)) V :=
    fun a V hV => Real.hasDerivAt_rpow_const (.inl hV.ne')
  have hd1 : ∀ V ∈ Set.Ioi (0 : ℝ), HasDerivAt g (g1 V) V := by
    intro V hV
    have : HasDerivAt g _ V := ((hasDerivAt_id V).const_mul (B - B') |>.const_add (A - A')).add
      (((hp s hV).const_mul C).sub ((hp s' hV).const_mul C'))
    refine this.congr_deriv ?_
    simp only [hg1]; ring
  have hd2 : ∀ V ∈ Set.Ioi (0 : ℝ), HasDerivAt g1 (g2 V) V := by
    intro V hV
    have : HasDerivAt g1 _ V := (((hp (s - 1) hV).const_mul (C * s)).sub
      ((hp (s' - 1) hV).const_mul (C' * s'))).const_add (B - B')
    refine this.congr_deriv ?_
    simp only [hg2]; ring
  have hz : ∀ i, g (x i) = 0 := fun i => by simp only [hg]; linarith [h i]
  obtain ⟨y, hy, hys, hy0⟩ := rolle_chain Set.ordConnected_Ioi hd1 hx hpos
    fun i j => (hz i).trans (hz j).symm
  obtain ⟨w, hw, hws, hw0⟩ := rolle_chain Set.ordConnected_Ioi hd2 hy hys
    fun i j => (hy0 i).trans (hy0 j).symm
  have hne : w 0 ≠ w 1 := (hw (by decide : (0 : Fin 2) < 1)).ne
  have eq : ∀ i, C * s * (s - 1) * w i ^ (s - 1 - 1) = C' * s' * (s' - 1) * w i ^ (s' - 1 - 1) :=
    fun i => by have := hw0 i; simp only [hg2] at this; linarith
  have hα : C * s * (s - 1) ≠ 0 := mul_ne_zero (mul_ne_zero hC h0) (sub_ne_zero.2 h1)
  have hs : s = s' := by
    have := power_ratio hα (hws 0) (hws 1) hne (eq 0) (eq 1)
    linarith
  subst hs
  have hCC : C = C' := by
    have hpw : (w 0) ^ (s - 1 - 1) ≠ 0 := (Real.rpow_pos_of_pos (hws 0) _).ne'
    have := mul_right_cancel₀ hpw (eq 0)
    exact mul_right_cancel₀ h0 (mul_right_cancel₀ (sub_ne_zero.2 h1) this)
  subst hCC
  have hx01 : x 0 ≠ x 1 := (hx (by decide : (0 : Fin 4) < 1)).ne
  obtain ⟨ha, hb⟩ := line_unique (a := A - A') (b := B - B') hx01 (by linarith [h 0]) (by linarith [h 1])
  exact ⟨by linarith, by linarith, rfl, rfl⟩

/-- Curves `A + C V ^ s` with `s ≠ 0`, `C ≠ 0` that agree at three volumes are equal. -/
theorem power_curve_unique' {A C s A' C' s' : ℝ} (hC : C ≠ 0) (hC' : C' ≠ 0)
    (h0 : s ≠ 0) (h0' : s' ≠ 0) {x : Fin 3 → ℝ} (hx : StrictMono x) (hpos : ∀ i, 0 < x i)
    (h : ∀ i, A + C * x i ^ s = A' + C' * x i ^ s') : A = A' ∧ C = C' ∧ s = s' := by
  set g : ℝ → ℝ := fun V => (A - A') + (C * V ^ s - C' * V ^ s') with hg
  set g1 : ℝ → ℝ := fun V => C * s * V ^ (s - 1) - C' * s' * V ^ (s' - 1) with hg1
  have hp : ∀ (a : ℝ) {V : ℝ}, 0 < V → HasDerivAt (fun V : ℝ => V ^ a) (a * V ^ (a - 1)) V :=
    fun a V hV => Real.hasDerivAt_rpow_const (.inl hV.ne')
  have hd1 : ∀ V ∈ Set.Ioi (0 : ℝ), HasDerivAt g (g1 V) V := by
    intro V hV
    have : HasDerivAt g _ V :=
      (((hp s hV).const_mul C).sub ((hp s' hV).const_mul C')).const_add (A - A')
    refine this.congr_deriv ?_
    simp only [hg1]; ring
  have hz : ∀ i, g (x i) = 0 := fun i => by simp only [hg]; linarith [h i]
  obtain ⟨w, hw, hws, hw0⟩ := rolle_chain Set.ordConnected_Ioi hd1 hx hpos
    fun i j => (hz i).trans (hz j).symm
  have hne : w 0 ≠ w 1 := (hw (by decide : (0 : Fin 2) < 1)).ne
  have eq : ∀ i, C * s * w i ^ (s - 1) = C' * s' * w i ^ (s' - 1) :=
    fun i => by have := hw0 i; simp only [hg1] at this; linarith
  have hα : C * s ≠ 0 := mul_ne_zero hC h0
  have hs : s = s' := by
    have := power_ratio hα (hws 0) (hws 1) hne (eq 0) (eq 1)
    linarith
  subst hs
  have hCC : C = C' := by
    have hpw : (w 0) ^ (s - 1) ≠ 0 := (Real.rpow_pos_of_pos (hws 0) _).ne'
    exact mul_right_cancel₀ h0 (mul_right_cancel₀ hpw (eq 0))
  subst hCC
  exact ⟨by linarith [h 0], rfl, rfl⟩

/-! ### a linear factor times an exponential -/

theorem hasDerivAt_expneg (k u : ℝ) : HasDerivAt (fun u : ℝ => Real.exp (-k * u)) (-k * Real.exp (-k * u)) u := by
  have h : HasDerivAt (fun u : ℝ => Real.exp (-k * u)) (Real.exp (-k * u) * (-k * 1)) u :=
    ((hasDerivAt_id u).const_mul (-k)).exp
  exact h.congr_deriv (by ring)

/-- Curves `D (u - r) exp (-k (u - r))` with `D > 0` that agree at four points are equal. -/
theorem linexp_unique {D k r D' k' r' : ℝ} (hD : 0 < D) (hD' : 0 < D') {x : Fin 4 → ℝ}
    (hx : StrictMono x)
    (h : ∀ i, D * (x i - r) * Real.exp (-k * (x i - r)) = D' * (x i - r') * Real.exp (-k' * (x i - r'))) :
    D = D' ∧ k = k' ∧ r = r' := by
  set b := D' * Real.exp (k' * r' - k * r) with hb
  have hbpos : 0 < b := mul_pos hD' (Real.exp_pos _)
  set m := k' - k with hm
  set g : ℝ → ℝ := fun u => D * (u - r) - b * ((u - r') * Real.exp (-m * u)) with hg
  set g1 : ℝ → ℝ := fun u => D - b * ((1 - m * (u - r')) * Real.exp (-m * u)) with hg1
  set g2 : ℝ → ℝ := fun u => -b * ((m * (m * (u - r') - 2)) * Real.exp (-m * u)) with hg2
  have hz : ∀ i, g (x i) = 0 := by
    intro i
    have h1 := h i
    have e1 : Real.exp (-k' * (x i - r')) =
        Real.exp (-k * (x i - r)) * (Real.exp (k' * r' - k * r) * Real.exp (-m * x i)) := by
      rw [← Real.exp_add, ← Real.exp_add]
      congr 1
      rw [hm]; ring
    rw [e1] at h1
    have hne := (Real.exp_pos (-k * (x i - r))).ne'
    have h2 : D * (x i - r) =
        D' * (x i - r') * (Real.exp (k' * r' - k * r) * Real.exp (-m * x i)) := by
      refine mul_right_cancel₀ hne ?_
      linarith
    simp only [hg, hb]
    linarith
  have hd1 : ∀ u ∈ (Set.univ : Set ℝ), HasDerivAt g (g1 u) u := by
    intro u _
    have : HasDerivAt g _ u := (((hasDerivAt_id u).sub_const r).const_mul D).sub
      ((((hasDerivAt_id u).sub_const r').mul (hasDerivAt_expneg m u)).const_mul b)
    refine this.congr_deriv ?_
    simp only [hg1, id]; ring
  have hd2 : ∀ u ∈ (Set.univ : Set ℝ), HasDerivAt g1 (g2 u) u := by
    intro u _
    have : HasDerivAt g1 _ u := (((((hasDerivAt_id u).sub_const r').const_mul m).const_sub 1).mul
      (hasDerivAt_expneg m u)).const_mul b |>.const_sub D
    refine this.congr_deriv ?_
    simp only [hg2, id]; ring
  obtain ⟨y, hy, hys, hy0⟩ := rolle_chain Set.ordConnected_univ hd1 hx (fun _ => trivial)
    fun i j => (hz i).trans (hz j).symm
  obtain ⟨w, hw, hws, hw0⟩ := rolle_chain Set.ordConnected_univ hd2 hy hys
    fun i j => (hy0 i).trans (hy0 j).symm
  have hne : w 0 ≠ w 1 := (hw (by decide : (0 : Fin 2) < 1)).ne
  have hm0 : m = 0 := by
    by_contra hmne
    have key : ∀ i, m * (w i - r') = 2 := by
      intro i
      have h1 := hw0 i
      simp only [hg2] at h1
      have h2 := (mul_eq_zero.1 h1).resolve_left (neg_ne_zero.2 hbpos.ne')
      have h3 := (mul_eq_zero.1 h2).resolve_right (Real.exp_pos _).ne'
      have h4 := (mul_eq_zero.1 h3).resolve_left hmne
      linarith
    have := (key 0).trans (key 1).symm
    have := mul_left_cancel₀ hmne this
    exact hne (by linarith)
  have hkk : k = k' := by rw [hm] at hm0; linarith
  have hx01 : x 0 ≠ x 1 := (hx (by decide : (0 : Fin 4) < 1)).ne
  have hl : ∀ i, (-D * r + b * r') + (D - b) * x i = 0 := by
    intro i
    have := hz i
    simp only [hg, hm0] at this
    simp at this
    linarith
  obtain ⟨h1, h2⟩ := line_unique hx01 (hl 0) (hl 1)
  have hDb : D = b := by linarith
  have hr : r = r' := by
    have : D * (r' - r) = 0 := by rw [← hDb] at h1; linarith
    have := (mul_eq_zero.1 this).resolve_left hD.ne'
    linarith
  refine ⟨?_, hkk, hr⟩
  rw [hDb, hb, hkk, hr, sub_self, Real.exp_zero, mul_one]

/-- Curves `E + M (1 - (1 + k (u - r)) exp (-k (u - r)))` with `M > 0`, `k ≠ 0` that agree at five points are
equal. -/
theorem vinet_curve_unique {E M k r E' M' k' r' : ℝ} (hM : 0 < M) (hM' : 0 < M') (hk : k ≠ 0)
    (hk' : k' ≠ 0) {x : Fin 5 → ℝ} (hx : StrictMono x)
    (h : ∀ i, E + M * (1 - (1 + k * (x i - r)) * Real.exp (-k * (x i - r))) =
      E' + M' * (1 - (1 + k' * (x i - r')) * Real.exp (-k' * (x i - r')))) :
    E = E' ∧ M = M' ∧ k = k' ∧ r = r' := by
  have hdc : ∀ (E M k r u : ℝ), HasDerivAt (fun u : ℝ => E + M * (1 - (1 + k * (u - r)) * Real.exp (-k * (u - r))))
      (M * k ^ 2 * (u - r) * Real.exp (-k * (u - r))) u := by
    intro E M k r u
    have he : HasDerivAt (fun u : ℝ => Real.exp (-k * (u - r))) (Real.exp (-k * (u - r)) * (-k * 1)) u :=
      (((hasDerivAt_id u).sub_const r).const_mul (-k)).exp
    have : HasDerivAt (fun u : ℝ => E + M * (1 - (1 + k * (u - r)) * Real.exp (-k * (u - r)))) _ u :=
      ((((((hasDerivAt_id u).sub_const r).const_mul k).const_add 1).mul he).const_sub 1).const_mul M
        |>.const_add E
    refine this.congr_deriv ?_
    simp only [id]; ring
  set g1 : ℝ → ℝ := fun u => M * k ^ 2 * (u - r) * Real.exp (-k * (u - r)) -
    M' * k' ^ 2 * (u - r') * Real.exp (-k' * (u - r')) with hg1
  obtain ⟨y, hy, _, hy0⟩ := rolle_chain (f' := g1) Set.ordConnected_univ
    (fun u _ => (hdc E M k r u).sub (hdc E' M' k' r' u)) hx (fun _ => trivial)
    (fun i j => by
      simp only [Pi.sub_apply]
      rw [h i, h j]; ring)
  obtain ⟨h1, h2, h3⟩ := linexp_unique (D := M * k ^ 2) (D' := M' * k' ^ 2) (k := k) (k' := k') (r := r)
    (r' := r') (by positivity) (by positivity) hy (fun i => by
      have := hy0 i; simp only [hg1] at this; linarith)
  subst h2 h3
  have hMM : M = M' := mul_right_cancel₀ (pow_ne_zero 2 hk) h1
  subst hMM
  exact ⟨by linarith [h 0], rfl, rfl, rfl⟩

end Verif.EoS
