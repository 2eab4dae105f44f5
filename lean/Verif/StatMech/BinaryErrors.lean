/-
Proof work: the errors of the functions of one mode.
-/
import Verif.StatMech.BinaryLemmas

noncomputable section

namespace Verif.StatMech
open Spec
open Verif.Units (Consts)
variable {a : Arith} {k : Consts} {T ω : ℝ}

theorem ratio_pos (k : Consts) (hT : 0 < T) (hω : 0 < ω) : 0 < ratio k T ω :=
  div_pos (mul_pos k.h_pos hω) (mul_pos k.kB_pos hT)

theorem near_x (ha : Accurate a) (k : Consts) (T ω : ℝ) : Near (3 * e0) (a.x k T ω) (ratio k T ω) :=
  (((near_rnd ha _).div (near_rnd ha _)).rnd ha).mono (by ring_nf; rfl)

theorem near_milliN (ha : Accurate a) (k : Consts) : Near (3 * e0) (a.rnd (a.milli * k.N)) (k.N / 1000) := by
  have := ((near_milli ha).mul (Near.refl k.N)).rnd ha
  rw [show (1 / 1000 : ℝ) * k.N = k.N / 1000 by ring] at this
  exact this.mono (by ring_nf; rfl)

theorem near_zpe (ha : Accurate a) (k : Consts) (T : ℝ) (hω : 0 < ω) :
    Near (6 * e0) (a.hoZpe k T ω) (exactZpe k ω) := by
  have h := ((((near_milliN ha k).mul (Near.refl k.h)).rnd ha).mul (near_rnd ha (ω * 0.5))).rnd ha
  rw [Arith.hoZpe, if_neg (not_le.2 hω), exactZpe]
  rw [show k.N / 1000 * k.h * (ω * 0.5) = k.N / 1000 * (k.h * ω / 2) by ring] at h
  exact h.mono (by ring_nf; rfl)

theorem near_expm1_x (ha : Accurate a) (k : Consts) (hT : 0 < T) (hω : 0 < ω) :
    Near ((5 + 3.03 * ratio k T ω) * e0) (a.expm1 (a.x k T ω)) (Real.exp (ratio k T ω) - 1) := by
  have h := (near_expm1 ha (a.x k T ω)).trans
    (near_expm1_arg (near_x ha k T ω) (ratio_pos k hT hω) (by norm_num [e0]))
  exact h.mono (by ring_nf; rfl)

theorem near_eth (ha : Accurate a) (k : Consts) (hT : 0 < T) (hω : 0 < ω) :
    Near ((11 + 3.03 * ratio k T ω) * e0) (a.hoEth k T ω) (exactEth k T ω) := by
  rw [Arith.hoEth, if_neg (by simp [hT.ne', hω]), exactEth]
  have h := ((near_milliN ha k).mul (((near_rnd ha (k.h * ω)).div (near_expm1_x ha k hT hω)).rnd ha)).rnd ha
  exact h.mono (by ring_nf; rfl)

theorem near_cv (ha : Accurate a) (k : Consts) (hT : 0 < T) (hω : 0 < ω) :
    Near ((25 + 9.09 * ratio k T ω) * e0) (a.hoCv k T ω) (exactCv k T ω) := by
  have hX := ratio_pos k hT hω
  have hm := exp_sub_one_pos hX
  have h1 := ((near_x ha k T ω).div (near_expm1_x ha k hT hω)).rnd ha
  have h2 := (near_sq ha _).trans (by simpa only [sq] using h1.mul h1)
  have h3 := (near_exp ha (a.x k T ω)).trans (near_exp_arg (near_x ha k T ω) hX.le (by norm_num [e0])).1
  have hpos : 0 < a.sq (a.rnd (a.x k T ω / a.expm1 (a.x k T ω))) := h2.pos (by positivity)
  rw [Arith.hoCv, if_neg (by simp [hT.ne', hω]), exactCv]
  simp only
  rw [if_neg hpos.ne']
  have h4 := ((((near_rnd ha (k.N * k.kB)).mul h3).rnd ha).mul h2).rnd ha
  rw [show k.N * k.kB * Real.exp (ratio k T ω) * (ratio k T ω / (Real.exp (ratio k T ω) - 1) *
      (ratio k T ω / (Real.exp (ratio k T ω) - 1))) = k.N * k.kB * (Real.exp (ratio k T ω) *
      (ratio k T ω / (Real.exp (ratio k T ω) - 1)) ^ 2) by ring] at h4
  exact h4.mono (by ring_nf; rfl)

/-! ### Absolute errors -/

theorem err_rnd (ha : Accurate a) {b B α : ℝ} (h : |b - B| ≤ α) : |a.rnd b - B| ≤ α + u * (|B| + α) := by
  have h1 := ha.rnd b
  have h2 : |b| ≤ |B| + α := by
    have := abs_add_le (b - B) B
    rw [sub_add_cancel] at this
    linarith
  have h3 : |a.rnd b - B| ≤ |a.rnd b - b| + |b - B| := by
    have := abs_add_le (a.rnd b - b) (b - B)
    rwa [sub_add_sub_cancel] at this
  have h4 : u * |b| ≤ u * (|B| + α) := mul_le_mul_of_nonneg_left h2 (by norm_num [u])
  linarith

theorem err_mul {η b B c C α : ℝ} (hc : Near η c C) (hη : η ≤ 1 / 100) (h : |b - B| ≤ α) :
    |c * b - C * B| ≤ |C| * (α + 1.01 * η * (|B| + α)) := by
  have h1 := hc.err hη
  have h2 : |b| ≤ |B| + α := by
    have := abs_add_le (b - B) B
    rw [sub_add_cancel] at this
    linarith
  have h3 : c * b - C * B = (c - C) * b + C * (b - B) := by ring
  have h4 := abs_add_le ((c - C) * b) (C * (b - B))
  rw [abs_mul, abs_mul] at h4
  have h5 : |c - C| * |b| ≤ 1.01 * η * |C| * (|B| + α) := mul_le_mul h1 h2 (abs_nonneg _) ((abs_nonneg _).trans h1)
  have h6 : |C| * |b - B| ≤ |C| * α := mul_le_mul_of_nonneg_left h (abs_nonneg _)
  rw [h3]
  nlinarith

/-- The logarithm of `1 - exp(-X)`. -/
theorem log_term_le {X : ℝ} (hX : 0 < X) : |Real.log (1 - Real.exp (-X))| ≤ 1 / X := by
  have h1 := one_sub_exp_neg_pos hX
  rw [abs_of_nonpos (log_neg_term hX)]
  have h2 := Real.one_sub_inv_le_log_of_pos h1
  have h3 : (1 - Real.exp (-X))⁻¹ - 1 ≤ 1 / X := by
    have h4 := exp_sub_one_pos hX
    have h5 : (1 - Real.exp (-X))⁻¹ - 1 = 1 / (Real.exp X - 1) := by
      rw [Real.exp_neg]
      have h6 := Real.exp_pos X
      have : Real.exp X - 1 ≠ 0 := h4.ne'
      have h7 : 1 - (Real.exp X)⁻¹ ≠ 0 := by rw [← Real.exp_neg]; exact h1.ne'
      field_simp
      ring
    rw [h5]
    exact one_div_le_one_div_of_le hX (by linarith [Real.add_one_le_exp X])
  linarith

/-- The error of `log(1. - exp(-x))`. -/
theorem err_log (ha : Accurate a) {x X : ℝ} (hx : Near (3 * e0) x X) (h0 : 1e-9 ≤ X) (h1 : X ≤ 700) :
    ∃ l, a.logTerm x = some l ∧ |l - Real.log (1 - Real.exp (-X))| ≤ e0 * (4.1 / X + 4.3) := by
  have hX : 0 < X := lt_of_lt_of_le (by norm_num) h0
  set Y := 1 - Real.exp (-X) with hY
  have hYp : 0 < Y := one_sub_exp_neg_pos hX
  set z := 1 / X with hz
  have hz0 : 0 < z := by positivity
  have hz1 : z ≤ 1e9 := by
    rw [hz, div_le_iff₀ hX]
    norm_num at h0 ⊢
    linarith
  have hzX : z * X = 1 := by rw [hz]; field_simp
  -- the exponential
  have h2 : Near ((2 + 3.03 * X) * e0) (a.exp (-x)) (Real.exp (-X)) :=
    ((near_exp ha (-x)).trans (near_exp_arg hx hX.le (by norm_num [e0])).2).mono (by ring_nf; rfl)
  have h3 := h2.err (by norm_num [e0]; linarith)
  rw [abs_of_pos (Real.exp_pos _)] at h3
  -- the difference, relative to `Y`
  have h4 : Real.exp (-X) ≤ z * Y := by
    have h5 : Real.exp (-X) * Real.exp X = 1 := by rw [← Real.exp_add]; simp
    have h6 := Real.add_one_le_exp X
    have h7 : X * Real.exp (-X) ≤ Y := by
      rw [hY]
      nlinarith [Real.exp_pos (-X)]
    calc Real.exp (-X) = z * (X * Real.exp (-X)) := by rw [← mul_assoc, hzX, one_mul]
      _ ≤ z * Y := mul_le_mul_of_nonneg_left h7 hz0.le
  have h5 : |(1 - a.exp (-x)) - Y| ≤ (e0 * (2.02 * z + 3.0604)) * |Y| := by
    rw [abs_of_pos hYp]
    have e : (1 - a.exp (-x)) - Y = -(a.exp (-x) - Real.exp (-X)) := by rw [hY]; ring
    rw [e, abs_neg]
    refine h3.trans ?_
    calc 1.01 * ((2 + 3.03 * X) * e0) * Real.exp (-X) ≤ 1.01 * ((2 + 3.03 * X) * e0) * (z * Y) :=
          mul_le_mul_of_nonneg_left h4 (by have := e0_pos; positivity)
      _ = e0 * (2.02 * z + 3.0603 * (z * X)) * Y := by ring
      _ ≤ _ := by
        rw [hzX]
        refine mul_le_mul_of_nonneg_right (mul_le_mul_of_nonneg_left ?_ e0_pos.le) hYp.le
        norm_num
  have hv : e0 * (2.02 * z + 3.0604) ≤ 1e-3 := by
    norm_num [e0] at hz1 ⊢
    linarith
  have h6 : Near (e0 * (2.025 * z + 4.07)) (a.rnd (1 - a.exp (-x))) Y := by
    refine ((near_of_err (η := e0 * (2.025 * z + 3.07)) h5 (by linarith) ?_ ?_).rnd ha).mono ?_
    · rw [div_le_iff₀ (by linarith)]
      have hp : 0 ≤ e0 * (2.025 * z + 3.07) := by have := e0_pos; positivity
      calc e0 * (2.02 * z + 3.0604) ≤ e0 * (2.025 * z + 3.07) * (1 - 1e-3) := by
            have : 2.02 * z + 3.0604 ≤ (2.025 * z + 3.07) * (1 - 1e-3) := by norm_num; linarith
            calc _ ≤ e0 * ((2.025 * z + 3.07) * (1 - 1e-3)) := mul_le_mul_of_nonneg_left this e0_pos.le
              _ = _ := by ring
        _ ≤ _ := mul_le_mul_of_nonneg_left (by linarith) hp
    · have := e0_pos; positivity
    · norm_num [e0]; linarith
  have hyp := h6.pos hYp
  refine ⟨a.log (a.rnd (1 - a.exp (-x))), by rw [Arith.logTerm]; simp [not_le.2 hyp], ?_⟩
  have h7 : |Real.log (a.rnd (1 - a.exp (-x))) - Real.log Y| ≤ e0 * (2.025 * z + 4.07) := by
    obtain ⟨θ, h8, h9⟩ := h6
    rw [h9, Real.log_mul hYp.ne' (Real.exp_pos _).ne', Real.log_exp]
    simpa using h8
  have h8 := ha.log _ hyp
  have h9 := log_term_le hX
  rw [← hY, ← hz] at h9
  have h10 : |Real.log (a.rnd (1 - a.exp (-x)))| ≤ z + e0 * (2.025 * z + 4.07) := by
    have := abs_add_le (Real.log (a.rnd (1 - a.exp (-x))) - Real.log Y) (Real.log Y)
    rw [sub_add_cancel] at this
    linarith
  have h11 := abs_add_le (a.log (a.rnd (1 - a.exp (-x))) - Real.log (a.rnd (1 - a.exp (-x))))
    (Real.log (a.rnd (1 - a.exp (-x))) - Real.log Y)
  rw [sub_add_sub_cancel] at h11
  have h12 : 4.1 / X = 4.1 * z := by rw [hz]; ring
  rw [h12]
  norm_num [e0, u] at *
  linarith

theorem sq_div_le {X : ℝ} (hX : 0 < X) : X * (X / (Real.exp X - 1)) ≤ 2 ∧ X / (Real.exp X - 1) ≤ 1 := by
  have h := exp_sub_one_pos hX
  have h1 := Real.quadratic_le_exp_of_nonneg hX.le
  have h2 := Real.add_one_le_exp X
  constructor
  · rw [← mul_div_assoc, div_le_iff₀ h]; nlinarith
  · rw [div_le_one h]; linarith

theorem err_s (ha : Accurate a) (k : Consts) (hT : 0 < T) (hω : 0 < ω) (h0 : 1e-9 ≤ ratio k T ω)
    (h1 : ratio k T ω ≤ 700) :
    ∃ s, a.hoS k T ω = some s ∧
      |s - exactS k T ω| ≤ k.N * k.kB * ((30 + 12 / ratio k T ω) * 1e-16) := by
  have hX := ratio_pos k hT hω
  obtain ⟨l, hl, hle⟩ := err_log ha (near_x ha k T ω) h0 h1
  have hnx := (((((Near.refl 1).div (near_expm1_x ha k hT hω)).rnd ha).mul (near_x ha k T ω)).rnd ha).mono
    (ζ := (10 + 3.03 * ratio k T ω) * e0) (by ring_nf; rfl)
  rw [Arith.hoS, if_neg (by simp [hT.ne', hω])]
  simp only
  rw [hl]
  refine ⟨_, rfl, ?_⟩
  rw [exactS]
  have e1 : 1 / (Real.exp (ratio k T ω) - 1) * ratio k T ω = ratio k T ω / (Real.exp (ratio k T ω) - 1) := by ring
  rw [e1] at hnx
  set x := a.x k T ω
  set X := ratio k T ω
  obtain ⟨hp1, hp2⟩ := sq_div_le hX
  have hp0 : 0 < X / (Real.exp X - 1) := div_pos hX (exp_sub_one_pos hX)
  set P := X / (Real.exp X - 1)
  have hL := log_term_le hX
  set L := Real.log (1 - Real.exp (-X))
  set z := 1 / X with hz
  have hz0 : 0 < z := by positivity
  have hz1 : z ≤ 1e9 := by
    rw [hz, div_le_iff₀ hX]
    norm_num at h0 ⊢
    linarith
  have e2 : 4.1 / X = 4.1 * z := by rw [hz]; ring
  have e3 : 12 / X = 12 * z := by rw [hz]; ring
  rw [e2] at hle
  rw [e3]
  have h2 := hnx.err (by norm_num [e0]; linarith)
  rw [abs_of_pos hp0] at h2
  have h3 : |a.rnd (a.rnd (1 / a.expm1 x) * x) - P| ≤ 16.3 * e0 := by
    refine h2.trans ?_
    have : 1.01 * ((10 + 3.03 * X) * e0) * P = e0 * (10.1 * P + 3.0603 * (X * P)) := by ring
    rw [this]
    have h4 : 10.1 * P + 3.0603 * (X * P) ≤ 16.3 := by norm_num; linarith
    have := mul_le_mul_of_nonneg_left h4 e0_pos.le
    linarith
  have h4 : |a.rnd (a.rnd (1 / a.expm1 x) * x) - l - (P - L)| ≤ e0 * (4.1 * z + 20.6) := by
    have e : a.rnd (a.rnd (1 / a.expm1 x) * x) - l - (P - L) = (a.rnd (a.rnd (1 / a.expm1 x) * x) - P) - (l - L) := by
      ring
    rw [e]
    have := abs_sub (a.rnd (a.rnd (1 / a.expm1 x) * x) - P) (l - L)
    norm_num [e0] at *
    linarith
  have hPL : |P - L| ≤ 1 + z := by
    have := abs_sub P L
    rw [abs_of_pos hp0] at this
    linarith
  have h5 := err_rnd ha h4
  have h5' : |a.rnd (a.rnd (a.rnd (1 / a.expm1 x) * x) - l) - (P - L)| ≤ e0 * (5.2 * z + 21.7) := by
    refine h5.trans ?_
    have : u * (|P - L| + e0 * (4.1 * z + 20.6)) ≤ u * (1 + z + e0 * (4.1 * z + 20.6)) :=
      mul_le_mul_of_nonneg_left (by linarith) (by norm_num [u])
    refine (add_le_add_right this _).trans ?_
    norm_num [e0, u]
    linarith
  have h6 := err_mul (near_rnd ha (k.N * k.kB)) (by norm_num [e0]) h5'
  have hNk : 0 < k.N * k.kB := mul_pos k.N_pos k.kB_pos
  rw [abs_of_pos hNk] at h6
  have h6' : |a.rnd (k.N * k.kB) * a.rnd (a.rnd (a.rnd (1 / a.expm1 x) * x) - l) - k.N * k.kB * (P - L)| ≤
      k.N * k.kB * (e0 * (6.3 * z + 22.8)) := by
    refine h6.trans (mul_le_mul_of_nonneg_left ?_ hNk.le)
    have : 1.01 * e0 * (|P - L| + e0 * (5.2 * z + 21.7)) ≤ 1.01 * e0 * (1 + z + e0 * (5.2 * z + 21.7)) :=
      mul_le_mul_of_nonneg_left (by linarith) (by norm_num [e0])
    refine (add_le_add_right this _).trans ?_
    norm_num [e0]
    linarith
  have h7 := err_rnd ha h6'
  refine h7.trans ?_
  rw [abs_mul, abs_of_pos hNk]
  have h8 : e0 * (6.3 * z + 22.8) + u * (|P - L| + e0 * (6.3 * z + 22.8)) ≤ (30 + 12 * z) * 1e-16 := by
    have : u * (|P - L| + e0 * (6.3 * z + 22.8)) ≤ u * (1 + z + e0 * (6.3 * z + 22.8)) :=
      mul_le_mul_of_nonneg_left (by linarith) (by norm_num [u])
    refine (add_le_add_right this _).trans ?_
    norm_num [e0, u]
    linarith
  calc _ = k.N * k.kB * (e0 * (6.3 * z + 22.8) + u * (|P - L| + e0 * (6.3 * z + 22.8))) := by ring
    _ ≤ _ := mul_le_mul_of_nonneg_left h8 hNk.le

theorem err_f (ha : Accurate a) (k : Consts) (hT : 0 < T) (hω : 0 < ω) (h0 : 1e-9 ≤ ratio k T ω)
    (h1 : ratio k T ω ≤ 700) :
    ∃ f, a.hoF k T ω = some f ∧
      |f - exactF k T ω| ≤ k.N / 1000 * (k.kB * T) * ((5 * ratio k T ω + 6 + 15 / ratio k T ω) * 1e-16) := by
  have hX := ratio_pos k hT hω
  obtain ⟨l, hl, hle⟩ := err_log ha (near_x ha k T ω) h0 h1
  rw [Arith.hoF, if_neg (not_le.2 hω)]
  simp only
  rw [if_neg hT.ne', hl]
  refine ⟨_, rfl, ?_⟩
  rw [exactF]
  have hkT : 0 < k.kB * T := mul_pos k.kB_pos hT
  have hhw : k.h * ω = k.kB * T * ratio k T ω := by
    rw [ratio]
    field_simp [hkT.ne', k.kB_pos.ne', hT.ne']
  set X := ratio k T ω
  have hL := log_term_le hX
  set L := Real.log (1 - Real.exp (-X))
  set z := 1 / X with hz
  have hz0 : 0 < z := by positivity
  have hz1 : z ≤ 1e9 := by
    rw [hz, div_le_iff₀ hX]
    norm_num at h0 ⊢
    linarith
  have e2 : 4.1 / X = 4.1 * z := by rw [hz]; ring
  have e3 : 15 / X = 15 * z := by rw [hz]; ring
  rw [e2] at hle
  rw [e3]
  set K := k.kB * T with hK
  have hA : |a.rnd (0.5 * a.rnd (k.h * ω)) - k.h * ω / 2| ≤ K * (1.02 * X * e0) := by
    have := (((Near.refl 0.5).mul (near_rnd ha (k.h * ω))).rnd ha).err (by norm_num [e0])
    rw [show (0.5 : ℝ) * (k.h * ω) = k.h * ω / 2 by ring] at this
    refine this.trans ?_
    rw [hhw, abs_of_pos (by positivity)]
    have hKX : 0 < K * X := by positivity
    norm_num [e0]
    nlinarith
  have hB : |a.rnd (a.rnd K * l) - K * L| ≤ K * (e0 * (6.2 * z + 4.4)) := by
    have h2 := err_mul (near_rnd ha K) (by norm_num [e0]) hle
    rw [abs_of_pos hkT] at h2
    have h2' : |a.rnd K * l - K * L| ≤ K * (e0 * (5.15 * z + 4.35)) := by
      refine h2.trans (mul_le_mul_of_nonneg_left ?_ hkT.le)
      have : 1.01 * e0 * (|L| + e0 * (4.1 * z + 4.3)) ≤ 1.01 * e0 * (z + e0 * (4.1 * z + 4.3)) :=
        mul_le_mul_of_nonneg_left (by linarith) (by norm_num [e0])
      refine (add_le_add_right this _).trans ?_
      norm_num [e0]
      linarith
    refine (err_rnd ha h2').trans ?_
    rw [abs_mul, abs_of_pos hkT]
    have h8 : e0 * (5.15 * z + 4.35) + u * (|L| + e0 * (5.15 * z + 4.35)) ≤ e0 * (6.2 * z + 4.4) := by
      have : u * (|L| + e0 * (5.15 * z + 4.35)) ≤ u * (z + e0 * (5.15 * z + 4.35)) :=
        mul_le_mul_of_nonneg_left (by linarith) (by norm_num [u])
      refine (add_le_add_right this _).trans ?_
      norm_num [e0, u]
      linarith
    calc _ = K * (e0 * (5.15 * z + 4.35) + u * (|L| + e0 * (5.15 * z + 4.35))) := by ring
      _ ≤ _ := mul_le_mul_of_nonneg_left h8 hkT.le
  have hC : |a.rnd (0.5 * a.rnd (k.h * ω)) + a.rnd (a.rnd K * l) - (k.h * ω / 2 + K * L)| ≤
      K * (e0 * (1.02 * X + 6.2 * z + 4.4)) := by
    have := abs_add_le (a.rnd (0.5 * a.rnd (k.h * ω)) - k.h * ω / 2) (a.rnd (a.rnd K * l) - K * L)
    rw [show a.rnd (0.5 * a.rnd (k.h * ω)) - k.h * ω / 2 + (a.rnd (a.rnd K * l) - K * L) =
      a.rnd (0.5 * a.rnd (k.h * ω)) + a.rnd (a.rnd K * l) - (k.h * ω / 2 + K * L) by ring] at this
    refine this.trans ((add_le_add hA hB).trans (le_of_eq (by ring)))
  have hV : |k.h * ω / 2 + K * L| ≤ K * (X / 2 + z) := by
    refine (abs_add_le _ _).trans ?_
    rw [abs_mul, hhw, abs_of_pos hkT, abs_of_pos (by positivity)]
    have := mul_le_mul_of_nonneg_left hL hkT.le
    linarith
  have hD : |a.rnd (a.rnd (0.5 * a.rnd (k.h * ω)) + a.rnd (a.rnd K * l)) - (k.h * ω / 2 + K * L)| ≤
      K * (e0 * (1.55 * X + 7.25 * z + 4.5)) := by
    refine (err_rnd ha hC).trans ?_
    have h8 : e0 * (1.02 * X + 6.2 * z + 4.4) + u * (X / 2 + z + e0 * (1.02 * X + 6.2 * z + 4.4)) ≤
        e0 * (1.55 * X + 7.25 * z + 4.5) := by
      norm_num [e0, u]
      linarith
    have h9 : u * (|k.h * ω / 2 + K * L| + K * (e0 * (1.02 * X + 6.2 * z + 4.4))) ≤
        u * (K * (X / 2 + z) + K * (e0 * (1.02 * X + 6.2 * z + 4.4))) :=
      mul_le_mul_of_nonneg_left (by linarith) (by norm_num [u])
    calc _ ≤ K * (e0 * (1.02 * X + 6.2 * z + 4.4)) +
            u * (K * (X / 2 + z) + K * (e0 * (1.02 * X + 6.2 * z + 4.4))) := by linarith
      _ = K * (e0 * (1.02 * X + 6.2 * z + 4.4) + u * (X / 2 + z + e0 * (1.02 * X + 6.2 * z + 4.4))) := by ring
      _ ≤ _ := mul_le_mul_of_nonneg_left h8 hkT.le
  have hM : 0 < k.N / 1000 := div_pos k.N_pos (by norm_num)
  have hE := err_mul (near_milliN ha k) (by norm_num [e0]) hD
  rw [abs_of_pos hM] at hE
  have hE' : |a.rnd (a.milli * k.N) * a.rnd (a.rnd (0.5 * a.rnd (k.h * ω)) + a.rnd (a.rnd K * l)) -
      k.N / 1000 * (k.h * ω / 2 + K * L)| ≤ k.N / 1000 * (K * (e0 * (3.1 * X + 10.35 * z + 4.6))) := by
    refine hE.trans (mul_le_mul_of_nonneg_left ?_ hM.le)
    have h8 : e0 * (1.55 * X + 7.25 * z + 4.5) + 1.01 * (3 * e0) * (X / 2 + z + e0 * (1.55 * X + 7.25 * z + 4.5)) ≤
        e0 * (3.1 * X + 10.35 * z + 4.6) := by
      norm_num [e0]
      linarith
    have h9 : 1.01 * (3 * e0) * (|k.h * ω / 2 + K * L| + K * (e0 * (1.55 * X + 7.25 * z + 4.5))) ≤
        1.01 * (3 * e0) * (K * (X / 2 + z) + K * (e0 * (1.55 * X + 7.25 * z + 4.5))) :=
      mul_le_mul_of_nonneg_left (by linarith) (by norm_num [e0])
    calc _ ≤ K * (e0 * (1.55 * X + 7.25 * z + 4.5)) +
            1.01 * (3 * e0) * (K * (X / 2 + z) + K * (e0 * (1.55 * X + 7.25 * z + 4.5))) := by linarith
      _ = K * (e0 * (1.55 * X + 7.25 * z + 4.5) +
            1.01 * (3 * e0) * (X / 2 + z + e0 * (1.55 * X + 7.25 * z + 4.5))) := by ring
      _ ≤ _ := mul_le_mul_of_nonneg_left h8 hkT.le
  refine (err_rnd ha hE').trans ?_
  rw [abs_mul, abs_of_pos hM]
  have h8 : e0 * (3.1 * X + 10.35 * z + 4.6) + u * (X / 2 + z + e0 * (3.1 * X + 10.35 * z + 4.6)) ≤
      (5 * X + 6 + 15 * z) * 1e-16 := by
    norm_num [e0, u]
    linarith
  have h9 : u * (k.N / 1000 * |k.h * ω / 2 + K * L| + k.N / 1000 * (K * (e0 * (3.1 * X + 10.35 * z + 4.6)))) ≤
      u * (k.N / 1000 * (K * (X / 2 + z)) + k.N / 1000 * (K * (e0 * (3.1 * X + 10.35 * z + 4.6)))) := by
    refine mul_le_mul_of_nonneg_left ?_ (by norm_num [u])
    have := mul_le_mul_of_nonneg_left hV hM.le
    linarith
  calc _ ≤ k.N / 1000 * (K * (e0 * (3.1 * X + 10.35 * z + 4.6))) +
          u * (k.N / 1000 * (K * (X / 2 + z)) + k.N / 1000 * (K * (e0 * (3.1 * X + 10.35 * z + 4.6)))) := by linarith
    _ = k.N / 1000 * K * (e0 * (3.1 * X + 10.35 * z + 4.6) + u * (X / 2 + z + e0 * (3.1 * X + 10.35 * z + 4.6))) := by
        ring
    _ ≤ _ := mul_le_mul_of_nonneg_left h8 (by positivity)

end Verif.StatMech
