/-
C105: exact pressures determine the parameters of a P(V) equation of state.
-/
import Verif.EoS.Identify

namespace Verif.EoS
open Verif.EoS.Spec

/-! ### curves -/

/-- Quadratics with a rising root that agree at three points are equal, with the same root. -/
theorem rising_quadratic {A B r A' B' r' : ℝ} (hA : 0 < A) (hA' : 0 < A') {x : Fin 3 → ℝ}
    (hx : Function.Injective x)
    (h : ∀ i, A * (x i - r) + B * (x i - r) ^ 2 = A' * (x i - r') + B' * (x i - r') ^ 2) :
    A = A' ∧ B = B' ∧ r = r' := by
  obtain ⟨c0, c1, c2⟩ := quadratic_unique (a := -A * r + B * r ^ 2) (b := A - 2 * B * r) (c := B)
    (a' := -A' * r' + B' * r' ^ 2) (b' := A' - 2 * B' * r') (c' := B') hx
    (fun i => by linear_combination h i)
  subst c2
  have hr : (r - r') * (A + A') = 0 := by linear_combination (-2 : ℝ) * c0 + (-r - r') * c1
  have : r = r' := by
    rcases mul_eq_zero.1 hr with h | h
    · linarith
    · linarith
  subst this
  exact ⟨by linarith, rfl, rfl⟩

/-- Cubics with coefficients that are not negative about a rising root, which agree at four points, are equal
with the same root. -/
theorem rising_cubic {A B C r A' B' C' r' : ℝ} (hA : 0 < A) (hB : 0 ≤ B) (hC : 0 ≤ C) (hA' : 0 < A')
    (hB' : 0 ≤ B') (hC' : 0 ≤ C') {x : Fin 4 → ℝ} (hx : Function.Injective x)
    (h : ∀ i, A * (x i - r) + B * (x i - r) ^ 2 + C * (x i - r) ^ 3 =
      A' * (x i - r') + B' * (x i - r') ^ 2 + C' * (x i - r') ^ 3) :
    A = A' ∧ B = B' ∧ C = C' ∧ r = r' := by
  obtain ⟨c0, c1, c2, c3⟩ := cubic_unique (a := -A * r + B * r ^ 2 - C * r ^ 3)
    (b := A - 2 * B * r + 3 * C * r ^ 2) (c := B - 3 * C * r) (d := C)
    (a' := -A' * r' + B' * r' ^ 2 - C' * r' ^ 3) (b' := A' - 2 * B' * r' + 3 * C' * r' ^ 2)
    (c' := B' - 3 * C' * r') (d' := C') hx (fun i => by linear_combination h i)
  have hall : ∀ t, A * (t - r) + B * (t - r) ^ 2 + C * (t - r) ^ 3 =
      A' * (t - r') + B' * (t - r') ^ 2 + C' * (t - r') ^ 3 := fun t => by
    linear_combination c0 + t * c1 + t ^ 2 * c2 + t ^ 3 * c3
  have pos : ∀ {A B C s : ℝ}, 0 < A → 0 ≤ B → 0 ≤ C → 0 < s → A * s + B * s ^ 2 + C * s ^ 3 ≠ 0 :=
    fun hA hB hC hs => by positivity
  have hr : r = r' := by
    rcases lt_trichotomy r r' with hlt | he | hgt
    · have := hall r'
      simp only [sub_self] at this
      exact absurd (by linarith) (pos hA hB hC (sub_pos.2 hlt))
    · exact he
    · have := hall r
      simp only [sub_self] at this
      exact absurd (by linarith) (pos hA' hB' hC' (sub_pos.2 hgt))
  subst hr c3
  have : B = B' := by linarith
  subst this
  exact ⟨by linarith, rfl, rfl, rfl⟩

/-- Curves `C (V + α) ^ (-s) - B` that agree at four volumes are equal. -/
theorem shifted_power_unique {C α s B C' α' s' B' : ℝ} (hC : 0 < C) (hα : 0 ≤ α) (hs : 0 < s) (hC' : 0 < C')
    (hα' : 0 ≤ α') (hs' : 0 < s') {x : Fin 4 → ℝ} (hx : StrictMono x) (hpos : ∀ i, 0 < x i)
    (h : ∀ i, C * (x i + α) ^ (-s) - B = C' * (x i + α') ^ (-s') - B') :
    C = C' ∧ α = α' ∧ s = s' ∧ B = B' := by
  have hd : ∀ (C α s B V : ℝ), 0 ≤ α → 0 < V → HasDerivAt (fun V : ℝ => C * (V + α) ^ (-s) - B)
      (-(C * s) * (V + α) ^ (-s - 1)) V := by
    intro C α s B V hα hV
    have : HasDerivAt (fun V : ℝ => C * (V + α) ^ (-s) - B) _ V :=
      ((((hasDerivAt_id V).add_const α).rpow_const (p := -s)
        (.inl (by simp only [id]; linarith))).const_mul C).sub_const B
    refine this.congr_deriv ?_
    simp only [id]; ring
  obtain ⟨y, hy, hys, hy0⟩ := rolle_chain (s := Set.Ioi (0:ℝ))
    (f' := fun V => -(C * s) * (V + α) ^ (-s - 1) - -(C' * s') * (V + α') ^ (-s' - 1))
    Set.ordConnected_Ioi (fun V hV => (hd C α s B V hα hV).sub (hd C' α' s' B' V hα' hV)) hx hpos
    (fun i j => by simp only [Pi.sub_apply]; rw [h i, h j]; ring)
  -- logarithms of the slopes
  set g : ℝ → ℝ := fun V => (Real.log (C * s) + (-s - 1) * Real.log (V + α)) -
    (Real.log (C' * s') + (-s' - 1) * Real.log (V + α')) with hg
  have hg0 : ∀ i, g (y i) = 0 := by
    intro i
    have hyi : 0 < y i := hys i
    have h1 := hy0 i
    have h2 : C * s * (y i + α) ^ (-s - 1) = C' * s' * (y i + α') ^ (-s' - 1) := by linarith
    have h3 := congrArg Real.log h2
    have hp : ∀ {c a : ℝ}, 0 ≤ a → 0 < y i + a := fun h => by linarith
    rw [Real.log_mul (by positivity) (Real.rpow_pos_of_pos (by linarith) _).ne', Real.log_rpow (by linarith),
      Real.log_mul (by positivity) (Real.rpow_pos_of_pos (by linarith) _).ne', Real.log_rpow (by linarith)] at h3
    simp only [hg]; linarith
  have hgd : ∀ V ∈ Set.Ioi (0:ℝ), HasDerivAt g ((-s - 1) / (V + α) - (-s' - 1) / (V + α')) V := by
    intro V hV
    have hl : ∀ {a : ℝ}, 0 ≤ a → HasDerivAt (fun V : ℝ => Real.log (V + a)) (1 / (V + a)) V := fun {a} ha => by
      have hV' : 0 < V := hV
      exact ((hasDerivAt_id V).add_const a).log (by simp only [id]; linarith)
    have : HasDerivAt g _ V := (((hl hα).const_mul (-s - 1)).const_add (Real.log (C * s))).sub
      (((hl hα').const_mul (-s' - 1)).const_add (Real.log (C' * s')))
    exact this.congr_deriv (by ring)
  obtain ⟨w, hw, hws, hw0⟩ := rolle_chain Set.ordConnected_Ioi hgd hy hys
    fun i j => (hg0 i).trans (hg0 j).symm
  have hne : w 0 ≠ w 1 := (hw (by decide : (0 : Fin 2) < 1)).ne
  have hl : ∀ i, ((-s - 1) * α' - (-s' - 1) * α) + (s' - s) * w i = 0 := by
    intro i
    have hwi : 0 < w i := hws i
    have h1 := hw0 i
    have a1 : w i + α ≠ 0 := by linarith
    have a2 : w i + α' ≠ 0 := by linarith
    have h2 := sub_eq_zero.1 h1
    rw [div_eq_div_iff a1 a2] at h2
    linarith
  obtain ⟨k1, k2⟩ := line_unique hne (hl 0) (hl 1)
  have hss : s = s' := by linarith
  subst hss
  have hαα : α = α' := by
    have : (s + 1) * (α - α') = 0 := by linarith
    rcases mul_eq_zero.1 this with h | h <;> linarith
  subst hαα
  have hxne : x 0 ≠ x 1 := (hx (by decide : (0 : Fin 4) < 1)).ne
  have hpw : (x 0 + α) ^ (-s) ≠ (x 1 + α) ^ (-s) := fun he => hxne (by
    have := Real.rpow_left_injOn (neg_ne_zero.2 hs.ne') (show (0:ℝ) ≤ x 0 + α by linarith [hpos 0])
      (show (0:ℝ) ≤ x 1 + α by linarith [hpos 1]) he
    linarith)
  obtain ⟨l1, l2⟩ := line_unique (a := B' - B) (b := C - C') hpw (by linarith [h 0]) (by linarith [h 1])
  exact ⟨by linarith, rfl, rfl, by linarith⟩

/-! ### normal forms -/

theorem murnaghanP_form {q : Pars} (hV0 : 0 < q.V0) {V : ℝ} (hV : 0 < V) :
    formula .murnaghan q V = -(q.K0 / q.Kp) + q.K0 / q.Kp * q.V0 ^ q.Kp * V ^ (-q.Kp) := by
  simp only [formula]
  rw [Real.div_rpow hV0.le hV.le, Real.rpow_neg hV.le]
  ring

theorem bmP_form {q : Pars} (hV0 : 0 < q.V0) {V : ℝ} (hV : 0 < V) :
    formula .birchMurnaghan q V = (V ^ (-(2:ℝ) / 3)) ^ (2.5 : ℝ) * ((q.V0 ^ ((2:ℝ) / 3)) ^ (2.5:ℝ) * q.V0 ^ ((2:ℝ) / 3) *
      (1.5 * q.K0 * (V ^ (-(2:ℝ) / 3) - q.V0 ^ (-(2:ℝ) / 3)) +
       1.5 * q.K0 * (0.75 * (q.Kp - 4) * q.V0 ^ ((2:ℝ) / 3)) * (V ^ (-(2:ℝ) / 3) - q.V0 ^ (-(2:ℝ) / 3)) ^ 2 +
       1.5 * q.K0 * (0.375 * (q.K0 * q.Kpp + (q.Kp - 4) * (q.Kp - 3) + 35 / 9) * (q.V0 ^ ((2:ℝ) / 3)) ^ 2) *
        (V ^ (-(2:ℝ) / 3) - q.V0 ^ (-(2:ℝ) / 3)) ^ 3)) := by
  have e1 : (q.V0 / V) ^ ((2:ℝ) / 3) = q.V0 ^ ((2:ℝ) / 3) * V ^ (-(2:ℝ) / 3) := by
    rw [Real.div_rpow hV0.le hV.le, show (-(2:ℝ) / 3) = -(2 / 3) by norm_num, Real.rpow_neg hV.le]
    rfl
  have e2 : q.V0 ^ ((2:ℝ) / 3) * q.V0 ^ (-(2:ℝ) / 3) = 1 := by
    rw [← Real.rpow_add hV0]; norm_num
  have e3 : q.V0 ^ ((2:ℝ) / 3) * V ^ (-(2:ℝ) / 3) - 1 =
      q.V0 ^ ((2:ℝ) / 3) * (V ^ (-(2:ℝ) / 3) - q.V0 ^ (-(2:ℝ) / 3)) := by rw [mul_sub, e2]
  have e4 : (q.V0 ^ ((2:ℝ) / 3) * V ^ (-(2:ℝ) / 3)) ^ (2.5:ℝ) =
      (q.V0 ^ ((2:ℝ) / 3)) ^ (2.5:ℝ) * (V ^ (-(2:ℝ) / 3)) ^ (2.5:ℝ) :=
    Real.mul_rpow (Real.rpow_nonneg hV0.le _) (Real.rpow_nonneg hV.le _)
  simp only [formula]
  rw [e1, show (1:ℝ) + 2 * (0.5 * (q.V0 ^ ((2:ℝ) / 3) * V ^ (-(2:ℝ) / 3) - 1)) =
    q.V0 ^ ((2:ℝ) / 3) * V ^ (-(2:ℝ) / 3) by ring, e4, e3]
  ring

theorem nsP_form {q : Pars} (hV0 : 0 < q.V0) {V : ℝ} (hV : 0 < V) :
    formula .naturalStrain q V = V⁻¹ * (q.K0 * q.V0 * (-Real.log V - -Real.log q.V0) +
      q.K0 * q.V0 * (0.5 * (q.Kp - 2)) * (-Real.log V - -Real.log q.V0) ^ 2 +
      q.K0 * q.V0 * (1 / 6 * (1 + q.Kpp * q.K0 + (q.Kp - 2) + (q.Kp - 2) ^ 2)) * (-Real.log V - -Real.log q.V0) ^ 3) := by
  simp only [formula]
  rw [Real.log_div hV0.ne' hV.ne']
  field_simp
  ring

theorem vinetP_form {q : Pars} (hV0 : 0 < q.V0) {V : ℝ} (hV : 0 < V) :
    formula .vinet q V = -((V ^ ((1:ℝ) / 3)) ^ 2)⁻¹ * (3 * q.K0 * q.V0 ^ ((1:ℝ) / 3) *
      (V ^ ((1:ℝ) / 3) - q.V0 ^ ((1:ℝ) / 3)) *
      Real.exp (-(1.5 * (q.Kp - 1) / q.V0 ^ ((1:ℝ) / 3)) * (V ^ ((1:ℝ) / 3) - q.V0 ^ ((1:ℝ) / 3)))) := by
  have hu : 0 < q.V0 ^ ((1:ℝ) / 3) := Real.rpow_pos_of_pos hV0 _
  have hv : 0 < V ^ ((1:ℝ) / 3) := Real.rpow_pos_of_pos hV _
  have e3 : 1.5 * (q.Kp - 1) * (1 - V ^ ((1:ℝ) / 3) / q.V0 ^ ((1:ℝ) / 3)) =
      -(1.5 * (q.Kp - 1) / q.V0 ^ ((1:ℝ) / 3)) * (V ^ ((1:ℝ) / 3) - q.V0 ^ ((1:ℝ) / 3)) := by
    field_simp
    ring
  simp only [formula]
  rw [Real.div_rpow hV.le hV0.le, e3, sub_sub_cancel]
  generalize Real.exp _ = X
  field_simp
  ring

/-- The Tait formula as a shifted power. -/
theorem taitP_form {q : Pars} (hV0 : 0 < q.V0) {a b c V : ℝ} (ha : 1 ≤ a) (hV : 0 < V) :
    1 / b * (((V / q.V0 + a - 1) / a) ^ (-1 / c) - 1) =
      1 / b * (q.V0 * a) ^ (1 / c) * (V + q.V0 * (a - 1)) ^ (-(1 / c)) - 1 / b := by
  have hα : 0 ≤ q.V0 * (a - 1) := mul_nonneg hV0.le (by linarith)
  have e : (V / q.V0 + a - 1) / a = (V + q.V0 * (a - 1)) / (q.V0 * a) := by
    have : a ≠ 0 := by linarith
    field_simp
    ring
  rw [e, Real.div_rpow (by linarith) (by nlinarith), show -1 / c = -(1 / c) by ring,
    Real.rpow_neg (by nlinarith : (0:ℝ) ≤ q.V0 * a), div_inv_eq_mul]
  ring

/-- What the three Tait coefficients say about the parameters. -/
theorem tait_coefficients {q : Pars} (hK : 0 < q.K0) (hS : Stiffening .tait q) :
    ∃ a b c, a = (1 + q.Kp) / (1 + q.Kp + q.K0 * q.Kpp) ∧ b = q.Kp / q.K0 - q.Kpp / (1 + q.Kp) ∧
      c = (1 + q.Kp + q.K0 * q.Kpp) / (q.Kp ^ 2 + q.Kp - q.K0 * q.Kpp) ∧ 1 ≤ a ∧ 0 < b ∧ 0 < 1 / c ∧
      1 / c = a * (1 + q.Kp) - 1 ∧ b * q.K0 = (1 + q.Kp) - 1 / a ∧
      a * (q.K0 * q.Kpp) = (1 + q.Kp) * (1 - a) := by
  obtain ⟨h1, h2, h3⟩ := hS
  have hm : q.K0 * q.Kpp ≤ 0 := mul_nonpos_of_nonneg_of_nonpos hK.le h2
  have hden : 0 < q.Kp ^ 2 + q.Kp - q.K0 * q.Kpp := by nlinarith [sq_nonneg q.Kp]
  refine ⟨_, _, _, rfl, rfl, rfl, ?_, ?_, ?_, ?_, ?_, ?_⟩
  · rw [le_div_iff₀ h3]; linarith
  · have : 0 < q.Kp / q.K0 := by positivity
    have : q.Kpp / (1 + q.Kp) ≤ 0 := div_nonpos_of_nonpos_of_nonneg h2 (by linarith)
    linarith
  · rw [one_div_div]; positivity
  · field_simp
    ring
  · have : 1 + q.Kp ≠ 0 := by linarith
    field_simp
    ring
  · field_simp
    ring

/-! ### uniqueness -/

theorem murnaghanP_pars {q q' : Pars} (hK : 0 < q.K0) (hV : 0 < q.V0) (h0 : q.Kp ≠ 0) (hK' : 0 < q'.K0)
    (hV' : 0 < q'.V0) (h0' : q'.Kp ≠ 0) {x : Fin 3 → ℝ} (hx : StrictMono x) (hpos : ∀ i, 0 < x i)
    (he : ∀ i, formula .murnaghan q (x i) = formula .murnaghan q' (x i)) :
    q.K0 = q'.K0 ∧ q.Kp = q'.Kp ∧ q.V0 = q'.V0 := by
  have hC : ∀ {r : Pars}, 0 < r.K0 → 0 < r.V0 → r.Kp ≠ 0 → r.K0 / r.Kp * r.V0 ^ r.Kp ≠ 0 :=
    fun {r} a b c => mul_ne_zero (div_ne_zero a.ne' c) (Real.rpow_pos_of_pos b _).ne'
  obtain ⟨h1, h2, h3⟩ := power_curve_unique' (hC hK hV h0) (hC hK' hV' h0') (neg_ne_zero.2 h0)
    (neg_ne_zero.2 h0') hx hpos (A := -(q.K0 / q.Kp)) (A' := -(q'.K0 / q'.Kp)) (fun i => by
      rw [← murnaghanP_form hV (hpos i), ← murnaghanP_form hV' (hpos i), he i])
  have hKp : q.Kp = q'.Kp := neg_injective h3
  rw [hKp] at h1 h2
  have h1' := neg_injective h1
  have hK0 : q.K0 = q'.K0 := (div_left_inj' h0').1 h1'
  rw [h1'] at h2
  exact ⟨hK0, hKp, Real.rpow_left_injOn h0' hV.le hV'.le
    (mul_left_cancel₀ (div_ne_zero hK'.ne' h0') h2)⟩

theorem vinetP_pars {q q' : Pars} (hK : 0 < q.K0) (hV : 0 < q.V0) (hK' : 0 < q'.K0) (hV' : 0 < q'.V0)
    {x : Fin 4 → ℝ} (hx : StrictMono x) (hpos : ∀ i, 0 < x i)
    (he : ∀ i, formula .vinet q (x i) = formula .vinet q' (x i)) :
    q.K0 = q'.K0 ∧ q.Kp = q'.Kp ∧ q.V0 = q'.V0 := by
  have hu : ∀ {v : ℝ}, 0 < v → 0 < v ^ ((1:ℝ) / 3) := fun h => Real.rpow_pos_of_pos h _
  have hu1 := hu hV
  have hu2 := hu hV'
  obtain ⟨g1, g2, g3⟩ := linexp_unique (D := 3 * q.K0 * q.V0 ^ ((1:ℝ) / 3))
    (D' := 3 * q'.K0 * q'.V0 ^ ((1:ℝ) / 3)) (k := 1.5 * (q.Kp - 1) / q.V0 ^ ((1:ℝ) / 3))
    (k' := 1.5 * (q'.Kp - 1) / q'.V0 ^ ((1:ℝ) / 3)) (r := q.V0 ^ ((1:ℝ) / 3)) (r' := q'.V0 ^ ((1:ℝ) / 3))
    (by positivity) (by positivity) (x := fun i => x i ^ ((1:ℝ) / 3))
    (fun i j hij => Real.rpow_lt_rpow (hpos i).le (hx hij) (by norm_num))
    (fun i => by
      have h1 := he i
      rw [vinetP_form hV (hpos i), vinetP_form hV' (hpos i)] at h1
      have := hu (hpos i)
      exact mul_left_cancel₀ (neg_ne_zero.2 (by positivity)) h1)
  have hV0 : q.V0 = q'.V0 := Real.rpow_left_injOn (by norm_num) hV.le hV'.le g3
  rw [hV0] at g1 g2
  have hK0 : q.K0 = q'.K0 := by
    have := mul_right_cancel₀ hu2.ne' g1
    linarith
  have hKp : q.Kp = q'.Kp := by
    rw [div_left_inj' hu2.ne'] at g2
    linarith
  exact ⟨hK0, hKp, hV0⟩

theorem taitP_pars {q q' : Pars} (hK : 0 < q.K0) (hV : 0 < q.V0) (hS : Stiffening .tait q) (hK' : 0 < q'.K0)
    (hV' : 0 < q'.V0) (hS' : Stiffening .tait q') {x : Fin 4 → ℝ} (hx : StrictMono x) (hpos : ∀ i, 0 < x i)
    (he : ∀ i, formula .tait q (x i) = formula .tait q' (x i)) : q = q' := by
  obtain ⟨a, b, c, ha, hb, hc, ha1, hb0, hc0, r1, r2, r3⟩ := tait_coefficients hK hS
  obtain ⟨a', b', c', ha', hb', hc', ha1', hb0', hc0', r1', r2', r3'⟩ := tait_coefficients hK' hS'
  have f1 : ∀ i, formula .tait q (x i) =
      1 / b * (q.V0 * a) ^ (1 / c) * (x i + q.V0 * (a - 1)) ^ (-(1 / c)) - 1 / b := fun i => by
    rw [← taitP_form hV ha1 (hpos i), ha, hb, hc]; rfl
  have f2 : ∀ i, formula .tait q' (x i) =
      1 / b' * (q'.V0 * a') ^ (1 / c') * (x i + q'.V0 * (a' - 1)) ^ (-(1 / c')) - 1 / b' := fun i => by
    rw [← taitP_form hV' ha1' (hpos i), ha', hb', hc']; rfl
  have hva : 0 < q.V0 * a := mul_pos hV (by linarith)
  have hva' : 0 < q'.V0 * a' := mul_pos hV' (by linarith)
  have hp := Real.rpow_pos_of_pos hva (1 / c)
  have hp' := Real.rpow_pos_of_pos hva' (1 / c')
  obtain ⟨g1, g2, g3, g4⟩ := shifted_power_unique (C := 1 / b * (q.V0 * a) ^ (1 / c))
    (C' := 1 / b' * (q'.V0 * a') ^ (1 / c')) (α := q.V0 * (a - 1)) (α' := q'.V0 * (a' - 1)) (B := 1 / b)
    (B' := 1 / b') (by positivity) (mul_nonneg hV.le (by linarith)) hc0
    (by positivity) (mul_nonneg hV'.le (by linarith)) hc0' hx hpos
    (fun i => by rw [← f1, ← f2, he i])
  have hbb : b = b' := by
    rw [one_div, one_div] at g4
    exact inv_injective g4
  rw [g4, g3] at g1
  have hv : q.V0 * a = q'.V0 * a' := Real.rpow_left_injOn hc0'.ne' hva.le hva'.le
    (mul_left_cancel₀ (by positivity) g1)
  have hV0 : q.V0 = q'.V0 := by linarith
  have haa : a = a' := by rw [hV0] at hv; exact mul_left_cancel₀ hV'.ne' hv
  have ha0 : a' ≠ 0 := by linarith
  have hKp : q.Kp = q'.Kp := by
    have : a' * (1 + q.Kp) = a' * (1 + q'.Kp) := by rw [haa] at r1; linarith
    have := mul_left_cancel₀ ha0 this
    linarith
  have hK0 : q.K0 = q'.K0 := by
    rw [hbb, haa, hKp] at r2
    exact mul_left_cancel₀ hb0'.ne' (r2.trans r2'.symm)
  have hKpp : q.Kpp = q'.Kpp := by
    rw [haa, hKp, hK0] at r3
    exact mul_left_cancel₀ hK'.ne' (mul_left_cancel₀ ha0 (r3.trans r3'.symm))
  exact Pars.ext hK0 hKp hKpp hV0

/-- The polynomial in `V ^ (-2/3)` of a Birch-Murnaghan curve. -/
theorem bmP_poly {q q' : Pars} (hV : 0 < q.V0) (hV' : 0 < q'.V0) {V : ℝ} (hp : 0 < V)
    (he : formula .birchMurnaghan q V = formula .birchMurnaghan q' V) {m : Pars → ℝ}
    (hm : ∀ r, m r = (r.V0 ^ ((2:ℝ) / 3)) ^ (2.5:ℝ) * r.V0 ^ ((2:ℝ) / 3) * (1.5 * r.K0)) :
    m q * (V ^ (-(2:ℝ) / 3) - q.V0 ^ (-(2:ℝ) / 3)) +
      m q * (0.75 * (q.Kp - 4) * q.V0 ^ ((2:ℝ) / 3)) * (V ^ (-(2:ℝ) / 3) - q.V0 ^ (-(2:ℝ) / 3)) ^ 2 +
      m q * (0.375 * (q.K0 * q.Kpp + (q.Kp - 4) * (q.Kp - 3) + 35 / 9) * (q.V0 ^ ((2:ℝ) / 3)) ^ 2) *
        (V ^ (-(2:ℝ) / 3) - q.V0 ^ (-(2:ℝ) / 3)) ^ 3 =
    m q' * (V ^ (-(2:ℝ) / 3) - q'.V0 ^ (-(2:ℝ) / 3)) +
      m q' * (0.75 * (q'.Kp - 4) * q'.V0 ^ ((2:ℝ) / 3)) * (V ^ (-(2:ℝ) / 3) - q'.V0 ^ (-(2:ℝ) / 3)) ^ 2 +
      m q' * (0.375 * (q'.K0 * q'.Kpp + (q'.Kp - 4) * (q'.Kp - 3) + 35 / 9) * (q'.V0 ^ ((2:ℝ) / 3)) ^ 2) *
        (V ^ (-(2:ℝ) / 3) - q'.V0 ^ (-(2:ℝ) / 3)) ^ 3 := by
  rw [bmP_form hV hp, bmP_form hV' hp] at he
  have hz := Real.rpow_pos_of_pos (Real.rpow_pos_of_pos hp (-(2:ℝ) / 3)) (2.5:ℝ)
  have := mul_left_cancel₀ hz.ne' he
  rw [hm, hm]
  linear_combination this

theorem bmP_finish {q q' : Pars} {m : Pars → ℝ}
    (hm : ∀ r, m r = (r.V0 ^ ((2:ℝ) / 3)) ^ (2.5:ℝ) * r.V0 ^ ((2:ℝ) / 3) * (1.5 * r.K0))
    (hV : 0 < q.V0) (hK' : 0 < q'.K0) (hV' : 0 < q'.V0) (h1 : m q = m q')
    (h2 : m q * (0.75 * (q.Kp - 4) * q.V0 ^ ((2:ℝ) / 3)) = m q' * (0.75 * (q'.Kp - 4) * q'.V0 ^ ((2:ℝ) / 3)))
    (h3 : m q * (0.375 * (q.K0 * q.Kpp + (q.Kp - 4) * (q.Kp - 3) + 35 / 9) * (q.V0 ^ ((2:ℝ) / 3)) ^ 2) =
      m q' * (0.375 * (q'.K0 * q'.Kpp + (q'.Kp - 4) * (q'.Kp - 3) + 35 / 9) * (q'.V0 ^ ((2:ℝ) / 3)) ^ 2))
    (h4 : q.V0 ^ (-(2:ℝ) / 3) = q'.V0 ^ (-(2:ℝ) / 3)) : q = q' := by
  have hV0 : q.V0 = q'.V0 := Real.rpow_left_injOn (by norm_num) hV.le hV'.le h4
  have hw := Real.rpow_pos_of_pos hV' ((2:ℝ) / 3)
  have hw2 := Real.rpow_pos_of_pos hw (2.5:ℝ)
  have hmp : 0 < m q' := by rw [hm]; positivity
  have hK0 : q.K0 = q'.K0 := by
    rw [hm, hm, hV0] at h1
    have := mul_left_cancel₀ (by positivity) h1
    linarith
  rw [h1, hV0] at h2 h3
  have hKp : q.Kp = q'.Kp := by
    have := mul_right_cancel₀ hw.ne' (mul_left_cancel₀ hmp.ne' h2)
    linarith
  have hKpp : q.Kpp = q'.Kpp := by
    rw [hK0, hKp] at h3
    have := mul_right_cancel₀ (pow_pos hw 2).ne' (mul_left_cancel₀ hmp.ne' h3)
    exact mul_left_cancel₀ hK'.ne' (by linarith)
  exact Pars.ext hK0 hKp hKpp hV0

theorem bmP_pars4 {q q' : Pars} (hK : 0 < q.K0) (hV : 0 < q.V0) (hS : Stiffening .birchMurnaghan q)
    (hK' : 0 < q'.K0) (hV' : 0 < q'.V0) (hS' : Stiffening .birchMurnaghan q') {x : Fin 4 → ℝ}
    (hx : Function.Injective x) (hpos : ∀ i, 0 < x i)
    (he : ∀ i, formula .birchMurnaghan q (x i) = formula .birchMurnaghan q' (x i)) : q = q' := by
  set m : Pars → ℝ := fun r => (r.V0 ^ ((2:ℝ) / 3)) ^ (2.5:ℝ) * r.V0 ^ ((2:ℝ) / 3) * (1.5 * r.K0) with hm
  have hmp : ∀ {r : Pars}, 0 < r.K0 → 0 < r.V0 → 0 < m r := fun {r} a b => by
    have hw := Real.rpow_pos_of_pos b ((2:ℝ) / 3)
    have hw2 := Real.rpow_pos_of_pos hw (2.5:ℝ)
    simp only [hm]; positivity
  have hn : ∀ {r : Pars}, 0 < r.K0 → 0 < r.V0 → Stiffening .birchMurnaghan r →
      0 ≤ m r * (0.75 * (r.Kp - 4) * r.V0 ^ ((2:ℝ) / 3)) ∧
      0 ≤ m r * (0.375 * (r.K0 * r.Kpp + (r.Kp - 4) * (r.Kp - 3) + 35 / 9) * (r.V0 ^ ((2:ℝ) / 3)) ^ 2) :=
    fun {r} a b ⟨c, d⟩ => by
      have hw := Real.rpow_pos_of_pos b ((2:ℝ) / 3)
      have hc : 0 ≤ r.Kp - 4 := by linarith
      have := hmp a b
      exact ⟨by positivity, mul_nonneg this.le (mul_nonneg (mul_nonneg (by norm_num) d) (by positivity))⟩
  obtain ⟨g1, g2, g3, g4⟩ := rising_cubic (hmp hK hV) (hn hK hV hS).1 (hn hK hV hS).2 (hmp hK' hV')
    (hn hK' hV' hS').1 (hn hK' hV' hS').2 (x := fun i => x i ^ (-(2:ℝ) / 3))
    (fun i j hij => hx (Real.rpow_left_injOn (by norm_num) (hpos i).le (hpos j).le hij))
    (fun i => bmP_poly hV hV' (hpos i) (he i) fun r => rfl)
  exact bmP_finish (fun r => rfl) hV hK' hV' g1 g2 g3 g4

theorem bmP_pars3 {q q' : Pars} (hK : 0 < q.K0) (hV : 0 < q.V0)
    (hS : q.K0 * q.Kpp + (q.Kp - 4) * (q.Kp - 3) + 35 / 9 = 0)
    (hK' : 0 < q'.K0) (hV' : 0 < q'.V0) (hS' : q'.K0 * q'.Kpp + (q'.Kp - 4) * (q'.Kp - 3) + 35 / 9 = 0)
    {x : Fin 3 → ℝ} (hx : Function.Injective x) (hpos : ∀ i, 0 < x i)
    (he : ∀ i, formula .birchMurnaghan q (x i) = formula .birchMurnaghan q' (x i)) : q = q' := by
  set m : Pars → ℝ := fun r => (r.V0 ^ ((2:ℝ) / 3)) ^ (2.5:ℝ) * r.V0 ^ ((2:ℝ) / 3) * (1.5 * r.K0) with hm
  have hmp : ∀ {r : Pars}, 0 < r.K0 → 0 < r.V0 → 0 < m r := fun {r} a b => by
    have hw := Real.rpow_pos_of_pos b ((2:ℝ) / 3)
    have hw2 := Real.rpow_pos_of_pos hw (2.5:ℝ)
    simp only [hm]; positivity
  obtain ⟨g1, g2, g4⟩ := rising_quadratic (hmp hK hV) (hmp hK' hV') (x := fun i => x i ^ (-(2:ℝ) / 3))
    (fun i j hij => hx (Real.rpow_left_injOn (by norm_num) (hpos i).le (hpos j).le hij))
    (fun i => by
      have := bmP_poly hV hV' (hpos i) (he i) (m := m) fun r => rfl
      rw [hS, hS'] at this
      simpa using this)
  exact bmP_finish (fun r => rfl) hV hK' hV' g1 g2 (by rw [hS, hS']; simp) g4

/-- The polynomial in `-log V` of a natural-strain curve. -/
theorem nsP_poly {q q' : Pars} (hV : 0 < q.V0) (hV' : 0 < q'.V0) {V : ℝ} (hp : 0 < V)
    (he : formula .naturalStrain q V = formula .naturalStrain q' V) :
    q.K0 * q.V0 * (-Real.log V - -Real.log q.V0) +
      q.K0 * q.V0 * (0.5 * (q.Kp - 2)) * (-Real.log V - -Real.log q.V0) ^ 2 +
      q.K0 * q.V0 * (1 / 6 * (1 + q.Kpp * q.K0 + (q.Kp - 2) + (q.Kp - 2) ^ 2)) *
        (-Real.log V - -Real.log q.V0) ^ 3 =
    q'.K0 * q'.V0 * (-Real.log V - -Real.log q'.V0) +
      q'.K0 * q'.V0 * (0.5 * (q'.Kp - 2)) * (-Real.log V - -Real.log q'.V0) ^ 2 +
      q'.K0 * q'.V0 * (1 / 6 * (1 + q'.Kpp * q'.K0 + (q'.Kp - 2) + (q'.Kp - 2) ^ 2)) *
        (-Real.log V - -Real.log q'.V0) ^ 3 := by
  rw [nsP_form hV hp, nsP_form hV' hp] at he
  exact mul_left_cancel₀ (inv_ne_zero hp.ne') he

theorem nsP_finish {q q' : Pars} (hV : 0 < q.V0) (hK' : 0 < q'.K0) (hV' : 0 < q'.V0)
    (h1 : q.K0 * q.V0 = q'.K0 * q'.V0)
    (h2 : q.K0 * q.V0 * (0.5 * (q.Kp - 2)) = q'.K0 * q'.V0 * (0.5 * (q'.Kp - 2)))
    (h3 : q.K0 * q.V0 * (1 / 6 * (1 + q.Kpp * q.K0 + (q.Kp - 2) + (q.Kp - 2) ^ 2)) =
      q'.K0 * q'.V0 * (1 / 6 * (1 + q'.Kpp * q'.K0 + (q'.Kp - 2) + (q'.Kp - 2) ^ 2)))
    (h4 : -Real.log q.V0 = -Real.log q'.V0) : q = q' := by
  have hV0 : q.V0 = q'.V0 := Real.log_injOn_pos hV hV' (neg_injective h4)
  have hp : 0 < q'.K0 * q'.V0 := mul_pos hK' hV'
  have hK0 : q.K0 = q'.K0 := by rw [hV0] at h1; exact mul_right_cancel₀ hV'.ne' h1
  rw [h1] at h2 h3
  have hKp : q.Kp = q'.Kp := by
    have := mul_left_cancel₀ hp.ne' h2
    linarith
  have hKpp : q.Kpp = q'.Kpp := by
    rw [hK0, hKp] at h3
    have := mul_left_cancel₀ hp.ne' h3
    exact mul_right_cancel₀ hK'.ne' (by linarith)
  exact Pars.ext hK0 hKp hKpp hV0

theorem nsP_pars4 {q q' : Pars} (hK : 0 < q.K0) (hV : 0 < q.V0) (hS : Stiffening .naturalStrain q)
    (hK' : 0 < q'.K0) (hV' : 0 < q'.V0) (hS' : Stiffening .naturalStrain q') {x : Fin 4 → ℝ}
    (hx : Function.Injective x) (hpos : ∀ i, 0 < x i)
    (he : ∀ i, formula .naturalStrain q (x i) = formula .naturalStrain q' (x i)) : q = q' := by
  have hn : ∀ {r : Pars}, 0 < r.K0 → 0 < r.V0 → Stiffening .naturalStrain r →
      0 ≤ r.K0 * r.V0 * (0.5 * (r.Kp - 2)) ∧
      0 ≤ r.K0 * r.V0 * (1 / 6 * (1 + r.Kpp * r.K0 + (r.Kp - 2) + (r.Kp - 2) ^ 2)) :=
    fun {r} a b ⟨c, d⟩ => by
      have hc : 0 ≤ r.Kp - 2 := by linarith
      exact ⟨by positivity, mul_nonneg (mul_pos a b).le (mul_nonneg (by norm_num) d)⟩
  obtain ⟨g1, g2, g3, g4⟩ := rising_cubic (mul_pos hK hV) (hn hK hV hS).1 (hn hK hV hS).2 (mul_pos hK' hV')
    (hn hK' hV' hS').1 (hn hK' hV' hS').2 (x := fun i => -Real.log (x i))
    (fun i j hij => hx (Real.log_injOn_pos (hpos i) (hpos j) (neg_injective hij)))
    (fun i => nsP_poly hV hV' (hpos i) (he i))
  exact nsP_finish hV hK' hV' g1 g2 g3 g4

theorem nsP_pars3 {q q' : Pars} (hK : 0 < q.K0) (hV : 0 < q.V0)
    (hS : 1 + q.Kpp * q.K0 + (q.Kp - 2) + (q.Kp - 2) ^ 2 = 0)
    (hK' : 0 < q'.K0) (hV' : 0 < q'.V0) (hS' : 1 + q'.Kpp * q'.K0 + (q'.Kp - 2) + (q'.Kp - 2) ^ 2 = 0)
    {x : Fin 3 → ℝ} (hx : Function.Injective x) (hpos : ∀ i, 0 < x i)
    (he : ∀ i, formula .naturalStrain q (x i) = formula .naturalStrain q' (x i)) : q = q' := by
  obtain ⟨g1, g2, g4⟩ := rising_quadratic (mul_pos hK hV) (mul_pos hK' hV')
    (B := q.K0 * q.V0 * (0.5 * (q.Kp - 2))) (B' := q'.K0 * q'.V0 * (0.5 * (q'.Kp - 2)))
    (r := -Real.log q.V0) (r' := -Real.log q'.V0) (x := fun i => -Real.log (x i))
    (fun i j hij => hx (Real.log_injOn_pos (hpos i) (hpos j) (neg_injective hij)))
    (fun i => by
      have := nsP_poly hV hV' (hpos i) (he i)
      rw [hS, hS'] at this
      simpa using this)
  exact nsP_finish hV hK' hV' g1 g2 (by rw [hS, hS']; simp) g4

/-! ### C105 -/

/-- C105: two P(V) curves of one formulation and order, for solids that resist compression, have the same
parameters if they agree at as many volumes as `enoughP` says.  The parameters are those in use during the fit,
with the values implied by the order. -/
theorem C105_determined (f : Formulation) (order : ℕ) (linear : Bool) {p p' : Pars}
    (h : PSolid f order (parsAfter f p order linear true))
    (h' : PSolid f order (parsAfter f p' order linear true)) {n : ℕ} (hn : enoughP f order ≤ n)
    {V : Fin n → ℝ} (hV : Function.Injective V) (hpos : ∀ i, 0 < V i)
    (he : ∀ i, (eos f p (V i) order linear true).1 = (eos f p' (V i) order linear true).1) :
    parsAfter f p order linear true = parsAfter f p' order linear true := by
  have he' : ∀ i, formula f (parsAfter f p order linear true) (V i) =
      formula f (parsAfter f p' order linear true) (V i) := he
  cases f with
  | murnaghan =>
    obtain ⟨σ, hσ⟩ := sorted_points hV hn
    obtain ⟨a, b, c⟩ := murnaghanP_pars h.1 h.2.1 h.2.2.1 h'.1 h'.2.1 h'.2.2.1 hσ (fun i => hpos _)
      fun i => he' _
    exact Pars.ext a b rfl c
  | vinet =>
    obtain ⟨σ, hσ⟩ := sorted_points hV hn
    obtain ⟨a, b, c⟩ := vinetP_pars h.1 h.2.1 h'.1 h'.2.1 hσ (fun i => hpos _) fun i => he' _
    refine Pars.ext a b ?_ c
    simp only [parsAfter, setKpp] at a b ⊢
    rw [a, b]
  | tait =>
    obtain ⟨σ, hσ⟩ := sorted_points hV hn
    exact taitP_pars h.1 h.2.1 (h.2.2.2 (.inl rfl)) h'.1 h'.2.1 (h'.2.2.2 (.inl rfl)) hσ (fun i => hpos _)
      fun i => he' _
  | birchMurnaghan =>
    by_cases ho : order < 4
    · obtain ⟨σ, hσ⟩ := sorted_points (m := 3) hV (by simpa only [enoughP, if_pos ho] using hn)
      have z : ∀ {r : Pars}, 0 < (parsAfter .birchMurnaghan r order linear true).K0 →
          (parsAfter .birchMurnaghan r order linear true).K0 * (parsAfter .birchMurnaghan r order linear true).Kpp +
          ((parsAfter .birchMurnaghan r order linear true).Kp - 4) *
            ((parsAfter .birchMurnaghan r order linear true).Kp - 3) + 35 / 9 = 0 := fun {r} hr => by
        simp only [parsAfter, setKpp, true_and, if_pos ho] at hr ⊢
        field_simp
        ring
      exact bmP_pars3 h.1 h.2.1 (z h.1) h'.1 h'.2.1 (z h'.1) hσ.injective (fun i => hpos _) fun i => he' _
    · obtain ⟨σ, hσ⟩ := sorted_points (m := 4) hV (by simpa only [enoughP, if_neg ho] using hn)
      exact bmP_pars4 h.1 h.2.1 (h.2.2.2 (.inr ⟨by omega, .inl rfl⟩)) h'.1 h'.2.1
        (h'.2.2.2 (.inr ⟨by omega, .inl rfl⟩)) hσ.injective (fun i => hpos _) fun i => he' _
  | naturalStrain =>
    by_cases ho : order < 4
    · obtain ⟨σ, hσ⟩ := sorted_points (m := 3) hV (by simpa only [enoughP, if_pos ho] using hn)
      have z : ∀ {r : Pars}, 0 < (parsAfter .naturalStrain r order linear true).K0 →
          1 + (parsAfter .naturalStrain r order linear true).Kpp * (parsAfter .naturalStrain r order linear true).K0 +
          ((parsAfter .naturalStrain r order linear true).Kp - 2) +
            ((parsAfter .naturalStrain r order linear true).Kp - 2) ^ 2 = 0 := fun {r} hr => by
        simp only [parsAfter, setKpp, true_and, if_pos ho] at hr ⊢
        field_simp
        ring
      exact nsP_pars3 h.1 h.2.1 (z h.1) h'.1 h'.2.1 (z h'.1) hσ.injective (fun i => hpos _) fun i => he' _
    · obtain ⟨σ, hσ⟩ := sorted_points (m := 4) hV (by simpa only [enoughP, if_neg ho] using hn)
      exact nsP_pars4 h.1 h.2.1 (h.2.2.2 (.inr ⟨by omega, .inr rfl⟩)) h'.1 h'.2.1
        (h'.2.2.2 (.inr ⟨by omega, .inr rfl⟩)) hσ.injective (fun i => hpos _) fun i => he' _

/-- C105: fitting pressures that lie on a P(V) curve, without or with weights, by least squares or orthogonal
distances, the best fit has the parameters of that curve and shifts no volume; and the curve is a best fit. -/
theorem C105_recovered (f : Formulation) (order : ℕ) (linear orthogonal : Bool) {p : Pars}
    (h : PSolid f order (parsAfter f p order linear true)) {n : ℕ} (hn : enoughP f order ≤ n)
    {V P wV wP : Fin n → ℝ} (hV : Function.Injective V) (hpos : ∀ i, 0 < V i) (hwV : ∀ i, 0 < wV i)
    (hwP : ∀ i, 0 < wP i) (hP : ∀ i, P i = (eos f p (V i) order linear true).1) (r : Pars) (δ : Fin n → ℝ) :
    BestP (fun r => PSolid f order (parsAfter f r order linear true))
        (fun r v => (eos f r v order linear true).1) orthogonal V P wV wP r δ ↔
      parsAfter f r order linear true = parsAfter f p order linear true ∧ δ = 0 := by
  have hnn : ∀ r δ, 0 ≤ odrMisfit (fun r v => (eos f r v order linear true).1) V P wV wP r δ := fun r δ =>
    Finset.sum_nonneg fun i _ => by have := hwV i; have := hwP i; positivity
  have hz : ∀ r, parsAfter f r order linear true = parsAfter f p order linear true →
      odrMisfit (fun r v => (eos f r v order linear true).1) V P wV wP r 0 = 0 := fun r hr => by
    simp only [odrMisfit, hP, eos, hr]
    simp
  constructor
  · rintro ⟨h1, -, h3⟩
    have h0 := le_antisymm ((h3 p 0 h fun _ => rfl).trans (hz p rfl).le) (hnn r δ)
    have ht : ∀ i, wP i * ((eos f r (V i + δ i) order linear true).1 - P i) ^ 2 + wV i * δ i ^ 2 = 0 := fun i =>
      (Finset.sum_eq_zero_iff_of_nonneg fun i _ => by have := hwV i; have := hwP i; positivity).1 h0 i
        (Finset.mem_univ i)
    have hδ : ∀ i, δ i = 0 := fun i => by
      have a1 : 0 ≤ wP i * ((eos f r (V i + δ i) order linear true).1 - P i) ^ 2 :=
        mul_nonneg (hwP i).le (sq_nonneg _)
      have a2 : 0 ≤ wV i * δ i ^ 2 := mul_nonneg (hwV i).le (sq_nonneg _)
      have a3 : wV i * δ i ^ 2 = 0 := by linarith [ht i]
      exact pow_eq_zero_iff two_ne_zero |>.1 ((mul_eq_zero.1 a3).resolve_left (hwV i).ne')
    refine ⟨C105_determined f order linear h1 h hn hV hpos fun i => ?_, funext hδ⟩
    have := ht i
    rw [hδ i, add_zero] at this
    simp only [ne_eq, OfNat.ofNat_ne_zero, not_false_eq_true, zero_pow, mul_zero, add_zero] at this
    have := (mul_eq_zero.1 this).resolve_left (hwP i).ne'
    rw [← hP i]
    exact sub_eq_zero.1 (pow_eq_zero_iff two_ne_zero |>.1 this)
  · rintro ⟨h1, rfl⟩
    exact ⟨by simp only [h1]; exact h, fun _ => rfl, fun p' δ' _ _ => (hz r h1).le.trans (hnn p' δ')⟩

/-- C105, violated without the condition on stiffening: a fit of fourth order does not determine the
parameters.  For any two volumes `v ≠ v'` there are two solids with positive bulk moduli, one with `V0 = v` and
one with `V0 = v'`, whose Birch-Murnaghan curves of fourth order agree at every volume. -/
theorem C105_fourth_violated {v v' : ℝ} (hv : 0 < v) (hv' : 0 < v') (hne : v ≠ v') :
    ∃ p p' : Pars, 0 < p.K0 ∧ 0 < p'.K0 ∧ p.V0 = v ∧ p'.V0 = v' ∧ ∀ linear V, 0 < V →
      (eos .birchMurnaghan p V 4 linear true).1 = (eos .birchMurnaghan p' V 4 linear true).1 := by
  -- parameters with given volume and given polynomial `A s + B s ^ 2 + C s ^ 3`, `s = V ^ (-2/3) - v ^ (-2/3)`
  have pars : ∀ {u A : ℝ}, 0 < u → 0 < A → ∀ B C : ℝ, ∃ p : Pars, 0 < p.K0 ∧ p.V0 = u ∧ ∀ linear V, 0 < V →
      (eos .birchMurnaghan p V 4 linear true).1 = (V ^ (-(2:ℝ) / 3)) ^ (2.5 : ℝ) *
        (A * (V ^ (-(2:ℝ) / 3) - u ^ (-(2:ℝ) / 3)) + B * (V ^ (-(2:ℝ) / 3) - u ^ (-(2:ℝ) / 3)) ^ 2 +
          C * (V ^ (-(2:ℝ) / 3) - u ^ (-(2:ℝ) / 3)) ^ 3) := by
    intro u A hu hA B C
    have hw := Real.rpow_pos_of_pos hu ((2:ℝ) / 3)
    have hw2 := Real.rpow_pos_of_pos hw (2.5:ℝ)
    set w := u ^ ((2:ℝ) / 3) with hwd
    set w2 := w ^ (2.5:ℝ) with hw2d
    set K := A / (1.5 * w2 * w) with hKd
    have hK : 0 < K := by positivity
    set Kp := 4 + B / (A * 0.75 * w) with hKpd
    set Kpp := (C / (A * 0.375 * w ^ 2) - (Kp - 4) * (Kp - 3) - 35 / 9) / K with hKppd
    refine ⟨⟨K, Kp, Kpp, u⟩, hK, rfl, fun linear V hV => ?_⟩
    have e0 : (eos .birchMurnaghan ⟨K, Kp, Kpp, u⟩ V 4 linear true).1 =
        formula .birchMurnaghan ⟨K, Kp, Kpp, u⟩ V := by
      simp [eos, parsAfter, setKpp, setKp]
    rw [e0, bmP_form hu hV]
    simp only [← hwd, ← hw2d]
    have e1 : K * Kpp + (Kp - 4) * (Kp - 3) + 35 / 9 = C / (A * 0.375 * w ^ 2) := by
      rw [hKppd]; field_simp; ring
    have e2 : Kp - 4 = B / (A * 0.75 * w) := by rw [hKpd]; ring
    have e3 : w2 * w * (1.5 * K) = A := by rw [hKd]; field_simp
    rw [e1, e2]
    have e4 : A * (0.75 * (B / (A * 0.75 * w)) * w) = B := by field_simp
    have e5 : A * (0.375 * (C / (A * 0.375 * w ^ 2)) * w ^ 2) = C := by field_simp
    congr 1
    generalize V ^ (-(2:ℝ) / 3) - u ^ (-(2:ℝ) / 3) = S
    calc _ = (w2 * w * (1.5 * K)) * S + (w2 * w * (1.5 * K)) * (0.75 * (B / (A * 0.75 * w)) * w) * S ^ 2 +
          (w2 * w * (1.5 * K)) * (0.375 * (C / (A * 0.375 * w ^ 2)) * w ^ 2) * S ^ 3 := by ring
      _ = _ := by rw [e3, e4, e5]
  have hr : v ^ (-(2:ℝ) / 3) ≠ v' ^ (-(2:ℝ) / 3) := fun h =>
    hne (Real.rpow_left_injOn (by norm_num) hv.le hv'.le h)
  set r := v ^ (-(2:ℝ) / 3) with hrd
  set r' := v' ^ (-(2:ℝ) / 3) with hrd'
  have hA : 0 < (r - r') ^ 2 / 2 := by
    have := sub_ne_zero.2 hr
    positivity
  obtain ⟨p, h1, h2, h3⟩ := pars hv hA (3 / 2 * (r - r')) 1
  obtain ⟨p', h1', h2', h3'⟩ := pars hv' hA (-(3 / 2) * (r - r')) 1
  refine ⟨p, p', h1, h1', h2, h2', fun linear V hV => ?_⟩
  rw [h3 linear V hV, h3' linear V hV, ← hrd, ← hrd']
  ring

/-- Solids that meet the hypotheses of `C105_determined` and `C105_recovered`, for every formulation, order and
kind of fit. -/
example (f : Formulation) (order : ℕ) (linear : Bool) :
    PSolid f order (parsAfter f ⟨100, 5, -1 / 100, 70⟩ order linear true) ∧ enoughP f order ≤ 4 := by
  constructor
  · cases f <;> cases linear <;> by_cases h2 : order = 2 <;> by_cases h4 : order < 4 <;>
      (try omega) <;>
      simp [PSolid, parsAfter, setKp, setKpp, h2, h4, Regular, Stiffening, impliedKp, impliedKpLinear] <;>
      norm_num
    all_goals (try (intro; omega))
  · cases f <;> simp only [enoughP] <;> (try split) <;> omega

end Verif.EoS
