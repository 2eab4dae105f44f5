/-
C104: exact energies determine the parameters of an E(V) equation of state.
-/
import Verif.EoS.Zeros
import Verif.EoS.Curves
import Verif.EoS.IdentifySpec

namespace Verif.EoS
open Verif.EoS.Spec

/-! ### normal forms -/

theorem murnaghan_form {E0 K0 Kp V0 V : ℝ} (hV0 : 0 < V0) (hV : 0 < V) :
    energy .murnaghan E0 K0 Kp V0 V =
      (E0 - V0 * K0 / (Kp - 1)) + K0 / Kp * V + K0 * V0 ^ Kp / (Kp * (Kp - 1)) * V ^ (1 - Kp) := by
  have e : (V0 / V) ^ Kp * V = V0 ^ Kp * V ^ (1 - Kp) := by
    rw [Real.div_rpow hV0.le hV.le, Real.rpow_sub hV, Real.rpow_one]
    ring
  have : energy .murnaghan E0 K0 Kp V0 V =
      (E0 - V0 * K0 / (Kp - 1)) + K0 / Kp * V + K0 / (Kp * (Kp - 1)) * ((V0 / V) ^ Kp * V) := by
    simp only [energy]
    rw [← div_div]
    ring
  rw [this, e]
  ring

theorem bm_form {E0 K0 Kp V0 V : ℝ} (hV0 : 0 < V0) (hV : 0 < V) :
    energy .birchMurnaghan E0 K0 Kp V0 V =
      E0 + 9 * K0 * V0 / 8 * (V0 ^ ((2:ℝ) / 3)) ^ 2 * (V ^ (-(2:ℝ) / 3) - V0 ^ (-(2:ℝ) / 3)) ^ 2 +
        9 * K0 * V0 / 16 * (Kp - 4) * (V0 ^ ((2:ℝ) / 3)) ^ 3 *
          (V ^ (-(2:ℝ) / 3) - V0 ^ (-(2:ℝ) / 3)) ^ 3 := by
  have e1 : ((V0 / V) ^ ((1:ℝ) / 3)) ^ 2 = V0 ^ ((2:ℝ) / 3) * V ^ (-(2:ℝ) / 3) := by
    rw [← Real.rpow_natCast, ← Real.rpow_mul (div_nonneg hV0.le hV.le), Real.div_rpow hV0.le hV.le]
    norm_num
    rw [Real.rpow_neg hV.le]
    rfl
  have e2 : V0 ^ ((2:ℝ) / 3) * V0 ^ (-(2:ℝ) / 3) = 1 := by
    rw [← Real.rpow_add hV0]; norm_num
  have e3 : ((V0 / V) ^ ((1:ℝ) / 3)) ^ 2 - 1 =
      V0 ^ ((2:ℝ) / 3) * (V ^ (-(2:ℝ) / 3) - V0 ^ (-(2:ℝ) / 3)) := by
    rw [e1, mul_sub, e2]
  simp only [energy]
  rw [show (6:ℝ) - 4 * ((V0 / V) ^ ((1:ℝ) / 3)) ^ 2 = 2 - 4 * (((V0 / V) ^ ((1:ℝ) / 3)) ^ 2 - 1) by ring, e3]
  ring

theorem pt_form {E0 K0 Kp V0 V : ℝ} (hV0 : 0 < V0) (hV : 0 < V) :
    energy .pourierTarantola E0 K0 Kp V0 V =
      E0 + K0 * V0 / 2 * (Real.log V - Real.log V0) ^ 2 +
        -(K0 * V0 / 6 * (Kp - 2)) * (Real.log V - Real.log V0) ^ 3 := by
  have e : -3 * Real.log ((V / V0) ^ ((1:ℝ) / 3)) = -(Real.log V - Real.log V0) := by
    rw [Real.log_rpow (div_pos hV hV0), Real.log_div hV.ne' hV0.ne']
    ring
  simp only [energy, e]
  ring

theorem vinet_form {E0 K0 Kp V0 V : ℝ} (hV0 : 0 < V0) (hV : 0 < V) :
    energy .vinet E0 K0 Kp V0 V =
      E0 + 4 * K0 * V0 / (Kp - 1) ^ 2 *
        (1 - (1 + 3 * (Kp - 1) / (2 * V0 ^ ((1:ℝ) / 3)) * (V ^ ((1:ℝ) / 3) - V0 ^ ((1:ℝ) / 3))) *
          Real.exp (-(3 * (Kp - 1) / (2 * V0 ^ ((1:ℝ) / 3))) * (V ^ ((1:ℝ) / 3) - V0 ^ ((1:ℝ) / 3)))) := by
  have hu : 0 < V0 ^ ((1:ℝ) / 3) := Real.rpow_pos_of_pos hV0 _
  have e : (V / V0) ^ ((1:ℝ) / 3) - 1 = (V ^ ((1:ℝ) / 3) - V0 ^ ((1:ℝ) / 3)) / V0 ^ ((1:ℝ) / 3) := by
    rw [Real.div_rpow hV.le hV0.le]
    field_simp
  simp only [energy]
  have e2 : (5 + 3 * Kp * ((V / V0) ^ ((1:ℝ) / 3) - 1) - 3 * (V / V0) ^ ((1:ℝ) / 3)) =
      2 + 3 * (Kp - 1) * ((V / V0) ^ ((1:ℝ) / 3) - 1) := by ring
  have e3 : -3 * (Kp - 1) * ((V / V0) ^ ((1:ℝ) / 3) - 1) / 2 =
      -(3 * (Kp - 1) / (2 * V0 ^ ((1:ℝ) / 3))) * (V ^ ((1:ℝ) / 3) - V0 ^ ((1:ℝ) / 3)) := by
    rw [e]
    field_simp
  rw [e2, e3, e]
  field_simp
  ring

/-! ### uniqueness -/

theorem murnaghan_pars {q q' : EPars} (h : Solid .murnaghan q) (h' : Solid .murnaghan q')
    {x : Fin 4 → ℝ} (hx : StrictMono x) (hpos : ∀ i, 0 < x i)
    (he : ∀ i, energy .murnaghan q.E0 q.K0 q.Kp q.V0 (x i) = energy .murnaghan q'.E0 q'.K0 q'.Kp q'.V0 (x i)) :
    q = q' := by
  obtain ⟨hK, hV, h0, h1⟩ := h
  obtain ⟨hK', hV', h0', h1'⟩ := h'
  have hC : ∀ {r : EPars}, 0 < r.K0 → 0 < r.V0 → r.Kp ≠ 0 → r.Kp ≠ 1 →
      r.K0 * r.V0 ^ r.Kp / (r.Kp * (r.Kp - 1)) ≠ 0 := fun {r} a b c d =>
    div_ne_zero (mul_pos a (Real.rpow_pos_of_pos b _)).ne' (mul_ne_zero c (sub_ne_zero.2 d))
  obtain ⟨ha, hb, hc, hs⟩ := power_curve_unique (hC hK hV h0 h1) (hC hK' hV' h0' h1')
    (s := 1 - q.Kp) (s' := 1 - q'.Kp) (fun h => h1 (by linarith)) (fun h => h0 (by linarith))
    (fun h => h1' (by linarith)) (fun h => h0' (by linarith)) hx hpos (fun i => by
      rw [← murnaghan_form hV (hpos i), ← murnaghan_form hV' (hpos i), he i])
  have hKp : q.Kp = q'.Kp := by linarith
  rw [hKp] at ha hb hc
  have hK0 : q.K0 = q'.K0 := by
    have := congrArg (· * q'.Kp) hb
    simpa [div_mul_cancel₀ _ h0'] using this
  have hV0 : q.V0 = q'.V0 := by
    rw [hK0] at hc
    have hd : q'.Kp * (q'.Kp - 1) ≠ 0 := mul_ne_zero h0' (sub_ne_zero.2 h1')
    rw [div_left_inj' hd] at hc
    have := mul_left_cancel₀ hK'.ne' hc
    exact Real.rpow_left_injOn h0' hV.le hV'.le this
  have hE0 : q.E0 = q'.E0 := by rw [hK0, hV0] at ha; linarith
  exact EPars.ext hE0 hK0 hKp hV0

theorem bm_pars {q q' : EPars} (h : Solid .birchMurnaghan q) (h' : Solid .birchMurnaghan q')
    {x : Fin 4 → ℝ} (hx : Function.Injective x) (hpos : ∀ i, 0 < x i)
    (he : ∀ i, energy .birchMurnaghan q.E0 q.K0 q.Kp q.V0 (x i) =
      energy .birchMurnaghan q'.E0 q'.K0 q'.Kp q'.V0 (x i)) :
    q = q' := by
  obtain ⟨hK, hV, -⟩ := h
  obtain ⟨hK', hV', -⟩ := h'
  have hw : ∀ {v : ℝ}, 0 < v → 0 < v ^ ((2:ℝ) / 3) := fun h => Real.rpow_pos_of_pos h _
  have hinj : Set.InjOn (fun v : ℝ => v ^ (-(2:ℝ) / 3)) {v | 0 ≤ v} :=
    Real.rpow_left_injOn (by norm_num)
  have hp : ∀ {r : EPars}, 0 < r.K0 → 0 < r.V0 → 0 < 9 * r.K0 * r.V0 / 8 * (r.V0 ^ ((2:ℝ) / 3)) ^ 2 :=
    fun {r} a b => by have := hw b; positivity
  obtain ⟨h1, h2, h3, h4⟩ := cubic_minimum (hp hK hV) (hp hK' hV')
    (q := 9 * q.K0 * q.V0 / 16 * (q.Kp - 4) * (q.V0 ^ ((2:ℝ) / 3)) ^ 3)
    (q' := 9 * q'.K0 * q'.V0 / 16 * (q'.Kp - 4) * (q'.V0 ^ ((2:ℝ) / 3)) ^ 3)
    (e := q.E0) (e' := q'.E0) (r := q.V0 ^ (-(2:ℝ) / 3)) (r' := q'.V0 ^ (-(2:ℝ) / 3))
    (x := fun i => x i ^ (-(2:ℝ) / 3)) (fun i j hij => hx (hinj (hpos i).le (hpos j).le hij))
    (fun i => by rw [← bm_form hV (hpos i), ← bm_form hV' (hpos i), he i])
  have hV0 : q.V0 = q'.V0 := hinj hV.le hV'.le h4
  rw [hV0] at h2 h3
  have hw' := hw hV'
  have hK0 : q.K0 = q'.K0 := by
    have := mul_right_cancel₀ (by positivity : (q'.V0 ^ ((2:ℝ) / 3)) ^ 2 ≠ 0) h2
    have : q.K0 * (9 * q'.V0 / 8) = q'.K0 * (9 * q'.V0 / 8) := by linarith
    exact mul_right_cancel₀ (by positivity) this
  have hKp : q.Kp = q'.Kp := by
    rw [hK0] at h3
    have := mul_right_cancel₀ (by positivity : (q'.V0 ^ ((2:ℝ) / 3)) ^ 3 ≠ 0) h3
    have := mul_left_cancel₀ (by positivity : 9 * q'.K0 * q'.V0 / 16 ≠ 0) this
    linarith
  exact EPars.ext h1 hK0 hKp hV0

theorem pt_pars {q q' : EPars} (h : Solid .pourierTarantola q) (h' : Solid .pourierTarantola q')
    {x : Fin 4 → ℝ} (hx : Function.Injective x) (hpos : ∀ i, 0 < x i)
    (he : ∀ i, energy .pourierTarantola q.E0 q.K0 q.Kp q.V0 (x i) =
      energy .pourierTarantola q'.E0 q'.K0 q'.Kp q'.V0 (x i)) :
    q = q' := by
  obtain ⟨hK, hV, -⟩ := h
  obtain ⟨hK', hV', -⟩ := h'
  obtain ⟨h1, h2, h3, h4⟩ := cubic_minimum (p := q.K0 * q.V0 / 2) (p' := q'.K0 * q'.V0 / 2)
    (by positivity) (by positivity)
    (q := -(q.K0 * q.V0 / 6 * (q.Kp - 2))) (q' := -(q'.K0 * q'.V0 / 6 * (q'.Kp - 2)))
    (e := q.E0) (e' := q'.E0) (r := Real.log q.V0) (r' := Real.log q'.V0)
    (x := fun i => Real.log (x i)) (fun i j hij => hx (Real.log_injOn_pos (hpos i) (hpos j) hij))
    (fun i => by rw [← pt_form hV (hpos i), ← pt_form hV' (hpos i), he i])
  have hV0 : q.V0 = q'.V0 := Real.log_injOn_pos hV hV' h4
  rw [hV0] at h2 h3
  have hK0 : q.K0 = q'.K0 := by
    have : q.K0 * (q'.V0 / 2) = q'.K0 * (q'.V0 / 2) := by linarith
    exact mul_right_cancel₀ (by positivity) this
  have hKp : q.Kp = q'.Kp := by
    rw [hK0] at h3
    have := mul_left_cancel₀ (by positivity : q'.K0 * q'.V0 / 6 ≠ 0) (neg_injective h3)
    linarith
  exact EPars.ext h1 hK0 hKp hV0

theorem vinet_pars {q q' : EPars} (h : Solid .vinet q) (h' : Solid .vinet q')
    {x : Fin 5 → ℝ} (hx : StrictMono x) (hpos : ∀ i, 0 < x i)
    (he : ∀ i, energy .vinet q.E0 q.K0 q.Kp q.V0 (x i) = energy .vinet q'.E0 q'.K0 q'.Kp q'.V0 (x i)) :
    q = q' := by
  obtain ⟨hK, hV, h1⟩ := h
  obtain ⟨hK', hV', h1'⟩ := h'
  have hu : ∀ {v : ℝ}, 0 < v → 0 < v ^ ((1:ℝ) / 3) := fun h => Real.rpow_pos_of_pos h _
  have hM : ∀ {r : EPars}, 0 < r.K0 → 0 < r.V0 → r.Kp ≠ 1 → 0 < 4 * r.K0 * r.V0 / (r.Kp - 1) ^ 2 :=
    fun {r} a b c => by have := sub_ne_zero.2 c; positivity
  have hk : ∀ {r : EPars}, 0 < r.V0 → r.Kp ≠ 1 → 3 * (r.Kp - 1) / (2 * r.V0 ^ ((1:ℝ) / 3)) ≠ 0 :=
    fun {r} a c => div_ne_zero (mul_ne_zero (by norm_num) (sub_ne_zero.2 c))
      (mul_pos two_pos (hu a)).ne'
  obtain ⟨g1, g2, g3, g4⟩ := vinet_curve_unique (E := q.E0) (E' := q'.E0) (hM hK hV h1) (hM hK' hV' h1')
    (hk hV h1) (hk hV' h1') (r := q.V0 ^ ((1:ℝ) / 3)) (r' := q'.V0 ^ ((1:ℝ) / 3))
    (x := fun i => x i ^ ((1:ℝ) / 3))
    (fun i j hij => Real.rpow_lt_rpow (hpos i).le (hx hij) (by norm_num))
    (fun i => by rw [← vinet_form hV (hpos i), ← vinet_form hV' (hpos i), he i])
  have hV0 : q.V0 = q'.V0 := Real.rpow_left_injOn (by norm_num) hV.le hV'.le g4
  rw [hV0] at g2 g3
  have hKp : q.Kp = q'.Kp := by
    have hd := (mul_pos two_pos (hu hV')).ne'
    rw [div_left_inj' hd] at g3
    linarith
  have hK0 : q.K0 = q'.K0 := by
    rw [hKp] at g2
    have hd : (q'.Kp - 1) ^ 2 ≠ 0 := pow_ne_zero 2 (sub_ne_zero.2 h1')
    rw [div_left_inj' hd] at g2
    have : q.K0 * (4 * q'.V0) = q'.K0 * (4 * q'.V0) := by linarith
    exact mul_right_cancel₀ (by positivity) this
  exact EPars.ext g1 hK0 hKp hV0

/-- C104: two E(V) curves of one formulation, for solids that resist compression, are the same curve with
the same parameters if they agree at four volumes (five for Vinet). -/
theorem C104_determined (f : EForm) {q q' : EPars} (h : Solid f q) (h' : Solid f q') {n : ℕ}
    (hn : enough f ≤ n) {V : Fin n → ℝ} (hV : Function.Injective V) (hpos : ∀ i, 0 < V i)
    (he : ∀ i, energy f q.E0 q.K0 q.Kp q.V0 (V i) = energy f q'.E0 q'.K0 q'.Kp q'.V0 (V i)) : q = q' := by
  cases f with
  | murnaghan =>
    obtain ⟨σ, hσ⟩ := sorted_points hV hn
    exact murnaghan_pars h h' hσ (fun i => hpos _) fun i => he _
  | birchMurnaghan =>
    obtain ⟨σ, hσ⟩ := sorted_points hV hn
    exact bm_pars h h' hσ.injective (fun i => hpos _) fun i => he _
  | pourierTarantola =>
    obtain ⟨σ, hσ⟩ := sorted_points hV hn
    exact pt_pars h h' hσ.injective (fun i => hpos _) fun i => he _
  | vinet =>
    obtain ⟨σ, hσ⟩ := sorted_points hV hn
    exact vinet_pars h h' hσ (fun i => hpos _) fun i => he _

/-- C104: a best fit to energies that lie on an E(V) curve returns the parameters of that curve, and the
curve is a best fit. -/
theorem C104_recovered (f : EForm) {q : EPars} (h : Solid f q) {n : ℕ} (hn : enough f ≤ n)
    {V E : Fin n → ℝ} (hV : Function.Injective V) (hpos : ∀ i, 0 < V i)
    (hE : ∀ i, E i = energy f q.E0 q.K0 q.Kp q.V0 (V i)) (r : EPars) : Best f V E r ↔ r = q := by
  have hq : misfit f V E q = 0 := by simp [misfit, hE]
  constructor
  · rintro ⟨h1, h2⟩
    have h0 : misfit f V E r = 0 := le_antisymm (hq ▸ h2 q h) (Finset.sum_nonneg fun i _ => sq_nonneg _)
    refine C104_determined f h1 h hn hV hpos fun i => ?_
    have := (Finset.sum_eq_zero_iff_of_nonneg fun i _ => sq_nonneg _).1 h0 i (Finset.mem_univ i)
    rw [← hE i]
    exact sub_eq_zero.1 (pow_eq_zero_iff two_ne_zero |>.1 this)
  · rintro rfl
    exact ⟨h, fun q' _ => hq ▸ Finset.sum_nonneg fun i _ => sq_nonneg _⟩

/-- Two different cubics with a minimum at the same point agree at three given points. -/
theorem two_cubics {a b c : ℝ} (hab : a < b) (hbc : b < c) :
    ∃ r e p p', a < r ∧ 0 < p ∧ 0 < p' ∧ ∀ t, (t = a ∨ t = b ∨ t = c) →
      p * (t - r) ^ 2 = e + p' * (t - r) ^ 2 + (t - r) ^ 3 := by
  have hd : ∀ t : ℝ, HasDerivAt (fun t => (t - a) * (t - b) * (t - c))
      ((t - b) * (t - c) + (t - a) * (t - c) + (t - a) * (t - b)) t := by
    intro t
    have : HasDerivAt (fun t : ℝ => (t - a) * (t - b) * (t - c)) _ t :=
      (((hasDerivAt_id t).sub_const a).mul ((hasDerivAt_id t).sub_const b)).mul
        ((hasDerivAt_id t).sub_const c)
    refine this.congr_deriv ?_
    simp only [id, Pi.mul_apply]; ring
  obtain ⟨r, hr, h0⟩ := exists_hasDerivAt_eq_zero (f := fun t => (t - a) * (t - b) * (t - c)) hab
    (fun t _ => (hd t).continuousAt.continuousWithinAt) (by simp) (fun t _ => hd t)
  set m := |3 * r - (a + b + c)| + 1 with hm
  have := abs_nonneg (3 * r - (a + b + c))
  have h1 := neg_abs_le (3 * r - (a + b + c))
  refine ⟨r, (r - a) * (r - b) * (r - c), m, m + (3 * r - (a + b + c)), hr.1, by linarith, by linarith,
    fun t ht => ?_⟩
  have hz : (t - a) * (t - b) * (t - c) = 0 := by rcases ht with rfl | rfl | rfl <;> ring
  linear_combination (-1 : ℝ) * hz + (t - r) * h0

/-- C104: four data are needed: whatever three volumes are chosen, two different solids have the same energies
there (Pourier-Tarantola and Birch-Murnaghan). -/
theorem C104_three (f : EForm) (hf : f = .pourierTarantola ∨ f = .birchMurnaghan) {x y z : ℝ} (hx : 0 < x)
    (hxy : x < y) (hyz : y < z) :
    ∃ q q' : EPars, Solid f q ∧ Solid f q' ∧ q ≠ q' ∧
      ∀ v, (v = x ∨ v = y ∨ v = z) → energy f q.E0 q.K0 q.Kp q.V0 v = energy f q'.E0 q'.K0 q'.Kp q'.V0 v := by
  have hy := hx.trans hxy
  have hz := hy.trans hyz
  rcases hf with rfl | rfl
  · obtain ⟨r, e, p, p', -, hp, hp', h⟩ := two_cubics (Real.log_lt_log hx hxy) (Real.log_lt_log hy hyz)
    have hr := Real.exp_pos r
    refine ⟨⟨0, 2 * p / Real.exp r, 2, Real.exp r⟩, ⟨e, 2 * p' / Real.exp r, 2 - 3 / p', Real.exp r⟩,
      ⟨by positivity, hr, trivial⟩, ⟨by positivity, hr, trivial⟩, fun hc => ?_, fun v hv => ?_⟩
    · have := congrArg EPars.Kp hc
      have h3 : 3 / p' ≠ 0 := by positivity
      exact h3 (by simp at this; linarith)
    · have hv0 : 0 < v := by rcases hv with rfl | rfl | rfl <;> assumption
      simp only [pt_form hr hv0, Real.log_exp]
      have := h (Real.log v) (by rcases hv with rfl | rfl | rfl <;> simp)
      field_simp
      linarith
  · have hlt : ∀ {u v : ℝ}, 0 < u → u < v → v ^ (-(2:ℝ) / 3) < u ^ (-(2:ℝ) / 3) := fun hu huv =>
      Real.rpow_lt_rpow_of_neg hu huv (by norm_num)
    obtain ⟨r, e, p, p', hr, hp, hp', h⟩ := two_cubics (hlt hy hyz) (hlt hx hxy)
    have hr0 : 0 < r := (Real.rpow_pos_of_pos hz _).trans hr
    have e1 : (r ^ (-(3:ℝ) / 2)) ^ (-(2:ℝ) / 3) = r := by
      rw [← Real.rpow_mul hr0.le]; norm_num
    have hV := Real.rpow_pos_of_pos hr0 (-(3:ℝ) / 2)
    have hw := Real.rpow_pos_of_pos hV ((2:ℝ) / 3)
    set V0 := r ^ (-(3:ℝ) / 2)
    set w := V0 ^ ((2:ℝ) / 3) with hwd
    refine ⟨⟨0, 8 * p / (9 * V0 * w ^ 2), 4, V0⟩, ⟨e, 8 * p' / (9 * V0 * w ^ 2), 4 + 2 / (p' * w), V0⟩,
      ⟨by positivity, hV, trivial⟩, ⟨by positivity, hV, trivial⟩, fun hc => ?_, fun v hv => ?_⟩
    · have := congrArg EPars.Kp hc
      have h3 : 2 / (p' * w) ≠ 0 := by positivity
      exact h3 (by simp at this; rcases this with h | h; exact absurd h hp'.ne'; exact absurd h hw.ne')
    · have hv0 : 0 < v := by rcases hv with rfl | rfl | rfl <;> assumption
      simp only [bm_form hV hv0, e1, ← hwd]
      have := h (v ^ (-(2:ℝ) / 3)) (by rcases hv with rfl | rfl | rfl <;> simp)
      field_simp
      linarith

/-- A solid and six volumes that meet the hypotheses of `C104_determined` and `C104_recovered`, for every
formulation. -/
example (f : EForm) : Solid f ⟨-5, 1, 4.2, 70⟩ ∧ enough f ≤ 6 ∧
    Function.Injective (fun i : Fin 6 => 60 + 3 * (i : ℝ)) ∧ ∀ i : Fin 6, 0 < 60 + 3 * (i : ℝ) := by
  refine ⟨⟨by norm_num, by norm_num, by cases f <;> norm_num [ERegular]⟩, by cases f <;> decide,
    fun i j h => ?_, fun i => by positivity⟩
  have : (i : ℝ) = j := by simp only at h; linarith
  exact Fin.ext (by exact_mod_cast this)

end Verif.EoS
