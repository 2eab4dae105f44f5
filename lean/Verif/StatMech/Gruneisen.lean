/-
Property C179: the Grüneisen parameter of a crystal lies among those of its modes.
-/
import Verif.StatMech.Frequency
import Mathlib.Analysis.SpecialFunctions.Pow.Deriv
import Verif.Tac

namespace Verif.StatMech
open Verif.Units (Consts)
open Filter Topology Set

variable {nt nb nf nv : ℕ}

/-- The thermodynamic Grüneisen parameter `V (dS/dV) / Cv` of a crystal with frequencies `ω` that depend on the volume. -/
noncomputable def Spec.gruneisen (k : Consts) (ω : Fin nb → Fin nf → ℝ → ℝ) (w : Fin nb → ℝ) (V t : ℝ) : ℝ :=
  V * deriv (fun v => atTemp (entropy k) (fun j m (_ : Fin 1) => ω j m v) w 0 t) V /
    atTemp (isochoricHeatCapacity k) (fun j m (_ : Fin 1) => ω j m V) w 0 t

open Spec

/-! ### Lemmas -/

theorem hoCv_gt (k : Consts) {T ω : ℝ} (hT : 0 < T) (h : 0 < ω) : 0 < hoCv k T ω := by
  rw [hoCv_pos k hT.ne' h]
  have hx := div_pos (einstein_pos k h) hT
  have := exp_sub_one_pos hx
  have := k.N_pos
  have := k.kB_pos
  positivity

theorem gruneisen_eq (k : Consts) (ω : Fin nb → Fin nf → ℝ → ℝ) (g : Fin nb → Fin nf → ℝ) (w : Fin nb → ℝ) {V : ℝ}
    (hV : 0 < V) (hω : ∀ j m, 0 < ω j m V) (hd : ∀ j m, HasDerivAt (ω j m) (-g j m * ω j m V / V) V) {t : ℝ} (ht : 0 < t) :
    gruneisen k ω w V t = (∑ j, ∑ m, w j * g j m * hoCv k t (ω j m V)) / ∑ j, ∑ m, w j * hoCv k t (ω j m V) := by
  have h := C126_entropy k (fun _ : Fin 1 => t) ω g w hω hd 0 ht
  unfold gruneisen atTemp
  rw [h.deriv]
  simp only [isochoricHeatCapacity, kernel_eq, Fin.sum_univ_one, mul_one]
  rw [mul_div_cancel₀ _ hV.ne']
  congr 1
  exact Finset.sum_congr rfl fun j _ => Finset.sum_congr rfl fun m _ => mul_comm _ _

/-- The heat capacity of a stiffer mode dies out before that of a softer one. -/
theorem hoCv_ratio (k : Consts) {ω₀ ω : ℝ} (h0 : 0 < ω₀) (h : ω₀ < ω) :
    Tendsto (fun T => hoCv k T ω / hoCv k T ω₀) (𝓝[>] 0) (𝓝 0) := by
  have ha0 := einstein_pos k h0
  have ha := einstein_pos k (h0.trans h)
  have hlt : einstein k ω₀ < einstein k ω := by
    have e : ∀ o, einstein k o = einstein k 1 * o := fun o => by simp only [einstein]; ring
    rw [e ω₀, e ω]
    exact mul_lt_mul_of_pos_left h (einstein_pos k one_pos)
  generalize hA0 : einstein k ω₀ = a₀ at *
  generalize hA : einstein k ω = a at *
  have hx : Tendsto (fun T : ℝ => (a - a₀) * T⁻¹) (𝓝[>] 0) atTop :=
    tendsto_inv_nhdsGT_zero.const_mul_atTop (sub_pos.2 hlt)
  have hb : Tendsto (fun T : ℝ => 4 * (a / a₀) ^ 2 * Real.exp (-((a - a₀) * T⁻¹))) (𝓝[>] 0) (𝓝 0) := by
    have := ((Real.tendsto_exp_neg_atTop_nhds_zero.comp hx).const_mul (4 * (a / a₀) ^ 2))
    simpa using this
  have hl : ∀ᶠ T : ℝ in 𝓝[>] 0, Real.log 2 ≤ a * T⁻¹ :=
    (tendsto_inv_nhdsGT_zero.const_mul_atTop ha).eventually_ge_atTop _
  refine squeeze_zero' ?_ ?_ hb
  · filter_upwards with T
    exact div_nonneg (hoCv_nonneg _ _ _) (hoCv_nonneg _ _ _)
  · filter_upwards [hl, self_mem_nhdsWithin] with T hT2 hT
    have hT : 0 < T := hT
    rw [div_le_iff₀ (hoCv_gt k hT h0), hoCv_pos k hT.ne' h0, hoCv_pos k hT.ne' (h0.trans h), hA0, hA]
    have hx0 : 0 < a₀ / T := div_pos ha0 hT
    have hxa : 0 < a / T := div_pos ha hT
    have q0 := exp_sub_one_pos hx0
    have qa := exp_sub_one_pos hxa
    have e2 : 2 ≤ Real.exp (a / T) := by
      rw [← Real.exp_log (show (0:ℝ) < 2 by norm_num)]
      exact Real.exp_le_exp.2 (by rw [div_eq_mul_inv]; exact hT2)
    -- upper bound of the numerator
    have up : Real.exp (a / T) * (a / T / (Real.exp (a / T) - 1)) ^ 2 ≤ 4 * (a / T) ^ 2 * Real.exp (-(a / T)) := by
      rw [div_pow (a / T), Real.exp_neg, ← mul_div_assoc, div_le_iff₀ (by positivity)]
      have p := Real.exp_pos (a / T)
      have h4 : Real.exp (a / T) ^ 2 ≤ 4 * (Real.exp (a / T) - 1) ^ 2 := by nlinarith
      have : 4 * (a / T) ^ 2 * (Real.exp (a / T))⁻¹ * (Real.exp (a / T) - 1) ^ 2 =
          (a / T) ^ 2 * (Real.exp (a / T))⁻¹ * (4 * (Real.exp (a / T) - 1) ^ 2) := by ring
      rw [this]
      calc Real.exp (a / T) * (a / T) ^ 2 = (a / T) ^ 2 * (Real.exp (a / T))⁻¹ * Real.exp (a / T) ^ 2 := by
            field_simp
        _ ≤ _ := mul_le_mul_of_nonneg_left h4 (by positivity)
    -- lower bound of the denominator
    have lo : (a₀ / T) ^ 2 * Real.exp (-(a₀ / T)) ≤ Real.exp (a₀ / T) * (a₀ / T / (Real.exp (a₀ / T) - 1)) ^ 2 := by
      rw [div_pow (a₀ / T), Real.exp_neg, ← mul_div_assoc, le_div_iff₀ (by positivity)]
      have p := Real.exp_pos (a₀ / T)
      have h4 : (Real.exp (a₀ / T) - 1) ^ 2 ≤ Real.exp (a₀ / T) ^ 2 := by nlinarith
      calc (a₀ / T) ^ 2 * (Real.exp (a₀ / T))⁻¹ * (Real.exp (a₀ / T) - 1) ^ 2 ≤
            (a₀ / T) ^ 2 * (Real.exp (a₀ / T))⁻¹ * Real.exp (a₀ / T) ^ 2 := mul_le_mul_of_nonneg_left h4 (by positivity)
        _ = _ := by field_simp
    have hN := mul_pos k.N_pos k.kB_pos
    have e : 4 * (a / a₀) ^ 2 * Real.exp (-((a - a₀) * T⁻¹)) *
        (k.N * k.kB * (Real.exp (a₀ / T) * (a₀ / T / (Real.exp (a₀ / T) - 1)) ^ 2)) =
        k.N * k.kB * (4 * (a / a₀) ^ 2 * Real.exp (-((a - a₀) * T⁻¹)) *
          (Real.exp (a₀ / T) * (a₀ / T / (Real.exp (a₀ / T) - 1)) ^ 2)) := by ring
    rw [e]
    refine mul_le_mul_of_nonneg_left (up.trans ?_) hN.le
    have e3 : 4 * (a / T) ^ 2 * Real.exp (-(a / T)) =
        4 * (a / a₀) ^ 2 * Real.exp (-((a - a₀) * T⁻¹)) * ((a₀ / T) ^ 2 * Real.exp (-(a₀ / T))) := by
      have : -(a / T) = -((a - a₀) * T⁻¹) + -(a₀ / T) := by field_simp; ring
      rw [this, Real.exp_add]
      field_simp
    rw [e3]
    exact mul_le_mul_of_nonneg_left lo (by positivity)

/-- A frequency whose mode Grüneisen parameter is at most `h` does not fall faster than the power `-h` of the volume. -/
theorem power_le {ω g : ℝ → ℝ} {V V' h : ℝ} (hV : 0 < V) (hle : V ≤ V') (hω : ∀ v ∈ Icc V V', 0 < ω v)
    (hd : ∀ v ∈ Icc V V', HasDerivAt ω (-g v * ω v / v) v) (hg : ∀ v ∈ Icc V V', g v ≤ h) :
    (V / V') ^ h * ω V ≤ ω V' := by
  have hV' : 0 < V' := hV.trans_le hle
  have hp : ∀ v ∈ Icc V V', HasDerivAt (fun v => ω v * v ^ h) (-g v * ω v / v * v ^ h + ω v * (h * v ^ (h - 1))) v :=
    fun v hv => (hd v hv).fun_mul (Real.hasDerivAt_rpow_const (.inl (hV.trans_le hv.1).ne'))
  have hm : MonotoneOn (fun v => ω v * v ^ h) (Icc V V') := by
    refine monotoneOn_of_deriv_nonneg (convex_Icc V V') (fun v hv => (hp v hv).continuousAt.continuousWithinAt)
      (fun v hv => (hp v (interior_subset hv)).differentiableAt.differentiableWithinAt) fun v hv => ?_
    have hv := interior_subset hv
    have p : 0 < v := hV.trans_le hv.1
    rw [(hp v hv).deriv, Real.rpow_sub_one p.ne']
    have := Real.rpow_pos_of_pos p h
    have e : -g v * ω v / v * v ^ h + ω v * (h * (v ^ h / v)) = ω v * v ^ h / v * (h - g v) := by
      field_simp
      ring
    rw [e]
    exact mul_nonneg (by have := hω v hv; positivity) (sub_nonneg.2 (hg v hv))
  have := hm (left_mem_Icc.2 hle) (right_mem_Icc.2 hle) hle
  simp only at this
  rw [Real.div_rpow hV.le hV'.le, div_mul_eq_mul_div, div_le_iff₀ (Real.rpow_pos_of_pos hV' h)]
  linarith

theorem le_power {ω g : ℝ → ℝ} {V V' h : ℝ} (hV : 0 < V) (hle : V ≤ V') (hω : ∀ v ∈ Icc V V', 0 < ω v)
    (hd : ∀ v ∈ Icc V V', HasDerivAt ω (-g v * ω v / v) v) (hg : ∀ v ∈ Icc V V', h ≤ g v) :
    ω V' ≤ (V / V') ^ h * ω V := by
  have hV' : 0 < V' := hV.trans_le hle
  -- the inverse frequency has the opposite parameter
  have hi := power_le (ω := fun v => (ω v)⁻¹) (g := fun v => -g v) (h := -h) hV hle (fun v hv => inv_pos.2 (hω v hv))
    (fun v hv => by
      have := (hd v hv).fun_inv (hω v hv).ne'
      refine this.congr_deriv ?_
      have := (hω v hv).ne'
      have := (hV.trans_le hv.1).ne'
      field_simp) fun v hv => neg_le_neg (hg v hv)
  have p0 := hω V (left_mem_Icc.2 hle)
  have p1 := hω V' (right_mem_Icc.2 hle)
  have pr := Real.rpow_pos_of_pos (div_pos hV hV') h
  rw [Real.rpow_neg (div_pos hV hV').le, ← mul_inv] at hi
  exact (inv_le_inv₀ (by positivity) p1).1 hi

/-! ### C179 -/

/-- C179: at every temperature the Grüneisen parameter of the crystal is a mean of those of its modes: it lies between the
smallest and the largest. -/
theorem C179_between (k : Consts) (ω : Fin nb → Fin nf → ℝ → ℝ) (g : Fin nb → Fin nf → ℝ) (w : Fin nb → ℝ)
    (hw : ∀ j, 0 ≤ w j) (hw' : 0 < ∑ j, w j) (hnf : 0 < nf) {V : ℝ} (hV : 0 < V) (hω : ∀ j m, 0 < ω j m V)
    (hd : ∀ j m, HasDerivAt (ω j m) (-g j m * ω j m V / V) V) {t : ℝ} (ht : 0 < t) {lo hi : ℝ} (hlo : ∀ j m, lo ≤ g j m)
    (hhi : ∀ j m, g j m ≤ hi) : lo ≤ gruneisen k ω w V t ∧ gruneisen k ω w V t ≤ hi := by
  rw [gruneisen_eq k ω g w hV hω hd ht]
  have hpos : 0 < ∑ j, ∑ m, w j * hoCv k t (ω j m V) := by
    obtain ⟨j, -, hj⟩ : ∃ j ∈ Finset.univ, 0 < w j := by
      by_contra hne
      push Not at hne
      exact absurd hw' (not_lt.2 (Finset.sum_nonpos hne))
    refine Finset.sum_pos' (fun j _ => Finset.sum_nonneg fun m _ => mul_nonneg (hw j) (hoCv_nonneg _ _ _))
      ⟨j, Finset.mem_univ _, ?_⟩
    exact Finset.sum_pos (fun m _ => mul_pos hj (hoCv_gt k ht (hω j m))) ⟨⟨0, hnf⟩, Finset.mem_univ _⟩
  rw [le_div_iff₀ hpos, div_le_iff₀ hpos, Finset.mul_sum, Finset.mul_sum]
  constructor
  · refine Finset.sum_le_sum fun j _ => ?_
    rw [Finset.mul_sum]
    refine Finset.sum_le_sum fun m _ => ?_
    have := mul_le_mul_of_nonneg_right (hlo j m) (mul_nonneg (hw j) (hoCv_nonneg k t (ω j m V)))
    linarith
  · refine Finset.sum_le_sum fun j _ => ?_
    rw [Finset.mul_sum]
    refine Finset.sum_le_sum fun m _ => ?_
    have := mul_le_mul_of_nonneg_right (hhi j m) (mul_nonneg (hw j) (hoCv_nonneg k t (ω j m V)))
    linarith

/-- C179: at high temperature all modes count alike. -/
theorem C179_hot (k : Consts) (ω : Fin nb → Fin nf → ℝ → ℝ) (g : Fin nb → Fin nf → ℝ) (w : Fin nb → ℝ)
    (hw' : 0 < ∑ j, w j) (hnf : 0 < nf) {V : ℝ} (hV : 0 < V) (hω : ∀ j m, 0 < ω j m V)
    (hd : ∀ j m, HasDerivAt (ω j m) (-g j m * ω j m V / V) V) :
    Tendsto (gruneisen k ω w V) atTop (𝓝 ((∑ j, ∑ m, w j * g j m) / (nf * ∑ j, w j))) := by
  have hN := mul_pos k.N_pos k.kB_pos
  have hn : (0 : ℝ) < nf := by exact_mod_cast hnf
  have h1 : Tendsto (fun t => ∑ j, ∑ m, w j * g j m * hoCv k t (ω j m V)) atTop
      (𝓝 (∑ j, ∑ m, w j * g j m * (k.N * k.kB))) :=
    tendsto_finsetSum _ fun j _ => tendsto_finsetSum _ fun m _ => (hoCv_tendsto_classical k (hω j m)).const_mul _
  have h2 : Tendsto (fun t => ∑ j, ∑ m, w j * hoCv k t (ω j m V)) atTop (𝓝 (∑ j, ∑ _m : Fin nf, w j * (k.N * k.kB))) :=
    tendsto_finsetSum _ fun j _ => tendsto_finsetSum _ fun m _ => (hoCv_tendsto_classical k (hω j m)).const_mul _
  have e1 : ∑ j, ∑ m, w j * g j m * (k.N * k.kB) = (∑ j, ∑ m, w j * g j m) * (k.N * k.kB) := by
    simp only [Finset.sum_mul]
  have e2 : (∑ j, ∑ _m : Fin nf, w j * (k.N * k.kB)) = (nf * ∑ j, w j) * (k.N * k.kB) := by
    simp only [Finset.sum_const, Finset.card_univ, Fintype.card_fin, nsmul_eq_mul, Finset.mul_sum, Finset.sum_mul]
    exact Finset.sum_congr rfl fun j _ => by ring
  rw [e1] at h1
  rw [e2] at h2
  have := h1.div h2 (by positivity)
  rw [mul_div_mul_right _ _ hN.ne'] at this
  refine this.congr' ?_
  filter_upwards [eventually_gt_atTop 0] with t ht
  exact (gruneisen_eq k ω g w hV hω hd ht).symm

/-- C179: towards absolute zero only the softest modes count. -/
theorem C179_cold (k : Consts) (ω : Fin nb → Fin nf → ℝ → ℝ) (g : Fin nb → Fin nf → ℝ) (w : Fin nb → ℝ)
    (hw : ∀ j, 0 ≤ w j) {V : ℝ} (hV : 0 < V) (hω : ∀ j m, 0 < ω j m V)
    (hd : ∀ j m, HasDerivAt (ω j m) (-g j m * ω j m V / V) V) (a : Fin nb) (b : Fin nf) (ha : 0 < w a)
    (hmin : ∀ j m, ω a b V ≤ ω j m V) (hsame : ∀ j m, ω j m V = ω a b V → g j m = g a b) :
    Tendsto (gruneisen k ω w V) (𝓝[>] 0) (𝓝 (g a b)) := by
  have hr : ∀ j m, Tendsto (fun t => hoCv k t (ω j m V) / hoCv k t (ω a b V)) (𝓝[>] 0)
      (𝓝 (if ω j m V = ω a b V then 1 else 0)) := by
    intro j m
    split_ifs with he
    · rw [he]
      refine tendsto_const_nhds.congr' ?_
      filter_upwards [self_mem_nhdsWithin] with t ht
      exact (div_self (hoCv_gt k ht (hω a b)).ne').symm
    · exact hoCv_ratio k (hω a b) (lt_of_le_of_ne (hmin j m) (Ne.symm he))
  have h1 : Tendsto (fun t => ∑ j, ∑ m, w j * g j m * (hoCv k t (ω j m V) / hoCv k t (ω a b V))) (𝓝[>] 0)
      (𝓝 (∑ j, ∑ m, w j * g j m * (if ω j m V = ω a b V then 1 else 0))) :=
    tendsto_finsetSum _ fun j _ => tendsto_finsetSum _ fun m _ => (hr j m).const_mul _
  have h2 : Tendsto (fun t => ∑ j, ∑ m, w j * (hoCv k t (ω j m V) / hoCv k t (ω a b V))) (𝓝[>] 0)
      (𝓝 (∑ j, ∑ m, w j * (if ω j m V = ω a b V then 1 else 0))) :=
    tendsto_finsetSum _ fun j _ => tendsto_finsetSum _ fun m _ => (hr j m).const_mul _
  have e1 : ∑ j, ∑ m, w j * g j m * (if ω j m V = ω a b V then 1 else 0) =
      g a b * ∑ j, ∑ m, w j * (if ω j m V = ω a b V then (1 : ℝ) else 0) := by
    simp only [Finset.mul_sum]
    refine Finset.sum_congr rfl fun j _ => Finset.sum_congr rfl fun m _ => ?_
    split_ifs with he
    · rw [hsame j m he]
      ring
    · ring
  have hpos : 0 < ∑ j, ∑ m, w j * (if ω j m V = ω a b V then (1 : ℝ) else 0) := by
    have h0 : ∀ j m, 0 ≤ w j * (if ω j m V = ω a b V then (1 : ℝ) else 0) := fun j m =>
      mul_nonneg (hw j) (by split_ifs <;> norm_num)
    refine Finset.sum_pos' (fun j _ => Finset.sum_nonneg fun m _ => h0 j m) ⟨a, Finset.mem_univ _, ?_⟩
    exact Finset.sum_pos' (fun m _ => h0 a m) ⟨b, Finset.mem_univ _, by simpa using ha⟩
  rw [e1] at h1
  have := h1.div h2 hpos.ne'
  rw [mul_div_assoc, div_self hpos.ne', mul_one] at this
  refine this.congr' ?_
  filter_upwards [self_mem_nhdsWithin] with t ht
  rw [gruneisen_eq k ω g w hV hω hd ht]
  have hc := (hoCv_gt k ht (hω a b)).ne'
  show (∑ j, ∑ m, w j * g j m * (hoCv k t (ω j m V) / hoCv k t (ω a b V))) /
    (∑ j, ∑ m, w j * (hoCv k t (ω j m V) / hoCv k t (ω a b V))) = _
  simp only [← mul_div_assoc, ← Finset.sum_div]
  rw [div_div_div_cancel_right₀ hc]

/-- C179, adiabats: when the modes have Grüneisen parameters between `lo` and `hi` on the way from `V` to a larger volume
`V'`, the entropy of the crystal at `V` and `t` lies between the entropies at `V'` and the temperatures `t (V/V')^hi` and
`t (V/V')^lo`. -/
theorem C179_adiabat (k : Consts) (ω g : Fin nb → Fin nf → ℝ → ℝ) (w : Fin nb → ℝ) (hw : ∀ j, 0 ≤ w j) {V V' : ℝ}
    (hV : 0 < V) (hle : V ≤ V') (hω : ∀ j m, ∀ v ∈ Icc V V', 0 < ω j m v)
    (hd : ∀ j m, ∀ v ∈ Icc V V', HasDerivAt (ω j m) (-g j m v * ω j m v / v) v) {lo hi : ℝ}
    (hlo : ∀ j m, ∀ v ∈ Icc V V', lo ≤ g j m v) (hhi : ∀ j m, ∀ v ∈ Icc V V', g j m v ≤ hi) {t : ℝ} (ht : 0 ≤ t) :
    atTemp (entropy k) (fun j m (_ : Fin 1) => ω j m V') w 0 ((V / V') ^ hi * t) ≤
      atTemp (entropy k) (fun j m (_ : Fin 1) => ω j m V) w 0 t ∧
    atTemp (entropy k) (fun j m (_ : Fin 1) => ω j m V) w 0 t ≤
      atTemp (entropy k) (fun j m (_ : Fin 1) => ω j m V') w 0 ((V / V') ^ lo * t) := by
  have hV' : 0 < V' := hV.trans_le hle
  have same : ∀ h : ℝ, atTemp (entropy k) (fun j m (_ : Fin 1) => (V / V') ^ h * ω j m V) w 0 ((V / V') ^ h * t) =
      atTemp (entropy k) (fun j m (_ : Fin 1) => ω j m V) w 0 t := fun h =>
    (C126_corresponding_states k (fun _ : Fin 1 => t) (fun j m (_ : Fin 1) => ω j m V) w
      (Real.rpow_pos_of_pos (div_pos hV hV') h) 0 0).2.2.2.1
  have p : ∀ h : ℝ, 0 < (V / V') ^ h := fun h => Real.rpow_pos_of_pos (div_pos hV hV') h
  constructor
  · rw [← same hi]
    exact (C126_stiffer k (fun _ : Fin 1 => (V / V') ^ hi * t) (fun j m (_ : Fin 1) => (V / V') ^ hi * ω j m V)
      (fun j m (_ : Fin 1) => ω j m V') w hw 0 (fun j m => mul_pos (p hi) (hω j m V (left_mem_Icc.2 hle)))
      (fun j m => power_le hV hle (hω j m) (hd j m) (hhi j m)) 0 (mul_nonneg (p hi).le ht)).2.2.2.1
  · rw [← same lo]
    exact (C126_stiffer k (fun _ : Fin 1 => (V / V') ^ lo * t) (fun j m (_ : Fin 1) => ω j m V')
      (fun j m (_ : Fin 1) => (V / V') ^ lo * ω j m V) w hw 0 (fun j m => hω j m V' (right_mem_Icc.2 hle))
      (fun j m => le_power hV hle (hω j m) (hd j m) (hlo j m)) 0 (mul_nonneg (p lo).le ht)).2.2.2.1

end Verif.StatMech
