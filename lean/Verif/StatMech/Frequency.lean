/-
Property theorems C126: how the harmonic functions depend on the frequencies.
-/
import Verif.StatMech.Props

namespace Verif.StatMech
open Verif.Units (Consts)
open Filter Topology Set

variable {nt nb nf nv : ℕ}

/-! ### One oscillator -/

theorem einstein_smul (k : Consts) (l ω : ℝ) : einstein k (l * ω) = l * einstein k ω := by
  simp only [einstein]; ring

theorem ratio_same {l T ω : ℝ} (k : Consts) (hl : l ≠ 0) : einstein k (l * ω) / (l * T) = einstein k ω / T := by
  rw [einstein_smul, mul_div_mul_left _ _ hl]

theorem nonpos_smul {l ω : ℝ} (hl : 0 < l) (h : ω ≤ 0) : l * ω ≤ 0 := mul_nonpos_of_nonneg_of_nonpos hl.le h

theorem hoZpe_smul (k : Consts) {l : ℝ} (hl : 0 < l) (T T' ω : ℝ) : hoZpe k T' (l * ω) = l * hoZpe k T ω := by
  rcases le_or_gt ω 0 with h | h
  · simp [hoZpe, h, nonpos_smul hl h]
  · rw [hoZpe_pos k _ h, hoZpe_pos k _ (mul_pos hl h)]; ring

theorem hoEth_smul (k : Consts) {l : ℝ} (hl : 0 < l) (T ω : ℝ) : hoEth k (l * T) (l * ω) = l * hoEth k T ω := by
  rcases le_or_gt ω 0 with h | h
  · simp [hoEth, h, nonpos_smul hl h]
  rcases eq_or_ne T 0 with rfl | hT
  · simp [hoEth]
  rw [hoEth_pos k hT h, hoEth_pos k (mul_ne_zero hl.ne' hT) (mul_pos hl h), ratio_same k hl.ne', einstein_smul]
  ring

theorem hoS_smul (k : Consts) {l : ℝ} (hl : 0 < l) (T ω : ℝ) : hoS k (l * T) (l * ω) = hoS k T ω := by
  rcases le_or_gt ω 0 with h | h
  · simp [hoS, h, nonpos_smul hl h]
  rcases eq_or_ne T 0 with rfl | hT
  · simp [hoS]
  rw [hoS_pos k hT h, hoS_pos k (mul_ne_zero hl.ne' hT) (mul_pos hl h), ratio_same k hl.ne']

theorem hoCv_smul (k : Consts) {l : ℝ} (hl : 0 < l) (T ω : ℝ) : hoCv k (l * T) (l * ω) = hoCv k T ω := by
  rcases le_or_gt ω 0 with h | h
  · simp [hoCv, h, nonpos_smul hl h]
  rcases eq_or_ne T 0 with rfl | hT
  · simp [hoCv]
  rw [hoCv_pos k hT h, hoCv_pos k (mul_ne_zero hl.ne' hT) (mul_pos hl h), ratio_same k hl.ne']

theorem hoF_smul (k : Consts) {l : ℝ} (hl : 0 < l) (T ω : ℝ) : hoF k (l * T) (l * ω) = l * hoF k T ω := by
  rw [hoF_eq, hoF_eq, hoZpe_smul k hl T, hoEth_smul k hl, hoS_smul k hl]
  ring

/-- Entropy falls when the frequency rises: a function of `ω/T` that grows with `T`. -/
theorem hoS_antitone (k : Consts) {T ω ω' : ℝ} (hT : 0 ≤ T) (h : 0 < ω) (hle : ω ≤ ω') : hoS k T ω' ≤ hoS k T ω := by
  have hl : 0 < ω / ω' := div_pos h (h.trans_le hle)
  have h1 : ω / ω' ≤ 1 := (div_le_one (h.trans_le hle)).2 hle
  rw [← hoS_smul k hl T ω', div_mul_cancel₀ _ (h.trans_le hle).ne']
  exact monotone_from_zero (hoS_monotoneOn k ω) (by simp [hoS]) (fun t ht => hoS_nonneg k ht ω) (mul_nonneg hl.le hT)
    (mul_le_of_le_one_left hT h1)

theorem hoCv_antitone (k : Consts) {T ω ω' : ℝ} (hT : 0 ≤ T) (h : 0 < ω) (hle : ω ≤ ω') : hoCv k T ω' ≤ hoCv k T ω := by
  have hl : 0 < ω / ω' := div_pos h (h.trans_le hle)
  have h1 : ω / ω' ≤ 1 := (div_le_one (h.trans_le hle)).2 hle
  rw [← hoCv_smul k hl T ω', div_mul_cancel₀ _ (h.trans_le hle).ne']
  exact monotone_from_zero (hoCv_monotoneOn k ω) (by simp [hoCv]) (fun t _ => hoCv_nonneg k t ω) (mul_nonneg hl.le hT)
    (mul_le_of_le_one_left hT h1)

/-- `x / (exp x - 1)` falls. -/
theorem bose_antitone {x y : ℝ} (hx : 0 < x) (hxy : x ≤ y) : y / (Real.exp y - 1) ≤ x / (Real.exp x - 1) := by
  have key : ∀ z : ℝ, 0 < z → z / (Real.exp z - 1) = Real.exp (-(z / 2)) * (z / 2 / Real.sinh (z / 2)) := by
    intro z hz
    have e1 : Real.exp z = Real.exp (z / 2) * Real.exp (z / 2) := by rw [← Real.exp_add]; congr 1; ring
    have hp := Real.exp_pos (z / 2)
    have h1 : 1 < Real.exp (z / 2) := Real.one_lt_exp_iff.2 (by linarith)
    rw [Real.sinh_eq, Real.exp_neg, e1]
    generalize Real.exp (z / 2) = e at *
    have n1 : e * e - 1 ≠ 0 := by nlinarith
    have n2 : e - e⁻¹ ≠ 0 := by
      intro h
      apply n1
      field_simp at h
      linarith
    field_simp
  have hy := hx.trans_le hxy
  rw [key x hx, key y hy]
  have q1 := Real.sinh_pos_iff.2 (half_pos hx)
  have q2 := Real.sinh_pos_iff.2 (half_pos hy)
  have h1 := sinh_div_monotoneOn (mem_Ioi.2 (half_pos hx)) (mem_Ioi.2 (half_pos hy)) (by linarith)
  simp only at h1
  refine mul_le_mul (Real.exp_le_exp.2 (by linarith)) ?_ (by positivity) (Real.exp_pos _).le
  rw [div_le_div_iff₀ q2 q1]
  rw [div_le_div_iff₀ (half_pos hx) (half_pos hy)] at h1
  linarith

theorem hoEth_antitone (k : Consts) {T ω ω' : ℝ} (hT : 0 ≤ T) (h : 0 < ω) (hle : ω ≤ ω') : hoEth k T ω' ≤ hoEth k T ω := by
  rcases hT.eq_or_lt with rfl | hT
  · simp [hoEth]
  have h' := h.trans_le hle
  have e : ∀ x, x / (Real.exp (x / T) - 1) = T * (x / T / (Real.exp (x / T) - 1)) := fun x => by
    rw [mul_div_assoc', mul_div_cancel₀ _ hT.ne']
  rw [hoEth_pos k hT.ne' h, hoEth_pos k hT.ne' h', e, e (einstein k ω)]
  refine mul_le_mul_of_nonneg_left (mul_le_mul_of_nonneg_left ?_ hT.le)
    (div_pos (mul_pos k.N_pos k.kB_pos) (by norm_num)).le
  refine bose_antitone (div_pos (einstein_pos k h) hT) (div_le_div_of_nonneg_right ?_ hT.le)
  exact div_le_div_of_nonneg_right (mul_le_mul_of_nonneg_left hle k.h_pos.le) k.kB_pos.le

theorem hoZpe_mono (k : Consts) {T ω ω' : ℝ} (h : 0 < ω) (hle : ω ≤ ω') : hoZpe k T ω ≤ hoZpe k T ω' := by
  rw [hoZpe_pos k _ h, hoZpe_pos k _ (h.trans_le hle)]
  have := mul_le_mul_of_nonneg_left hle (mul_pos k.N_pos k.h_pos).le
  linarith

theorem hoF_mono (k : Consts) {T ω ω' : ℝ} (hT : 0 ≤ T) (h : 0 < ω) (hle : ω ≤ ω') : hoF k T ω ≤ hoF k T ω' := by
  have h' := h.trans_le hle
  rcases hT.eq_or_lt with rfl | hT
  · rw [hoF_zero k h, hoF_zero k h']; exact hoZpe_mono k h hle
  have he : einstein k ω ≤ einstein k ω' :=
    div_le_div_of_nonneg_right (mul_le_mul_of_nonneg_left hle k.h_pos.le) k.kB_pos.le
  rw [hoF_pos k hT.ne' h, hoF_pos k hT.ne' h']
  refine mul_le_mul_of_nonneg_left ?_ (div_pos (mul_pos k.N_pos k.kB_pos) (by norm_num)).le
  have hx : 0 < einstein k ω / T := div_pos (einstein_pos k h) hT
  have hl : Real.log (1 - Real.exp (-(einstein k ω / T))) ≤ Real.log (1 - Real.exp (-(einstein k ω' / T))) := by
    refine Real.log_le_log (one_sub_exp_neg_pos hx) ?_
    have : Real.exp (-(einstein k ω' / T)) ≤ Real.exp (-(einstein k ω / T)) :=
      Real.exp_le_exp.2 (neg_le_neg (div_le_div_of_nonneg_right he hT.le))
    linarith
  have := mul_le_mul_of_nonneg_left hl hT.le
  linarith

/-- `dF/dω = (Uzp + Uth)/ω`. -/
theorem hasDerivAt_hoF_freq (k : Consts) {T ω : ℝ} (hT : 0 ≤ T) (h : 0 < ω) :
    HasDerivAt (fun o => hoF k T o) ((hoZpe k T ω + hoEth k T ω) / ω) ω := by
  have ev : ∀ᶠ o in 𝓝 ω, 0 < o := lt_mem_nhds h
  rcases hT.eq_or_lt with rfl | hT
  · have : (fun o => hoF k 0 o) =ᶠ[𝓝 ω] fun o => k.N * k.h / 2000 * o := by
      filter_upwards [ev] with o ho
      rw [hoF_zero k ho, hoZpe_pos k _ ho]; ring
    refine HasDerivAt.congr_of_eventuallyEq ?_ this
    refine ((hasDerivAt_id ω).const_mul _).congr_deriv ?_
    rw [hoZpe_pos k _ h]; simp [hoEth]; field_simp
  · have hk := k.kB_pos
    have hh := k.h_pos
    set a := k.h / (k.kB * T) with ha
    have e : ∀ o, einstein k o / T = a * o := fun o => by rw [ha, einstein]; field_simp
    have : (fun o => hoF k T o) =ᶠ[𝓝 ω] fun o => k.N * k.kB / 1000 * (k.h / k.kB / 2 * o +
        T * Real.log (1 - Real.exp (-(a * o)))) := by
      filter_upwards [ev] with o ho
      rw [hoF_pos k hT.ne' ho, e]
      simp only [einstein]; ring
    refine HasDerivAt.congr_of_eventuallyEq ?_ this
    have ha0 : 0 < a := div_pos hh (mul_pos hk hT)
    have hpos : 0 < 1 - Real.exp (-(a * ω)) := one_sub_exp_neg_pos (mul_pos ha0 h)
    have d1 : HasDerivAt (fun o : ℝ => -(a * o)) (-(a * 1)) ω := ((hasDerivAt_id ω).const_mul a).neg
    have d2 := ((d1.exp.const_sub 1).log hpos.ne').const_mul T
    have d3 := (((hasDerivAt_id ω).const_mul (k.h / k.kB / 2)).add d2).const_mul (k.N * k.kB / 1000)
    refine d3.congr_deriv ?_
    rw [hoZpe_pos k _ h, hoEth_pos k hT.ne' h, e]
    have hex : Real.exp (a * ω) - 1 ≠ 0 := (exp_sub_one_pos (mul_pos ha0 h)).ne'
    have hq : Real.exp (-(a * ω)) / (1 - Real.exp (-(a * ω))) = 1 / (Real.exp (a * ω) - 1) :=
      by
        rw [Real.exp_neg] at hpos ⊢
        have hE := Real.exp_pos (a * ω)
        generalize Real.exp (a * ω) = E at *
        have n2 : 1 - E⁻¹ ≠ 0 := hpos.ne'
        rw [div_eq_div_iff n2 hex]
        field_simp
    have : -(Real.exp (-(a * ω)) * -(a * 1)) / (1 - Real.exp (-(a * ω))) = a * (1 / (Real.exp (a * ω) - 1)) := by
      rw [← hq]; ring
    rw [this, einstein]
    generalize Real.exp (a * ω) - 1 = E at hex
    rw [ha]
    field_simp
    ring

/-- `dS/dω = -Cv/ω`. -/
theorem hasDerivAt_hoS_freq (k : Consts) {T ω : ℝ} (hT : 0 < T) (h : 0 < ω) :
    HasDerivAt (fun o => hoS k T o) (-hoCv k T ω / ω) ω := by
  have ev : ∀ᶠ o in 𝓝 ω, 0 < o := lt_mem_nhds h
  have : (fun o => hoS k T o) =ᶠ[𝓝 ω] fun o => hoS k (T * ω / o) ω := by
    filter_upwards [ev] with o ho
    rw [← hoS_smul k (div_pos h ho) T o, div_mul_cancel₀ _ ho.ne']
    congr 1; ring
  refine HasDerivAt.congr_of_eventuallyEq ?_ this
  have d1 : HasDerivAt (fun o : ℝ => T * ω / o) (-(T * ω) / ω ^ 2) ω := by
    have := ((hasDerivAt_inv h.ne').const_mul (T * ω))
    refine (this.congr_deriv ?_).congr_of_eventuallyEq (.of_forall fun o => by simp [div_eq_mul_inv])
    ring
  have hTω : T * ω / ω = T := mul_div_cancel_right₀ _ h.ne'
  have d2 := hasDerivAt_hoS k (T := T * ω / ω) (by rw [hTω]; exact hT) ω
  refine (HasDerivAt.comp ω d2 d1).congr_deriv ?_
  rw [hTω]
  field_simp

/-! ### The kernels -/

/-- C126, stiffer crystals: raising (positive) frequencies raises zero-point and free energy and lowers thermal energy,
entropy and heat capacity, at every temperature. -/
theorem C126_stiffer (k : Consts) (T : Fin nt → ℝ) (band band' : Fin nb → Fin nf → Fin nv → ℝ) (w : Fin nb → ℝ)
    (hw : ∀ j, 0 ≤ w j) (n : Fin nv) (hp : ∀ j m, 0 < band j m n) (hle : ∀ j m, band j m n ≤ band' j m n) (i : Fin nt)
    (hT : 0 ≤ T i) :
    zeroPointEnergy k T band w i n ≤ zeroPointEnergy k T band' w i n ∧
    vibrationalFreeEnergy k T band w i n ≤ vibrationalFreeEnergy k T band' w i n ∧
    thermalEnergy k T band' w i n ≤ thermalEnergy k T band w i n ∧
    entropy k T band' w i n ≤ entropy k T band w i n ∧
    isochoricHeatCapacity k T band' w i n ≤ isochoricHeatCapacity k T band w i n := by
  simp only [zeroPointEnergy, vibrationalFreeEnergy, thermalEnergy, entropy, isochoricHeatCapacity, kernel_eq]
  exact ⟨Finset.sum_le_sum fun j _ => Finset.sum_le_sum fun m _ =>
      mul_le_mul_of_nonneg_right (hoZpe_mono k (hp j m) (hle j m)) (hw j),
    Finset.sum_le_sum fun j _ => Finset.sum_le_sum fun m _ =>
      mul_le_mul_of_nonneg_right (hoF_mono k hT (hp j m) (hle j m)) (hw j),
    Finset.sum_le_sum fun j _ => Finset.sum_le_sum fun m _ =>
      mul_le_mul_of_nonneg_right (hoEth_antitone k hT (hp j m) (hle j m)) (hw j),
    Finset.sum_le_sum fun j _ => Finset.sum_le_sum fun m _ =>
      mul_le_mul_of_nonneg_right (hoS_antitone k hT (hp j m) (hle j m)) (hw j),
    Finset.sum_le_sum fun j _ => Finset.sum_le_sum fun m _ =>
      mul_le_mul_of_nonneg_right (hoCv_antitone k hT (hp j m) (hle j m)) (hw j)⟩

/-- C126, corresponding states: multiplying all frequencies and all temperatures by `l` multiplies the energies by `l`
and leaves entropy and heat capacity as they are. Frequencies may have either sign. -/
theorem C126_corresponding_states (k : Consts) (T : Fin nt → ℝ) (band : Fin nb → Fin nf → Fin nv → ℝ) (w : Fin nb → ℝ)
    {l : ℝ} (hl : 0 < l) (i : Fin nt) (n : Fin nv) :
    zeroPointEnergy k (fun i => l * T i) (fun j m n => l * band j m n) w i n = l * zeroPointEnergy k T band w i n ∧
    thermalEnergy k (fun i => l * T i) (fun j m n => l * band j m n) w i n = l * thermalEnergy k T band w i n ∧
    vibrationalFreeEnergy k (fun i => l * T i) (fun j m n => l * band j m n) w i n =
      l * vibrationalFreeEnergy k T band w i n ∧
    entropy k (fun i => l * T i) (fun j m n => l * band j m n) w i n = entropy k T band w i n ∧
    isochoricHeatCapacity k (fun i => l * T i) (fun j m n => l * band j m n) w i n =
      isochoricHeatCapacity k T band w i n := by
  simp only [zeroPointEnergy, vibrationalFreeEnergy, thermalEnergy, entropy, isochoricHeatCapacity, kernel_eq,
    hoEth_smul k hl, hoF_smul k hl, hoS_smul k hl, hoCv_smul k hl, Finset.mul_sum, ← mul_assoc, and_true]
  refine Finset.sum_congr rfl fun j _ => Finset.sum_congr rfl fun m _ => ?_
  rw [hoZpe_smul k hl (T i)]

/-- C126, thermal pressure: when the frequencies follow the volume with mode Grüneisen parameters `g`
(`dω/dV = -g ω/V`), the free energy falls with the volume at the rate `∑ w g (Uzp + Uth) / V` of its modes. -/
theorem C126_pressure (k : Consts) (T : Fin nt → ℝ) (ω : Fin nb → Fin nf → ℝ → ℝ) (g : Fin nb → Fin nf → ℝ)
    (w : Fin nb → ℝ) {V : ℝ} (hω : ∀ j m, 0 < ω j m V) (hd : ∀ j m, HasDerivAt (ω j m) (-g j m * ω j m V / V) V)
    (i : Fin nt) (hT : 0 ≤ T i) :
    HasDerivAt (fun v => vibrationalFreeEnergy k T (fun j m (_ : Fin 1) => ω j m v) w i 0)
      (-(∑ j, ∑ m, w j * g j m * (zeroPointEnergy k T (fun (_ : Fin 1) (_ : Fin 1) (_ : Fin 1) => ω j m V) (fun _ => 1) i 0 +
        thermalEnergy k T (fun (_ : Fin 1) (_ : Fin 1) (_ : Fin 1) => ω j m V) (fun _ => 1) i 0)) / V) V := by
  simp only [vibrationalFreeEnergy, zeroPointEnergy, thermalEnergy, kernel_eq, Fin.sum_univ_one, mul_one]
  have h : ∀ j m, HasDerivAt (fun v => hoF k (T i) (ω j m v) * w j)
      ((hoZpe k (T i) (ω j m V) + hoEth k (T i) (ω j m V)) / ω j m V * (-g j m * ω j m V / V) * w j) V := fun j m =>
    (HasDerivAt.comp V (hasDerivAt_hoF_freq k hT (hω j m)) (hd j m)).mul_const _
  refine (HasDerivAt.fun_sum fun j _ => HasDerivAt.fun_sum fun m _ => h j m).congr_deriv ?_
  simp only [neg_div, Finset.sum_div, ← Finset.sum_neg_distrib]
  refine Finset.sum_congr rfl fun j _ => Finset.sum_congr rfl fun m _ => ?_
  have := (hω j m).ne'
  field_simp

/-- C126, Grüneisen's relation: under the same law the entropy grows with the volume at the rate `∑ w g Cv / V`. -/
theorem C126_entropy (k : Consts) (T : Fin nt → ℝ) (ω : Fin nb → Fin nf → ℝ → ℝ) (g : Fin nb → Fin nf → ℝ)
    (w : Fin nb → ℝ) {V : ℝ} (hω : ∀ j m, 0 < ω j m V) (hd : ∀ j m, HasDerivAt (ω j m) (-g j m * ω j m V / V) V)
    (i : Fin nt) (hT : 0 < T i) :
    HasDerivAt (fun v => entropy k T (fun j m (_ : Fin 1) => ω j m v) w i 0)
      ((∑ j, ∑ m, w j * g j m *
        isochoricHeatCapacity k T (fun (_ : Fin 1) (_ : Fin 1) (_ : Fin 1) => ω j m V) (fun _ => 1) i 0) / V) V := by
  simp only [entropy, isochoricHeatCapacity, kernel_eq, Fin.sum_univ_one, mul_one]
  have h : ∀ j m, HasDerivAt (fun v => hoS k (T i) (ω j m v) * w j)
      (-hoCv k (T i) (ω j m V) / ω j m V * (-g j m * ω j m V / V) * w j) V := fun j m =>
    (HasDerivAt.comp V (hasDerivAt_hoS_freq k hT (hω j m)) (hd j m)).mul_const _
  refine (HasDerivAt.fun_sum fun j _ => HasDerivAt.fun_sum fun m _ => h j m).congr_deriv ?_
  simp only [Finset.sum_div]
  refine Finset.sum_congr rfl fun j _ => Finset.sum_congr rfl fun m _ => ?_
  have := (hω j m).ne'
  field_simp

/-- C126, one Grüneisen parameter for all modes: thermal pressure is `g (Uzp + Uth) / V`. -/
theorem C126_mie_gruneisen (k : Consts) (T : Fin nt → ℝ) (ω : Fin nb → Fin nf → ℝ → ℝ) (g : ℝ)
    (w : Fin nb → ℝ) {V : ℝ} (hω : ∀ j m, 0 < ω j m V) (hd : ∀ j m, HasDerivAt (ω j m) (-g * ω j m V / V) V)
    (i : Fin nt) (hT : 0 ≤ T i) :
    HasDerivAt (fun v => vibrationalFreeEnergy k T (fun j m (_ : Fin 1) => ω j m v) w i 0)
      (-(g * (zeroPointEnergy k T (fun j m (_ : Fin 1) => ω j m V) w i 0 +
        thermalEnergy k T (fun j m (_ : Fin 1) => ω j m V) w i 0)) / V) V := by
  refine (C126_pressure k T ω (fun _ _ => g) w hω hd i hT).congr_deriv ?_
  simp only [zeroPointEnergy, thermalEnergy, kernel_eq, Fin.sum_univ_one, mul_one]
  rw [← Finset.sum_add_distrib, Finset.mul_sum]
  congr 2
  refine Finset.sum_congr rfl fun j _ => ?_
  rw [← Finset.sum_add_distrib, Finset.mul_sum]
  exact Finset.sum_congr rfl fun m _ => by ring

/-- C126, soft modes: as the frequency of a mode falls to zero its entropy grows beyond all bounds and its free energy falls
to minus infinity, but a mode whose frequency is zero or imaginary contributes nothing. -/
theorem C126_soft_mode (k : Consts) (T : Fin nt → ℝ) (i : Fin nt) (hT : 0 < T i) :
    Tendsto (fun o => entropy k T (fun (_ : Fin 1) (_ : Fin 1) (_ : Fin 1) => o) (fun _ => 1) i 0) (𝓝[>] 0) atTop ∧
    Tendsto (fun o => vibrationalFreeEnergy k T (fun (_ : Fin 1) (_ : Fin 1) (_ : Fin 1) => o) (fun _ => 1) i 0)
      (𝓝[>] 0) atBot ∧
    ∀ o ≤ 0, entropy k T (fun (_ : Fin 1) (_ : Fin 1) (_ : Fin 1) => o) (fun _ => 1) i 0 = 0 ∧
      vibrationalFreeEnergy k T (fun (_ : Fin 1) (_ : Fin 1) (_ : Fin 1) => o) (fun _ => 1) i 0 = 0 := by
  simp only [entropy, vibrationalFreeEnergy, kernel_eq, Fin.sum_univ_one, mul_one]
  have hlog : Tendsto (fun o => Real.log (1 - Real.exp (-(einstein k o / T i)))) (𝓝[>] 0) atBot := by
    have h1 : Tendsto (fun o => 1 - Real.exp (-(einstein k o / T i))) (𝓝[>] 0) (𝓝[>] 0) := by
      refine tendsto_nhdsWithin_iff.2 ⟨?_, ?_⟩
      · have hc : Continuous fun o => 1 - Real.exp (-(einstein k o / T i)) := by unfold einstein; fun_prop
        have := (hc.tendsto 0).mono_left (nhdsWithin_le_nhds (s := Ioi 0))
        simpa [einstein] using this
      · filter_upwards [self_mem_nhdsWithin] with o ho
        exact one_sub_exp_neg_pos (div_pos (einstein_pos k ho) hT)
    exact Real.tendsto_log_nhdsGT_zero.comp h1
  refine ⟨?_, ?_, fun o ho => ⟨by simp [hoS, ho], by simp [hoF, ho]⟩⟩
  · have hb : Tendsto (fun o => k.N * k.kB * (-Real.log (1 - Real.exp (-(einstein k o / T i))))) (𝓝[>] 0) atTop :=
      (tendsto_neg_atBot_atTop.comp hlog).const_mul_atTop (mul_pos k.N_pos k.kB_pos)
    refine tendsto_atTop_mono' _ ?_ hb
    filter_upwards [self_mem_nhdsWithin] with o ho
    have hx := div_pos (einstein_pos k ho) hT
    rw [hoS_pos k hT.ne' ho]
    refine mul_le_mul_of_nonneg_left ?_ (mul_pos k.N_pos k.kB_pos).le
    have := (div_pos hx (exp_sub_one_pos hx)).le
    linarith
  · have hz : Tendsto (fun o => einstein k o / 2) (𝓝[>] 0) (𝓝 0) := by
      have hc : Continuous fun o => einstein k o / 2 := by unfold einstein; fun_prop
      have := (hc.tendsto 0).mono_left (nhdsWithin_le_nhds (s := Ioi 0))
      simpa [einstein] using this
    have hb := (hz.add_atBot (hlog.const_mul_atBot hT)).const_mul_atBot
      (div_pos (mul_pos k.N_pos k.kB_pos) (by norm_num : (0:ℝ) < 1000))
    refine hb.congr' ?_
    filter_upwards [self_mem_nhdsWithin] with o ho
    rw [hoF_pos k hT.ne' ho]

/-! ### Witnesses -/

/-- Two modes of which one gets stiffer. -/
example (k : Consts) : entropy k (fun _ : Fin 1 => 300) ![![![1e13], ![3e13]]] (fun _ => 1) 0 0 ≤
    entropy k (fun _ : Fin 1 => 300) ![![![1e13], ![2e13]]] (fun _ => 1) 0 0 :=
  (C126_stiffer k _ _ _ (fun _ => 1) (fun _ => by norm_num) 0
    (fun j m => by fin_cases j; fin_cases m <;> norm_num)
    (fun j m => by fin_cases j; fin_cases m <;> norm_num) 0 (by norm_num)).2.2.2.1

/-- Frequencies that follow the volume with the Grüneisen parameter 2: `ω = c/V²`. -/
example (k : Consts) : HasDerivAt (fun v => vibrationalFreeEnergy k (fun _ : Fin 1 => 300)
      (fun (_ : Fin 1) (_ : Fin 1) (_ : Fin 1) => 1e17 / v ^ 2) (fun _ => 1) 0 0)
    (-(2 * (zeroPointEnergy k (fun _ : Fin 1 => 300) (fun (_ : Fin 1) (_ : Fin 1) (_ : Fin 1) => 1e17 / 100 ^ 2) (fun _ => 1) 0 0 +
      thermalEnergy k (fun _ : Fin 1 => 300) (fun (_ : Fin 1) (_ : Fin 1) (_ : Fin 1) => 1e17 / 100 ^ 2) (fun _ => 1) 0 0)) / 100) 100 := by
  refine C126_mie_gruneisen k (fun _ => 300) (fun _ _ v => 1e17 / v ^ 2) 2 (fun _ => 1) (V := 100)
    (fun _ _ => by norm_num) (fun _ _ => ?_) 0 (by norm_num)
  have := (hasDerivAt_const (100 : ℝ) (1e17 : ℝ)).div (hasDerivAt_pow 2 (100 : ℝ)) (by norm_num)
  refine this.congr_deriv ?_
  norm_num

end Verif.StatMech
