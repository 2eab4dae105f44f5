/-
Property C185: the harmonic functions of a crystal and those of a crystal with a single frequency.
-/
import Mathlib.Analysis.Calculus.Deriv.MeanValue
import Verif.StatMech.Sensitivity
import Verif.Tac

namespace Verif.StatMech
open Verif.Units (Consts)
open Filter Topology Set

variable {nt nb nf nv : ℕ}

namespace Spec

/-- The number of modes, each counted with the weight of its point of the band structure. -/
noncomputable def modeCount (nf : ℕ) (w : Fin nb → ℝ) : ℝ := nf * ∑ j, w j

/-- The mean frequency. -/
noncomputable def meanFrequency (w : Fin nb → ℝ) (band : Fin nb → Fin nf → ℝ) : ℝ :=
  (∑ j, w j * ∑ m, band j m) / modeCount nf w

/-- The geometric mean of the frequencies. -/
noncomputable def geometricFrequency (w : Fin nb → ℝ) (band : Fin nb → Fin nf → ℝ) : ℝ :=
  Real.exp ((∑ j, w j * ∑ m, Real.log (band j m)) / modeCount nf w)

end Spec
open Spec

/-! ### Lemmas -/

/-- A function whose derivative grows lies above its tangents. -/
theorem tangent_le {s : Set ℝ} (hs : s.OrdConnected) {f f' : ℝ → ℝ} (hd : ∀ x ∈ s, HasDerivAt f (f' x) x) (hm : MonotoneOn f' s)
    {a x : ℝ} (ha : a ∈ s) (hx : x ∈ s) : f a + f' a * (x - a) ≤ f x := by
  rcases lt_trichotomy a x with h | rfl | h
  · have sub : Icc a x ⊆ s := hs.out ha hx
    obtain ⟨c, hc, e⟩ := exists_hasDerivAt_eq_slope f f' h (fun y hy => (hd y (sub hy)).continuousAt.continuousWithinAt)
      (fun y hy => hd y (sub (Ioo_subset_Icc_self hy)))
    have := hm ha (sub (Ioo_subset_Icc_self hc)) hc.1.le
    rw [e, le_div_iff₀ (sub_pos.2 h)] at this
    linarith
  · simp
  · have sub : Icc x a ⊆ s := hs.out hx ha
    obtain ⟨c, hc, e⟩ := exists_hasDerivAt_eq_slope f f' h (fun y hy => (hd y (sub hy)).continuousAt.continuousWithinAt)
      (fun y hy => hd y (sub (Ioo_subset_Icc_self hy)))
    have := hm (sub (Ioo_subset_Icc_self hc)) ha hc.2.le
    rw [e, div_le_iff₀ (sub_pos.2 h)] at this
    linarith

/-- Jensen's inequality for the modes of a crystal. -/
theorem weighted_jensen {w : Fin nb → ℝ} (hw : ∀ j, 0 ≤ w j) (hW : 0 < modeCount nf w) (x g : Fin nb → Fin nf → ℝ) (A s : ℝ)
    (h : ∀ j m, A + s * (x j m - weighted w x / modeCount nf w) ≤ g j m) : modeCount nf w * A ≤ weighted w g := by
  have e : weighted w (fun j m => A + s * (x j m - weighted w x / modeCount nf w)) = modeCount nf w * A := by
    have : (fun j m => A + s * (x j m - weighted w x / modeCount nf w)) =
        fun j (m : Fin nf) => (A - s * (weighted w x / modeCount nf w)) * 1 + s * x j m := by
      funext j m
      ring
    rw [this, weighted_add, weighted_mul, weighted_mul, weighted_one]
    show _ * modeCount nf w + _ = _
    field_simp
    ring
  rw [← e]
  exact weighted_le hw h

theorem modes_weighted {w : Fin nb → ℝ} {x : Fin nb → Fin nf → ℝ} (hw : ∀ j, 0 ≤ w j) (hW : 0 < modeCount nf w) (hx : ∀ j m, 0 < x j m) :
    0 < meanFrequency w x := by
  refine div_pos ?_ hW
  have hnf : 0 < nf := by
    rcases Nat.eq_zero_or_pos nf with rfl | h
    · simp [modeCount] at hW
    · exact h
  have hsum : 0 < ∑ j, w j := by
    unfold modeCount at hW
    exact pos_of_mul_pos_right hW (by positivity)
  obtain ⟨j, -, hj⟩ := Finset.exists_lt_of_sum_lt (s := Finset.univ) (f := fun _ : Fin nb => (0 : ℝ)) (g := w) (by simpa using hsum)
  have : Nonempty (Fin nf) := ⟨⟨0, hnf⟩⟩
  refine Finset.sum_pos' (fun i _ => mul_nonneg (hw i) (Finset.sum_nonneg fun m _ => (hx i m).le)) ⟨j, Finset.mem_univ _, ?_⟩
  exact mul_pos hj (Finset.sum_pos (fun m _ => hx j m) Finset.univ_nonempty)

/-- Thermal energy lies above its tangents. -/
theorem osc_thermal_tangent (k : Consts) {T a ω : ℝ} (hT : 0 < T) (ha : 0 < a) (h : 0 < ω) :
    hoEth k T a + (hoEth k T a - T * hoCv k T a / 1000) / a * (ω - a) ≤ hoEth k T ω := by
  have hl : 0 < ω / a := div_pos h ha
  have e : hoEth k T ω = ω / a * hoEth k (T * (a / ω)) a := by
    have := hoEth_smul k hl (T * (a / ω)) a
    rw [div_mul_cancel₀ _ ha.ne'] at this
    rw [← this]
    congr 1
    field_simp
  have t := tangent_le (s := Ioi 0) ordConnected_Ioi (f := fun t => hoEth k t a) (f' := fun t => hoCv k t a / 1000)
    (fun t ht => hasDerivAt_hoEth k ht a)
    (fun x hx y hy hxy => div_le_div_of_nonneg_right (hoCv_monotoneOn k a hx hy hxy) (by norm_num)) (a := T) (x := T * (a / ω))
    hT (mul_pos hT (div_pos ha h))
  have := mul_le_mul_of_nonneg_left t hl.le
  rw [← e] at this
  refine le_trans (le_of_eq ?_) this
  field_simp
  ring

/-! ### Theorems -/

variable (k : Consts) (T : Fin nt → ℝ) (band : Fin nb → Fin nf → Fin nv → ℝ) (w : Fin nb → ℝ)

/-- C185, arithmetic mean: a crystal has the zero-point energy of as many oscillators with the mean frequency; its free energy is
not above theirs and its thermal energy and entropy are not below theirs. -/
theorem C185_mean (hw : ∀ j, 0 ≤ w j) (hW : 0 < modeCount nf w) (i : Fin nt) (hT : 0 < T i) (n : Fin nv) (hp : ∀ j m, 0 < band j m n) :
    let one : Fin 1 → Fin 1 → Fin 1 → ℝ := fun _ _ _ => meanFrequency w fun j m => band j m n
    zeroPointEnergy k T band w i n = modeCount nf w * zeroPointEnergy k T one (fun _ => 1) i 0 ∧
    vibrationalFreeEnergy k T band w i n ≤ modeCount nf w * vibrationalFreeEnergy k T one (fun _ => 1) i 0 ∧
    modeCount nf w * thermalEnergy k T one (fun _ => 1) i 0 ≤ thermalEnergy k T band w i n ∧
    modeCount nf w * entropy k T one (fun _ => 1) i 0 ≤ entropy k T band w i n := by
  intro one
  have hm : 0 < meanFrequency w fun j m => band j m n := modes_weighted hw hW hp
  set a := meanFrequency w fun j m => band j m n with ha
  have hma : a = weighted w (fun j m => band j m n) / modeCount nf w := rfl
  have single : ∀ f : ℝ → ℝ → ℝ, kernel f T one (fun _ => 1) i 0 = f (T i) a := fun f => by
    rw [kernel_eq]
    simp [one, ha]
  simp only [zeroPointEnergy, vibrationalFreeEnergy, thermalEnergy, entropy, single]
  simp only [kernel_weighted]
  refine ⟨?_, ?_, ?_, ?_⟩
  · have e : (fun j m => hoZpe k (T i) (band j m n)) = fun j m => k.N * k.h / 2000 * band j m n := by
      funext j m
      rw [hoZpe_pos k _ (hp j m)]
      ring
    rw [e, weighted_mul, hoZpe_pos k _ hm, hma]
    field_simp
  · have := weighted_jensen hw hW (fun j m => band j m n) (fun j m => -1 * hoF k (T i) (band j m n)) (-hoF k (T i) a)
      (-((hoZpe k (T i) a + hoEth k (T i) a) / a)) (fun j m => by
        rw [← hma, neg_one_mul]
        refine tangent_le (s := Ioi 0) ordConnected_Ioi (f := fun o => -hoF k (T i) o)
          (f' := fun o => -((hoZpe k (T i) o + hoEth k (T i) o) / o)) (fun o ho => (hasDerivAt_hoF_freq k hT.le ho).neg) ?_ hm (hp j m)
        intro x hx y hy hxy
        have hx : 0 < x := hx
        have hy : 0 < y := hy
        simp only [neg_le_neg_iff, add_div]
        refine add_le_add ?_ (div_le_div₀ (hoEth_nonneg k hT.le x) (hoEth_antitone k hT.le hx hxy) hx hxy)
        rw [hoZpe_pos k _ hx, hoZpe_pos k _ hy, div_right_comm, div_right_comm _ _ x, mul_div_cancel_right₀ _ hx.ne',
          mul_div_cancel_right₀ _ hy.ne'])
    rw [weighted_mul] at this
    linarith
  · exact weighted_jensen hw hW (fun j m => band j m n) (fun j m => hoEth k (T i) (band j m n)) (hoEth k (T i) a) _ (fun j m => by
      rw [← hma]
      exact osc_thermal_tangent k hT hm (hp j m))
  · exact weighted_jensen hw hW (fun j m => band j m n) (fun j m => hoS k (T i) (band j m n)) (hoS k (T i) a) (-hoCv k (T i) a / a)
      (fun j m => by
        rw [← hma]
        refine tangent_le (s := Ioi 0) ordConnected_Ioi (f := fun o => hoS k (T i) o) (f' := fun o => -hoCv k (T i) o / o)
          (fun o ho => hasDerivAt_hoS_freq k hT ho) ?_ hm (hp j m)
        intro x hx y hy hxy
        have hx : 0 < x := hx
        have hy : 0 < y := hy
        simp only [neg_div, neg_le_neg_iff]
        exact div_le_div₀ (hoCv_nonneg _ _ _) (hoCv_antitone k hT.le hx hxy) hx hxy)

/-- C185, geometric mean: the free energy and the entropy of a crystal are not below those of as many oscillators with the geometric
mean of the frequencies. -/
theorem C185_geometric (hw : ∀ j, 0 ≤ w j) (hW : 0 < modeCount nf w) (i : Fin nt) (hT : 0 < T i) (n : Fin nv)
    (hp : ∀ j m, 0 < band j m n) :
    let one : Fin 1 → Fin 1 → Fin 1 → ℝ := fun _ _ _ => geometricFrequency w fun j m => band j m n
    modeCount nf w * vibrationalFreeEnergy k T one (fun _ => 1) i 0 ≤ vibrationalFreeEnergy k T band w i n ∧
    modeCount nf w * entropy k T one (fun _ => 1) i 0 ≤ entropy k T band w i n := by
  intro one
  set b := weighted w (fun j m => Real.log (band j m n)) / modeCount nf w with hb
  have single : ∀ f : ℝ → ℝ → ℝ, kernel f T one (fun _ => 1) i 0 = f (T i) (Real.exp b) := fun f => by
    rw [kernel_eq]
    simp [one, geometricFrequency, hb, weighted]
  simp only [vibrationalFreeEnergy, entropy, single]
  simp only [kernel_weighted]
  constructor
  · refine weighted_jensen hw hW (fun j m => Real.log (band j m n)) (fun j m => hoF k (T i) (band j m n)) _
      (hoZpe k (T i) (Real.exp b) + hoEth k (T i) (Real.exp b)) fun j m => ?_
    have := tangent_le (s := univ) ordConnected_univ (f := fun t => hoF k (T i) (Real.exp t))
      (f' := fun t => hoZpe k (T i) (Real.exp t) + hoEth k (T i) (Real.exp t)) (fun t _ => by
        refine ((hasDerivAt_hoF_freq k hT.le (Real.exp_pos t)).comp t (Real.hasDerivAt_exp t)).congr_deriv ?_
        exact div_mul_cancel₀ _ (Real.exp_pos t).ne')
      (fun x _ y _ hxy => osc_energy_mono k hT (Real.exp_pos x) (Real.exp_le_exp.2 hxy)) (a := b) (x := Real.log (band j m n))
      (mem_univ _) (mem_univ _)
    rw [Real.exp_log (hp j m)] at this
    exact this
  · refine weighted_jensen hw hW (fun j m => Real.log (band j m n)) (fun j m => hoS k (T i) (band j m n)) _
      (-hoCv k (T i) (Real.exp b)) fun j m => ?_
    have := tangent_le (s := univ) ordConnected_univ (f := fun t => hoS k (T i) (Real.exp t))
      (f' := fun t => -hoCv k (T i) (Real.exp t)) (fun t _ => by
        refine ((hasDerivAt_hoS_freq k hT (Real.exp_pos t)).comp t (Real.hasDerivAt_exp t)).congr_deriv ?_
        exact div_mul_cancel₀ _ (Real.exp_pos t).ne')
      (fun x _ y _ hxy => neg_le_neg (hoCv_antitone k hT.le (Real.exp_pos x) (Real.exp_le_exp.2 hxy))) (a := b)
      (x := Real.log (band j m n)) (mem_univ _) (mem_univ _)
    rw [Real.exp_log (hp j m)] at this
    exact this

end Verif.StatMech
