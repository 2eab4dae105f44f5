/-
C145: the harmonic functions in the arithmetic of the computer.
-/
import Verif.StatMech.BinarySum

noncomputable section

namespace Verif.StatMech
open Spec
open Verif.Units (Consts)
variable {a : Arith}

/-! ### Proof work -/

theorem total_nonneg {f : ℝ → ℝ} {points : List (ℝ × List ℝ)} (h : ∀ p ∈ points, 0 ≤ p.1 ∧ ∀ ω ∈ p.2, 0 ≤ f ω) :
    0 ≤ total f points := by
  refine List.sum_nonneg fun y hy => ?_
  obtain ⟨m, hm, rfl⟩ := List.mem_map.1 hy
  obtain ⟨p, hp, hm⟩ := List.mem_flatMap.1 hm
  obtain ⟨ω, hω, rfl⟩ := List.mem_map.1 hm
  exact mul_nonneg (h p hp).1 ((h p hp).2 ω hω)

theorem total_add (f g : ℝ → ℝ) (points : List (ℝ × List ℝ)) :
    total (fun ω => f ω + g ω) points = total f points + total g points := by
  simp only [total]
  rw [← List.sum_map_add]
  congr 1
  refine List.map_congr_left fun m _ => ?_
  ring

theorem kernel_relative (ha : Accurate a) (f : ℝ → ℝ) (F : ℝ → ℝ) (ρ c : ℝ) (points : List (ℝ × List ℝ))
    (hw : ∀ p ∈ points, 0 ≤ p.1) (hn : (modes points).length ≤ 10 ^ 9) (hρ0 : 0 ≤ ρ) (hρ : ρ ≤ 1e-12)
    (hc : ρ + 1.25e-16 ≤ c)
    (hz : ∀ ω, ω ≤ 0 → f ω = 0) (hF : ∀ ω, 0 < ω → 0 ≤ F ω)
    (h : ∀ p ∈ points, ∀ ω ∈ p.2, 0 < ω → |f ω - F ω| ≤ ρ * |F ω|) :
    ∃ r, a.kernel (fun ω => some (f ω)) points = some r ∧
      |r - total (counted F) points| ≤ (c + 2e-16 * (modes points).length) * total (counted F) points := by
  have hC : ∀ ω, 0 ≤ counted F ω := by
    intro ω
    unfold counted
    split_ifs with h1
    · exact hF ω h1
    · exact le_rfl
  obtain ⟨r, h1, h2⟩ := kernel_err ha (fun ω => some (f ω)) (counted F) (fun ω => ρ * counted F ω) points (by
    intro p hp
    refine ⟨hw p hp, fun ω hω => ⟨_, rfl, ?_⟩⟩
    unfold counted
    split_ifs with h1
    · simpa [abs_of_nonneg (hF ω h1)] using h p hp ω hω h1
    · simp [hz ω (not_lt.1 h1)])
  refine ⟨r, h1, h2.trans ?_⟩
  rw [← total_mul]
  refine total_mono fun p hp => ⟨hw p hp, fun ω _ => ?_⟩
  rw [abs_of_nonneg (hC ω)]
  have hg := growth_le hn
  have h3 : (0 : ℝ) ≤ (modes points).length := by positivity
  have h4 : ρ + growth (modes points).length * (1 + ρ) ≤ c + 2e-16 * (modes points).length := by
    have h5 : growth (modes points).length * (1 + ρ) ≤ 1.2e-16 * ((modes points).length + 1) * (1 + 1e-12) :=
      mul_le_mul hg (by linarith) (by linarith) (by positivity)
    norm_num at *
    linarith
  calc ρ * counted F ω + growth (modes points).length * (counted F ω + ρ * counted F ω)
      = (ρ + growth (modes points).length * (1 + ρ)) * counted F ω := by ring
    _ ≤ _ := mul_le_mul_of_nonneg_right h4 (hC ω)

theorem exactS_nonneg (k : Consts) {T ω : ℝ} (hT : 0 < T) (hω : 0 < ω) : 0 ≤ exactS k T ω := by
  have hX := ratio_pos k hT hω
  have h1 := log_neg_term hX
  have h2 := exp_sub_one_pos hX
  have h3 : 0 < ratio k T ω / (Real.exp (ratio k T ω) - 1) := by positivity
  exact mul_nonneg (mul_nonneg k.N_pos.le k.kB_pos.le) (by linarith)

theorem kernel_absolute (ha : Accurate a) (f : ℝ → Option ℝ) (F : ℝ → ℝ) (β : ℝ) (points : List (ℝ × List ℝ))
    (hw : ∀ p ∈ points, 0 ≤ p.1) (hn : (modes points).length ≤ 10 ^ 9) (hβ : 0 ≤ β)
    (hz : ∀ ω, ω ≤ 0 → f ω = some 0)
    (h : ∀ p ∈ points, ∀ ω ∈ p.2, 0 < ω → ∃ v, f ω = some v ∧ |v - F ω| ≤ β) :
    ∃ r, a.kernel f points = some r ∧
      |r - total (counted F) points| ≤ β * (1 + 1e-6) * total (counted fun _ => 1) points +
        1.2e-16 * ((modes points).length + 1) * total (counted fun ω => |F ω|) points := by
  obtain ⟨r, h1, h2⟩ := kernel_err ha f (counted F) (counted fun _ => β) points (by
    intro p hp
    refine ⟨hw p hp, fun ω hω => ?_⟩
    unfold counted
    split_ifs with h1
    · exact h p hp ω hω h1
    · exact ⟨0, hz ω (not_lt.1 h1), by simp⟩)
  refine ⟨r, h1, h2.trans ?_⟩
  rw [← total_mul, ← total_mul, ← total_add]
  refine total_mono fun p hp => ⟨hw p hp, fun ω _ => ?_⟩
  have hg := growth_le hn
  have h3 : ((modes points).length : ℝ) ≤ 1000000000 := by exact_mod_cast hn
  have h4 : growth (modes points).length ≤ 1e-6 := by norm_num at hg ⊢; linarith
  unfold counted
  split_ifs
  · have h5 := mul_le_mul_of_nonneg_right hg (abs_nonneg (F ω))
    have h6 := mul_le_mul_of_nonneg_right h4 hβ
    linarith
  · simp

/-! ### One mode at absolute zero, and modes that do not count -/

theorem rnd_zero (ha : Accurate a) : a.rnd 0 = 0 := by
  have := ha.rnd 0
  simpa using this

/-- C145: modes without a positive frequency contribute nothing, and at absolute zero only the zero-point motion is left. -/
theorem C145_absolute_zero (a : Arith) (ha : Accurate a) (k : Consts) :
    (∀ T ω, ω ≤ 0 → a.hoZpe k T ω = 0 ∧ a.hoEth k T ω = 0 ∧ a.hoCv k T ω = 0 ∧ a.hoS k T ω = some 0 ∧ a.hoF k T ω = some 0) ∧
    (∀ ω, a.hoEth k 0 ω = 0 ∧ a.hoCv k 0 ω = 0 ∧ a.hoS k 0 ω = some 0) ∧
    (∀ ω, 0 < ω → ∃ f, a.hoF k 0 ω = some f ∧ |f - exactZpe k ω| ≤ 9e-16 * exactZpe k ω) := by
  refine ⟨fun T ω h => ?_, fun ω => ?_, fun ω h => ?_⟩
  · simp [Arith.hoZpe, Arith.hoEth, Arith.hoCv, Arith.hoS, Arith.hoF, h]
  · simp [Arith.hoEth, Arith.hoCv, Arith.hoS]
  · have h1 := ((near_milliN ha k).mul (((Near.refl 0.5).mul (near_rnd ha (k.h * ω))).rnd ha)).rnd ha
    rw [show k.N / 1000 * (0.5 * (k.h * ω)) = exactZpe k ω by rw [exactZpe]; ring] at h1
    have hp : 0 < exactZpe k ω := by
      have := k.N_pos; have := k.h_pos
      unfold exactZpe; positivity
    have h2 := h1.err (by norm_num [e0])
    rw [abs_of_pos hp] at h2
    refine ⟨_, by rw [Arith.hoF, if_neg (not_le.2 h)]; simp, h2.trans ?_⟩
    refine mul_le_mul_of_nonneg_right ?_ hp.le
    norm_num [e0]

/-! ### The sums over the modes -/

/-- C145: the zero-point energy of a cell is exact to within a few units in the last place for every mode summed. -/
theorem C145_zero_point (a : Arith) (ha : Accurate a) (k : Consts) (T : ℝ) (points : List (ℝ × List ℝ))
    (hw : ∀ p ∈ points, 0 ≤ p.1) (hn : (modes points).length ≤ 10 ^ 9) :
    ∃ E, a.kernel (fun ω => some (a.hoZpe k T ω)) points = some E ∧
      |E - total (counted (exactZpe k)) points| ≤
        (9e-16 + 2e-16 * (modes points).length) * total (counted (exactZpe k)) points := by
  refine kernel_relative ha (a.hoZpe k T) (exactZpe k) (1.01 * (6 * e0)) _ points hw hn (by norm_num [e0])
    (by norm_num [e0]) (by norm_num [e0]) (fun ω h => ((C145_absolute_zero a ha k).1 T ω h).1) ?_ ?_
  · intro ω h
    have := k.N_pos; have := k.h_pos
    unfold exactZpe; positivity
  · intro p _ ω _ h
    exact (near_zpe ha k T h).err (by norm_num [e0])

/-- C145: the thermal energy of a cell.  `X` bounds the quanta in units of `k_B T`. -/
theorem C145_thermal (a : Arith) (ha : Accurate a) (k : Consts) (T X : ℝ) (hT : 0 < T) (points : List (ℝ × List ℝ))
    (hw : ∀ p ∈ points, 0 ≤ p.1) (hn : (modes points).length ≤ 10 ^ 9) (hX0 : 0 ≤ X) (hX : X ≤ 700)
    (hr : ∀ p ∈ points, ∀ ω ∈ p.2, 0 < ω → ratio k T ω ≤ X) :
    ∃ E, a.kernel (fun ω => some (a.hoEth k T ω)) points = some E ∧
      |E - total (counted (exactEth k T)) points| ≤
        ((15 + 4 * X) * 1e-16 + 2e-16 * (modes points).length) * total (counted (exactEth k T)) points := by
  refine kernel_relative ha (a.hoEth k T) (exactEth k T) (1.01 * ((11 + 3.03 * X) * e0)) _ points hw hn
    (by have := e0_pos; positivity) (by norm_num [e0]; linarith) (by norm_num [e0]; linarith)
    (fun ω h => ((C145_absolute_zero a ha k).1 T ω h).2.1) ?_ ?_
  · intro ω h
    have := k.N_pos; have := k.h_pos; have := exp_sub_one_pos (ratio_pos k hT h)
    unfold exactEth; positivity
  · intro p hp ω hω h
    have h1 := hr p hp ω hω h
    refine ((near_eth ha k hT h).mono (ζ := (11 + 3.03 * X) * e0) ?_).err (by norm_num [e0]; linarith)
    exact mul_le_mul_of_nonneg_right (by linarith) e0_pos.le

/-- C145: the heat capacity of a cell. -/
theorem C145_heat_capacity (a : Arith) (ha : Accurate a) (k : Consts) (T X : ℝ) (hT : 0 < T)
    (points : List (ℝ × List ℝ)) (hw : ∀ p ∈ points, 0 ≤ p.1) (hn : (modes points).length ≤ 10 ^ 9) (hX0 : 0 ≤ X)
    (hX : X ≤ 700) (hr : ∀ p ∈ points, ∀ ω ∈ p.2, 0 < ω → ratio k T ω ≤ X) :
    ∃ C, a.kernel (fun ω => some (a.hoCv k T ω)) points = some C ∧
      |C - total (counted (exactCv k T)) points| ≤
        ((32 + 12 * X) * 1e-16 + 2e-16 * (modes points).length) * total (counted (exactCv k T)) points := by
  refine kernel_relative ha (a.hoCv k T) (exactCv k T) (1.01 * ((25 + 9.09 * X) * e0)) _ points hw hn
    (by have := e0_pos; positivity) (by norm_num [e0]; linarith) (by norm_num [e0]; linarith)
    (fun ω h => ((C145_absolute_zero a ha k).1 T ω h).2.2.1) ?_ ?_
  · intro ω h
    have := k.N_pos; have := k.kB_pos
    unfold exactCv; positivity
  · intro p hp ω hω h
    have h1 := hr p hp ω hω h
    refine ((near_cv ha k hT h).mono (ζ := (25 + 9.09 * X) * e0) ?_).err (by norm_num [e0]; linarith)
    exact mul_le_mul_of_nonneg_right (by linarith) e0_pos.le

/-- C145: the entropy of a cell is finite and close to the exact value when no quantum is smaller than `X0 ≥ 1e-9` in units of
`k_B T`.  Missing: smaller quanta, for which the claim is false (`C145_lost_violated`). -/
theorem C145_entropy_partial (a : Arith) (ha : Accurate a) (k : Consts) (T X0 : ℝ) (hT : 0 < T)
    (points : List (ℝ × List ℝ)) (hw : ∀ p ∈ points, 0 ≤ p.1) (hn : (modes points).length ≤ 10 ^ 9) (h0 : 1e-9 ≤ X0)
    (hr : ∀ p ∈ points, ∀ ω ∈ p.2, 0 < ω → X0 ≤ ratio k T ω ∧ ratio k T ω ≤ 700) :
    ∃ S, a.kernel (a.hoS k T) points = some S ∧
      |S - total (counted (exactS k T)) points| ≤
        k.N * k.kB * ((31 + 13 / X0) * 1e-16) * total (counted fun _ => 1) points +
        1.2e-16 * ((modes points).length + 1) * total (counted (exactS k T)) points := by
  have hX0 : 0 < X0 := lt_of_lt_of_le (by norm_num) h0
  have hNk := mul_pos k.N_pos k.kB_pos
  obtain ⟨S, h1, h2⟩ := kernel_absolute ha (a.hoS k T) (exactS k T) (k.N * k.kB * ((30 + 12 / X0) * 1e-16)) points hw hn
    (by positivity) (fun ω h => ((C145_absolute_zero a ha k).1 T ω h).2.2.2.1) (by
      intro p hp ω hω h
      obtain ⟨h3, h4⟩ := hr p hp ω hω h
      obtain ⟨s, h5, h6⟩ := err_s ha k hT h (h0.trans h3) h4
      refine ⟨s, h5, h6.trans (mul_le_mul_of_nonneg_left ?_ hNk.le)⟩
      have := div_le_div_of_nonneg_left (by norm_num : (0 : ℝ) ≤ 12) hX0 h3
      norm_num at *
      linarith)
  refine ⟨S, h1, h2.trans ?_⟩
  have e : (counted fun ω => |exactS k T ω|) = counted (exactS k T) := by
    funext ω
    unfold counted
    split_ifs with h
    · exact abs_of_nonneg (exactS_nonneg k hT h)
    · rfl
  rw [e]
  have h3 : 0 ≤ total (counted fun _ => (1 : ℝ)) points := total_nonneg fun p hp => ⟨hw p hp, fun ω _ => by
    unfold counted; split_ifs <;> norm_num⟩
  refine add_le_add_left (mul_le_mul_of_nonneg_right ?_ h3) _
  rw [mul_assoc]
  refine mul_le_mul_of_nonneg_left ?_ hNk.le
  have h4 : 12 / X0 = 12 * (1 / X0) := by ring
  have h5 : 13 / X0 = 13 * (1 / X0) := by ring
  have h6 : 0 < 1 / X0 := by positivity
  rw [h4, h5]
  generalize 1 / X0 = z at h6 ⊢
  norm_num
  linarith

/-- C145: the vibrational free energy of a cell is finite and close to the exact value when the quanta lie between
`X0 ≥ 1e-9` and `X1` in units of `k_B T`.  Missing: smaller quanta, for which the claim is false (`C145_lost_violated`). -/
theorem C145_free_energy_partial (a : Arith) (ha : Accurate a) (k : Consts) (T X0 X1 : ℝ) (hT : 0 < T)
    (points : List (ℝ × List ℝ)) (hw : ∀ p ∈ points, 0 ≤ p.1) (hn : (modes points).length ≤ 10 ^ 9) (h0 : 1e-9 ≤ X0)
    (hX1 : 0 ≤ X1) (h1 : X1 ≤ 700) (hr : ∀ p ∈ points, ∀ ω ∈ p.2, 0 < ω → X0 ≤ ratio k T ω ∧ ratio k T ω ≤ X1) :
    ∃ F, a.kernel (a.hoF k T) points = some F ∧
      |F - total (counted (exactF k T)) points| ≤
        k.N / 1000 * (k.kB * T) * ((6 * X1 + 7 + 16 / X0) * 1e-16) * total (counted fun _ => 1) points +
        1.2e-16 * ((modes points).length + 1) * total (counted fun ω => |exactF k T ω|) points := by
  have hX0 : 0 < X0 := lt_of_lt_of_le (by norm_num) h0
  have hNk : 0 < k.N / 1000 * (k.kB * T) := mul_pos (div_pos k.N_pos (by norm_num)) (mul_pos k.kB_pos hT)
  obtain ⟨F, h2, h3⟩ := kernel_absolute ha (a.hoF k T) (exactF k T)
    (k.N / 1000 * (k.kB * T) * ((5 * X1 + 6 + 15 / X0) * 1e-16)) points hw hn
    (by positivity) (fun ω h => ((C145_absolute_zero a ha k).1 T ω h).2.2.2.2) (by
      intro p hp ω hω h
      obtain ⟨h3, h4⟩ := hr p hp ω hω h
      obtain ⟨s, h5, h6⟩ := err_f ha k hT h (h0.trans h3) (h4.trans h1)
      refine ⟨s, h5, h6.trans (mul_le_mul_of_nonneg_left ?_ hNk.le)⟩
      have := div_le_div_of_nonneg_left (by norm_num : (0 : ℝ) ≤ 15) hX0 h3
      norm_num at *
      linarith)
  refine ⟨F, h2, h3.trans ?_⟩
  have h3 : 0 ≤ total (counted fun _ => (1 : ℝ)) points := total_nonneg fun p hp => ⟨hw p hp, fun ω _ => by
    unfold counted; split_ifs <;> norm_num⟩
  refine add_le_add_left (mul_le_mul_of_nonneg_right ?_ h3) _
  rw [mul_assoc]
  refine mul_le_mul_of_nonneg_left ?_ hNk.le
  have h4 : 15 / X0 = 15 * (1 / X0) := by ring
  have h5 : 16 / X0 = 16 * (1 / X0) := by ring
  have h6 : 0 < 1 / X0 := by positivity
  rw [h4, h5]
  generalize 1 / X0 = z at h6 ⊢
  norm_num
  linarith

/-! ### IEEE 754 -/

theorem nearestEven_err (x : ℝ) : |(nearestEven x : ℝ) - x| ≤ 1 / 2 := by
  have h1 := Int.floor_le x
  have h2 := Int.lt_floor_add_one x
  unfold nearestEven
  rw [abs_le]
  split_ifs <;> push_cast <;> constructor <;> linarith

theorem roundBinary_err (x : ℝ) : |roundBinary x - x| ≤ u * |x| := by
  rcases eq_or_ne x 0 with rfl | hx
  · simp [roundBinary, nearestEven]
  · have hp : 0 < |x| := abs_pos.2 hx
    have h1 := Int.zpow_log_le_self (b := 2) (by norm_num) hp
    have h2 := nearestEven_err (x / 2 ^ (Int.log 2 |x| - 52))
    simp only [roundBinary]
    set e := Int.log 2 |x| with he
    have h3 : (0 : ℝ) < 2 ^ (e - 52) := by positivity
    have h4 : (nearestEven (x / 2 ^ (e - 52)) : ℝ) * 2 ^ (e - 52) - x =
        (nearestEven (x / 2 ^ (e - 52)) - x / 2 ^ (e - 52)) * 2 ^ (e - 52) := by
      field_simp
    rw [h4, abs_mul, abs_of_pos h3]
    have h5 : (2 : ℝ) ^ (e - 52) = 2 ^ e / 2 ^ 52 := by
      rw [zpow_sub₀ (by norm_num)]
      norm_num
    have h6 := mul_le_mul_of_nonneg_right h2 h3.le
    refine h6.trans ?_
    rw [h5, u]
    push_cast at h1
    have : (1 / 2 : ℝ) * (2 ^ e / 2 ^ 52) = 1 / 2 ^ 53 * 2 ^ e := by ring
    rw [this]
    exact mul_le_mul_of_nonneg_left h1 (by norm_num)

/-- C145: IEEE 754 binary64 with correctly rounded library functions is an accurate arithmetic. -/
theorem C145_binary64 : Accurate binary64 := by
  have h2 : ∀ x, |roundBinary x - x| ≤ 2 * u * |x| := fun x => by
    have := roundBinary_err x
    have := mul_nonneg u_pos.le (abs_nonneg x)
    linarith
  exact {
    rnd := roundBinary_err
    exp := fun x => by
      have := h2 (Real.exp x)
      rwa [abs_of_pos (a := Real.exp x) (Real.exp_pos x)] at this
    expm1 := fun x => h2 _
    log := fun x _ => h2 _
    sq := fun x => by
      have := h2 (x ^ 2)
      rwa [abs_of_nonneg (a := x ^ 2) (sq_nonneg x)] at this
    milli := by
      have := h2 (1 / 1000)
      rwa [abs_of_pos (a := (1 / 1000 : ℝ)) (by norm_num)] at this }

theorem round_near_one {y : ℝ} (h0 : 1 - 1 / 2 ^ 54 < y) (h1 : y < 1) : roundBinary y = 1 := by
  have hy : 0 < y := by norm_num at h0; linarith
  have hlog : Int.log 2 y = -1 := by
    apply le_antisymm
    · have := (Int.lt_zpow_iff_log_lt (b := 2) (by norm_num) (x := 0) hy).1 (by simpa using h1)
      omega
    · exact (Int.zpow_le_iff_le_log (b := 2) (by norm_num) (x := -1) hy).1 (by norm_num at h0 ⊢; linarith)
  have e : y / 2 ^ ((-1 : ℤ) - 52) = y * 2 ^ 53 := by
    rw [show ((-1 : ℤ) - 52) = -53 by norm_num, zpow_neg]
    simp only [div_inv_eq_mul]
    norm_num
  simp only [roundBinary, abs_of_pos hy, hlog, e]
  have hfl : ⌊y * 2 ^ 53⌋ = 2 ^ 53 - 1 := by
    rw [Int.floor_eq_iff]
    push_cast
    norm_num at *
    constructor <;> linarith
  have hn : nearestEven (y * 2 ^ 53) = 2 ^ 53 := by
    unfold nearestEven
    rw [hfl]
    rw [if_neg, if_pos]
    · norm_num
    · push_cast
      norm_num at *
      linarith
    · push_cast
      norm_num at *
      linarith
  rw [hn, show ((-1 : ℤ) - 52) = -53 by norm_num, zpow_neg]
  norm_num

theorem logTerm_lost {x : ℝ} (h0 : 0 < x) (h1 : x < 1 / 2 ^ 54) : binary64.logTerm x = none := by
  have h2 : 1 - 1 / 2 ^ 54 < Real.exp (-x) := by linarith [Real.add_one_le_exp (-x)]
  have h3 : Real.exp (-x) < 1 := by rw [Real.exp_lt_one_iff]; linarith
  have h4 : binary64.exp (-x) = 1 := round_near_one h2 h3
  have h5 : binary64.rnd 0 = 0 := rnd_zero C145_binary64
  rw [Arith.logTerm, h4]
  simp [h5]

/-- C145 (violated): the entropy and the free energy of a mode whose quantum is below `1e-17 k_B T` are not finite in binary64,
although the exact values are. -/
theorem C145_lost_violated (k : Consts) (T ω : ℝ) (hT : 0 < T) (hω : 0 < ω) (h : ratio k T ω ≤ 1e-17) :
    binary64.hoS k T ω = none ∧ binary64.hoF k T ω = none := by
  have hX := ratio_pos k hT hω
  obtain ⟨θ, h1, h2⟩ := near_x C145_binary64 k T ω
  have h3 : 0 < binary64.x k T ω := (near_x C145_binary64 k T ω).pos hX
  have h4 : binary64.x k T ω < 1 / 2 ^ 54 := by
    have h5 := (near_x C145_binary64 k T ω).err (by norm_num [e0])
    rw [abs_of_pos hX] at h5
    have h6 := le_abs_self (binary64.x k T ω - ratio k T ω)
    norm_num [e0] at *
    linarith
  have hl := logTerm_lost h3 h4
  constructor
  · rw [Arith.hoS, if_neg (by simp [hT.ne', hω])]
    simp [hl]
  · rw [Arith.hoF, if_neg (not_le.2 hω)]
    simp [hl, hT.ne']

end Verif.StatMech
