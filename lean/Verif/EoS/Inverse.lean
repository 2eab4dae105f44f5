/-
Property C136: every pressure belongs to exactly one compressed volume.  Property C25: where the energy of an E(V)
formulation is lowest.
-/
import Mathlib.Topology.Order.IntermediateValue
import Verif.EoS.Props

namespace Verif.EoS
open Verif.EoS.Spec
open Topology

/-! ### Lemmas -/

theorem formula_continuous (f : Formulation) (hf : f ≠ .tait) (q : Pars) (hV0 : 0 < q.V0) :
    ContinuousOn (formula f q) (Set.Ioc 0 q.V0) := by
  intro V hV
  have hV' : V ≠ 0 := hV.1.ne'
  have h1 : q.V0 / V ≠ 0 := (div_pos hV0 hV.1).ne'
  have h2 : V / q.V0 ≠ 0 := (div_pos hV.1 hV0).ne'
  have c1 : ContinuousAt (fun V => q.V0 / V) V := continuousAt_const.div continuousAt_id hV'
  have c2 : ContinuousAt (fun V => V / q.V0) V := continuousAt_id.div_const _
  have hp : ∀ y : ℝ, ContinuousAt (fun V => (q.V0 / V) ^ y) V := fun y => c1.rpow_const (.inl h1)
  apply ContinuousAt.continuousWithinAt
  cases f with
  | murnaghan => exact ((hp _).sub continuousAt_const).const_mul _
  | birchMurnaghan =>
    have hs : ContinuousAt (fun V => 0.5 * ((q.V0 / V) ^ ((2:ℝ) / 3) - 1)) V := ((hp _).sub continuousAt_const).const_mul _
    have h3 : 1 + 2 * (0.5 * ((q.V0 / V) ^ ((2:ℝ) / 3) - 1)) ≠ 0 := by
      have := Real.rpow_pos_of_pos (div_pos hV0 hV.1) ((2:ℝ) / 3)
      norm_num
      linarith
    have h4 : ContinuousAt (fun V => (1 + 2 * (0.5 * ((q.V0 / V) ^ ((2:ℝ) / 3) - 1))) ^ (2.5 : ℝ)) V :=
      ((hs.const_mul 2).const_add 1).rpow_const (.inl h3)
    exact ((hs.const_mul (3 * q.K0)).mul h4).mul (((hs.const_mul _).const_add 1).add ((hs.pow 2).const_mul _))
  | naturalStrain =>
    have hs : ContinuousAt (fun V => 1 / 3 * Real.log (q.V0 / V)) V := (c1.log h1).const_mul _
    exact ((c1.const_mul (3 * q.K0)).mul hs).mul (((hs.const_mul _).const_add 1).add ((hs.pow 2).const_mul _))
  | vinet =>
    have hs : ContinuousAt (fun V => 1 - (V / q.V0) ^ ((1:ℝ) / 3)) V := (c2.rpow_const (.inl h2)).const_sub 1
    have h3 : (1 - (1 - (V / q.V0) ^ ((1:ℝ) / 3))) ^ 2 ≠ 0 := by
      have := Real.rpow_pos_of_pos (div_pos hV.1 hV0) ((1:ℝ) / 3)
      rw [sub_sub_cancel]
      positivity
    exact ((hs.div ((hs.const_sub 1).pow 2) h3).const_mul (3 * q.K0)).mul (hs.const_mul _).rexp
  | tait => exact absurd rfl hf

/-- The pressure has no upper bound under compression. -/
theorem formula_unbounded (f : Formulation) (hf : f ≠ .tait) (q : Pars) (hV0 : 0 < q.V0) (hK0 : 0 < q.K0)
    (hs : Stiffening f q) {M : ℝ} (hM : 0 ≤ M) : ∃ V, 0 < V ∧ V ≤ q.V0 ∧ M ≤ formula f q V := by
  cases f with
  | murnaghan =>
    have hk : 0 < q.Kp := hs
    have h1 : 1 ≤ 1 + M * q.Kp / q.K0 := by
      have : 0 ≤ M * q.Kp / q.K0 := by positivity
      linarith
    have ht : 1 ≤ (1 + M * q.Kp / q.K0) ^ (1 / q.Kp) := Real.one_le_rpow h1 (by positivity)
    refine ⟨q.V0 / (1 + M * q.Kp / q.K0) ^ (1 / q.Kp), by positivity, div_le_self hV0.le ht, ?_⟩
    simp only [formula, div_div_cancel₀ hV0.ne']
    rw [← Real.rpow_mul (by linarith), one_div_mul_cancel hk.ne', Real.rpow_one]
    apply le_of_eq
    field_simp
    ring
  | birchMurnaghan =>
    obtain ⟨hk, hc⟩ := hs
    have h1 : 1 ≤ 1 + 2 * (M / (3 * q.K0)) := by
      have : 0 ≤ M / (3 * q.K0) := by positivity
      linarith
    have ht : 1 ≤ (1 + 2 * (M / (3 * q.K0))) ^ ((3 : ℝ) / 2) := Real.one_le_rpow h1 (by norm_num)
    refine ⟨q.V0 / (1 + 2 * (M / (3 * q.K0))) ^ ((3 : ℝ) / 2), by positivity, div_le_self hV0.le ht, ?_⟩
    simp only [formula, div_div_cancel₀ hV0.ne']
    rw [← Real.rpow_mul (by linarith)]
    norm_num only [Real.rpow_one]
    set x := M / (3 * q.K0)
    have hx : 0 ≤ x := by positivity
    have e : 1 / 2 * (1 + 2 * x - 1) = x := by ring
    rw [e]
    have hp : (1 : ℝ) ≤ (1 + 2 * x) ^ ((5 : ℝ) / 2) := Real.one_le_rpow h1 (by norm_num)
    have hm : M = 3 * q.K0 * x := by simp only [x]; field_simp
    have hq : 1 ≤ 1 + 3 / 2 * (q.Kp - 4) * x + 3 / 2 * (q.K0 * q.Kpp + (q.Kp - 4) * (q.Kp - 3) + 35 / 9) * x ^ 2 := by
      have a1 : 0 ≤ 3 / 2 * (q.Kp - 4) * x := by
        have := sub_nonneg.2 hk
        positivity
      have a2 : 0 ≤ 3 / 2 * (q.K0 * q.Kpp + (q.Kp - 4) * (q.Kp - 3) + 35 / 9) * x ^ 2 := by positivity
      linarith
    have h3 : 0 ≤ 3 * q.K0 * x := by positivity
    calc M = 3 * q.K0 * x * 1 * 1 := by rw [hm]; ring
      _ ≤ _ := mul_le_mul (mul_le_mul_of_nonneg_left hp h3) hq (by norm_num) (by positivity)
  | naturalStrain =>
    obtain ⟨hk, hc⟩ := hs
    have hx : 0 ≤ M / q.K0 := by positivity
    have ht : 1 ≤ Real.exp (M / q.K0) := Real.one_le_exp hx
    refine ⟨q.V0 / Real.exp (M / q.K0), by positivity, div_le_self hV0.le ht, ?_⟩
    simp only [formula, div_div_cancel₀ hV0.ne', Real.log_exp]
    set y := 1 / 3 * (M / q.K0)
    have hy : 0 ≤ y := by positivity
    have hm : M = 3 * q.K0 * 1 * y := by simp only [y]; field_simp
    have hq : 1 ≤ 1 + 1.5 * (q.Kp - 2) * y + 1.5 * (1 + q.Kpp * q.K0 + (q.Kp - 2) + (q.Kp - 2) ^ 2) * y ^ 2 := by
      have a1 : 0 ≤ 1.5 * (q.Kp - 2) * y := by
        have := sub_nonneg.2 hk
        positivity
      have a2 : 0 ≤ 1.5 * (1 + q.Kpp * q.K0 + (q.Kp - 2) + (q.Kp - 2) ^ 2) * y ^ 2 := by positivity
      linarith
    calc M = 3 * q.K0 * 1 * y * 1 := by rw [mul_one]; exact hm
      _ ≤ _ := by
        refine mul_le_mul (mul_le_mul_of_nonneg_right (mul_le_mul_of_nonneg_left ht (by positivity)) hy) hq (by norm_num)
          (by positivity)
  | vinet =>
    have hk : 1 ≤ q.Kp := hs
    have hx : 0 ≤ M / (3 * q.K0) := by positivity
    set z := 1 + M / (3 * q.K0) with hz
    have hz1 : 1 ≤ z := by linarith
    have ht : 1 ≤ z ^ (3 : ℕ) := one_le_pow₀ hz1
    refine ⟨q.V0 / z ^ (3 : ℕ), by positivity, div_le_self hV0.le ht, ?_⟩
    have e : (q.V0 / z ^ (3 : ℕ) / q.V0) ^ ((1:ℝ) / 3) = 1 / z := by
      have : q.V0 / z ^ (3 : ℕ) / q.V0 = (1 / z) ^ (3 : ℕ) := by field_simp
      rw [this, ← Real.rpow_natCast, ← Real.rpow_mul (by positivity)]
      norm_num
    simp only [formula, e, sub_sub_cancel]
    have h0 : 0 < z := by linarith
    have hf0 : 0 ≤ 1 - 1 / z := by
      rw [sub_nonneg, div_le_one h0]
      exact hz1
    have he : 1 ≤ Real.exp (1.5 * (q.Kp - 1) * (1 - 1 / z)) := by
      apply Real.one_le_exp
      have := sub_nonneg.2 hk
      positivity
    have hd : z - 1 ≤ (1 - 1 / z) / (1 / z) ^ 2 := by
      have : (1 - 1 / z) / (1 / z) ^ 2 = z * (z - 1) := by field_simp
      rw [this]
      nlinarith
    have hm : M = 3 * q.K0 * (z - 1) := by rw [hz]; field_simp; ring
    calc M = 3 * q.K0 * (z - 1) * 1 := by rw [mul_one]; exact hm
      _ ≤ _ := mul_le_mul (mul_le_mul_of_nonneg_left hd (by positivity)) he (by norm_num) (by positivity)
  | tait => exact absurd rfl hf

/-! ### C136 -/

/-- **C136.** For the Murnaghan, Birch-Murnaghan, natural strain and Vinet formulations, every pressure from zero up belongs to
exactly one volume not above `V0`. -/
theorem C136_one_volume (f : Formulation) (hf : f ≠ .tait) (p : Pars) (order : ℕ) (linear dofit : Bool) (hV0 : 0 < p.V0)
    (hK0 : 0 < p.K0) (hs : Stiffening f (eos f p p.V0 order linear dofit).2) (target : ℝ) (ht : 0 ≤ target) :
    ∃! V, (0 < V ∧ V ≤ p.V0) ∧ (eos f p V order linear dofit).1 = target := by
  obtain ⟨h1, h2⟩ := parsAfter_K0 f p order linear dofit
  have anti := (C27_compression f p order linear dofit hV0 hK0 hs).1
  set q := parsAfter f p order linear dofit with hq
  have hq0 : 0 < q.V0 := by rwa [h2]
  have hk0 : 0 < q.K0 := by rwa [h1]
  have hs' : Stiffening f q := hs
  obtain ⟨W, hW, hW0, hM⟩ := formula_unbounded f hf q hq0 hk0 hs' ht
  have z : formula f q q.V0 = 0 := formula_V0 f q hq0 hk0 (stiffening_regular f q hk0 hs')
  have cont : ContinuousOn (formula f q) (Set.Icc W q.V0) :=
    (formula_continuous f hf q hq0).mono fun V hV => ⟨hW.trans_le hV.1, hV.2⟩
  obtain ⟨V, hV, hVt⟩ := intermediate_value_Icc' hW0 cont (show target ∈ Set.Icc _ _ by rw [z]; exact ⟨ht, hM⟩)
  refine ⟨V, ⟨⟨hW.trans_le hV.1, by rw [← h2]; exact hV.2⟩, hVt⟩, ?_⟩
  rintro V' ⟨⟨a, b⟩, c⟩
  exact anti.injOn ⟨a, b⟩ ⟨hW.trans_le hV.1, by rw [← h2]; exact hV.2⟩ (c.trans hVt.symm)

/-- **C136 (Tait).** The volume at a pressure is the one of the literature, `V = V0 (1 - a (1 - (1 + b P)^(-c)))`, and is the only
one; with `K'' = 0` it exists at every pressure, and otherwise below the pressure `L` at which that expression reaches zero:
a Tait curve does not reach `L` at any volume. -/
theorem C136_tait (p : Pars) (order : ℕ) (linear dofit : Bool) (hV0 : 0 < p.V0) (hK0 : 0 < p.K0) (q : Pars)
    (hq : q = (eos .tait p p.V0 order linear dofit).2) (hs : Stiffening .tait q) (target : ℝ) (ht : 0 ≤ target) :
    let a := (1 + q.Kp) / (1 + q.Kp + q.K0 * q.Kpp)
    let b := q.Kp / q.K0 - q.Kpp / (1 + q.Kp)
    let c := (1 + q.Kp + q.K0 * q.Kpp) / (q.Kp ^ 2 + q.Kp - q.K0 * q.Kpp)
    let L := ((-(q.K0 * q.Kpp) / (1 + q.Kp)) ^ (-1 / c) - 1) / b
    (∀ V, 0 < V → ((eos .tait p V order linear dofit).1 = target ↔ V = p.V0 * (1 - a * (1 - (1 + b * target) ^ (-c))))) ∧
    ((∃ V, (0 < V ∧ V ≤ p.V0) ∧ (eos .tait p V order linear dofit).1 = target) ↔ q.Kpp = 0 ∨ target < L) := by
  intro a b c L
  obtain ⟨h1, h2⟩ := parsAfter_K0 .tait p order linear dofit
  have hqe : q = parsAfter .tait p order linear dofit := hq
  obtain ⟨hKp, hKpp, hD⟩ := hs
  have hk0 : 0 < q.K0 := by rw [hqe, h1]; exact hK0
  have hv0 : q.V0 = p.V0 := by rw [hqe, h2]
  have hm : q.K0 * q.Kpp ≤ 0 := mul_nonpos_of_nonneg_of_nonpos hk0.le hKpp
  have hE : 0 < q.Kp ^ 2 + q.Kp - q.K0 * q.Kpp := by have := sq_nonneg q.Kp; linarith
  have ha : 1 ≤ a := by simp only [a]; rw [le_div_iff₀ hD]; linarith
  have hb : 0 < b := by
    have h1 : 0 < q.Kp / q.K0 := by positivity
    have h2 : q.Kpp / (1 + q.Kp) ≤ 0 := div_nonpos_of_nonpos_of_nonneg hKpp (by linarith)
    simp only [b]
    linarith
  have hc : 0 < c := div_pos hD hE
  have ha0 : 0 < a := by linarith
  have hbase : 1 ≤ 1 + b * target := by
    have : 0 ≤ b * target := by positivity
    linarith
  have hb0 : 0 < 1 + b * target := by linarith
  have eval : ∀ V, (eos .tait p V order linear dofit).1 = 1 / b * (((V / p.V0 + a - 1) / a) ^ (-1 / c) - 1) := by
    intro V
    show formula .tait (parsAfter .tait p order linear dofit) V = _
    rw [← hqe, ← hv0]
    rfl
  have first : ∀ V, 0 < V → ((eos .tait p V order linear dofit).1 = target ↔
      V = p.V0 * (1 - a * (1 - (1 + b * target) ^ (-c)))) := by
    intro V hV
    have hg : 0 < (V / p.V0 + a - 1) / a := by
      have : 0 < V / p.V0 := by positivity
      exact div_pos (by linarith) ha0
    rw [eval]
    have s1 : 1 / b * (((V / p.V0 + a - 1) / a) ^ (-1 / c) - 1) = target ↔ ((V / p.V0 + a - 1) / a) ^ (-1 / c) = 1 + b * target := by
      constructor
      · intro h
        rw [← h]
        field_simp
        ring
      · intro h
        rw [h]
        field_simp
        ring
    have s2 : ((V / p.V0 + a - 1) / a) ^ (-1 / c) = 1 + b * target ↔ (V / p.V0 + a - 1) / a = (1 + b * target) ^ (-c) := by
      constructor
      · intro h
        rw [← h, ← Real.rpow_mul hg.le]
        have : -1 / c * -c = 1 := by field_simp
        rw [this, Real.rpow_one]
      · intro h
        rw [h, ← Real.rpow_mul hb0.le]
        have : -c * (-1 / c) = 1 := by field_simp
        rw [this, Real.rpow_one]
    have s3 : (V / p.V0 + a - 1) / a = (1 + b * target) ^ (-c) ↔ V = p.V0 * (1 - a * (1 - (1 + b * target) ^ (-c))) := by
      constructor
      · intro h
        rw [← h]
        field_simp
        ring
      · intro h
        rw [h]
        field_simp
        ring
    rw [s1, s2, s3]
  refine ⟨first, ?_⟩
  set y := (1 + b * target) ^ (-c) with hy
  have hy0 : 0 < y := Real.rpow_pos_of_pos hb0 _
  have hy1 : y ≤ 1 := Real.rpow_le_one_of_one_le_of_nonpos hbase (by linarith)
  set z := -(q.K0 * q.Kpp) / (1 + q.Kp) with hz
  have hz0 : 0 ≤ z := div_nonneg (by linarith) (by linarith)
  have haz : a * (1 - z) = 1 := by
    simp only [a, hz]
    have : 1 + q.Kp ≠ 0 := by linarith
    field_simp
    ring
  have pos : 0 < p.V0 * (1 - a * (1 - y)) ↔ z < y := by
    have : p.V0 * (1 - a * (1 - y)) = p.V0 * a * (y - z) := by
      calc p.V0 * (1 - a * (1 - y)) = p.V0 * (a * (1 - z) - a * (1 - y)) := by rw [haz]
        _ = _ := by ring
    rw [this, mul_pos_iff_of_pos_left (by positivity), sub_pos]
  have le : p.V0 * (1 - a * (1 - y)) ≤ p.V0 := by
    have : 0 ≤ a * (1 - y) := mul_nonneg ha0.le (by linarith)
    nlinarith
  have ex : (∃ V, (0 < V ∧ V ≤ p.V0) ∧ (eos .tait p V order linear dofit).1 = target) ↔ z < y := by
    constructor
    · rintro ⟨V, ⟨hV, -⟩, h⟩
      rw [first V hV] at h
      rw [← pos, ← h]
      exact hV
    · intro h
      have := pos.2 h
      exact ⟨_, ⟨this, le⟩, (first _ this).2 rfl⟩
  rw [ex]
  rcases hz0.lt_or_eq with hzp | hzz
  · have hKne : q.Kpp ≠ 0 := by
      intro h
      rw [hz, h] at hzp
      simp at hzp
    have step : z < y ↔ target < L := by
      have e1 : z = (z ^ (-1 / c)) ^ (-c) := by
        rw [← Real.rpow_mul hzp.le]
        have : -1 / c * -c = 1 := by field_simp
        rw [this, Real.rpow_one]
      have hzr : 0 < z ^ (-1 / c) := Real.rpow_pos_of_pos hzp _
      have e2 : z < y ↔ 1 + b * target < z ^ (-1 / c) := by
        conv_lhs => rw [e1, hy]
        exact Real.rpow_lt_rpow_iff_of_neg hzr hb0 (by linarith)
      rw [e2]
      simp only [L]
      rw [lt_div_iff₀ hb]
      constructor <;> intro h <;> linarith
    rw [step]
    exact ⟨.inr, fun h => h.resolve_left hKne⟩
  · have hK : q.Kpp = 0 := by
      have h1 : q.K0 * q.Kpp = 0 := by
        have h := hzz.symm
        rw [hz, div_eq_zero_iff, neg_eq_zero] at h
        exact h.resolve_right (by linarith)
      exact (mul_eq_zero.1 h1).resolve_left hk0.ne'
    rw [← hzz]
    exact ⟨fun _ => .inl hK, fun _ => hy0⟩

/-! ### C25: the lowest energy -/

/-- A function that falls up to `V0` and rises from there is lowest at `V0`. -/
theorem lowest_of_slope {E P : ℝ → ℝ} {V0 : ℝ} (hV0 : 0 < V0) (hE : ∀ V, 0 < V → HasDerivAt E (-P V) V)
    (hlo : ∀ V, 0 < V → V < V0 → 0 < P V) (hhi : ∀ V, V0 < V → P V < 0) {V : ℝ} (hV : 0 < V) (hne : V ≠ V0) : E V0 < E V := by
  rcases lt_or_gt_of_ne hne with h | h
  · have : StrictAntiOn E (Set.Icc V V0) := by
      refine strictAntiOn_of_deriv_neg (convex_Icc _ _)
        (fun W hW => (hE W (hV.trans_le hW.1)).continuousAt.continuousWithinAt) fun W hW => ?_
      rw [interior_Icc] at hW
      rw [(hE W (hV.trans hW.1)).deriv, neg_lt_zero]
      exact hlo W (hV.trans hW.1) hW.2
    exact this ⟨le_rfl, h.le⟩ ⟨h.le, le_rfl⟩ h
  · have : StrictMonoOn E (Set.Icc V0 V) := by
      refine strictMonoOn_of_deriv_pos (convex_Icc _ _)
        (fun W hW => (hE W (hV0.trans_le hW.1)).continuousAt.continuousWithinAt) fun W hW => ?_
      rw [interior_Icc] at hW
      rw [(hE W (hV0.trans hW.1)).deriv, neg_pos]
      exact hhi W hW.1
    exact this ⟨le_rfl, h.le⟩ ⟨h.le, le_rfl⟩ h

/-- **C25 (lowest energy).** The energy of the Murnaghan and Vinet formulations exceeds `E0` at every other volume.  That of
Birch-Murnaghan does exactly where `6 - K' + (K' - 4) (V0/V)^(2/3)` is positive, and that of Poirier-Tarantola exactly where
`3 + (K' - 2) ln (V0/V)` is. -/
theorem C25_lowest (E0 K0 Kp V0 V : ℝ) (hV0 : 0 < V0) (hK0 : 0 < K0) (hV : 0 < V) (hne : V ≠ V0) :
    (ERegular .murnaghan Kp → E0 < energy .murnaghan E0 K0 Kp V0 V) ∧
    (ERegular .vinet Kp → E0 < energy .vinet E0 K0 Kp V0 V) ∧
    (E0 < energy .birchMurnaghan E0 K0 Kp V0 V ↔ 0 < 6 - Kp + (Kp - 4) * (V0 / V) ^ ((2 : ℝ) / 3)) ∧
    (E0 < energy .pourierTarantola E0 K0 Kp V0 V ↔ 0 < 3 + (Kp - 2) * Real.log (V0 / V)) := by
  refine ⟨fun hr => ?_, fun hr => ?_, ?_, ?_⟩
  · have h00 := (C25_minimum .murnaghan E0 K0 Kp V0 hV0 hK0 hr).1
    conv_lhs => rw [← h00]
    have hf : ∀ W, (eos (pvType .murnaghan) ⟨K0, Kp, 0, V0⟩ W 3 false true).1 = K0 / Kp * ((V0 / W) ^ Kp - 1) := by
      intro W
      simp [pvType, eos, parsAfter, setKpp, setKp, formula]
    refine lowest_of_slope (P := fun W => K0 / Kp * ((V0 / W) ^ Kp - 1)) hV0 (fun W hW => ?_) ?_ ?_ hV hne
    · rw [← hf]
      exact energy_hasDerivAt .murnaghan E0 K0 Kp V0 W hV0 hW hK0 hr
    · intro W hW h
      have h1 : 1 < V0 / W := by rwa [lt_div_iff₀ hW, one_mul]
      rcases lt_or_gt_of_ne hr.1 with hk | hk
      · have := Real.rpow_lt_one_of_one_lt_of_neg h1 hk
        exact mul_pos_of_neg_of_neg (div_neg_of_pos_of_neg hK0 hk) (by linarith)
      · have := Real.one_lt_rpow h1 hk
        exact mul_pos (div_pos hK0 hk) (by linarith)
    · intro W h
      have hW := hV0.trans h
      have h0 : 0 < V0 / W := by positivity
      have h1 : V0 / W < 1 := by rwa [div_lt_one hW]
      rcases lt_or_gt_of_ne hr.1 with hk | hk
      · have := Real.one_lt_rpow_of_pos_of_lt_one_of_neg h0 h1 hk
        exact mul_neg_of_neg_of_pos (div_neg_of_pos_of_neg hK0 hk) (by linarith)
      · have := Real.rpow_lt_one h0.le h1 hk
        exact mul_neg_of_pos_of_neg (div_pos hK0 hk) (by linarith)
  · have h00 := (C25_minimum .vinet E0 K0 Kp V0 hV0 hK0 hr).1
    conv_lhs => rw [← h00]
    have hf : ∀ W, (eos (pvType .vinet) ⟨K0, Kp, 0, V0⟩ W 3 false true).1 =
        3 * K0 * ((1 - (W / V0) ^ ((1:ℝ) / 3)) / ((W / V0) ^ ((1:ℝ) / 3)) ^ 2) *
          Real.exp (1.5 * (Kp - 1) * (1 - (W / V0) ^ ((1:ℝ) / 3))) := by
      intro W
      simp [pvType, eos, parsAfter, setKpp, setKp, formula]
    refine lowest_of_slope (P := fun W => (eos (pvType .vinet) ⟨K0, Kp, 0, V0⟩ W 3 false true).1) hV0
      (fun W hW => energy_hasDerivAt .vinet E0 K0 Kp V0 W hV0 hW hK0 hr) ?_ ?_ hV hne
    · intro W hW h
      beta_reduce
      rw [hf]
      have h0 : 0 < W / V0 := by positivity
      have h1 := Real.rpow_lt_one h0.le (by rwa [div_lt_one hV0] : W / V0 < 1) (show (0:ℝ) < 1 / 3 by norm_num)
      have h2 := Real.rpow_pos_of_pos h0 ((1:ℝ) / 3)
      have : 0 < 1 - (W / V0) ^ ((1:ℝ) / 3) := by linarith
      positivity
    · intro W h
      beta_reduce
      rw [hf]
      have hW := hV0.trans h
      have h0 : 0 < W / V0 := by positivity
      have h1 := Real.one_lt_rpow (by rwa [lt_div_iff₀ hV0, one_mul] : 1 < W / V0) (show (0:ℝ) < 1 / 3 by norm_num)
      have h2 := Real.rpow_pos_of_pos h0 ((1:ℝ) / 3)
      have h3 : 1 - (W / V0) ^ ((1:ℝ) / 3) < 0 := by linarith
      exact mul_neg_of_neg_of_pos (mul_neg_of_pos_of_neg (by positivity) (div_neg_of_neg_of_pos h3 (by positivity)))
        (Real.exp_pos _)
  · have h0 : 0 < V0 / V := by positivity
    have e : ((V0 / V) ^ ((1:ℝ) / 3)) ^ 2 = (V0 / V) ^ ((2:ℝ) / 3) := by
      rw [← Real.rpow_natCast, ← Real.rpow_mul h0.le]
      norm_num
    have hx : (V0 / V) ^ ((2:ℝ) / 3) ≠ 1 := by
      intro h
      rcases lt_or_gt_of_ne hne with h' | h'
      · exact absurd h (Real.one_lt_rpow (by rwa [lt_div_iff₀ hV, one_mul]) (by norm_num)).ne'
      · exact absurd h (Real.rpow_lt_one h0.le (by rwa [div_lt_one hV]) (by norm_num)).ne
    simp only [energy, e]
    set x := (V0 / V) ^ ((2:ℝ) / 3)
    have hsq : 0 < 9 * K0 * V0 / 16 * (x - 1) ^ 2 := by
      have := sub_ne_zero.2 hx
      positivity
    have e2 : 9 * K0 * V0 / 16 * (Kp * (x - 1) ^ 3 + (x - 1) ^ 2 * (6 - 4 * x)) =
        9 * K0 * V0 / 16 * (x - 1) ^ 2 * (6 - Kp + (Kp - 4) * x) := by ring
    rw [e2, lt_add_iff_pos_right, mul_pos_iff_of_pos_left hsq]
  · have h0 : 0 < V / V0 := by positivity
    have e : -3 * Real.log ((V / V0) ^ ((1:ℝ) / 3)) = Real.log (V0 / V) := by
      rw [Real.log_rpow h0, ← inv_div V V0, Real.log_inv]
      ring
    have hx : Real.log (V0 / V) ≠ 0 := by
      have h1 : 0 < V0 / V := by positivity
      intro h
      rw [Real.log_eq_zero] at h
      rcases h with h | h | h
      · exact h1.ne' h
      · rw [div_eq_one_iff_eq hV.ne'] at h
        exact hne h.symm
      · linarith
    simp only [energy, e]
    set x := Real.log (V0 / V)
    have hsq : 0 < K0 * V0 * x ^ 2 / 6 := by positivity
    rw [lt_add_iff_pos_right, mul_pos_iff_of_pos_left hsq, mul_comm x]

/-- **C25 (stretched crystals).** With `K' > 6` the energy of Birch-Murnaghan, and with `K' > 2` that of Poirier-Tarantola, is
below `E0` at every sufficiently large volume; with `4 ≤ K' ≤ 6` that of Birch-Murnaghan is nowhere below. -/
theorem C25_stretched (E0 K0 Kp V0 : ℝ) (hV0 : 0 < V0) (hK0 : 0 < K0) :
    (6 < Kp → ∃ W, V0 < W ∧ ∀ V, W < V → energy .birchMurnaghan E0 K0 Kp V0 V ≤ E0) ∧
    (2 < Kp → ∃ W, V0 < W ∧ ∀ V, W < V → energy .pourierTarantola E0 K0 Kp V0 V ≤ E0) ∧
    (4 ≤ Kp → Kp ≤ 6 → ∀ V, 0 < V → V ≠ V0 → E0 < energy .birchMurnaghan E0 K0 Kp V0 V) := by
  refine ⟨fun hk => ?_, fun hk => ?_, fun h4 h6 V hV hne => ?_⟩
  · set x := (Kp - 6) / (Kp - 4) with hx
    have hx0 : 0 < x := div_pos (by linarith) (by linarith)
    have hx1 : x < 1 := by rw [hx, div_lt_one (by linarith)]; linarith
    have hxr : 0 < x ^ ((3:ℝ) / 2) := Real.rpow_pos_of_pos hx0 _
    have hxr1 : x ^ ((3:ℝ) / 2) < 1 := Real.rpow_lt_one hx0.le hx1 (by norm_num)
    refine ⟨V0 / x ^ ((3:ℝ) / 2), ?_, fun V hW => ?_⟩
    · rw [lt_div_iff₀ hxr]
      nlinarith
    have hW0 : V0 < V := lt_trans (by rw [lt_div_iff₀ hxr]; nlinarith) hW
    have hV := hV0.trans hW0
    by_contra hcon
    rw [not_le, (C25_lowest E0 K0 Kp V0 V hV0 hK0 hV hW0.ne').2.2.1] at hcon
    have h1 : V0 / V < x ^ ((3:ℝ) / 2) := by
      rw [div_lt_iff₀ hxr] at hW
      rw [div_lt_iff₀ hV]
      linarith
    have h2 := Real.rpow_lt_rpow (by positivity) h1 (show (0:ℝ) < 2 / 3 by norm_num)
    rw [← Real.rpow_mul hx0.le] at h2
    norm_num at h2
    have h3 : (Kp - 4) * x = Kp - 6 := by
      rw [hx]
      have : Kp - 4 ≠ 0 := by linarith
      field_simp
    nlinarith
  · refine ⟨V0 * Real.exp (3 / (Kp - 2)), ?_, fun V hW => ?_⟩
    · have : 1 < Real.exp (3 / (Kp - 2)) := Real.one_lt_exp_iff.2 (div_pos (by norm_num) (by linarith))
      nlinarith
    have h1 : 1 < Real.exp (3 / (Kp - 2)) := Real.one_lt_exp_iff.2 (div_pos (by norm_num) (by linarith))
    have hW0 : V0 < V := lt_trans (by nlinarith) hW
    have hV := hV0.trans hW0
    by_contra hcon
    rw [not_le, (C25_lowest E0 K0 Kp V0 V hV0 hK0 hV hW0.ne').2.2.2] at hcon
    have h2 : Real.log (V0 / V) < -(3 / (Kp - 2)) := by
      rw [Real.log_lt_iff_lt_exp (by positivity), Real.exp_neg, div_lt_iff₀ hV]
      have := Real.exp_pos (3 / (Kp - 2))
      rw [inv_mul_eq_div, lt_div_iff₀ this]
      exact hW
    have h3 : (Kp - 2) * (3 / (Kp - 2)) = 3 := by
      have : Kp - 2 ≠ 0 := by linarith
      field_simp
    nlinarith
  · rw [(C25_lowest E0 K0 Kp V0 V hV0 hK0 hV hne).2.2.1]
    have := Real.rpow_pos_of_pos (div_pos hV0 hV) ((2:ℝ) / 3)
    rcases h4.eq_or_lt with h | h
    · rw [← h]; norm_num
    · have : 0 < (Kp - 4) * (V0 / V) ^ ((2:ℝ) / 3) := mul_pos (by linarith) this
      linarith

/-- Periclase at 100 GPa: one volume in every formulation but Tait's. -/
example (f : Formulation) (hf : f ≠ .tait) : ∃! V, (0 < V ∧ V ≤ periclase.V0) ∧ (eos f periclase V 3 false true).1 = 100 :=
  C136_one_volume f hf periclase 3 false true (by norm_num [periclase]) (by norm_num [periclase])
    (C27_fits f periclase _ 3 false (by norm_num) (by norm_num [periclase]) (by
      rw [C23_which_Kp]; cases f <;> norm_num [periclase, secondOrderKp])) 100 (by norm_num)

/-- The hypotheses of the theorem for Tait's curve are met by a third-order fit, whose `K''` is not zero. -/
example : Stiffening .tait (eos .tait periclase periclase.V0 3 false true).2 ∧
    (eos .tait periclase periclase.V0 3 false true).2.Kpp ≠ 0 :=
  ⟨C27_fits .tait periclase _ 3 false (by norm_num) (by norm_num [periclase]) (by
    rw [C23_which_Kp]; norm_num [periclase, secondOrderKp]), by
    simp [eos, parsAfter, setKpp, setKp]; norm_num [periclase]⟩

end Verif.EoS
