/-
Property C46 for a search that finds minima: the reported extremes are the extremes over all directions.
-/
import Verif.Elastic.Symmetry
import Mathlib.Topology.MetricSpace.Pseudo.Pi
import Mathlib.Topology.MetricSpace.ProperSpace.Real
import Mathlib.Topology.Algebra.Order.Field
import Mathlib.Topology.Order.Compact
import Verif.Tac

namespace Verif.Elastic
open Verif.Py Spec

/-- The search returns the value of the function at the point it returns, and no smaller value exists anywhere when the
function has a smallest value at all. -/
def Spec.Finds {X : Type} (minimize : Search X) : Prop :=
  Consistent minimize ∧ ∀ f, (∃ y, ∀ x, f y ≤ f x) → ∀ x, (minimize f).value ≤ f x

/-- Such a search exists. -/
theorem exists_finds {X : Type} [Nonempty X] : ∃ minimize : Search X, Finds minimize := by
  classical
  refine ⟨fun f => if h : ∃ y, ∀ x, f y ≤ f x then ⟨h.choose, f h.choose⟩ else
    ⟨Classical.arbitrary X, f (Classical.arbitrary X)⟩, fun f => ?_, fun f h x => ?_⟩
  · by_cases h : ∃ y, ∀ x, f y ≤ f x
    · simp only [dif_pos h]
    · simp only [dif_neg h]
  · simp only [dif_pos h]
    exact h.choose_spec x

theorem sphere_compact : IsCompact {n : V3 | UnitVector n} := by
  refine Metric.isCompact_of_isClosed_isBounded ?_ ?_
  · have : Continuous fun n : V3 => dot n n := by
      unfold dot
      fun_prop
    exact isClosed_eq this continuous_const
  · refine (Metric.isBounded_closedBall (x := (0 : V3)) (r := 1)).subset fun n hn => ?_
    rw [Metric.mem_closedBall, dist_pi_le_iff zero_le_one]
    intro i
    have h : dot n n = 1 := hn
    rw [Real.dist_eq, Pi.zero_apply, sub_zero]
    refine abs_le_one_iff_mul_self_le_one.2 ?_
    rw [← h]
    exact Finset.single_le_sum (f := fun j => n j * n j) (fun j _ => mul_self_nonneg _) (Finset.mem_univ i)

/-- A property of the direction alone, continuous on the sphere, has a smallest value among the angles. -/
theorem exists_minimal {h : V3 → ℝ} (hc : ContinuousOn h {n | UnitVector n}) :
    ∃ y : ℝ × ℝ, ∀ x : ℝ × ℝ, h (vector y.1 y.2) ≤ h (vector x.1 x.2) := by
  obtain ⟨n, hn, hmin⟩ := sphere_compact.exists_isMinOn ⟨vector 0 0, vector_unit 0 0⟩ hc
  obtain ⟨t, p, -, -, rfl⟩ := exists_vector hn
  exact ⟨(t, p), fun x => hmin (vector_unit x.1 x.2)⟩

/-- A report gives the extremes of a property of the direction: the property lies between them in every direction and has them
along the reported axes; the anisotropy is their ratio when the smaller is positive and infinite otherwise. -/
def Spec.ExtremesOf (property : V3 → ℝ) (r : Variation) : Prop :=
  (∀ n, UnitVector n → r.minimum ≤ property n ∧ property n ≤ r.maximum) ∧
  (UnitVector r.minAxis1 ∧ property r.minAxis1 = r.minimum) ∧ (UnitVector r.maxAxis1 ∧ property r.maxAxis1 = r.maximum) ∧
  (0 < r.minimum → r.anisotropy = some (r.maximum / r.minimum)) ∧ (r.minimum ≤ 0 → r.anisotropy = none)

theorem variation_extremes {minimize : Search (ℝ × ℝ)} (hm : Finds minimize) {f : ℝ × ℝ → ℝ} {h : V3 → ℝ}
    (hf : ∀ x, f x = h (vector x.1 x.2)) (hc : ContinuousOn h {n | UnitVector n}) : ExtremesOf h (variation2 minimize f) := by
  obtain ⟨hcons, hmin⟩ := hm
  obtain rfl : f = fun x => h (vector x.1 x.2) := funext hf
  refine ⟨fun n hn => ?_, ⟨vector_unit _ _, (hcons fun x => h (vector x.1 x.2)).symm⟩, ⟨vector_unit _ _, ?_⟩, fun hp => if_pos hp,
    fun hp => if_neg (not_lt.2 hp)⟩
  · obtain ⟨t, p, -, -, rfl⟩ := exists_vector hn
    refine ⟨hmin (fun x => h (vector x.1 x.2)) (exists_minimal hc) (t, p), ?_⟩
    have := hmin (fun x => -h (vector x.1 x.2)) (exists_minimal (h := fun n => -h n) hc.neg) (t, p)
    exact le_neg_of_le_neg this
  · show h _ = -(minimize fun x => -h (vector x.1 x.2)).value
    rw [hcons, neg_neg]
    rfl

theorem contract4_continuous (T : T4) : Continuous fun n : V3 => contract4 T n n n n := by
  unfold contract4
  fun_prop

/-- C46: with a search that finds minima, the reported extremes of Young's modulus and of the linear compressibility are the
extremes over all directions, and the reported axes are directions where they are reached. -/
theorem C46_extremes (C : M6) (hC : C.PosDef) (density : ℝ) (s : Soec) (hs : soec C density = .ok s)
    (minimize : Search (ℝ × ℝ)) (hm : Finds minimize) :
    ExtremesOf (youngAlong s.Smat) (variation2 minimize s.youngModulus) ∧
    ExtremesOf (compressibilityAlong s.Smat) (variation2 minimize s.linearCompressibility) := by
  obtain ⟨-, rfl⟩ := soec_ok hs
  refine ⟨variation_extremes hm (fun x => rfl) ?_, variation_extremes hm (fun x => rfl) ?_⟩
  · show ContinuousOn (fun n => 1 / contract4 (sTensor C⁻¹) n n n n) _
    exact continuousOn_const.div (contract4_continuous _).continuousOn fun n hn => (young_denominator_pos hC hn).ne'
  · refine Continuous.continuousOn ?_
    show Continuous fun n : V3 => compressibilityAlong (sTensor C⁻¹) n
    unfold compressibilityAlong
    fun_prop

/-! ### Pairs of directions -/

theorem pairs_compact : IsCompact {n : V3 × V3 | Orthonormal n.1 n.2} := by
  have hc : Continuous fun n : V3 × V3 => dot n.1 n.2 := by
    unfold dot
    fun_prop
  have : {n : V3 × V3 | Orthonormal n.1 n.2} =
      ({n | UnitVector n} ×ˢ {n | UnitVector n}) ∩ {n : V3 × V3 | dot n.1 n.2 = 0} := by
    ext n
    constructor
    · rintro ⟨h1, h2, h3⟩
      exact ⟨⟨h1, h2⟩, h3⟩
    · rintro ⟨⟨h1, h2⟩, h3⟩
      exact ⟨h1, h2, h3⟩
  rw [this]
  exact (sphere_compact.prod sphere_compact).inter_right (isClosed_eq hc continuous_const)

theorem exists_minimal_pair {h : V3 × V3 → ℝ} (hc : ContinuousOn h {n | Orthonormal n.1 n.2}) :
    ∃ y : ℝ × ℝ × ℝ, ∀ x : ℝ × ℝ × ℝ, h (vector y.1 y.2.1, vectorChi y.1 y.2.1 y.2.2) ≤
      h (vector x.1 x.2.1, vectorChi x.1 x.2.1 x.2.2) := by
  have on : ∀ t p c, Orthonormal (vector t p) (vectorChi t p c) := fun t p c =>
    ⟨vector_unit t p, vectorChi_unit t p c, vector_orthogonal t p c⟩
  obtain ⟨⟨n, m⟩, hn, hmin⟩ := pairs_compact.exists_isMinOn ⟨(vector 0 0, vectorChi 0 0 0), on 0 0 0⟩ hc
  obtain ⟨t, p, -, -, rfl⟩ := exists_vector hn.1
  obtain ⟨c, rfl⟩ := exists_vectorChi hn.2.1 hn.2.2
  exact ⟨(t, p, c), fun x => hmin (on x.1 x.2.1 x.2.2)⟩

/-- The reported extreme values of a property of two perpendicular directions: it lies between them for every pair and has them
for some pairs. -/
def Spec.PairExtremes (property : V3 → V3 → ℝ) (r : Variation) : Prop :=
  (∀ a b, Orthonormal a b → r.minimum ≤ property a b ∧ property a b ≤ r.maximum) ∧
  (∃ a b, Orthonormal a b ∧ property a b = r.minimum) ∧ (∃ a b, Orthonormal a b ∧ property a b = r.maximum) ∧
  (0 < r.minimum → r.anisotropy = some (r.maximum / r.minimum)) ∧ (r.minimum ≤ 0 → r.anisotropy = none)

theorem variation_pairs {minimize : Search (ℝ × ℝ × ℝ)} (hm : Finds minimize) {f : ℝ × ℝ × ℝ → ℝ} {h : V3 → V3 → ℝ}
    (hf : ∀ x, f x = h (vector x.1 x.2.1) (vectorChi x.1 x.2.1 x.2.2))
    (hc : ContinuousOn (fun n : V3 × V3 => h n.1 n.2) {n | Orthonormal n.1 n.2}) :
    PairExtremes h (variation3 minimize f) := by
  obtain ⟨hcons, hmin⟩ := hm
  obtain rfl : f = fun x => h (vector x.1 x.2.1) (vectorChi x.1 x.2.1 x.2.2) := funext hf
  set f : ℝ × ℝ × ℝ → ℝ := fun x => h (vector x.1 x.2.1) (vectorChi x.1 x.2.1 x.2.2) with hfd
  have on : ∀ t p c, Orthonormal (vector t p) (vectorChi t p c) := fun t p c =>
    ⟨vector_unit t p, vectorChi_unit t p c, vector_orthogonal t p c⟩
  refine ⟨fun a b hab => ?_, ⟨_, _, on _ _ _, (hcons f).symm⟩, ?_, fun hp => if_pos hp, fun hp => if_neg (not_lt.2 hp)⟩
  · obtain ⟨t, p, -, -, rfl⟩ := exists_vector hab.1
    obtain ⟨c, rfl⟩ := exists_vectorChi hab.2.1 hab.2.2
    refine ⟨hmin f (exists_minimal_pair hc) (t, p, c), ?_⟩
    have := hmin (fun x => -f x) (exists_minimal_pair (h := fun n => -h n.1 n.2) hc.neg) (t, p, c)
    exact le_neg_of_le_neg this
  · refine ⟨_, _, on (minimize fun x => -f x).point.1 (minimize fun x => -f x).point.2.1
      (minimize fun x => -f x).point.2.2, ?_⟩
    show f _ = -(minimize fun x => -f x).value
    rw [hcons, neg_neg]

/-- C46, the part that holds of the properties of two directions: with a search that finds minima, the reported extremes of the
shear modulus and of Poisson's ratio are the extremes over all pairs of perpendicular directions.  Missing: the reported axes
(see `C46_two_axes_violated`). -/
theorem C46_pair_extremes_partial (C : M6) (hC : C.PosDef) (density : ℝ) (s : Soec) (hs : soec C density = .ok s)
    (minimize : Search (ℝ × ℝ × ℝ)) (hm : Finds minimize) :
    PairExtremes (shearAlong s.Smat) (variation3 minimize s.shearModulus) ∧
    PairExtremes (poissonAlong s.Smat) (variation3 minimize s.poissonRatio) := by
  obtain ⟨-, rfl⟩ := soec_ok hs
  have cont : ∀ g : V3 × V3 → (V3 × V3) × (V3 × V3), Continuous g →
      Continuous fun n : V3 × V3 => contract4 (sTensor C⁻¹) (g n).1.1 (g n).1.2 (g n).2.1 (g n).2.2 := by
    intro g hg
    unfold contract4
    fun_prop
  refine ⟨variation_pairs hm (fun x => rfl) ?_, variation_pairs hm (fun x => rfl) ?_⟩
  · simp only [shearAlong_eq]
    exact continuousOn_const.div (continuousOn_const.mul (cont (fun n => ((n.1, n.2), (n.1, n.2))) (by fun_prop)).continuousOn)
      fun n hn => by
        have := shear_denominator_pos hC hn
        positivity
  · simp only [poissonAlong_eq]
    exact (cont (fun n => ((n.1, n.1), (n.2, n.2))) (by fun_prop)).continuousOn.neg.div
      (cont (fun n => ((n.1, n.1), (n.1, n.1))) (by fun_prop)).continuousOn fun n hn => (young_denominator_pos hC hn.1).ne'

/-- The hypotheses of `C46_extremes` and `C46_pair_extremes_partial` are met. -/
example : ∃ s, ∃ minimize : Search (ℝ × ℝ), ∃ minimize' : Search (ℝ × ℝ × ℝ), soec sampleIso 3000 = .ok s ∧
    sampleIso.PosDef ∧ Finds minimize ∧ Finds minimize' := by
  obtain ⟨minimize, hm⟩ := exists_finds (X := ℝ × ℝ)
  obtain ⟨minimize', hm'⟩ := exists_finds (X := ℝ × ℝ × ℝ)
  have hp : sampleIso.PosDef := isotropic_posDef (by norm_num) (by norm_num)
  obtain ⟨s, hs⟩ := soec_of_det (posDef_det hp) 3000
  exact ⟨s, minimize, minimize', hs, hp, hm, hm'⟩

end Verif.Elastic
