/-
Property C186: shear moduli and Poisson's ratios across the direction of a row of a section.
-/
import Mathlib.Topology.Order.LocalExtr
import Mathlib.Analysis.Calculus.LocalExtr.Basic
import Mathlib.Tactic.LinearCombination
import Verif.Polar.Props
import Verif.Elastic.Relations

noncomputable section

namespace Verif.Polar
open Verif.Py Verif.Elastic Verif.Elastic.Spec Verif.Seismic Verif.Seismic.Spec Spec

/-- What a local search delivers: a point where the function has a local minimum, and its value there. -/
def Spec.Settles (powell : Powell) : Prop :=
  ∀ f, Continuous f → (∀ z, f (z + 2 * Real.pi) = f z) → ∀ x,
    (powell f x).value = f (powell f x).point ∧ IsLocalMin f (powell f x).point

/-! ### Lemmas -/

theorem settles_of_global {powell : Powell} (hd : Descends powell) (hg : Global powell) : Settles powell := fun f hf hp x =>
  ⟨(hd f x).1, Filter.Eventually.of_forall fun z => by rw [← (hd f x).1]; exact hg f hf hp x z⟩

/-- Functions of the angle `χ` with a mean and one wave of period `π`. -/
def Wavy (f : ℝ → ℝ) : Prop := ∃ A B D, ∀ z, f z = A + B * Real.cos (2 * z) + D * Real.sin (2 * z)

theorem Wavy.continuous {f : ℝ → ℝ} (h : Wavy f) : Continuous f := by
  obtain ⟨A, B, D, h⟩ := h
  rw [funext h]
  fun_prop

theorem Wavy.period {f : ℝ → ℝ} (h : Wavy f) (z : ℝ) : f (z + 2 * Real.pi) = f z := by
  obtain ⟨A, B, D, h⟩ := h
  have e : 2 * (z + 2 * Real.pi) = 2 * z + 2 * Real.pi + 2 * Real.pi := by ring
  rw [h, h, e, Real.cos_add_two_pi, Real.cos_add_two_pi, Real.sin_add_two_pi, Real.sin_add_two_pi]

theorem Wavy.neg {f : ℝ → ℝ} (h : Wavy f) : Wavy fun z => -f z := by
  obtain ⟨A, B, D, h⟩ := h
  exact ⟨-A, -B, -D, fun z => by dsimp only; rw [h]; ring⟩

theorem Wavy.mul {f : ℝ → ℝ} (h : Wavy f) (c : ℝ) : Wavy fun z => c * f z := by
  obtain ⟨A, B, D, h⟩ := h
  exact ⟨c * A, c * B, c * D, fun z => by dsimp only; rw [h]; ring⟩

/-- A local minimum is the trough of the wave. -/
theorem Wavy.trough {f : ℝ → ℝ} (h : Wavy f) {x : ℝ} (hx : IsLocalMin f x) : ∀ z, f x ≤ f z := by
  obtain ⟨A, B, D, h⟩ := h
  have hd : HasDerivAt f (B * (-Real.sin (2 * x) * 2) + D * (Real.cos (2 * x) * 2)) x := by
    rw [funext h]
    have l : HasDerivAt (fun z : ℝ => 2 * z) 2 x := by simpa using (hasDerivAt_id x).const_mul 2
    exact ((l.cos.const_mul B).const_add A).add (l.sin.const_mul D)
  have h0 := hx.hasDerivAt_eq_zero hd
  have form : ∀ z, f z = A + (B * Real.cos (2 * x) + D * Real.sin (2 * x)) * Real.cos (2 * (z - x)) := by
    intro z
    have e : 2 * z = 2 * x + 2 * (z - x) := by ring
    rw [h, e, Real.cos_add, Real.sin_add]
    linear_combination (Real.sin (2 * (z - x)) / 2) * h0
  set p := B * Real.cos (2 * x) + D * Real.sin (2 * x) with hp
  have hp0 : p ≤ 0 := by
    obtain ⟨r, hr, hb⟩ := Metric.eventually_nhds_iff.1 hx
    have ht : 0 < min (r / 2) 1 := by positivity
    have h1 := hb (y := x + min (r / 2) 1) (by
      rw [Real.dist_eq, add_sub_cancel_left, abs_of_pos ht]
      exact (min_le_left _ _).trans_lt (by linarith))
    rw [form, form, sub_self, mul_zero, Real.cos_zero, add_sub_cancel_left] at h1
    have h2 : Real.cos (2 * min (r / 2) 1) < 1 := by
      have h3 : min (r / 2) 1 ≤ Real.pi / 2 := (min_le_right _ _).trans (by linarith [Real.two_le_pi])
      refine lt_of_lt_of_eq (Real.cos_lt_cos_of_nonneg_of_le_pi le_rfl ?_ ?_) Real.cos_zero <;> linarith
    by_contra hc
    push Not at hc
    nlinarith
  intro z
  rw [form, form, sub_self, mul_zero, Real.cos_zero]
  have := Real.cos_le_one (2 * (z - x))
  nlinarith

/-- Trough and crest add up to the values at any two perpendicular angles. -/
theorem Wavy.sum {f : ℝ → ℝ} (h : Wavy f) {x y : ℝ} (hx : ∀ z, f x ≤ f z) (hy : ∀ z, f z ≤ f y) {z z' : ℝ}
    (hz : Real.cos (z' - z) = 0) : f x + f y = f z + f z' := by
  obtain ⟨A, B, D, h⟩ := h
  have opp : ∀ z z', Real.cos (z' - z) = 0 → f z + f z' = 2 * A := by
    intro z z' hz
    have e : 2 * z' = 2 * z + 2 * (z' - z) := by ring
    have h1 : Real.cos (2 * (z' - z)) = -1 := by rw [Real.cos_two_mul, hz]; norm_num
    have h2 : Real.sin (2 * (z' - z)) = 0 := by rw [Real.sin_two_mul, hz]; ring
    rw [h, h, e, Real.cos_add, Real.sin_add, h1, h2]
    ring
  have quarter : ∀ z, Real.cos (z + Real.pi / 2 - z) = 0 := fun z => by
    rw [add_sub_cancel_left, Real.cos_pi_div_two]
  rw [opp z z' hz]
  have h1 := opp x _ (quarter x)
  have h2 := opp y _ (quarter y)
  have h3 := hy (x + Real.pi / 2)
  have h4 := hx (y + Real.pi / 2)
  linarith

/-- A quadratic form of the transverse direction. -/
theorem wavy_form (t p : ℝ) (M : Fin 3 → Fin 3 → ℝ) :
    Wavy fun z => ∑ i, ∑ j, M i j * vectorChi t p z i * vectorChi t p z j := by
  have lin : ∀ z i, vectorChi t p z i = Real.cos z * vectorChi t p 0 i + Real.sin z * vectorChi t p (Real.pi / 2) i := by
    intro z i
    fin_cases i <;> simp [vectorChi] <;> ring
  generalize vectorChi t p 0 = u at lin
  generalize vectorChi t p (Real.pi / 2) = v at lin
  refine ⟨((∑ i, ∑ j, M i j * u i * u j) + ∑ i, ∑ j, M i j * v i * v j) / 2,
    ((∑ i, ∑ j, M i j * u i * u j) - ∑ i, ∑ j, M i j * v i * v j) / 2,
    ((∑ i, ∑ j, M i j * u i * v j) + ∑ i, ∑ j, M i j * v i * u j) / 2, fun z => ?_⟩
  have e : (∑ i, ∑ j, M i j * vectorChi t p z i * vectorChi t p z j) =
      Real.cos z ^ 2 * (∑ i, ∑ j, M i j * u i * u j) + Real.sin z ^ 2 * (∑ i, ∑ j, M i j * v i * v j) +
      Real.cos z * Real.sin z * ((∑ i, ∑ j, M i j * u i * v j) + ∑ i, ∑ j, M i j * v i * u j) := by
    simp only [lin, Fin.sum_univ_three]
    ring
  dsimp only
  rw [e, Real.cos_two_mul, Real.sin_two_mul, Real.sin_sq]
  ring

theorem wavy_shear (S : T4) (t p : ℝ) (a : V3) : Wavy fun z => contract4 S a (vectorChi t p z) a (vectorChi t p z) := by
  have e : (fun z => contract4 S a (vectorChi t p z) a (vectorChi t p z)) =
      fun z => ∑ j, ∑ l, (∑ i, ∑ k, S i j k l * a i * a k) * vectorChi t p z j * vectorChi t p z l := by
    funext z
    generalize vectorChi t p z = b
    simp only [contract4, Fin.sum_univ_three]
    ring
  rw [e]
  exact wavy_form t p _

theorem wavy_poisson (S : T4) (t p : ℝ) (a : V3) : Wavy fun z => contract4 S a a (vectorChi t p z) (vectorChi t p z) := by
  have e : (fun z => contract4 S a a (vectorChi t p z) (vectorChi t p z)) =
      fun z => ∑ k, ∑ l, (∑ i, ∑ j, S i j k l * a i * a j) * vectorChi t p z k * vectorChi t p z l := by
    funext z
    generalize vectorChi t p z = b
    simp only [contract4, Fin.sum_univ_three]
    ring
  rw [e]
  exact wavy_form t p _

/-- The waves behind shear moduli and Poisson's ratios. -/
theorem across {C : M6} (hC : C.PosDef) {density : ℝ} {sys : System} {o : Solid}
    (h : load C density = .ok (sys, o)) (ho : sys = .orthorhombic → OrthorhombicForm C) (t p : ℝ) :
    (∃ s : ℝ → ℝ, Wavy s ∧ (∀ z, 0 < s z) ∧ ∀ z, o.shearModulus (t, p, z) = 1 / s z) ∧
    Wavy fun z => o.poissonRatio (t, p, z) := by
  obtain ⟨hs, -⟩ := load_solid h
  obtain ⟨-, -, e3, e4⟩ := solid_generic h ho
  have hS : o.soec.Smat = sTensor C⁻¹ := by
    obtain ⟨-, hs'⟩ := soec_ok hs
    rw [hs']
  refine ⟨⟨_, (wavy_shear (sTensor C⁻¹) t p (vector t p)).mul 4, fun z => ?_, fun z => ?_⟩, ?_⟩
  · have := shear_denominator_pos hC (C35_orthonormal t p z)
    positivity
  · rw [e3, Soec.shearModulus, hS, shearAlong_eq]
  · have e : (fun z => o.poissonRatio (t, p, z)) = fun z =>
        -(contract4 (sTensor C⁻¹) (vector t p) (vector t p) (vector t p) (vector t p))⁻¹ *
          contract4 (sTensor C⁻¹) (vector t p) (vector t p) (vectorChi t p z) (vectorChi t p z) := by
      funext z
      rw [e4, Soec.poissonRatio, hS, poissonAlong_eq]
      ring
    rw [e]
    exact (wavy_poisson _ t p _).mul _

/-- What a local search finds in the shear moduli and the Poisson's ratios. -/
theorem across_found {C : M6} (hC : C.PosDef) {density : ℝ} {sys : System} {o : Solid}
    (h : load C density = .ok (sys, o)) (ho : sys = .orthorhombic → OrthorhombicForm C) {powell : Powell} (hp : Settles powell)
    (t p : ℝ) : ∃ x y x' y',
    shear2d powell o (t, p) = [o.shearModulus (t, p, x), o.shearModulus (t, p, y)] ∧
    (∀ z, o.shearModulus (t, p, x) ≤ o.shearModulus (t, p, z) ∧ o.shearModulus (t, p, z) ≤ o.shearModulus (t, p, y)) ∧
    poisson2d powell o (t, p) = [min 0 (o.poissonRatio (t, p, x')), max 0 (o.poissonRatio (t, p, x')), o.poissonRatio (t, p, y')] ∧
    ∀ z, o.poissonRatio (t, p, x') ≤ o.poissonRatio (t, p, z) ∧ o.poissonRatio (t, p, z) ≤ o.poissonRatio (t, p, y') := by
  obtain ⟨⟨s, hs, hpos, hG⟩, hN⟩ := across hC h ho t p
  have eG : (fun z => o.shearModulus (t, p, z)) = fun z => 1 / s z := funext hG
  have cG : Continuous fun z => o.shearModulus (t, p, z) := by
    rw [eG]
    exact continuous_const.div hs.continuous fun z => (hpos z).ne'
  have pG : ∀ z, o.shearModulus (t, p, z + 2 * Real.pi) = o.shearModulus (t, p, z) := fun z => by rw [hG, hG, hs.period]
  obtain ⟨v1, m1⟩ := hp (fun z => o.shearModulus (t, p, z)) cG pG (Real.pi / 2)
  obtain ⟨v2, m2⟩ := hp (fun z => -o.shearModulus (t, p, z)) cG.neg (fun z => by rw [pG]) (Real.pi / 2)
  obtain ⟨v3, m3⟩ := hp (fun z => o.poissonRatio (t, p, z)) hN.continuous hN.period (Real.pi / 2)
  obtain ⟨v4, m4⟩ := hp (fun z => -o.poissonRatio (t, p, z)) hN.neg.continuous hN.neg.period (Real.pi / 2)
  refine ⟨(powell (fun z => o.shearModulus (t, p, z)) (Real.pi / 2)).point,
    (powell (fun z => -o.shearModulus (t, p, z)) (Real.pi / 2)).point, _, _, ?_, fun z => ⟨?_, ?_⟩, ?_, fun z => ⟨hN.trough m3 z, neg_le_neg_iff.1 (hN.neg.trough m4 z)⟩⟩
  · simp only [shear2d]
    rw [v1, v2, neg_neg]
  · have : IsLocalMin (fun z => -s z) (powell (fun z => o.shearModulus (t, p, z)) (Real.pi / 2)).point := by
      refine Filter.Eventually.mono m1 fun w hw => neg_le_neg ?_
      dsimp only at hw
      rw [hG, hG] at hw
      exact (one_div_le_one_div (hpos _) (hpos _)).1 hw
    rw [hG, hG]
    exact one_div_le_one_div_of_le (hpos _) (neg_le_neg_iff.1 (hs.neg.trough this z))
  · have : IsLocalMin s (powell (fun z => -o.shearModulus (t, p, z)) (Real.pi / 2)).point := by
      refine Filter.Eventually.mono m2 fun w hw => ?_
      dsimp only at hw
      rw [hG, hG, neg_le_neg_iff] at hw
      exact (one_div_le_one_div (hpos _) (hpos _)).1 hw
    rw [hG, hG]
    exact one_div_le_one_div_of_le (hpos _) (hs.trough this z)
  · simp only [poisson2d]
    rw [v3, v4, neg_neg]

/-! ### Theorems -/

section
variable (C : M6) (hC : C.PosDef) (density : ℝ) (sys : System) (o : Solid) (h : load C density = .ok (sys, o))
  (ho : sys = .orthorhombic → OrthorhombicForm C) (powell : Powell) (hp : Settles powell) (num : Numerics) (n : ℕ) (h2 : 2 ≤ n)
  (k : Plane) (i : ℕ) (hi : i < n)
include hC h ho hp h2 hi

/-- C186: a search that stops at a local minimum is enough: shear moduli and Poisson's ratios of a row are the extremes over all
transverse directions. -/
theorem C186_extremes_partial (b : V3) (hb : Orthonormal (direction k (radians (angle n i))) b) :
    (∃ table lo hi, (calculatePolar powell num o n).table k .G = some table ∧ table[i]? = some [angle n i, lo, hi] ∧
      ∀ g, IsShear C (direction k (radians (angle n i))) b g → lo ≤ g ∧ g ≤ hi) ∧
    (∃ table neg pos hi, (calculatePolar powell num o n).table k .Nu = some table ∧
      table[i]? = some [angle n i, neg, pos, hi] ∧
      ∀ g, IsPoisson C (direction k (radians (angle n i))) b g → neg + pos ≤ g ∧ g ≤ hi) := by
  obtain ⟨hs, -⟩ := load_solid h
  obtain ⟨-, -, e3, e4⟩ := solid_generic h ho
  obtain ⟨tg, g1, -, g2⟩ := table_row powell num o h2 k .G (by simp)
  obtain ⟨tn, n1, -, n2⟩ := table_row powell num o h2 k .Nu (by simp)
  have hg2 := g2 i hi
  have hn2 := n2 i hi
  rw [← node_direction] at hb ⊢
  generalize node k (radians (angle n i)) = x at hb hg2 hn2 ⊢
  obtain ⟨t, p⟩ := x
  dsimp only at hb ⊢
  obtain ⟨c, rfl⟩ := exists_vectorChi hb.2.1 hb.2.2
  obtain ⟨x, y, x', y', f1, f2, f3, f4⟩ := across_found hC h ho hp t p
  have hg3 : tg[i]? = some (angle n i :: shear2d powell o (t, p)) := hg2
  have hn3 : tn[i]? = some (angle n i :: poisson2d powell o (t, p)) := hn2
  rw [f1] at hg3
  rw [f3] at hn3
  refine ⟨⟨tg, _, _, g1, hg3, fun g hgs => ?_⟩, ⟨tn, _, _, _, n1, hn3, fun g hgs => ?_⟩⟩
  · rw [shear_unique hC hgs (shear_spec hC hs t p c), ← e3]
    exact f2 c
  · rw [poisson_unique hC (vector_unit t p) hgs (poisson_spec hC hs t p c), ← e4, min_add_max, zero_add]
    exact f4 c

/-- C186: the inverses of the two shear moduli of a row add up to those of any two perpendicular transverse directions. -/
theorem C186_shear_partial : ∃ table lo hi, (calculatePolar powell num o n).table k .G = some table ∧
    table[i]? = some [angle n i, lo, hi] ∧
    ∀ b b' g g', Orthonormal (direction k (radians (angle n i))) b → Orthonormal (direction k (radians (angle n i))) b' →
      dot b b' = 0 → IsShear C (direction k (radians (angle n i))) b g → IsShear C (direction k (radians (angle n i))) b' g' →
      1 / lo + 1 / hi = 1 / g + 1 / g' := by
  obtain ⟨hs, -⟩ := load_solid h
  obtain ⟨-, -, e3, e4⟩ := solid_generic h ho
  obtain ⟨tg, g1, -, g2⟩ := table_row powell num o h2 k .G (by simp)
  have hg2 := g2 i hi
  rw [← node_direction]
  generalize node k (radians (angle n i)) = x at hg2 ⊢
  obtain ⟨t, p⟩ := x
  dsimp only
  obtain ⟨x, y, x', y', f1, f2, f3, f4⟩ := across_found hC h ho hp t p
  obtain ⟨⟨s, hw, hpos, hG⟩, -⟩ := across hC h ho t p
  have hg3 : tg[i]? = some (angle n i :: shear2d powell o (t, p)) := hg2
  rw [f1] at hg3
  refine ⟨tg, _, _, g1, hg3, fun b b' g g' hb hb' hbb hg hg' => ?_⟩
  obtain ⟨c, rfl⟩ := exists_vectorChi hb.2.1 hb.2.2
  obtain ⟨c', rfl⟩ := exists_vectorChi hb'.2.1 hb'.2.2
  rw [shear_unique hC hg (shear_spec hC hs t p c), shear_unique hC hg' (shear_spec hC hs t p c'), ← e3, ← e3]
  have hcc : Real.cos (c' - c) = 0 := by
    rw [← hbb, Real.cos_sub]
    simp only [dot, vectorChi, Fin.sum_univ_three, Matrix.cons_val]
    have h1 := Real.sin_sq_add_cos_sq t
    have h2 := Real.sin_sq_add_cos_sq p
    linear_combination (-Real.cos c * Real.cos c') * h1 - (Real.cos t ^ 2 * Real.cos c * Real.cos c' + Real.sin c * Real.sin c') * h2
  simp only [hG, one_div_one_div]
  have key : ∀ z, s y ≤ s z ∧ s z ≤ s x := fun z => by
    have := f2 z
    rw [hG, hG, hG] at this
    exact ⟨(one_div_le_one_div (hpos _) (hpos _)).1 this.2, (one_div_le_one_div (hpos _) (hpos _)).1 this.1⟩
  rw [add_comm, hw.sum (fun z => (key z).1) (fun z => (key z).2) hcc]

/-- C186: the Poisson's ratios of a row, its Young's modulus and its linear compressibility (in 1/TPa) obey
`ν_min + ν_max = 1 - E β / 1000`. -/
theorem C186_poisson_partial : ∃ young compr poisson E lcpos lcneg neg pos hi,
    (calculatePolar powell num o n).table k .E = some young ∧ young[i]? = some [angle n i, E] ∧
    (calculatePolar powell num o n).table k .LC = some compr ∧ compr[i]? = some [angle n i, lcpos, lcneg] ∧
    (calculatePolar powell num o n).table k .Nu = some poisson ∧ poisson[i]? = some [angle n i, neg, pos, hi] ∧
    (neg + pos) + hi = 1 - E * (lcpos - lcneg) / 1000 := by
  obtain ⟨hs, -⟩ := load_solid h
  obtain ⟨e1, e2, -, e4⟩ := solid_generic h ho
  obtain ⟨te, a1, -, a2⟩ := table_row powell num o h2 k .E (by simp)
  obtain ⟨tl, b1, -, b2⟩ := table_row powell num o h2 k .LC (by simp)
  obtain ⟨tn, n1, -, n2⟩ := table_row powell num o h2 k .Nu (by simp)
  have ha2 := a2 i hi
  have hb2 := b2 i hi
  have hn2 := n2 i hi
  generalize node k (radians (angle n i)) = x at ha2 hb2 hn2
  obtain ⟨t, p⟩ := x
  obtain ⟨x, y, x', y', f1, f2, f3, f4⟩ := across_found hC h ho hp t p
  obtain ⟨-, hw⟩ := across hC h ho t p
  have hn3 : tn[i]? = some (angle n i :: poisson2d powell o (t, p)) := hn2
  rw [f3] at hn3
  refine ⟨te, tl, tn, _, _, _, _, _, _, a1, ha2, b1, hb2, n1, hn3, ?_⟩
  have hsum := hw.sum (fun z => (f4 z).1) (fun z => (f4 z).2) (z := 0) (z' := 0 + Real.pi / 2) (by simp)
  have hyd := C119_hydrostatic C hC density o.soec hs t p 0
  have hE : o.soec.youngModulus (t, p) ≠ 0 := by
    obtain ⟨-, hs'⟩ := soec_ok hs
    rw [hs']
    exact (one_div_pos.2 (young_denominator_pos hC (vector_unit t p))).ne'
  have hm : max 0 (o.linearCompressibility (t, p)) - max 0 (-o.linearCompressibility (t, p)) = o.linearCompressibility (t, p) := by
    rcases le_total 0 (o.linearCompressibility (t, p)) with hh | hh
    · rw [max_eq_right hh, max_eq_left (by linarith), sub_zero]
    · rw [max_eq_left hh, max_eq_right (by linarith)]
      ring
  rw [min_add_max, zero_add, hm, hsum, e1, e2, hyd, ← e4, ← e4]
  field_simp
  ring
end

end Verif.Polar
