/- Helper lemmas: extremes of a perturbed property; the elastic properties of a stable crystal are those of Hooke's law. -/
import Verif.Chain.Spec
import Verif.Tac

namespace Verif.Chain
open Verif.Elastic Verif.Elastic.Spec Spec

section
variable {C : M6}

theorem young_is (hC : C.PosDef) {n : V3} (hn : UnitVector n) (x : ℝ) :
    YoungIs C n x ↔ x = youngAlong (sTensor C⁻¹) n := by
  have h := young_denominator_pos hC hn
  constructor
  · rintro ⟨ε, hε, -, rfl⟩
    rw [hooke_iff (posDef_det hC) _ _ (symm_uniaxial _ _)] at hε
    rw [hε, along_uniaxial, one_mul]
    rfl
  · rintro rfl
    refine ⟨_, (hooke_iff (posDef_det hC) _ _ (symm_uniaxial _ _)).2 rfl, ?_, ?_⟩
    · rw [along_uniaxial, one_mul]; exact h.ne'
    · rw [along_uniaxial, one_mul]; rfl

theorem compressibility_is (hC : C.PosDef) (n : V3) (x : ℝ) :
    CompressibilityIs C n x ↔ x = compressibilityAlong (sTensor C⁻¹) n := by
  constructor
  · rintro ⟨ε, hε, rfl⟩
    rw [hooke_iff (posDef_det hC) _ _ (symm_hydrostatic _)] at hε
    rw [hε, along_hydrostatic, neg_one_mul, neg_neg]
    rfl
  · rintro rfl
    refine ⟨_, (hooke_iff (posDef_det hC) _ _ (symm_hydrostatic _)).2 rfl, ?_⟩
    rw [along_hydrostatic, neg_one_mul, neg_neg]
    rfl

theorem shear_is (hC : C.PosDef) {a b : V3} (h : Orthonormal a b) (x : ℝ) :
    ShearIs C a b x ↔ x = shearAlong (sTensor C⁻¹) a b := by
  have hp := shear_denominator_pos hC h
  rw [shearAlong_eq]
  constructor
  · rintro ⟨ε, hε, -, rfl⟩
    rw [hooke_iff (posDef_det hC) _ _ (symm_shear _ _ _)] at hε
    rw [hε, along_shear]
    ring_nf
  · rintro rfl
    refine ⟨_, (hooke_iff (posDef_det hC) _ _ (symm_shear _ _ _)).2 rfl, ?_, ?_⟩
    · rw [along_shear]; positivity
    · rw [along_shear]; ring_nf

theorem poisson_is (hC : C.PosDef) {a b : V3} (h : Orthonormal a b) (x : ℝ) :
    PoissonIs C a b x ↔ x = poissonAlong (sTensor C⁻¹) a b := by
  have hp := young_denominator_pos hC h.1
  have hs : (C⁻¹).IsSymm := posDef_symm hC.inv
  rw [poissonAlong_eq, contract4_symm hs]
  constructor
  · rintro ⟨ε, hε, -, rfl⟩
    rw [hooke_iff (posDef_det hC) _ _ (symm_uniaxial _ _)] at hε
    rw [hε, along_uniaxial, along_uniaxial, one_mul, one_mul]
  · rintro rfl
    refine ⟨_, (hooke_iff (posDef_det hC) _ _ (symm_uniaxial _ _)).2 rfl, ?_, ?_⟩
    · rw [along_uniaxial, one_mul]; exact hp.ne'
    · rw [along_uniaxial, along_uniaxial, one_mul, one_mul]

theorem range_of {P : V3 → ℝ → Prop} {f : V3 → ℝ} (h : ∀ n, UnitVector n → ∀ x, P n x ↔ x = f n) {r : Variation}
    (hr : ExtremesOf f r) : Range P r.minimum r.maximum := by
  obtain ⟨h1, ⟨u1, e1⟩, ⟨u2, e2⟩, -⟩ := hr
  refine ⟨fun n x hn hx => ?_, ⟨_, u1, (h _ u1 _).2 e1.symm⟩, ⟨_, u2, (h _ u2 _).2 e2.symm⟩⟩
  rw [(h n hn x).1 hx]
  exact h1 n hn

theorem pairRange_of {P : V3 → V3 → ℝ → Prop} {f : V3 → V3 → ℝ} (h : ∀ a b, Orthonormal a b → ∀ x, P a b x ↔ x = f a b)
    {r : Variation} (hr : PairExtremes f r) : PairRange P r.minimum r.maximum := by
  obtain ⟨h1, ⟨a, b, u1, e1⟩, ⟨c, d, u2, e2⟩, -⟩ := hr
  refine ⟨fun a b x hn hx => ?_, ⟨_, _, u1, (h _ _ u1 _).2 e1.symm⟩, ⟨_, _, u2, (h _ _ u2 _).2 e2.symm⟩⟩
  rw [(h a b hn x).1 hx]
  exact h1 a b hn

/-- The smallest and largest values of two functions that are close are close. -/
theorem extremes_close {X : Type} {D : X → Prop} {f g : X → ℝ} {δ a b a' b' : ℝ} (h : ∀ x, D x → |g x - f x| ≤ δ)
    (f1 : ∀ x, D x → a ≤ f x ∧ f x ≤ b) (f2 : ∃ x, D x ∧ f x = a) (f3 : ∃ x, D x ∧ f x = b)
    (g1 : ∀ x, D x → a' ≤ g x ∧ g x ≤ b') (g2 : ∃ x, D x ∧ g x = a') (g3 : ∃ x, D x ∧ g x = b') :
    |a' - a| ≤ δ ∧ |b' - b| ≤ δ := by
  obtain ⟨x, dx, rfl⟩ := f2
  obtain ⟨y, dy, rfl⟩ := f3
  obtain ⟨z, dz, rfl⟩ := g2
  obtain ⟨w, dw, rfl⟩ := g3
  have hx := abs_le.1 (h x dx)
  have hy := abs_le.1 (h y dy)
  have hz := abs_le.1 (h z dz)
  have hw := abs_le.1 (h w dw)
  refine ⟨abs_le.2 ⟨?_, ?_⟩, abs_le.2 ⟨?_, ?_⟩⟩
  · linarith [(f1 z dz).1, hz.1]
  · linarith [(g1 x dx).1, hx.2]
  · linarith [(g1 y dy).2, hy.1]
  · linarith [(f1 w dw).2, hw.2]

/-- The same for relative errors. -/
theorem extremes_within {X : Type} {D : X → Prop} {f g : X → ℝ} {r a b a' b' : ℝ} (r0 : 0 ≤ r) (r1 : r < 1)
    (h : ∀ x, D x → Within r (f x) (g x))
    (f1 : ∀ x, D x → a ≤ f x ∧ f x ≤ b) (f2 : ∃ x, D x ∧ f x = a) (f3 : ∃ x, D x ∧ f x = b)
    (g1 : ∀ x, D x → a' ≤ g x ∧ g x ≤ b') (g2 : ∃ x, D x ∧ g x = a') (g3 : ∃ x, D x ∧ g x = b') :
    Within r a a' ∧ Within r b b' := by
  obtain ⟨x, dx, rfl⟩ := f2
  obtain ⟨y, dy, rfl⟩ := f3
  obtain ⟨z, dz, rfl⟩ := g2
  obtain ⟨w, dw, rfl⟩ := g3
  refine ⟨⟨?_, ?_⟩, ⟨?_, ?_⟩⟩
  · exact (mul_le_mul_of_nonneg_left (f1 z dz).1 (by linarith)).trans (h z dz).1
  · exact (g1 x dx).1.trans (h x dx).2
  · exact (h y dy).1.trans (g1 y dy).2
  · exact (h w dw).2.trans (mul_le_mul_of_nonneg_left (f1 w dw).2 (by linarith))

end

/-- The compliance of a crystal that resists every strain is bounded. -/
theorem resists_inv {C : M6} (hs : C.IsSymm) {l : ℝ} (l0 : 0 < l) (h : Resists C l) (u : Fin 6 → ℝ) :
    quad C⁻¹ u u ≤ (∑ I, u I ^ 2) / l := by
  have hp : C.PosDef := close_posDef l0 hs (resists_quad h)
  have one : ∀ v : Fin 6 → ℝ, quad 1 v v = ∑ I, v I ^ 2 := by
    intro v
    rw [quad_eq, Matrix.one_mulVec, dotProduct]
    exact Finset.sum_congr rfl fun I _ => by ring
  have hp1 : (1 : M6).PosDef := Matrix.PosDef.one
  have := stiffer_inv (posDef_smul l0 hp1) hp (stiffer_of_quad fun e => by
    rw [quad_smul, one]; exact resists_quad h e) u
  rw [inv_scaled (posDef_det hp1) l0.ne', inv_one, quad_smul, one] at this
  rwa [div_eq_inv_mul]

theorem dyad_norm {n : V3} (h : UnitVector n) : ∑ I, dyad n n I ^ 2 ≤ 1 := by
  simp only [UnitVector, dot, Fin.sum_univ_three] at h
  simp only [dyad, Fin.sum_univ_six, Matrix.cons_val]
  have : (1 : ℝ) = (n 0 * n 0 + n 1 * n 1 + n 2 * n 2) ^ 2 := by rw [h]; norm_num
  rw [this]
  nlinarith [mul_self_nonneg (n 0 * n 1), mul_self_nonneg (n 0 * n 2), mul_self_nonneg (n 1 * n 2)]

section
variable {C C' : M6} {l t : ℝ}

/-- Everything the elastic run reports, for a crystal between two multiples of the exact one. -/
theorem reports_between (hs : C.IsSymm) (ht : 0 ≤ t) (hl : 6 * t < l) (h : Resists C l) (p' : C'.PosDef)
    (ha : Stiffer ((1 - 6 * t / l) • C) C') (hb : Stiffer C' ((1 + 6 * t / l) • C))
    {density' : ℝ} {s' : Soec} (e' : soec C' density' = .ok s') {E LC G Nu : Variation} (hE : ExtremesOf (youngAlong s'.Smat) E)
    (hL : ExtremesOf (compressibilityAlong s'.Smat) LC) (hG : PairExtremes (shearAlong s'.Smat) G)
    (hN : PairExtremes (poissonAlong s'.Smat) Nu) : Reports C l t E LC G Nu := by
  have l0 : 0 < l := by linarith
  have p : C.PosDef := close_posDef l0 hs (resists_quad h)
  have r1 : 0 < 1 - 6 * t / l := by
    have := (div_lt_one l0).2 hl
    linarith
  set r := 6 * t / l with hr
  have r0 : 0 ≤ r := by positivity
  have hκ : 6 * t / (l - 6 * t) = r / (1 - r) := by
    rw [hr, one_sub_div l0.ne', div_div_div_cancel_right₀ l0.ne']
  have κ0 : 0 ≤ r / (1 - r) := by positivity
  obtain ⟨s, e⟩ := soec_of_det (posDef_det p) density'
  have dir := between_directional p p' r0 r1 ha hb e e'
  obtain ⟨min2, h2⟩ := exists_finds (X := ℝ × ℝ)
  obtain ⟨min3, h3⟩ := exists_finds (X := ℝ × ℝ × ℝ)
  obtain ⟨E0, xE⟩ : ∃ v, ExtremesOf (youngAlong s.Smat) v := ⟨_, (C46_extremes C p density' s e min2 h2).1⟩
  obtain ⟨L0, xL⟩ : ∃ v, ExtremesOf (compressibilityAlong s.Smat) v := ⟨_, (C46_extremes C p density' s e min2 h2).2⟩
  obtain ⟨G0, xG⟩ : ∃ v, PairExtremes (shearAlong s.Smat) v := ⟨_, (C46_pair_extremes_partial C p density' s e min3 h3).1⟩
  obtain ⟨N0, xN⟩ : ∃ v, PairExtremes (poissonAlong s.Smat) v := ⟨_, (C46_pair_extremes_partial C p density' s e min3 h3).2⟩
  have ratios := fun theta phi chi => between_ratios p p' r0 r1 ha hb rfl e e' theta phi chi
  obtain ⟨-, rfl⟩ := soec_ok e
  obtain ⟨-, rfl⟩ := soec_ok e'
  simp only at hE hL hG hN xE xL xG xN
  have young : ∀ n : V3, youngAlong (sTensor C⁻¹) n = 1 / quad C⁻¹ (dyad n n) (dyad n n) := by
    intro n
    rw [youngAlong, contract4_voigt]
    rfl
  have dY : ∀ n, UnitVector n → Within r (youngAlong (sTensor C⁻¹) n) (youngAlong (sTensor C'⁻¹) n) := by
    intro n hn
    obtain ⟨th, ph, -, -, rfl⟩ := exists_vector hn
    exact (dir th ph 0).1
  have dG : ∀ x : V3 × V3, Orthonormal x.1 x.2 →
      Within r (shearAlong (sTensor C⁻¹) x.1 x.2) (shearAlong (sTensor C'⁻¹) x.1 x.2) := by
    rintro ⟨a, b⟩ hab
    obtain ⟨th, ph, -, -, rfl⟩ := exists_vector hab.1
    obtain ⟨c, rfl⟩ := exists_vectorChi hab.2.1 hab.2.2
    exact (dir th ph c).2
  have yl : ∀ n, UnitVector n → l ≤ youngAlong (sTensor C⁻¹) n := by
    intro n hn
    have a := resists_inv hs l0 h (dyad n n)
    have b := dyad_norm hn
    have q : 0 < quad C⁻¹ (dyad n n) (dyad n n) := quad_posDef p.inv (dyad_ne_zero hn)
    rw [young, le_div_iff₀ q]
    have : quad C⁻¹ (dyad n n) (dyad n n) ≤ 1 / l := a.trans (div_le_div_of_nonneg_right b l0.le)
    calc l * quad C⁻¹ (dyad n n) (dyad n n) ≤ l * (1 / l) := mul_le_mul_of_nonneg_left this l0.le
      _ = 1 := by field_simp
  have dL : ∀ n, UnitVector n → |compressibilityAlong (sTensor C'⁻¹) n - compressibilityAlong (sTensor C⁻¹) n| ≤
      r / (1 - r) * (1000 * √3 / l) := by
    intro n hn
    obtain ⟨th, ph, -, -, rfl⟩ := exists_vector hn
    refine (ratios th ph 0).1.trans (mul_le_mul_of_nonneg_left ?_ κ0)
    show 1000 / √(youngAlong (sTensor C⁻¹) (vector th ph) * (1 / einsum_iijj (sTensor C⁻¹))) ≤ _
    have hK := KRinv_pos p
    have k : l / 3 ≤ 1 / einsum_iijj (sTensor C⁻¹) := by
      rw [le_div_iff₀ hK, einsum_s]
      have a := resists_inv hs l0 h ![1, 1, 1, 0, 0, 0]
      rw [Fin.sum_univ_six] at a
      simp only [Matrix.cons_val] at a
      norm_num at a
      rw [le_div_iff₀ l0] at a
      linarith
    have y := yl _ (vector_unit th ph)
    have m : l ^ 2 / 3 ≤ youngAlong (sTensor C⁻¹) (vector th ph) * (1 / einsum_iijj (sTensor C⁻¹)) := by
      calc l ^ 2 / 3 = l * (l / 3) := by ring
        _ ≤ _ := mul_le_mul y k (by positivity) (l0.le.trans y)
    have sq : √(l ^ 2 / 3) = l / √3 := by rw [Real.sqrt_div (by positivity), Real.sqrt_sq l0.le]
    have m' := Real.sqrt_le_sqrt m
    rw [sq] at m'
    have s3 : (0 : ℝ) < √3 := by positivity
    calc _ ≤ 1000 / (l / √3) := div_le_div_of_nonneg_left (by norm_num) (by positivity) m'
      _ = _ := by rw [div_div_eq_mul_div]
  have Emin : 0 < E0.minimum := by
    obtain ⟨-, ⟨u, eq⟩, -⟩ := xE
    rw [← eq]
    exact l0.trans_le (yl _ u)
  have dN : ∀ x : V3 × V3, Orthonormal x.1 x.2 →
      |poissonAlong (sTensor C'⁻¹) x.1 x.2 - poissonAlong (sTensor C⁻¹) x.1 x.2| ≤
        r / (1 - r) * (1 + r) * √(E0.maximum / E0.minimum) + r * max |N0.minimum| |N0.maximum| := by
    rintro ⟨a, b⟩ hab
    obtain ⟨th, ph, -, -, rfl⟩ := exists_vector hab.1
    obtain ⟨c, rfl⟩ := exists_vectorChi hab.2.1 hab.2.2
    obtain ⟨th', ph', -, -, eq⟩ := exists_vector hab.2.1
    refine ((ratios th ph c).2 th' ph' eq.symm).trans (add_le_add ?_ ?_)
    · refine mul_le_mul_of_nonneg_left (Real.sqrt_le_sqrt ?_) (by positivity)
      have y1 := xE.1 _ (vector_unit th ph)
      have y2 := xE.1 _ (vector_unit th' ph')
      exact div_le_div₀ (Emin.le.trans (y1.1.trans y1.2)) y1.2 Emin y2.1
    · refine mul_le_mul_of_nonneg_left ?_ r0
      have y := xN.1 _ _ hab
      exact abs_le_max_abs_abs y.1 y.2
  refine ⟨E0.minimum, E0.maximum, L0.minimum, L0.maximum, G0.minimum, G0.maximum, N0.minimum, N0.maximum,
    range_of (fun n hn x => young_is p hn x) xE, range_of (fun n _ x => compressibility_is p n x) xL,
    pairRange_of (fun a b hab x => shear_is p hab x) xG, pairRange_of (fun a b hab x => poisson_is p hab x) xN, ?_, ?_, ?_, ?_⟩
  · exact extremes_within r0 (by linarith) dY xE.1 ⟨_, xE.2.1⟩ ⟨_, xE.2.2.1⟩ hE.1 ⟨_, hE.2.1⟩ ⟨_, hE.2.2.1⟩
  · have P : ∀ {f : V3 → V3 → ℝ} {v : ℝ}, (∃ a b, Orthonormal a b ∧ f a b = v) →
        ∃ x : V3 × V3, Orthonormal x.1 x.2 ∧ f x.1 x.2 = v := fun ⟨a, b, h⟩ => ⟨(a, b), h⟩
    exact extremes_within r0 (by linarith) dG (fun x hx => xG.1 _ _ hx) (P xG.2.1) (P xG.2.2.1) (fun x hx => hG.1 _ _ hx)
      (P hG.2.1) (P hG.2.2.1)
  · rw [hκ]
    exact extremes_close dL xL.1 ⟨_, xL.2.1⟩ ⟨_, xL.2.2.1⟩ hL.1 ⟨_, hL.2.1⟩ ⟨_, hL.2.2.1⟩
  · rw [hκ]
    have P : ∀ {f : V3 → V3 → ℝ} {v : ℝ}, (∃ a b, Orthonormal a b ∧ f a b = v) →
        ∃ x : V3 × V3, Orthonormal x.1 x.2 ∧ f x.1 x.2 = v := fun ⟨a, b, h⟩ => ⟨(a, b), h⟩
    exact extremes_close dN (fun x hx => xN.1 _ _ hx) (P xN.2.1) (P xN.2.2.1) (fun x hx => hN.1 _ _ hx)
      (P hN.2.1) (P hN.2.2.1)

/-- The same for moduli with an error. -/
theorem reports_close (hs : C.IsSymm) (hs' : C'.IsSymm) (ht : 0 ≤ t) (hl : 6 * t < l) (h : Resists C l) (hc : Close C C' t)
    {density' : ℝ} {s' : Soec} (e' : soec C' density' = .ok s') {E LC G Nu : Variation} (hE : ExtremesOf (youngAlong s'.Smat) E)
    (hL : ExtremesOf (compressibilityAlong s'.Smat) LC) (hG : PairExtremes (shearAlong s'.Smat) G)
    (hN : PairExtremes (poissonAlong s'.Smat) Nu) : Reports C l t E LC G Nu := by
  obtain ⟨-, p', -, a, b⟩ := close_crystals hs hs' ht hl h hc
  exact reports_between hs ht hl h p' a b e' hE hL hG hN

end

end Verif.Chain
