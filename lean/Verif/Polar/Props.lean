/-
C94: the sections of the elastic properties on the coordinate planes.
-/
import Mathlib.Topology.Order.Compact
import Mathlib.Analysis.SpecialFunctions.Trigonometric.Deriv
import Verif.Polar.Lemmas

noncomputable section

namespace Verif.Polar
open Verif.Py Verif.Elastic Verif.Elastic.Spec Verif.Seismic Verif.Seismic.Spec Spec

/-- C94, in part: for every stable solid and every number of nodes, the table of a quantity on a plane has one
row per node; the row starts with the angle, from 0 to 360 degrees in equal steps, and continues with the values
of the quantity along the direction of the plane at that angle.  The velocities are there if and only if
the density is positive.  Missing: solids that are orthorhombic only within the tolerance of the classifier,
see `C94_near_violated`. -/
theorem C94_sections_partial (C : M6) (hC : C.PosDef) (density : ℝ) (sys : System) (o : Solid)
    (h : load C density = .ok (sys, o)) (ho : sys = .orthorhombic → OrthorhombicForm C)
    (powell : Powell) (hp : Descends powell) (num : Numerics) (hn : EighCorrect num) (n : ℕ) (h2 : 2 ≤ n) :
    (∀ (k : Plane) (v : Var), available density v →
      ∃ table, (calculatePolar powell num o n).table k v = some table ∧ table.length = n ∧
        ∀ i < n, ∃ values, table[i]? = some (angle n i :: values) ∧
          Listed C density (direction k (radians (angle n i))) v values) ∧
    (∀ k v, ¬ available density v → (calculatePolar powell num o n).table k v = none) ∧
    angle n 0 = 0 ∧ angle n (n - 1) = 360 := by
  obtain ⟨-, -, -, -, hd, -⟩ := load_solid h
  refine ⟨fun k v hv => ?_, fun k v hv => ?_, by simp [angle], ?_⟩
  · obtain ⟨table, h1, h3, h4⟩ := table_row powell num o h2 k v (by rw [hd]; exact hv)
    refine ⟨table, h1, h3, fun i hi => ⟨_, h4 i hi, ?_⟩⟩
    rw [← node_direction]
    exact listed_at hC h ho hp hn v hv _ _
  · have hw : v = .waves ∧ ¬ 0 < density := by simpa [available] using hv
    obtain ⟨rfl, hw⟩ := hw
    have hs : ∀ a t p, (sections powell num o a t p).lookup .waves = none := by
      intro a t p
      unfold sections
      rw [if_neg (by rw [hd]; exact hw)]
      rfl
    cases k <;> exact hs _ _ _
  · have h3 : (n : ℝ) - 1 ≠ 0 := by
      have : (2 : ℝ) ≤ n := by exact_mod_cast h2
      linarith
    rw [angle, Nat.cast_sub (by omega), Nat.cast_one]
    field_simp

theorem vector_turn (k : Plane) :
    vector (node k (radians 360)).1 (node k (radians 360)).2 = vector (node k (radians 0)).1 (node k (radians 0)).2 := by
  rw [node_direction, node_direction]
  have : radians 360 = 2 * Real.pi := by unfold radians; ring
  rw [this]
  have h0 : radians 0 = 0 := by unfold radians; ring
  rw [h0]
  cases k <;> simp [direction]

/-- The cosines and sines of the angles of the last node are those of the first one. -/
theorem node_turn (k : Plane) :
    Real.cos (node k (radians 360)).1 = Real.cos (node k (radians 0)).1 ∧
    Real.sin (node k (radians 360)).1 = Real.sin (node k (radians 0)).1 ∧
    Real.cos (node k (radians 360)).2 = Real.cos (node k (radians 0)).2 ∧
    Real.sin (node k (radians 360)).2 = Real.sin (node k (radians 0)).2 := by
  have : radians 360 = 2 * Real.pi := by unfold radians; ring
  have h0 : radians 0 = 0 := by unfold radians; ring
  rw [this, h0]
  cases k <;> simp [node]

/-- C94: the sections are closed: the last row repeats the values of the first one, for every quantity and
whatever the searches return. -/
theorem C94_closed (o : Solid) (powell : Powell) (num : Numerics) (n : ℕ) (h2 : 2 ≤ n) (k : Plane) (v : Var)
    (table : List (List ℝ)) (h : (calculatePolar powell num o n).table k v = some table) :
    ∃ values, table[0]? = some (0 :: values) ∧ table[n - 1]? = some (360 :: values) := by
  have hv : v = .waves → 0 < o.soec.density := by
    rintro rfl
    by_contra hd
    have hs : ∀ a t p, (sections powell num o a t p).lookup .waves = none := by
      intro a t p
      unfold sections
      rw [if_neg hd]
      rfl
    have : (calculatePolar powell num o n).table k .waves = none := by cases k <;> exact hs _ _ _
    rw [this] at h
    cases h
  obtain ⟨table', h1, -, h4⟩ := table_row powell num o h2 k v hv
  rw [h] at h1
  cases h1
  have e0 : angle n 0 = 0 := by simp [angle]
  have e1 : angle n (n - 1) = 360 := by
    have h3 : (n : ℝ) - 1 ≠ 0 := by
      have : (2 : ℝ) ≤ n := by exact_mod_cast h2
      linarith
    rw [angle, Nat.cast_sub (by omega), Nat.cast_one]
    field_simp
  refine ⟨valuesAt powell num o v (node k (radians 0)), ?_, ?_⟩
  · have := h4 0 (by omega)
    rwa [e0] at this
  · have := h4 (n - 1) (by omega)
    rw [e1] at this
    rw [this]
    congr 2
    obtain ⟨c1, s1, c2, s2⟩ := node_turn k
    have hvec := vector_turn k
    have hchi : ∀ z, vectorChi (node k (radians 360)).1 (node k (radians 360)).2 z =
        vectorChi (node k (radians 0)).1 (node k (radians 0)).2 z := by
      intro z; simp only [vectorChi, c1, s1, c2, s2]
    have hy : o.youngModulus (node k (radians 360)) = o.youngModulus (node k (radians 0)) := by
      simp only [Solid.youngModulus, orthoYoung, Soec.youngModulus, hvec, c1, c2]
    have hl : o.linearCompressibility (node k (radians 360)) = o.linearCompressibility (node k (radians 0)) := by
      simp only [Solid.linearCompressibility, orthoCompressibility, Soec.linearCompressibility, hvec, c1, c2]
    have hsh : ∀ z, o.shearModulus ((node k (radians 360)).1, (node k (radians 360)).2, z) =
        o.shearModulus ((node k (radians 0)).1, (node k (radians 0)).2, z) := by
      intro z
      simp only [Solid.shearModulus, orthoShear, Soec.shearModulus, hvec, hchi, c1, c2, s1, s2]
    have hpo : ∀ z, o.poissonRatio ((node k (radians 360)).1, (node k (radians 360)).2, z) =
        o.poissonRatio ((node k (radians 0)).1, (node k (radians 0)).2, z) := by
      intro z
      simp only [Solid.poissonRatio, orthoPoisson, Soec.poissonRatio, hvec, hchi, c1, c2, s1, s2]
    cases v with
    | E => simp only [valuesAt, hy]
    | LC => simp only [valuesAt, hl]
    | G => simp only [valuesAt, shear2d, hsh]
    | Nu => simp only [valuesAt, poisson2d, hpo]
    | waves => simp only [valuesAt, Soec.phaseVelocity, hvec]

/-- The search finds the least value of every continuous function of period 2π. -/
def Spec.Global (powell : Powell) : Prop :=
  ∀ f, Continuous f → (∀ z, f (z + 2 * Real.pi) = f z) → ∀ x z, (powell f x).value ≤ f z

theorem contract_continuous (S : T4) (a c : V3) (b d : ℝ → V3) (hb : ∀ i, Continuous fun z => b z i)
    (hd : ∀ i, Continuous fun z => d z i) : Continuous fun z => contract4 S a (b z) c (d z) := by
  unfold contract4
  refine continuous_finset_sum _ fun i _ => continuous_finset_sum _ fun j _ =>
    continuous_finset_sum _ fun k _ => continuous_finset_sum _ fun l _ => ?_
  have := hb j
  have := hd l
  fun_prop

theorem contract_continuous' (S : T4) (a c : V3) (b d : ℝ → V3) (hb : ∀ i, Continuous fun z => b z i)
    (hd : ∀ i, Continuous fun z => d z i) : Continuous fun z => contract4 S a c (b z) (d z) := by
  unfold contract4
  refine continuous_finset_sum _ fun i _ => continuous_finset_sum _ fun j _ =>
    continuous_finset_sum _ fun k _ => continuous_finset_sum _ fun l _ => ?_
  have := hb k
  have := hd l
  fun_prop

theorem vectorChi_continuous (t p : ℝ) (i : Fin 3) : Continuous fun z => vectorChi t p z i := by
  fin_cases i <;> simp [vectorChi] <;> fun_prop

theorem vectorChi_period (t p z : ℝ) : vectorChi t p (z + 2 * Real.pi) = vectorChi t p z := by
  simp [vectorChi]

theorem shear_unique {C : M6} (hC : C.PosDef) {a b : V3} {x y : ℝ} (hx : IsShear C a b x) (hy : IsShear C a b y) :
    x = y := by
  obtain ⟨ε, h1, h2⟩ := hx
  obtain ⟨ε', h3, h4⟩ := hy
  have : ε' = ε := (response_unique C (posDef_det hC) _ (symm_shear 1 a b)).unique h3 h1
  subst this
  have hne : 2 * along ε' a b ≠ 0 := right_ne_zero_of_mul (h2 ▸ one_ne_zero)
  exact mul_right_cancel₀ hne (h2.trans h4.symm)

theorem poisson_unique {C : M6} (hC : C.PosDef) {a b : V3} (ha : UnitVector a) {x y : ℝ}
    (hx : IsPoisson C a b x) (hy : IsPoisson C a b y) : x = y := by
  obtain ⟨ε, h1, h2⟩ := hx
  obtain ⟨ε', h3, h4⟩ := hy
  have : ε' = ε := (response_unique C (posDef_det hC) _ (symm_uniaxial 1 a)).unique h3 h1
  subst this
  have hne : along ε' a a ≠ 0 := by
    rw [(hooke_iff (posDef_det hC) _ _ (symm_uniaxial 1 a)).1 h1, along_uniaxial, one_mul]
    exact (young_denominator_pos hC ha).ne'
  exact mul_right_cancel₀ hne (h2.trans h4.symm)

/-- C94: when the searches find the least values, the shear moduli and the Poisson's ratios of a row are the
extremes over all directions orthogonal to the direction of the row. -/
theorem C94_extremes (C : M6) (hC : C.PosDef) (density : ℝ) (sys : System) (o : Solid)
    (h : load C density = .ok (sys, o)) (ho : sys = .orthorhombic → OrthorhombicForm C)
    (powell : Powell) (hp : Descends powell) (hg : Global powell) (num : Numerics) (n : ℕ) (h2 : 2 ≤ n) (k : Plane)
    (i : ℕ) (hi : i < n) (b : V3) (hb : Orthonormal (direction k (radians (angle n i))) b) :
    (∃ table lo hi, (calculatePolar powell num o n).table k .G = some table ∧
      table[i]? = some [angle n i, lo, hi] ∧
      ∀ g, IsShear C (direction k (radians (angle n i))) b g → lo ≤ g ∧ g ≤ hi) ∧
    (∃ table neg pos hi, (calculatePolar powell num o n).table k .Nu = some table ∧
      table[i]? = some [angle n i, neg, pos, hi] ∧
      ∀ g, IsPoisson C (direction k (radians (angle n i))) b g → neg + pos ≤ g ∧ g ≤ hi) := by
  obtain ⟨hs, -, -, -, -, hdet, -⟩ := load_solid h
  obtain ⟨-, -, e3, e4⟩ := solid_generic h ho
  obtain ⟨tg, g1, -, g2⟩ := table_row powell num o h2 k .G (by simp)
  obtain ⟨tn, n1, -, n2⟩ := table_row powell num o h2 k .Nu (by simp)
  have hg2 := g2 i hi
  have hn2 := n2 i hi
  rw [← node_direction] at hb ⊢
  generalize node k (radians (angle n i)) = x at hb hg2 hn2 ⊢
  obtain ⟨t, p⟩ := x
  dsimp only at hb ⊢
  obtain ⟨c, rfl⟩ := exists_vectorChi hb.2.1 hb.2.2
  have hS : o.soec.Smat = sTensor C⁻¹ := by
    obtain ⟨-, hs'⟩ := soec_ok hs
    rw [hs']
  have cs : Continuous fun z => o.shearModulus (t, p, z) := by
    have : (fun z => o.shearModulus (t, p, z)) = fun z =>
        1 / (4 * contract4 (sTensor C⁻¹) (vector t p) (vectorChi t p z) (vector t p) (vectorChi t p z)) := by
      funext z
      rw [e3, Soec.shearModulus, hS, shearAlong_eq]
    rw [this]
    refine continuous_const.div ?_ fun z => ?_
    · exact continuous_const.mul (contract_continuous _ _ _ _ _ (vectorChi_continuous t p) (vectorChi_continuous t p))
    · have := shear_denominator_pos hC (C35_orthonormal t p z)
      positivity
  have cp : Continuous fun z => o.poissonRatio (t, p, z) := by
    have : (fun z => o.poissonRatio (t, p, z)) = fun z =>
        -contract4 (sTensor C⁻¹) (vector t p) (vector t p) (vectorChi t p z) (vectorChi t p z) /
          contract4 (sTensor C⁻¹) (vector t p) (vector t p) (vector t p) (vector t p) := by
      funext z
      rw [e4, Soec.poissonRatio, hS, poissonAlong_eq]
    rw [this]
    exact (contract_continuous' _ _ _ _ _ (vectorChi_continuous t p) (vectorChi_continuous t p)).neg.div_const _
  have ps : ∀ z, o.shearModulus (t, p, z + 2 * Real.pi) = o.shearModulus (t, p, z) := by
    intro z; simp only [e3, Soec.shearModulus, vectorChi_period]
  have pp : ∀ z, o.poissonRatio (t, p, z + 2 * Real.pi) = o.poissonRatio (t, p, z) := by
    intro z; simp only [e4, Soec.poissonRatio, vectorChi_period]
  refine ⟨⟨tg, _, _, g1, hg2, fun g hgs => ?_⟩, ⟨tn, _, _, _, n1, hn2, fun g hgs => ?_⟩⟩
  · rw [shear_unique hC hgs (shear_spec hC hs t p c), ← e3]
    exact ⟨hg _ cs ps _ c, le_neg_of_le_neg (hg (fun z => -o.shearModulus (t, p, z)) cs.neg
      (fun z => by rw [ps]) _ c)⟩
  · rw [poisson_unique hC (vector_unit t p) hgs (poisson_spec hC hs t p c), ← e4]
    refine ⟨?_, le_neg_of_le_neg (hg (fun z => -o.poissonRatio (t, p, z)) cp.neg (fun z => by rw [pp]) _ c)⟩
    have := min_add_max 0 (powell (fun z => o.poissonRatio (t, p, z)) (Real.pi / 2)).value
    rw [zero_add] at this
    exact this.le.trans (hg _ cp pp _ c)

/-! ### Nearly orthorhombic solids -/

/-- A soft solid with `C15 = 0.001` GPa. -/
def nearC : M6 := !![1/10, 0, 0, 0, 1/1000, 0; 0, 2/10, 0, 0, 0, 0; 0, 0, 3/10, 0, 0, 0; 0, 0, 0, 1/10, 0, 0;
  1/1000, 0, 0, 0, 2/10, 0; 0, 0, 0, 0, 0, 3/10]

/-- Its compliance. -/
def nearS : M6 := !![200000/19999, 0, 0, 0, -1000/19999, 0; 0, 5, 0, 0, 0, 0; 0, 0, 10/3, 0, 0, 0; 0, 0, 0, 10, 0, 0;
  -1000/19999, 0, 0, 0, 100000/19999, 0; 0, 0, 0, 0, 0, 10/3]

theorem near_inv : nearC⁻¹ = nearS := by
  refine Matrix.inv_eq_right_inv ?_
  ext i j
  fin_cases i <;> fin_cases j <;> simp [nearC, nearS, Matrix.mul_apply, Fin.sum_univ_six] <;> norm_num

theorem near_symm : nearC.IsSymm := by
  ext i j; fin_cases i <;> fin_cases j <;> rfl

theorem near_posDef : nearC.PosDef := by
  refine Matrix.PosDef.of_dotProduct_mulVec_pos ?_ fun v hv => ?_
  · rw [Matrix.IsHermitian, Matrix.conjTranspose_eq_transpose_of_trivial]
    exact near_symm
  · have e : star v ⬝ᵥ nearC.mulVec v = 99 / 1000 * v 0 ^ 2 + 2 / 10 * v 1 ^ 2 + 3 / 10 * v 2 ^ 2 + 1 / 10 * v 3 ^ 2 +
        199 / 1000 * v 4 ^ 2 + 3 / 10 * v 5 ^ 2 + 1 / 1000 * (v 0 + v 4) ^ 2 := by
      simp only [star_trivial, dotProduct, Matrix.mulVec, nearC, Matrix.of_apply, Fin.sum_univ_six, Matrix.cons_val]
      ring
    rw [e]
    obtain ⟨i, hi⟩ : ∃ i, v i ≠ 0 := Function.ne_iff.1 hv
    have h0 := sq_nonneg (v 0)
    have h1 := sq_nonneg (v 1)
    have h2 := sq_nonneg (v 2)
    have h3 := sq_nonneg (v 3)
    have h4 := sq_nonneg (v 4)
    have h5 := sq_nonneg (v 5)
    have h6 := sq_nonneg (v 0 + v 4)
    have hp : 0 < v i ^ 2 := by positivity
    fin_cases i <;> simp only [Fin.zero_eta, Fin.mk_one, Fin.reduceFinMk] at hp <;> linarith

theorem near_check : checkSymmetry nearC = .ok .orthorhombic := by
  have hno : ∀ s : System, systems.idxOf s < systems.idxOf .orthorhombic → ¬ runCheck nearC s := by
    intro s hs hr
    have h11 : cijMap s (0, 0) = cijMap s (1, 1) ∧ 0 < cijMap s (0, 0) := by
      cases s <;> revert hs <;> decide
    have := ((runCheck_iff nearC s).1 hr).2.1 (0, 0) (1, 1) h11.1 h11.2
    simp [nearC, tol] at this
    rw [abs_le] at this
    norm_num at this
  have hyes : runCheck nearC .orthorhombic := by
    rw [runCheck_iff]
    refine ⟨fun k hk => ?_, fun k k' hkk _ => ?_, by simp⟩
    · obtain ⟨i, j⟩ := k
      have : i ≠ j := by rintro rfl; revert hk; revert i; decide
      have hle : nearC i j = 0 ∨ nearC i j = 1 / 1000 := by
        revert this
        fin_cases i <;> fin_cases j <;> simp [nearC]
      rcases hle with h | h <;> simp only [h, tol] <;> norm_num
    · rename_i hpos
      have : k' = k ∨ k' = (k.2, k.1) := by revert k k'; decide
      rcases this with rfl | rfl
      · simp [tol]
      · rw [near_symm.apply, sub_self, abs_zero, tol]; norm_num
  unfold checkSymmetry
  have : systems.find? (fun s => @decide (runCheck nearC s) (Classical.propDecidable _)) = some .orthorhombic := by
    simp [systems, List.find?, hno .cubic (by decide), hno .hexagonal (by decide), hno .trigonalHigh (by decide),
      hno .trigonalLow (by decide), hno .tetragonalHigh (by decide), hno .tetragonalLow (by decide), hyes]
  rw [this]

/-- C94, violated: the constants below the tolerance of the classifier are dropped, however soft the solid.
For a stable solid with `C15 = 0.001` GPa and `C11 = 0.1` GPa, the second row of the section of Young's
modulus on (xz) is not Young's modulus along that direction. -/
theorem C94_near_violated (density : ℝ) (powell : Powell) (num : Numerics) : ∃ C : M6, C.PosDef ∧ ∃ sys o,
    load C density = .ok (sys, o) ∧ ∃ table E,
      (polarResults powell num o true).table .xz .E = some table ∧ table[1]? = some [angle 360 1, E] ∧
      ¬ IsYoung C (direction .xz (radians (angle 360 1))) E := by
  obtain ⟨s, hs⟩ := soec_of_det (posDef_det near_posDef) density
  have hs' := hs
  obtain ⟨hd, rfl⟩ := soec_ok hs'
  refine ⟨nearC, near_posDef, .orthorhombic,
    ⟨⟨nearC, density, nearC⁻¹, sTensor nearC⁻¹, cTensor nearC⟩, true⟩, ?_, ?_⟩
  · unfold load
    simp only [hs, bind, Except.bind, near_check, pure, Except.pure]
    rfl
  set o : Solid := ⟨⟨nearC, density, nearC⁻¹, sTensor nearC⁻¹, cTensor nearC⟩, true⟩ with hodef
  obtain ⟨table, h1, -, h4⟩ := table_row powell num o (by norm_num : 2 ≤ 360) .xz .E (by simp)
  refine ⟨table, _, h1, h4 1 (by norm_num), ?_⟩
  rw [← node_direction]
  set t := radians (angle 360 1) with ht
  have t0 : 0 < t := by
    rw [ht, radians, angle]
    have := Real.pi_pos
    positivity
  have t1 : t < Real.pi / 2 := by
    rw [ht, radians, angle]
    have := Real.pi_pos
    norm_num
    linarith
  have hsin : 0 < Real.sin t := Real.sin_pos_of_pos_of_lt_pi t0 (by linarith [Real.pi_pos])
  have hcos : 0 < Real.cos t := Real.cos_pos_of_mem_Ioo ⟨by linarith [Real.pi_pos], t1⟩
  rintro ⟨ε, hε, hE⟩
  rw [(hooke_iff hd _ _ (symm_uniaxial _ _)).1 hε, along_uniaxial, one_mul] at hE
  have hy : o.youngModulus (node .xz t) = orthoYoung (sTensor nearC⁻¹) (t, 0) := rfl
  rw [hy, near_inv] at hE
  have hX : orthoYoung (sTensor nearS) (t, 0) = 1 / (Real.cos t ^ 4 * (10 / 3) +
      Real.cos t ^ 2 * (100000 / 19999) * Real.sin t ^ 2 + 200000 / 19999 * Real.sin t ^ 4) := by
    unfold orthoYoung orthoS
    simp only [sTensor, sc, vm, nearS, Matrix.of_apply, Matrix.cons_val, Real.cos_zero]
    have : (1 : ℝ) - Real.cos t ^ 2 = Real.sin t ^ 2 := by linarith [Real.sin_sq_add_cos_sq t]
    rw [this]
    congr 1
    norm_num
    ring
  have hZ : contract4 (sTensor nearS) (vector (node .xz t).1 (node .xz t).2) (vector (node .xz t).1 (node .xz t).2)
      (vector (node .xz t).1 (node .xz t).2) (vector (node .xz t).1 (node .xz t).2) =
      Real.cos t ^ 4 * (10 / 3) + Real.cos t ^ 2 * (100000 / 19999) * Real.sin t ^ 2 +
        200000 / 19999 * Real.sin t ^ 4 - 2000 / 19999 * (Real.sin t ^ 3 * Real.cos t) := by
    rw [contract4_voigt]
    simp only [node, dyad, vector, nearS, Matrix.of_apply, Fin.sum_univ_six, Matrix.cons_val, Real.cos_zero,
      Real.sin_zero]
    ring
  rw [hX, hZ] at hE
  have hpos : 0 < Real.cos t ^ 4 * (10 / 3) + Real.cos t ^ 2 * (100000 / 19999) * Real.sin t ^ 2 +
      200000 / 19999 * Real.sin t ^ 4 := by positivity
  rw [one_div, inv_mul_eq_one₀ hpos.ne'] at hE
  have : 0 < Real.sin t ^ 3 * Real.cos t := by positivity
  linarith

end Verif.Polar
