/-
C99: the polar figures.
-/
import Verif.Polar.Props

noncomputable section

namespace Verif.Polar
open Verif.Py Verif.Elastic Verif.Elastic.Spec Verif.Seismic Verif.Seismic.Spec Spec

/-- All points of all curves of an axis are within the range of the radius. -/
def Spec.WithinRange (a : Axis) : Prop := ∀ c ∈ a.curves, ∀ p ∈ c, p.2 ≤ a.rmax

/-- The number of curves of a figure. -/
def Spec.curveCount : Var → ℕ
  | .E => 1
  | .LC => 2
  | .G => 2
  | .Nu => 3
  | .waves => 3

theorem npMax_le {l : List ℝ} {x : ℝ} (h : x ∈ l) : x ≤ npMax l := by
  have key : ∀ (l : List ℝ) (a : ℝ), a ≤ l.foldl max a ∧ ∀ x ∈ l, x ≤ l.foldl max a := by
    intro l
    induction l with
    | nil => intro a; simp
    | cons b l ih =>
      intro a
      obtain ⟨h1, h2⟩ := ih (max a b)
      refine ⟨(le_max_left _ _).trans h1, fun x hx => ?_⟩
      rcases List.mem_cons.1 hx with rfl | hx
      · exact (le_max_right _ _).trans h1
      · exact h2 x hx
  cases l with
  | nil => cases h
  | cons a l =>
    rcases List.mem_cons.1 h with rfl | h
    · exact (key l x).1
    · exact (key l a).2 x h

theorem npMax_mem {l : List ℝ} (h : l ≠ []) : npMax l ∈ l := by
  have key : ∀ (l : List ℝ) (a : ℝ), l.foldl max a = a ∨ l.foldl max a ∈ l := by
    intro l
    induction l with
    | nil => intro a; simp
    | cons b l ih =>
      intro a
      rw [List.foldl_cons]
      rcases ih (max a b) with h | h
      · rw [h]
        rcases max_choice a b with h | h <;> simp [h]
      · exact .inr (List.mem_cons_of_mem _ h)
  cases l with
  | nil => exact absurd rfl h
  | cons a l =>
    rcases key l a with h | h
    · simp [npMax, h]
    · exact List.mem_cons_of_mem _ h

theorem mem_curve {table : List (List ℝ)} {j : ℕ} {p : ℝ × ℝ} (h : p ∈ curve table j) :
    ∃ row ∈ table, p.2 = row.getD j 0 := by
  have := (List.of_mem_zip h).2
  rw [column] at this
  obtain ⟨row, h1, h2⟩ := List.mem_map.1 this
  exact ⟨row, h1, h2.symm⟩

theorem curve_get {table : List (List ℝ)} {i j : ℕ} {row : List ℝ} (h : table[i]? = some row) :
    (curve table j)[i]? = some (radians (row.getD 0 0), row.getD j 0) := by
  rw [curve, List.zip, List.getElem?_zipWith]
  simp [column, h]

theorem curve_length (table : List (List ℝ)) (j : ℕ) : (curve table j).length = table.length := by
  simp [curve, column]

theorem valuesAt_length (powell : Powell) (num : Numerics) (o : Solid) (v : Var) (x : ℝ × ℝ) :
    (valuesAt powell num o v x).length = curveCount v := by
  cases v <;> rfl

/-- C99: a figure has the three planes in order; an axis shows one curve per value of the section, and the point
`i` of a curve has the angle of row `i` and the value of that row as its radius. -/
theorem C99_points (o : Solid) (powell : Powell) (num : Numerics) (n : ℕ) (h2 : 2 ≤ n) (k : Plane) (v : Var)
    (xy xz yz : List (List ℝ)) (h1 : (calculatePolar powell num o n).table .xy v = some xy)
    (h3 : (calculatePolar powell num o n).table .xz v = some xz)
    (h4 : (calculatePolar powell num o n).table .yz v = some yz) (table : List (List ℝ))
    (h : (calculatePolar powell num o n).table k v = some table) :
    (figure v xy xz yz)[match k with | .xy => 0 | .xz => 1 | .yz => 2]? = some (axisOf v k table) ∧
    (axisOf v k table).description = title v ++ c!" (" ++ k.key ++ c!")" ∧
    (axisOf v k table).curves.length = curveCount v ∧
    ∀ i < n, ∃ values, table[i]? = some (angle n i :: values) ∧ values.length = curveCount v ∧
      ∀ (j : ℕ) (x : ℝ), values[j]? = some x → ∃ c : List (ℝ × ℝ), (axisOf v k table).curves[j]? = some c ∧ c.length = n ∧
        c[i]? = some (radians (angle n i), x) := by
  refine ⟨?_, rfl, by cases v <;> rfl, fun i hi => ?_⟩
  · cases k
    · rw [h1] at h; cases h; rfl
    · rw [h3] at h; cases h; rfl
    · rw [h4] at h; cases h; rfl
  have hv : v = .waves → 0 < o.soec.density := by
    rintro rfl
    by_contra hd
    have hs : ∀ a t p, (sections powell num o a t p).lookup .waves = none := by
      intro a t p
      unfold sections
      rw [if_neg hd]
      rfl
    have : (calculatePolar powell num o n).table k .waves = none := by cases k <;> exact hs _ _ _
    rw [this] at h
    cases h
  obtain ⟨table', e1, e2, e3⟩ := table_row powell num o h2 k v hv
  rw [h] at e1
  cases e1
  refine ⟨_, e3 i hi, valuesAt_length _ _ _ _ _, fun j x hx => ⟨curve table (j + 1), ?_, ?_, ?_⟩⟩
  · have hj : j < curveCount v := by
      rw [← valuesAt_length powell num o v (node k (radians (angle n i)))]
      exact (List.getElem?_eq_some_iff.1 hx).1
    cases v <;> simp only [curveCount] at hj <;> interval_cases j <;> rfl
  · rw [curve_length, e2]
  · rw [curve_get (e3 i hi)]
    simp [hx]

theorem young_pos {C : M6} (hC : C.PosDef) {a : V3} (ha : UnitVector a) {E : ℝ} (h : IsYoung C a E) : 0 < E := by
  obtain ⟨ε, h1, h2⟩ := h
  rw [(hooke_iff (posDef_det hC) _ _ (symm_uniaxial 1 a)).1 h1, along_uniaxial, one_mul] at h2
  exact pos_of_mul_pos_left (h2 ▸ one_pos) (young_denominator_pos hC ha).le

theorem within {v : Var} {k : Plane} {table : List (List ℝ)}
    (h : ∀ row ∈ table, ∀ j ∈ (drawn v).1, row.getD j 0 ≤ max 0 (row.getD (drawn v).2 0))
    (h0 : ∃ row ∈ table, 0 ≤ row.getD (drawn v).2 0) : WithinRange (axisOf v k table) := by
  intro c hc p hp
  obtain ⟨j, hj, rfl⟩ := List.mem_map.1 hc
  obtain ⟨row, hr, e⟩ := mem_curve hp
  obtain ⟨row0, hr0, h0⟩ := h0
  have hm : ∀ row ∈ table, row.getD (drawn v).2 0 ≤ npMax (column (drawn v).2 table) := fun row hr =>
    npMax_le (List.mem_map.2 ⟨row, hr, rfl⟩)
  have hp : 0 ≤ npMax (column (drawn v).2 table) := h0.trans (hm _ hr0)
  have := (h row hr j hj).trans (max_le hp (hm row hr))
  show p.2 ≤ 11 / 10 * npMax _
  rw [e]
  linarith

/-- C99, in part: in the figures of Young's modulus, of the shear modulus and of the velocities every curve lies
within the range of the radius; so it does in the figure of Poisson's ratio if the largest ratio of the
section is not negative.  Missing: the linear compressibility and solids that are auxetic in all
directions, see the next theorems, and solids that are orthorhombic only within the tolerance of the classifier. -/
theorem C99_range_partial (C : M6) (hC : C.PosDef) (density : ℝ) (sys : System) (o : Solid)
    (h : load C density = .ok (sys, o)) (ho : sys = .orthorhombic → OrthorhombicForm C)
    (powell : Powell) (hp : Descends powell) (num : Numerics) (hn : EighCorrect num) (n : ℕ) (h2 : 2 ≤ n)
    (k : Plane) (v : Var) (hv : available density v) (hlc : v ≠ .LC) :
    ∃ table, (calculatePolar powell num o n).table k v = some table ∧
      ((v = .Nu → ∃ row ∈ table, 0 ≤ row.getD 3 0) → WithinRange (axisOf v k table)) := by
  obtain ⟨h3, -⟩ := C94_sections_partial C hC density sys o h ho powell hp num hn n h2
  obtain ⟨table, e1, e2, e3⟩ := h3 k v hv
  refine ⟨table, e1, fun hnu => ?_⟩
  have hrow : ∀ row ∈ table, ∃ i < n, ∃ values, row = angle n i :: values ∧
      Listed C density (direction k (radians (angle n i))) v values := by
    intro row hr
    obtain ⟨i, hi, rfl⟩ := List.getElem_of_mem hr
    obtain ⟨values, v1, v2⟩ := e3 i (e2 ▸ hi)
    rw [List.getElem?_eq_getElem hi] at v1
    exact ⟨i, e2 ▸ hi, values, Option.some.inj v1, v2⟩
  have hunit : ∀ t, UnitVector (direction k t) := fun t => by
    rw [← node_direction]; exact vector_unit _ _
  have hne : ∃ row, row ∈ table := by
    obtain ⟨values, v1, -⟩ := e3 0 (by omega)
    exact ⟨_, List.mem_of_getElem? v1⟩
  obtain ⟨row0, hr0⟩ := hne
  cases v with
  | LC => exact absurd rfl hlc
  | E =>
    refine within (fun row hr j hj => ?_) ⟨row0, hr0, ?_⟩
    · simp only [drawn, List.mem_singleton] at hj ⊢
      subst hj
      exact le_max_right _ _
    · obtain ⟨i, -, values, rfl, E, rfl, hE⟩ := hrow row0 hr0
      exact (young_pos hC (hunit _) hE).le
  | G =>
    have hpos : ∀ a g, Attained a (IsShear C a) g → 0 < g := by
      rintro a g ⟨b, hb, ε, h1, h2⟩
      obtain ⟨c, hc⟩ : ∃ c, c = along ε a b := ⟨_, rfl⟩
      have hs := C33_shear C density o.soec (load_solid h).1
      obtain ⟨t, p, x, rfl, rfl⟩ := (C35_complete a b hb)
      obtain ⟨-, -, h3⟩ := hs t p x 1 ε h1
      have hne := (h3 hC).2 one_ne_zero
      have : g = o.soec.shearModulus (t, p, x) := shear_unique hC ⟨ε, h1, h2⟩ (shear_spec hC (load_solid h).1 t p x)
      rw [this]
      exact (h3 hC).1
    refine within (fun row hr j hj => ?_) ⟨row0, hr0, ?_⟩
    · obtain ⟨i, -, values, rfl, lo, hi, rfl, hle, -, -⟩ := hrow row hr
      simp only [drawn, List.mem_cons, List.not_mem_nil, or_false] at hj
      rcases hj with rfl | rfl
      · exact hle.trans (le_max_right _ _)
      · exact le_max_right _ _
    · obtain ⟨i, -, values, rfl, lo, hi, rfl, -, -, hh⟩ := hrow row0 hr0
      exact (hpos _ _ hh).le
  | Nu =>
    refine within (fun row hr j hj => ?_) (hnu rfl)
    obtain ⟨i, -, values, rfl, n', p, lo, hi, rfl, b1, b2, b3, b4, b5, -⟩ := hrow row hr
    simp only [drawn, List.mem_cons, List.not_mem_nil, or_false] at hj
    rcases hj with rfl | rfl | rfl
    · exact b1.trans (le_max_left _ _)
    · show p ≤ max 0 hi
      rcases b3 with rfl | rfl
      · exact (by linarith : p ≤ hi).trans (le_max_right _ _)
      · exact le_max_left _ _
    · exact le_max_right _ _
  | waves =>
    refine within (fun row hr j hj => ?_) ⟨row0, hr0, ?_⟩
    · obtain ⟨i, -, values, rfl, V, ⟨w0, w1, w2, -⟩, rfl⟩ := hrow row hr
      simp only [drawn, List.mem_cons, List.not_mem_nil, or_false] at hj
      have a1 : V 0 ≤ V 1 := by
        have := abs_le_of_sq_le_sq w1 (by have := w0 1; positivity)
        linarith [le_abs_self (1000 * V 0), le_abs_self (1000 * V 1)]
      have a2 : V 1 ≤ V 2 := by
        have := abs_le_of_sq_le_sq w2 (by have := w0 2; positivity)
        linarith [le_abs_self (1000 * V 0), le_abs_self (1000 * V 1)]
      rcases hj with rfl | rfl | rfl
      · exact (a1.trans a2).trans (le_max_right _ _)
      · exact a2.trans (le_max_right _ _)
      · exact le_max_right _ _
    · obtain ⟨i, -, values, rfl, V, ⟨w0, -⟩, rfl⟩ := hrow row0 hr0
      exact w0 2

/-! ### Figures that cut curves off -/

/-- A solid that expands in a plane when it is compressed from all sides. -/
def stretchC : M6 := !![1, 3/2, 3/2, 0, 0, 0; 3/2, 3, 2, 0, 0, 0; 3/2, 2, 3, 0, 0, 0; 0, 0, 0, 1, 0, 0;
  0, 0, 0, 0, 1, 0; 0, 0, 0, 0, 0, 1]

/-- Its compliance. -/
def stretchS : M6 := !![10, -3, -3, 0, 0, 0; -3, 3/2, 1/2, 0, 0, 0; -3, 1/2, 3/2, 0, 0, 0; 0, 0, 0, 1, 0, 0;
  0, 0, 0, 0, 1, 0; 0, 0, 0, 0, 0, 1]

theorem stretch_inv : stretchC⁻¹ = stretchS := by
  refine Matrix.inv_eq_right_inv ?_
  ext i j
  fin_cases i <;> fin_cases j <;> simp [stretchC, stretchS, Matrix.mul_apply, Fin.sum_univ_six] <;> norm_num

theorem stretch_symm : stretchC.IsSymm := by
  ext i j; fin_cases i <;> fin_cases j <;> rfl

theorem stretch_posDef : stretchC.PosDef := by
  refine Matrix.PosDef.of_dotProduct_mulVec_pos ?_ fun v hv => ?_
  · rw [Matrix.IsHermitian, Matrix.conjTranspose_eq_transpose_of_trivial]
    exact stretch_symm
  · have e : star v ⬝ᵥ stretchC.mulVec v = (v 0 + 3 / 2 * v 1 + 3 / 2 * v 2) ^ 2 + 3 / 4 * (v 1 - 1 / 3 * v 2) ^ 2 +
        2 / 3 * v 2 ^ 2 + v 3 ^ 2 + v 4 ^ 2 + v 5 ^ 2 := by
      simp only [star_trivial, dotProduct, Matrix.mulVec, stretchC, Matrix.of_apply, Fin.sum_univ_six, Matrix.cons_val]
      ring
    rw [e]
    by_contra hn
    have h1 := sq_nonneg (v 0 + 3 / 2 * v 1 + 3 / 2 * v 2)
    have h2 := sq_nonneg (v 1 - 1 / 3 * v 2)
    have h3 := sq_nonneg (v 2)
    have h4 := sq_nonneg (v 3)
    have h5 := sq_nonneg (v 4)
    have h6 := sq_nonneg (v 5)
    have z1 : v 0 + 3 / 2 * v 1 + 3 / 2 * v 2 = 0 := pow_eq_zero_iff two_ne_zero |>.1 (by linarith)
    have z2 : v 1 - 1 / 3 * v 2 = 0 := pow_eq_zero_iff two_ne_zero |>.1 (by linarith)
    have z3 : v 2 = 0 := pow_eq_zero_iff two_ne_zero |>.1 (by linarith)
    have z4 : v 3 = 0 := pow_eq_zero_iff two_ne_zero |>.1 (by linarith)
    have z5 : v 4 = 0 := pow_eq_zero_iff two_ne_zero |>.1 (by linarith)
    have z6 : v 5 = 0 := pow_eq_zero_iff two_ne_zero |>.1 (by linarith)
    rw [z3] at z2
    have z7 : v 1 = 0 := by linarith
    rw [z3, z7] at z1
    have z8 : v 0 = 0 := by linarith
    apply hv
    funext i
    fin_cases i <;> assumption

theorem load_of_symm {C : M6} (hd : C.det ≠ 0) (hs : C.IsSymm) (density : ℝ) : ∃ sys o, load C density = .ok (sys, o) := by
  obtain ⟨s, hs'⟩ := soec_of_det hd density
  obtain ⟨sys, hsys⟩ := (C44_total_first C).1 (fun i j => by rw [hs.apply]; norm_num)
  refine ⟨sys, ⟨s, decide (sys = .orthorhombic)⟩, ?_⟩
  unfold load
  have hc : s.C = C := by obtain ⟨-, h⟩ := soec_ok hs'; rw [h]
  simp only [hs', bind, Except.bind, hc, hsys, pure, Except.pure]

/-- C99, violated: the range of the linear compressibility is that of its positive part.  There is a stable solid
whose section on (yz) has a compressibility of -1000 TPa^-1 in all directions and a radius of zero at most, so that
no point of the second curve is shown. -/
theorem C99_compressibility_violated (density : ℝ) (powell : Powell) (num : Numerics) (n : ℕ) (h2 : 2 ≤ n) :
    ∃ C : M6, C.PosDef ∧ ∃ sys o, load C density = .ok (sys, o) ∧ ∃ table c,
      (calculatePolar powell num o n).table .yz .LC = some table ∧ (axisOf .LC .yz table).curves[1]? = some c ∧
      c.length = n ∧ (∀ p ∈ c, p.2 = 1000) ∧ (axisOf .LC .yz table).rmax = 0 := by
  obtain ⟨sys, o, ho⟩ := load_of_symm (posDef_det stretch_posDef) stretch_symm density
  refine ⟨stretchC, stretch_posDef, sys, o, ho, ?_⟩
  have hform : OrthorhombicForm stretchC := by
    refine ⟨stretch_symm, ?_⟩
    intro i j hij h
    fin_cases i <;> fin_cases j <;> simp [stretchC] at hij h ⊢
  obtain ⟨hs, -⟩ := load_solid ho
  obtain ⟨-, e, -⟩ := solid_generic ho (fun _ => hform)
  have hval : ∀ t, o.linearCompressibility (t, Real.pi / 2) = -1000 := by
    intro t
    rw [e]
    obtain ⟨-, hs'⟩ := soec_ok hs
    rw [hs', Soec.linearCompressibility]
    have hcs := Real.sin_sq_add_cos_sq t
    simp only [stretch_inv, compressibilityAlong, stretchS, sTensor, sc, vm, vector, Fin.sum_univ_three, Matrix.of_apply,
      Matrix.cons_val, Real.sin_pi_div_two, Real.cos_pi_div_two]
    norm_num
    linear_combination -1000 * hcs
  obtain ⟨table, t1, t2, t3⟩ := table_row powell num o h2 .yz .LC (by simp)
  have hrow : ∀ row ∈ table, ∃ a, row = [a, 0, 1000] := by
    intro row hr
    obtain ⟨i, hi, rfl⟩ := List.getElem_of_mem hr
    have := t3 i (t2 ▸ hi)
    rw [List.getElem?_eq_getElem hi] at this
    refine ⟨angle n i, ?_⟩
    rw [Option.some.inj this]
    simp [valuesAt, node, hval]
  refine ⟨table, curve table 2, t1, rfl, by rw [curve_length, t2], fun p hp => ?_, ?_⟩
  · obtain ⟨row, hr, e⟩ := mem_curve hp
    obtain ⟨a, rfl⟩ := hrow row hr
    exact e
  · have hne : column 1 table ≠ [] := by
      intro h
      have : (column 1 table).length = n := by simp [column, t2]
      rw [h] at this
      simp at this
      omega
    have := npMax_mem hne
    obtain ⟨row, hr, e⟩ := List.mem_map.1 this
    obtain ⟨a, rfl⟩ := hrow row hr
    show 11 / 10 * npMax (column 1 table) = 0
    rw [← e]
    simp

/-- C99, violated: the range of Poisson's ratio is 1.1 times its largest value, which lies below the curve when
all ratios are negative: there is a stable isotropic solid with a ratio of -1/4, for which the
range ends at -0.275. -/
theorem C99_poisson_violated (density : ℝ) (powell : Powell) (hp : Descends powell) (num : Numerics) (n : ℕ)
    (h2 : 2 ≤ n) (k : Plane) :
    ∃ C : M6, C.PosDef ∧ ∃ sys o, load C density = .ok (sys, o) ∧ ∃ table c,
      (calculatePolar powell num o n).table k .Nu = some table ∧ (axisOf .Nu k table).curves[2]? = some c ∧
      c.length = n ∧ (∀ p ∈ c, p.2 = (-1 / 4 : ℝ)) ∧ (axisOf .Nu k table).rmax = -11 / 40 := by
  have hpd := isotropic_posDef (K := 1) (G := 3) (by norm_num) (by norm_num)
  obtain ⟨sys, o, ho⟩ := load_of_symm (posDef_det hpd) (isotropic_symm 1 3) density
  refine ⟨isotropic 1 3, hpd, sys, o, ho, ?_⟩
  have hform : OrthorhombicForm (isotropic 1 3) := by
    refine ⟨isotropic_symm 1 3, ?_⟩
    intro i j hij h
    fin_cases i <;> fin_cases j <;> simp [isotropic] at hij h ⊢
  obtain ⟨hs, -⟩ := load_solid ho
  obtain ⟨-, -, -, e⟩ := solid_generic ho (fun _ => hform)
  have hval : ∀ t p z, o.poissonRatio (t, p, z) = -1 / 4 := by
    intro t p z
    rw [e]
    obtain ⟨-, hs'⟩ := soec_ok hs
    rw [hs', Soec.poissonRatio]
    show poissonAlong (sTensor (isotropic 1 3)⁻¹) (vector t p) (vectorChi t p z) = _
    rw [iso_poisson_orthonormal (by norm_num) (by norm_num) (C35_orthonormal t p z)]
    norm_num
  obtain ⟨table, t1, t2, t3⟩ := table_row powell num o h2 k .Nu (by simp)
  have hrow : ∀ row ∈ table, ∃ a b c, row = [a, b, c, -1 / 4] := by
    intro row hr
    obtain ⟨i, hi, rfl⟩ := List.getElem_of_mem hr
    have := t3 i (t2 ▸ hi)
    rw [List.getElem?_eq_getElem hi] at this
    have hx : ∀ x : ℝ × ℝ, ∃ b c, valuesAt powell num o .Nu x = [b, c, -1 / 4] := by
      intro x
      have : -(powell (fun z => -o.poissonRatio (x.1, x.2, z)) (Real.pi / 2)).value = -1 / 4 := by
        rw [(hp _ _).1, neg_neg, hval]
      simp only [valuesAt, poisson2d, this]
      exact ⟨_, _, rfl⟩
    obtain ⟨b, c, hbc⟩ := hx (node k (radians (angle n i)))
    exact ⟨_, b, c, by rw [Option.some.inj this, hbc]⟩
  refine ⟨table, curve table 3, t1, rfl, by rw [curve_length, t2], fun p hp => ?_, ?_⟩
  · obtain ⟨row, hr, e⟩ := mem_curve hp
    obtain ⟨a, b, c, rfl⟩ := hrow row hr
    exact e
  · have hne : column 3 table ≠ [] := by
      intro h
      have : (column 3 table).length = n := by simp [column, t2]
      rw [h] at this
      simp at this
      omega
    have := npMax_mem hne
    obtain ⟨row, hr, e⟩ := List.mem_map.1 this
    obtain ⟨a, b, c, rfl⟩ := hrow row hr
    show 11 / 10 * npMax (column 3 table) = -11 / 40
    rw [← e]
    norm_num

/-- C99: a run with `--polar` draws one figure for each quantity that has a section, in the order Young's
modulus, linear compressibility, shear modulus, Poisson's ratio and velocities, and none for the velocities when
there is no density: the sections drawn exist on all three planes. -/
theorem C99_figures (o : Solid) (powell : Powell) (num : Numerics) :
    (plotted o.soec.density).Sublist [.E, .LC, .G, .Nu, .waves] ∧
    (∀ v, v ∈ plotted o.soec.density ↔ available o.soec.density v) ∧
    ∀ v, v ∈ plotted o.soec.density ↔ ∀ k, ((polarResults powell num o true).table k v).isSome = true := by
  have h1 : ∀ v, v ∈ plotted o.soec.density ↔ available o.soec.density v := by
    intro v
    unfold plotted available
    by_cases h : o.soec.density > 0
    · rw [if_pos h]; cases v <;> simp [h]
    · rw [if_neg h]; cases v <;> simp [h]
  refine ⟨?_, h1, fun v => (h1 v).trans ⟨fun hv k => ?_, fun hv => ?_⟩⟩
  · unfold plotted
    split
    · exact List.Sublist.refl _
    · decide
  · obtain ⟨t, ht, -⟩ := table_row powell num o (n := 360) (by norm_num) k v hv
    exact Option.isSome_iff_exists.2 ⟨t, ht⟩
  · rintro rfl
    by_contra hd
    have := hv .xy
    have hs : ∀ a t p, (sections powell num o a t p).lookup .waves = none := by
      intro a t p
      unfold sections
      rw [if_neg hd]
      rfl
    have e : (calculatePolar powell num o 360).table .xy .waves = none := hs _ _ _
    rw [polarResults, if_pos rfl, e] at this
    cases this

/-- C99: the text beside an axis names the quantity and the plane: it is the same for two axes only if they show the same quantity
on the same plane, and it ends with the plane in brackets. -/
theorem C99_labels (v v' : Var) (k k' : Plane) (t t' : List (List ℝ)) :
    ((axisOf v k t).description = (axisOf v' k' t').description ↔ v = v' ∧ k = k') ∧
    ∃ name, (axisOf v k t).description = name ++ c!" (" ++ k.key ++ c!")" ∧
      name = (match v with
        | .E => c!"Young's modulus" | .LC => c!"Linear compressibility" | .G => c!"Shear modulus"
        | .Nu => c!"Poisson's ratio" | .waves => c!"Seismic waves") := by
  refine ⟨⟨fun h => ?_, ?_⟩, title v, rfl, by cases v <;> rfl⟩
  · cases v <;> cases v' <;> cases k <;> cases k' <;> first | exact ⟨rfl, rfl⟩ | (exact absurd h (by simp only [axisOf, title, Plane.key]; decide))
  · rintro ⟨rfl, rfl⟩
    rfl

end Verif.Polar
