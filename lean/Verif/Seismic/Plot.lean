/-
Property C65: figures and tables show the column they announce.
-/
import Verif.Seismic.Scan
import Verif.Seismic.Isotropic
import Mathlib.Analysis.Complex.ExponentialBounds

namespace Verif.Seismic
open Verif.Py Verif.Elastic Verif.Elastic.Spec Spec

/-- The key under which the results of wave `p` are stored: slow secondary, fast secondary,
primary. -/
def Spec.waveKey (p : Fin 3) : Str := ![c!"ssecondary", c!"fsecondary", c!"primary"] p

/-- `x` is the quantity called `name` of wave `p` in the direction `theta`, `phi`. -/
noncomputable def Spec.Announced (num : Numerics) (o : Seismic) (theta phi : ℝ) (p : Fin 3)
    (name : Str) (x : ℝ) : Prop :=
  (name = c!"phase velocity" → ∃ pv : V3,
    lookAt num o theta phi .phaseVelocity = .ok (.vec pv) ∧ x = pv p) ∧
  (name = c!"relative phase velocity" → ∃ pv : V3,
    lookAt num o theta phi .phaseVelocity = .ok (.vec pv) ∧
      x = 100 * (pv p - o.isotropicVelocity p) / o.isotropicVelocity p) ∧
  (name = c!"group velocity" → ∃ ga : V3,
    lookAt num o theta phi .groupAbs = .ok (.vec ga) ∧ x = ga p) ∧
  (name = c!"relative group velocity" → ∃ ga : V3,
    lookAt num o theta phi .groupAbs = .ok (.vec ga) ∧
      x = 100 * (ga p - o.isotropicVelocity p) / o.isotropicVelocity p) ∧
  (name = c!"powerflow angle" → ∃ pf : V3,
    lookAt num o theta phi .powerflow = .ok (.vec pf) ∧ x = pf p * 180 / Real.pi) ∧
  (name = c!"enhancement factor" → ∃ en : V3,
    lookAt num o theta phi .enhancement = .ok (.vec en) ∧ x = Real.log (en p) / Real.log 10)

theorem column_ok (t : Tables) (p : Fin 3) (k : Fin 14) :
    getDataColumn (exported t) (waveKey p) k = .ok (column (t.get p) k) := by
  fin_cases p <;> rfl

/-- C65, figures: every figure of a scalar quantity shows, at every node, for the wave it names, the
quantity it announces (as a base-10 logarithm for the enhancement factor).  Missing from the full
property: the arrows of the polarisation figure and the header of the result file, see the
`_violated` theorems. -/
theorem C65_figures_partial (num : Numerics) (o : Seismic)
    (hiso : ∀ p, o.isotropicVelocity p ≠ 0) (ntheta nphi : ℕ) (h1 : 2 ≤ ntheta) (h2 : 2 ≤ nphi)
    (st : State) (t : Tables) (ht : scan num o ntheta nphi st = .ok t)
    (k : Fin 14) (name : Str) (hk : (k, name) ∈ datasets) (p : Fin 3) :
    ∃ l, plotted (exported t) (waveKey p) k = .ok l ∧ l.length = ntheta * nphi ∧
      ∀ i, i < ntheta → ∀ j, j < nphi → ∃ x, l[i * nphi + j]? = some x ∧
        Announced num o (gridTheta ntheta i) (gridPhi nphi j) p name x := by
  obtain ⟨t', ht', hlen, hrow⟩ := C43_rows num o ntheta nphi h1 h2 st
  rw [ht] at ht'
  cases ht'
  refine ⟨if k = 13 then (column (t.get p) k).map log10 else column (t.get p) k, ?_, ?_, ?_⟩
  · simp only [plotted, column_ok, bind, Except.bind]
  · split <;> simp only [column, List.length_map, hlen]
  intro i hi j hj
  obtain ⟨row, hr, pv, ga, pf, en, pol, gv, e1, e2, e3, e4, e5, e6, -, -, r2, r3, -, -, -, r7, r8,
    -, -, -, r12, r13⟩ := hrow i hi j hj p
  have hcol : (column (t.get p) k)[i * nphi + j]? = some (row k) := by
    simp only [column, List.getElem?_map, hr, Option.map_some]
  have hrel : ∀ x, 100 * (x / o.isotropicVelocity p - 1) =
      100 * (x - o.isotropicVelocity p) / o.isotropicVelocity p := by
    intro x
    have := hiso p
    field_simp
  refine ⟨if k = 13 then log10 (row k) else row k, ?_, ?_⟩
  · split
    · rw [List.getElem?_map, hcol, Option.map_some]
    · exact hcol
  simp only [datasets, List.mem_cons, Prod.mk.injEq, List.not_mem_nil, or_false] at hk
  unfold Announced
  rcases hk with ⟨rfl, rfl⟩ | ⟨rfl, rfl⟩ | ⟨rfl, rfl⟩ | ⟨rfl, rfl⟩ | ⟨rfl, rfl⟩ | ⟨rfl, rfl⟩ <;>
    refine ⟨fun h => ?_, fun h => ?_, fun h => ?_, fun h => ?_, fun h => ?_, fun h => ?_⟩ <;>
    first
    | exact absurd h (by decide)
    | exact ⟨pv, e1, r2⟩
    | exact ⟨pv, e1, r3.trans (hrel _)⟩
    | exact ⟨ga, e4, r7⟩
    | exact ⟨ga, e4, r8.trans (hrel _)⟩
    | exact ⟨pf, e5, r12⟩
    | exact ⟨en, e6, by simp [log10, r13]⟩

theorem sqrt_of_sq {x y : ℝ} (hy : 0 ≤ y) (h : x = y ^ 2) : Real.sqrt x = y := by
  rw [h, Real.sqrt_sq hy]

/-- The reference velocities of a stable medium are not zero, so the theorem above covers it. -/
example : ∃ (num : Numerics) (o : Seismic) (t : Tables), EighCorrect num ∧
    seismic (isotropic 160 80) 3200 = .ok o ∧ (∀ p, o.isotropicVelocity p ≠ 0) ∧
    scan num o 4 5 {} = .ok t := by
  obtain ⟨num, hn, -⟩ := exists_numerics
  obtain ⟨o, ho⟩ : ∃ o, seismic (isotropic 160 80) 3200 = .ok o :=
    ⟨_, if_neg (iso_det (by norm_num) (by norm_num))⟩
  obtain ⟨s, hs⟩ : ∃ s, soec (isotropic 160 80) 3200 = .ok s :=
    ⟨_, if_neg (iso_det (by norm_num) (by norm_num))⟩
  obtain ⟨t, ht, -⟩ := C43_rows num o 4 5 (by norm_num) (by norm_num) {}
  refine ⟨num, o, t, hn, ho, ?_, ht⟩
  obtain ⟨-, -, hiso, -⟩ := C38_isotropic num hn 160 80 3200 (by norm_num) (by norm_num)
    (by norm_num) s hs o ho 0 0
  rw [hiso]
  intro p
  fin_cases p
  · show Real.sqrt _ / 1000 ≠ 0
    positivity
  · show Real.sqrt _ / 1000 ≠ 0
    positivity
  · show Real.sqrt _ / 1000 ≠ 0
    positivity

/-- C65, polarisation figure: false of the code.  The arrows hold the components of the group
velocity.  For an isotropic medium with `K = 160`, `G = 80` GPa and density 3200 kg/m³, on every grid,
the arrow of every wave at the node on the x axis is not its polarisation, nor the opposite. -/
theorem C65_polarization_violated (num : Numerics) (hn : EighCorrect num) (hp : PinvCorrect num)
    (o : Seismic) (ho : seismic (isotropic 160 80) 3200 = .ok o) (ntheta nphi : ℕ)
    (h1 : 2 ≤ ntheta) (h2 : 2 ≤ nphi) (st : State) (t : Tables)
    (ht : scan num o ntheta nphi st = .ok t) (p : Fin 3) :
    ∃ (u v : List ℝ) (ux : ℝ) (pol : M3), arrows (exported t) (waveKey p) = .ok (u, v) ∧
      u[(ntheta - 1) * nphi]? = some ux ∧
      lookAt num o (Real.pi / 2) 0 .eigenvec = .ok (.mat pol) ∧
      ux ≠ pol p 0 ∧ ux ≠ -pol p 0 := by
  obtain ⟨t', ht', -, hrow⟩ := C43_rows num o ntheta nphi h1 h2 st
  rw [ht] at ht'
  cases ht'
  obtain ⟨-, eT, eP, -, -, -⟩ := C43_ends ntheta nphi h1 h2
  obtain ⟨row, hr, pv, ga, pf, en, pol, gv, e1, e2, e3, -, -, -, -, -, -, -, -, -, -, -, -, r9, -⟩ :=
    hrow (ntheta - 1) (by omega) 0 (by omega) p
  rw [eT, eP] at e1 e2 e3
  obtain ⟨s, hs⟩ : ∃ s, soec (isotropic 160 80) 3200 = .ok s :=
    ⟨_, if_neg (iso_det (by norm_num) (by norm_num))⟩
  obtain ⟨-, hread, -, -⟩ := C38_isotropic num hn 160 80 3200 (by norm_num) (by norm_num)
    (by norm_num) s hs o ho (Real.pi / 2) 0
  have hread := hread {}
  obtain ⟨pv', gv', f1, f2, -, -, -, f3⟩ := C74_isotropic_rays num hn hp 160 80 3200 (by norm_num)
    (by norm_num) (by norm_num) o ho (Real.pi / 2) 0 {}
  have hgv : gv' = gv := by
    have : Except.ok (Value.mat gv') = Except.ok (Value.mat gv) := f2.symm.trans e3
    cases this
    rfl
  have hpv : pv' = ![5, 5, Real.sqrt (10 ^ 9 * (160 + 4 * 80 / 3) / 3200) / 1000] := by
    have h5 : Real.sqrt (10 ^ 9 * 80 / 3200) / 1000 = 5 := by
      rw [sqrt_of_sq (y := 5000) (by norm_num) (by norm_num)]; norm_num
    rw [h5] at hread
    have := f1.symm.trans hread
    cases this
    rfl
  have hbig : 1 < pv' p := by
    rw [hpv]
    have : 1 < Real.sqrt (10 ^ 9 * (160 + 4 * 80 / 3) / 3200) / 1000 := by
      rw [lt_div_iff₀ (by norm_num)]
      exact Real.lt_sqrt_of_sq_lt (by norm_num)
    fin_cases p
    · show (1 : ℝ) < 5
      norm_num
    · show (1 : ℝ) < 5
      norm_num
    · exact this
  have hux : row 9 = pv' p := by
    rw [r9, ← hgv, (f3 p).2 0]
    simp [vector]
  obtain ⟨-, -, hf, -⟩ := sortedEigh_spec hn
    (fun a b => christoffel_symm (fun i j => (isotropic_symm 160 80).apply j i) ho
      (seismicVector (Real.pi / 2) 0) a b)
  have g : Good num o ⟨seismicVector (Real.pi / 2) 0, Real.pi / 2, 0⟩
      (step num o (.spherical (Real.pi / 2) 0) {}).2 :=
    set_good (num := num) (o := o) (op := .spherical (Real.pi / 2) 0) rfl {}
  have hpol : pol = (⟨seismicVector (Real.pi / 2) 0, Real.pi / 2, 0⟩ : Dir).eigenvec num o := by
    have := e2.symm.trans (step_read g .eigenvec)
    simp only [Dir.value] at this
    cases this
    rfl
  have hle : |pol p 0| ≤ 1 := by
    have hn1 : dot (pol p) (pol p) = 1 := by
      rw [hpol]
      have := hf p p
      rw [if_pos rfl] at this
      exact this
    simp only [dot, Fin.sum_univ_three] at hn1
    refine abs_le_one_iff_mul_self_le_one.2 ?_
    nlinarith [mul_self_nonneg (pol p 1), mul_self_nonneg (pol p 2)]
  have hb := abs_le.1 hle
  refine ⟨column (t.get p) 9, column (t.get p) 10, row 9, pol, ?_, ?_, e2, ?_, ?_⟩
  · simp only [arrows, column_ok, bind, Except.bind]
  · simp only [column, List.getElem?_map]
    rw [show (ntheta - 1) * nphi = (ntheta - 1) * nphi + 0 from rfl, hr, Option.map_some]
  · rw [hux]; intro h; linarith [hb.2]
  · rw [hux]; intro h; linarith [hb.1]

/-- C65, header: false of the code.  The header announces column 13 as the base-10 logarithm of the
enhancement factor; the column holds the enhancement factor itself, which is never its own
logarithm. -/
theorem C65_header_violated (num : Numerics) (o : Seismic) (ntheta nphi : ℕ) (h1 : 2 ≤ ntheta)
    (h2 : 2 ≤ nphi) (st : State) (t : Tables) (ht : scan num o ntheta nphi st = .ok t) (p : Fin 3)
    (i j : ℕ) (hi : i < ntheta) (hj : j < nphi) :
    (13, c!"Enhancement factor (log_10A)") ∈ header ∧
    ∃ (c : List ℝ) (en : V3) (x : ℝ), getDataColumn (exported t) (waveKey p) 13 = .ok c ∧
      lookAt num o (gridTheta ntheta i) (gridPhi nphi j) .enhancement = .ok (.vec en) ∧
      c[i * nphi + j]? = some x ∧ (0 < en p → x ≠ Real.log (en p) / Real.log 10) := by
  obtain ⟨t', ht', -, hrow⟩ := C43_rows num o ntheta nphi h1 h2 st
  rw [ht] at ht'
  cases ht'
  obtain ⟨row, hr, pv, ga, pf, en, pol, gv, -, -, -, -, -, e6, -, -, -, -, -, -, -, -, -, -, -, -, -,
    r13⟩ := hrow i hi j hj p
  refine ⟨by simp [header], _, en, row 13, column_ok t p 13, e6, ?_, fun h0 => ?_⟩
  · simp only [column, List.getElem?_map, hr, Option.map_some]
  · rw [r13]
    have hl10 : 1 ≤ Real.log 10 := by
      rw [Real.le_log_iff_exp_le (by norm_num)]
      have := Real.exp_one_lt_d9
      linarith
    intro h
    have hlt : Real.log (en p) < en p := by
      have := Real.log_le_sub_one_of_pos h0
      linarith
    have : en p * Real.log 10 = Real.log (en p) := by
      rw [h]; field_simp
      rw [← h]
    nlinarith

/-- The hypotheses of the two theorems above are met, and the enhancement factor is positive: it is
1 in an isotropic medium, where the announced value would be 0. -/
example : ∃ (num : Numerics) (o : Seismic) (t : Tables), EighCorrect num ∧ PinvCorrect num ∧
    seismic (isotropic 160 80) 3200 = .ok o ∧ scan num o 4 5 {} = .ok t ∧
    lookAt num o (gridTheta 4 1) (gridPhi 5 2) .enhancement = .ok (.vec fun _ => 1) := by
  obtain ⟨num, hn, hp⟩ := exists_numerics
  obtain ⟨o, ho⟩ : ∃ o, seismic (isotropic 160 80) 3200 = .ok o :=
    ⟨_, if_neg (iso_det (by norm_num) (by norm_num))⟩
  obtain ⟨t, ht, -⟩ := C43_rows num o 4 5 (by norm_num) (by norm_num) {}
  obtain ⟨-, -, -, -, -, -, h, -⟩ := C74_isotropic_rays num hn hp 160 80 3200 (by norm_num)
    (by norm_num) (by norm_num) o ho (gridTheta 4 1) (gridPhi 5 2) {}
  exact ⟨num, o, t, hn, hp, ho, ht, h⟩

end Verif.Seismic
