/-
C95 and C96: the units and the data sets of the elastic result file.
-/
import Verif.Polar.Props

noncomputable section

namespace Verif.Polar
open Verif.Py Verif.Elastic Verif.Elastic.Spec Verif.Seismic Verif.Seismic.Spec Spec

/-! ### Vocabulary -/

/-- What one of a unit is in SI units. -/
def Spec.si : Str → Option ℝ := fun u =>
  if u = c!"GPa" then some (10 ^ 9)
  else if u = c!"TPa^-1" then some (1 / 10 ^ 12)
  else if u = c!"km s^-1" then some 1000
  else if u = [] then some 1
  else none

/-- The list of the SI values, for a solid with the stiffness `C` (Pa) and the density (kg m^-3), along the
direction `a`: as `Listed`, with all quantities in SI units. -/
def Spec.SIListed (C : M6) (density : ℝ) (a : V3) : Var → List ℝ → Prop
  | .E, l => ∃ E, l = [E] ∧ IsYoung C a E
  | .LC, l => ∃ p q β, l = [p, q] ∧ IsCompressibility C a β ∧ 0 ≤ p ∧ 0 ≤ q ∧ (p = 0 ∨ q = 0) ∧ p - q = β
  | .G, l => ∃ lo hi, l = [lo, hi] ∧ lo ≤ hi ∧ Attained a (IsShear C a) lo ∧ Attained a (IsShear C a) hi
  | .Nu, l => ∃ n p lo hi, l = [n, p, hi] ∧ n ≤ 0 ∧ 0 ≤ p ∧ (n = 0 ∨ p = 0) ∧ n + p = lo ∧ lo ≤ hi ∧
      Attained a (IsPoisson C a) lo ∧ Attained a (IsPoisson C a) hi
  | .waves, l => ∃ V : V3, (∀ i, 0 ≤ V i) ∧ Spectrum (acoustic (cTensor C) density a) (fun i => V i ^ 2) ∧
      l = [V 0, V 1, V 2]

/-- The stiffness in pascal of a stiffness in gigapascal. -/
def Spec.pascal (C : M6) : M6 := Matrix.of fun i j => 10 ^ 9 * C i j

/-- The numbers are eigenvalues of the matrix. -/
def Spec.Eigenvalues (C : M6) (l : List ℝ) : Prop := ∀ x ∈ l, ∃ w : Fin 6 → ℝ, w ≠ 0 ∧ ∀ i, ∑ j, C i j * w j = x * w i

/-! ### Scaling -/

theorem hooke_scale {C : M6} {ε σ : T2} (h : Hooke C ε σ) :
    Hooke (pascal C) (fun i j => ε i j / 10 ^ 9) σ := by
  obtain ⟨h1, h2, h3⟩ := h
  refine ⟨fun i j => by simp only [h1 i j], h2, fun I => ?_⟩
  rw [h3]
  refine Finset.sum_congr rfl fun J _ => ?_
  have : voigtStrain (fun i j => ε i j / 10 ^ 9) J = voigtStrain ε J / 10 ^ 9 := by
    fin_cases J <;> simp [voigtStrain] <;> ring
  rw [this, pascal, Matrix.of_apply]
  ring

theorem along_scale (ε : T2) (a b : V3) : along (fun i j => ε i j / 10 ^ 9) a b = along ε a b / 10 ^ 9 := by
  simp only [along, Finset.sum_div]
  refine Finset.sum_congr rfl fun i _ => Finset.sum_congr rfl fun j _ => ?_
  ring

theorem young_scale {C : M6} {a : V3} {E : ℝ} (h : IsYoung C a E) : IsYoung (pascal C) a (10 ^ 9 * E) := by
  obtain ⟨ε, h1, h2⟩ := h
  refine ⟨_, hooke_scale h1, ?_⟩
  rw [along_scale, ← h2]
  ring

theorem compressibility_scale {C : M6} {a : V3} {β : ℝ} (h : IsCompressibility C a β) :
    IsCompressibility (pascal C) a (β / 10 ^ 9) := by
  obtain ⟨ε, h1, h2⟩ := h
  refine ⟨_, hooke_scale h1, ?_⟩
  rw [along_scale, h2]
  ring

theorem shear_scale {C : M6} {a b : V3} {G : ℝ} (h : IsShear C a b G) : IsShear (pascal C) a b (10 ^ 9 * G) := by
  obtain ⟨ε, h1, h2⟩ := h
  refine ⟨_, hooke_scale h1, ?_⟩
  rw [along_scale, ← h2]
  ring

theorem poisson_scale {C : M6} {a b : V3} {x : ℝ} (h : IsPoisson C a b x) : IsPoisson (pascal C) a b x := by
  obtain ⟨ε, h1, h2⟩ := h
  refine ⟨_, hooke_scale h1, ?_⟩
  rw [along_scale, along_scale, ← neg_div, ← h2]
  ring

theorem cTensor_scale (C : M6) : cTensor (pascal C) = fun i j k l => 10 ^ 9 * cTensor C i j k l := by
  funext i j k l
  simp only [cTensor, pascal, Matrix.of_apply]

/-- The values of the list, times the unit. -/
theorem listed_si {C : M6} {density : ℝ} {a : V3} {v : Var} {l : List ℝ} (h : Listed C density a v l) :
    ∃ s, si (unitOf c!"GPa" v) = some s ∧ SIListed (pascal C) density a v (l.map (s * ·)) := by
  cases v with
  | E =>
    obtain ⟨E, rfl, h⟩ := h
    exact ⟨10 ^ 9, by simp [si, unitOf], _, rfl, young_scale h⟩
  | LC =>
    obtain ⟨p, q, β, rfl, h1, h2, h3, h4, h5⟩ := h
    refine ⟨1 / 10 ^ 12, by simp [si, unitOf], _, _, _, rfl, compressibility_scale h1, by positivity, by positivity,
      ?_, ?_⟩
    · rcases h4 with rfl | rfl
      · exact .inl (mul_zero _)
      · exact .inr (mul_zero _)
    · rw [← mul_sub, h5]; ring
  | G =>
    obtain ⟨lo, hi, rfl, h1, ⟨b, hb, h2⟩, ⟨c, hc, h3⟩⟩ := h
    exact ⟨10 ^ 9, by simp [si, unitOf], _, _, rfl, by nlinarith, ⟨b, hb, shear_scale h2⟩, ⟨c, hc, shear_scale h3⟩⟩
  | Nu =>
    obtain ⟨n, p, lo, hi, rfl, h1, h2, h3, h4, h5, ⟨b, hb, h6⟩, ⟨c, hc, h7⟩⟩ := h
    exact ⟨1, by simp [si, unitOf], n, p, lo, hi, by simp, h1, h2, h3, h4, h5, ⟨b, hb, poisson_scale h6⟩,
      ⟨c, hc, poisson_scale h7⟩⟩
  | waves =>
    obtain ⟨V, ⟨h1, h2⟩, rfl⟩ := h
    refine ⟨1000, by simp [si, unitOf], fun i => 1000 * V i, fun i => ?_, ?_, rfl⟩
    · have := h1 i; positivity
    · rw [cTensor_scale]; exact h2

/-! ### The data sets -/

/-- The quantities of a plane. -/
def vars (waves : Bool) : List Var := [.E, .LC, .G, .Nu] ++ if waves then [.waves] else []

/-- The dictionary of the planes, from its tables. -/
def sectionsOf {α : Type} (waves : Bool) (tab : Plane → Var → List (List α)) : Sections α :=
  [Plane.xy, .xz, .yz].map fun k => (k, (vars waves).map fun v => (v, tab k v))

theorem lookup_section {α : Type} (punit : Str) (waves : Bool) (tab : Plane → Var → List (List α)) (r : Results α)
    (hr : r.polar = sectionsOf waves tab) (k : Plane) (v : Var) (hv : v ∈ vars waves) :
    (saveElastic punit r).sets.lookup (setName v k) = some (.mat (tab k v), unitOf punit v) := by
  unfold saveElastic
  rw [hr]
  cases waves
  · cases v <;> first | (exact absurd hv (by decide)) | (cases k <;> rfl)
  · cases v <;> cases k <;> rfl

theorem lookup_no_waves {α : Type} (punit : Str) (tab : Plane → Var → List (List α)) (r : Results α)
    (hr : r.polar = sectionsOf false tab) (k : Plane) : (saveElastic punit r).sets.lookup (setName .waves k) = none := by
  unfold saveElastic
  rw [hr]
  cases k <;> rfl

/-- The table of a quantity on a plane, as it is calculated. -/
def tableAt (powell : Powell) (num : Numerics) (o : Solid) (n : ℕ) (k : Plane) (v : Var) : List (List ℝ) :=
  let phi := linspace 0 (2 * Real.pi) n
  let half := List.replicate n (Real.pi / 2)
  let zero := List.replicate n (0 : ℝ)
  withDegrees phi (eachNode (valuesAt powell num o v)
    (match k with | .xy => half | _ => phi) (match k with | .xy => phi | .xz => zero | .yz => half))

open Classical in
theorem calculatePolar_eq (powell : Powell) (num : Numerics) (o : Solid) (n : ℕ) :
    calculatePolar powell num o n = sectionsOf (decide (0 < o.soec.density)) (tableAt powell num o n) := by
  unfold calculatePolar sectionsOf vars sections
  by_cases h : 0 < o.soec.density
  · simp only [gt_iff_lt, h, if_true, decide_true, List.map_cons, List.map_nil, List.map_append]
    rfl
  · simp only [gt_iff_lt, h, if_false, decide_false, List.map_cons, List.map_nil, List.map_append]
    rfl

/-- The tables of the placeholders. -/
def zeros {α : Type} [Zero α] (_ : Plane) : Var → List (List α)
  | .E => [[0, 0]]
  | .LC => [[0, 0, 0]]
  | .G => [[0, 0, 0]]
  | .Nu => [[0, 0, 0, 0]]
  | .waves => [[0, 0, 0, 0]]

theorem placeholders_eq {α : Type} [Zero α] : (placeholders : Sections α) = sectionsOf true zeros := rfl

theorem mem_vars {waves : Bool} {v : Var} : v ∈ vars waves ↔ (v = .waves → waves = true) := by
  cases waves <;> cases v <;> simp [vars]

open Classical in
theorem mem_vars_available {density : ℝ} {v : Var} : v ∈ vars (decide (0 < density)) ↔ available density v := by
  rw [mem_vars]; simp [available]

/-- A section that was calculated is in the file. -/
theorem lookup_polar (eigvals : M6 → List ℝ) (powell : Powell) (num : Numerics) (o : Solid) (punit : Str) (k : Plane)
    (v : Var) (hv : available o.soec.density v) :
    ∃ table, (calculatePolar powell num o 360).table k v = some table ∧
      (saveElastic punit (finalResults eigvals powell num o true)).sets.lookup (setName v k) =
        some (.mat table, unitOf punit v) := by
  classical
  refine ⟨tableAt powell num o 360 k v, ?_, lookup_section punit _ _ _ (calculatePolar_eq powell num o 360) k v
    (mem_vars_available.2 hv)⟩
  rw [calculatePolar_eq]
  have := mem_vars_available.2 hv
  revert this
  generalize decide (0 < o.soec.density) = w
  intro hw
  cases w <;> cases v <;> first | (exact absurd hw (by decide)) | (cases k <;> rfl)

/-- C95, in part: for every stable solid, the numbers of the file times the unit recorded beside them are the
quantities in SI units: the stiffness, its eigenvalues and every section.  Missing: the compliance and
the averages, see the next theorems, and solids that are orthorhombic only within the tolerance of the
classifier, see `C94_near_violated`. -/
theorem C95_units_partial (C : M6) (hC : C.PosDef) (density : ℝ) (sys : System) (o : Solid)
    (h : load C density = .ok (sys, o)) (ho : sys = .orthorhombic → OrthorhombicForm C)
    (powell : Powell) (hp : Descends powell) (num : Numerics) (hn : EighCorrect num)
    (eigvals : M6 → List ℝ) (he : Eigenvalues C (eigvals C)) :
    let file := saveElastic c!"GPa" (finalResults eigvals powell num o true)
    (∃ rows unit s, file.sets.lookup c!"stiffness" = some (.mat rows, unit) ∧ si unit = some s ∧
      ∀ i j : Fin 6, ∃ row x, rows[i.val]? = some row ∧ row[j.val]? = some x ∧ s * x = pascal C i j) ∧
    (∃ l unit s, file.sets.lookup c!"eigenvals" = some (.vec l, unit) ∧ si unit = some s ∧
      Eigenvalues (pascal C) (l.map (s * ·))) ∧
    (∀ k v, available density v → ∃ rows unit s, file.sets.lookup (setName v k) = some (.mat rows, unit) ∧
      si unit = some s ∧ rows.length = 360 ∧ ∀ i < 360, ∃ values, rows[i]? = some (angle 360 i :: values) ∧
        SIListed (pascal C) density (direction k (radians (angle 360 i))) v (values.map (s * ·))) := by
  obtain ⟨-, -, hc, -, hd, -⟩ := load_solid h
  refine ⟨⟨rowsOf C, c!"GPa", 10 ^ 9, by rw [← hc]; rfl, by simp [si], fun i j => ?_⟩, ⟨eigvals C, c!"GPa", 10 ^ 9, ?_,
    by simp [si], ?_⟩, fun k v hv => ?_⟩
  · refine ⟨(List.finRange 6).map fun j => C i j, C i j, ?_, ?_, rfl⟩
    · simp [rowsOf]
    · simp
  · rw [← hc]; rfl
  · intro x hx
    obtain ⟨y, hy, rfl⟩ := List.mem_map.1 hx
    obtain ⟨w, h1, h2⟩ := he y hy
    refine ⟨w, h1, fun i => ?_⟩
    rw [mul_assoc, ← h2, Finset.mul_sum]
    exact Finset.sum_congr rfl fun j _ => by rw [pascal, Matrix.of_apply]; ring
  · obtain ⟨table, h1, h2⟩ := lookup_polar eigvals powell num o c!"GPa" k v (hd ▸ hv)
    obtain ⟨h3, -⟩ := C94_sections_partial C hC density sys o h ho powell hp num hn 360 (by norm_num)
    obtain ⟨table', e1, e2, e3⟩ := h3 k v hv
    rw [h1] at e1
    cases e1
    obtain ⟨values0, -, l0⟩ := e3 0 (by norm_num)
    obtain ⟨s, hs, -⟩ := listed_si l0
    refine ⟨table, _, s, h2, hs, e2, fun i hi => ?_⟩
    obtain ⟨values, v1, v2⟩ := e3 i hi
    obtain ⟨s', hs', v3⟩ := listed_si v2
    rw [hs] at hs'
    cases hs'
    exact ⟨values, v1, v3⟩

theorem pascal_inv {C : M6} (h : C.det ≠ 0) : (pascal C)⁻¹ = Matrix.of fun i j => C⁻¹ i j / 10 ^ 9 := by
  refine Matrix.inv_eq_right_inv ?_
  have h1 : C * C⁻¹ = 1 := Matrix.mul_nonsing_inv C (isUnit_iff_ne_zero.2 h)
  ext i j
  rw [← h1, Matrix.mul_apply, Matrix.mul_apply]
  refine Finset.sum_congr rfl fun k _ => ?_
  rw [pascal, Matrix.of_apply, Matrix.of_apply]
  ring

/-- C95, violated: the compliance is recorded in TPa^-1, but the numbers are in GPa^-1: for every solid, every
number times the recorded unit is a thousandth of the compliance, which differs wherever it is not zero. -/
theorem C95_compliance_violated (C : M6) (density : ℝ) (sys : System) (o : Solid) (h : load C density = .ok (sys, o))
    (eigvals : M6 → List ℝ) (powell : Powell) (num : Numerics) (polar : Bool) :
    ∃ rows unit s,
      (saveElastic c!"GPa" (finalResults eigvals powell num o polar)).sets.lookup c!"compliance" = some (.mat rows, unit) ∧
      si unit = some s ∧
      (∀ i j : Fin 6, ∃ row x, rows[i.val]? = some row ∧ row[j.val]? = some x ∧ 1000 * (s * x) = (pascal C)⁻¹ i j) ∧
      (∃ i j : Fin 6, ∃ row x, rows[i.val]? = some row ∧ row[j.val]? = some x ∧ s * x ≠ (pascal C)⁻¹ i j) := by
  obtain ⟨-, -, -, hs, -, hdet, -⟩ := load_solid h
  have hrow : ∀ i j : Fin 6, ∃ row x, (rowsOf C⁻¹)[i.val]? = some row ∧ row[j.val]? = some x ∧ x = C⁻¹ i j := by
    intro i j
    refine ⟨(List.finRange 6).map fun j => C⁻¹ i j, C⁻¹ i j, ?_, ?_, rfl⟩
    · simp [rowsOf]
    · simp
  refine ⟨rowsOf C⁻¹, c!"TPa^-1", 1 / 10 ^ 12, by rw [← hs]; rfl, by simp [si], fun i j => ?_, ?_⟩
  · obtain ⟨row, x, h1, h2, rfl⟩ := hrow i j
    refine ⟨row, _, h1, h2, ?_⟩
    rw [pascal_inv hdet, Matrix.of_apply]
    ring
  · obtain ⟨i, j, hij⟩ : ∃ i j, C⁻¹ i j ≠ 0 := by
      by_contra hn
      push Not at hn
      have : C⁻¹ = 0 := by ext i j; exact hn i j
      have h1 : C * C⁻¹ = 1 := Matrix.mul_nonsing_inv C (isUnit_iff_ne_zero.2 hdet)
      rw [this, Matrix.mul_zero] at h1
      have := congrFun (congrFun h1 0) 0
      simp at this
    obtain ⟨row, x, h1, h2, rfl⟩ := hrow i j
    refine ⟨i, j, row, _, h1, h2, ?_⟩
    rw [pascal_inv hdet, Matrix.of_apply]
    intro he
    apply hij
    have : C⁻¹ i j * (1 / 10 ^ 9 - 1 / 10 ^ 12) = 0 := by linear_combination -he
    rcases mul_eq_zero.1 this with h | h
    · exact h
    · norm_num at h

/-- C95, violated: the averages are recorded in GPa although the last number of each row is Poisson's ratio,
a number without unit: for every solid, the recorded value is `10 ^ 9` times too large. -/
theorem C95_averages_violated (o : Solid) (eigvals : M6 → List ℝ) (powell : Powell) (num : Numerics) (polar : Bool) :
    ∃ rows unit s,
      (saveElastic c!"GPa" (finalResults eigvals powell num o polar)).sets.lookup c!"averages" = some (.mat rows, unit) ∧
      si unit = some s ∧ s = 10 ^ 9 ∧ rows.length = 3 ∧
      ∀ row ∈ rows, ∃ K E G ν, row = [K, E, G, ν] ∧ ν = (1 - 3 * G / (3 * K + G)) / 2 ∧ (ν ≠ 0 → s * ν ≠ ν) := by
  refine ⟨_, _, 10 ^ 9, rfl, by simp [si], rfl, rfl, fun row hrow => ?_⟩
  have key : ∀ a : Average, a.nu = (1 - 3 * a.G / (3 * a.K + a.G)) / 2 → ∃ K E G ν, averageList a = [K, E, G, ν] ∧
      ν = (1 - 3 * G / (3 * K + G)) / 2 ∧ (ν ≠ 0 → (10 ^ 9 : ℝ) * ν ≠ ν) := by
    intro a ha
    refine ⟨a.K, a.E, a.G, a.nu, rfl, ha, fun h0 he => h0 ?_⟩
    linarith
  have hrow' : row = averageList o.soec.averages.voigt ∨ row = averageList o.soec.averages.reuss ∨
      row = averageList o.soec.averages.hill := by
    simpa [finalResults] using hrow
  rcases hrow' with rfl | rfl | rfl <;> exact key _ rfl

/-! ### C96 -/

/-- C96, in part: after a run with `--polar` the file holds a section for each plane and each quantity that was
calculated, with the table that was calculated, and no section of the velocities when there is no density. -/
theorem C96_calculated_partial (o : Solid) (eigvals : M6 → List ℝ) (powell : Powell) (num : Numerics) (punit : Str)
    (k : Plane) (v : Var) :
    (available o.soec.density v → ∃ table, (calculatePolar powell num o 360).table k v = some table ∧
      (saveElastic punit (finalResults eigvals powell num o true)).sets.lookup (setName v k) =
        some (.mat table, unitOf punit v)) ∧
    (¬ available o.soec.density v →
      (saveElastic punit (finalResults eigvals powell num o true)).sets.lookup (setName v k) = none) := by
  classical
  refine ⟨lookup_polar eigvals powell num o punit k v, fun hv => ?_⟩
  have hw : v = .waves ∧ ¬ 0 < o.soec.density := by simpa [available] using hv
  obtain ⟨rfl, hw⟩ := hw
  refine lookup_no_waves punit (tableAt powell num o 360) _ ?_ k
  rw [← decide_eq_false hw]
  exact calculatePolar_eq powell num o 360

/-- C96: the text of the file names the unit of the moduli the user chose, so that files written with different units have
different texts, and the stiffness, the averages and the eigenvalues carry that unit. -/
theorem C96_unit {α : Type} (punit punit' : Str) (r r' : Results α) :
    ((saveElastic punit r).info = (saveElastic punit' r').info ↔ punit = punit') ∧
    (∃ before after, (saveElastic punit r).info = before ++ c!"pressure scale:    " ++ punit ++ '\n' :: after) ∧
    ∀ name ∈ [c!"stiffness", c!"averages", c!"eigenvals"], ∃ a, (saveElastic punit r).sets.lookup name = some (a, punit) := by
  refine ⟨⟨fun h => ?_, fun h => by rw [h]; rfl⟩, ?_, ?_⟩
  · simp only [saveElastic, infoText] at h
    exact List.append_cancel_left (List.append_cancel_right h)
  · exact ⟨c!"\nThis file was created with Quantas.\n\nIt contains the results of the analysis of the second-order elastic constants\n(SOECs) matrix in Voigt's notation, performed with the following settings:\n  - ",
      c!"  - density: kg m^-3\n\n", rfl⟩
  · intro name h
    simp only [List.mem_cons, List.not_mem_nil, or_false] at h
    rcases h with rfl | rfl | rfl
    · exact ⟨_, rfl⟩
    · exact ⟨_, rfl⟩
    · exact ⟨_, rfl⟩

/-- C96, violated: after a run without `--polar` the file holds fifteen sections that nobody calculated, with
one row of zeros each: a Young's modulus of zero along the direction at zero degrees, and velocities even
when there is no density. -/
theorem C96_placeholders_violated (o : Solid) (eigvals : M6 → List ℝ) (powell : Powell) (num : Numerics)
    (punit : Str) (k : Plane) (v : Var) : ∃ n,
    (saveElastic punit (finalResults eigvals powell num o false)).sets.lookup (setName v k) =
      some (.mat [List.replicate (n + 2) 0], unitOf punit v) := by
  have := lookup_section punit true zeros (finalResults eigvals powell num o false) placeholders_eq k v
    (by cases v <;> decide)
  rw [this]
  cases v
  · exact ⟨0, rfl⟩
  · exact ⟨1, rfl⟩
  · exact ⟨1, rfl⟩
  · exact ⟨2, rfl⟩
  · exact ⟨2, rfl⟩

end Verif.Polar
