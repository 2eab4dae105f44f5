/-
Cases that meet the hypotheses of C94, C95, C96, C99 and C183.
-/
import Mathlib.Algebra.Ring.Periodic
import Verif.Polar.Props
import Verif.Polar.Units
import Verif.Polar.Figures
import Verif.Polar.Sampling
import Verif.Polar.Across
import Verif.Seismic.Derivative
import Verif.Seismic.Isotropic

noncomputable section

namespace Verif.Polar
open Verif.Py Verif.Elastic Verif.Elastic.Spec Verif.Seismic Verif.Seismic.Spec Spec

/-- A continuous function of period 2π has a least value. -/
theorem exists_least {f : ℝ → ℝ} (hf : Continuous f) (hp : ∀ z, f (z + 2 * Real.pi) = f z) :
    ∃ m, ∀ z, f m ≤ f z := by
  obtain ⟨m, -, hm⟩ := (isCompact_Icc (a := (0 : ℝ)) (b := 2 * Real.pi)).exists_isMinOn
    ⟨0, by simp [Real.pi_pos.le]⟩ hf.continuousOn
  refine ⟨m, fun z => ?_⟩
  have hper : Function.Periodic f (2 * Real.pi) := hp
  obtain ⟨y, hy, e⟩ := hper.exists_mem_Ico₀ (by positivity) z
  rw [e]
  exact hm ⟨hy.1, hy.2.le⟩

/-- There are searches that descend and find the least values, as the theorems ask. -/
theorem exists_powell : ∃ powell : Powell, Descends powell ∧ Global powell := by
  classical
  refine ⟨fun f x => if h : ∃ m, ∀ z, f m ≤ f z then ⟨h.choose, f h.choose⟩ else ⟨x, f x⟩, fun f x => ?_,
    fun f hf hp x z => ?_⟩
  · by_cases h : ∃ m, ∀ z, f m ≤ f z
    · simp only [dif_pos h]
      exact ⟨trivial, h.choose_spec x⟩
    · simp only [dif_neg h]
      exact ⟨trivial, le_refl _⟩
  · have h := exists_least hf hp
    simp only [dif_pos h]
    exact h.choose_spec z

theorem isotropic_form (K G : ℝ) : OrthorhombicForm (isotropic K G) := by
  refine ⟨isotropic_symm K G, ?_⟩
  intro i j hij h
  fin_cases i <;> fin_cases j <;> simp [isotropic] at hij h ⊢

/-- C94, C99: the hypotheses hold for an isotropic solid with the density of olivine. -/
example : ∃ (C : M6) (sys : System) (o : Solid) (powell : Powell) (num : Numerics), C.PosDef ∧
    load C 3200 = .ok (sys, o) ∧ (sys = .orthorhombic → OrthorhombicForm C) ∧ Descends powell ∧ Global powell ∧
    EighCorrect num ∧ ∀ v, available 3200 v := by
  have hpd := isotropic_posDef (K := 130) (G := 80) (by norm_num) (by norm_num)
  obtain ⟨sys, o, ho⟩ := load_of_symm (posDef_det hpd) (isotropic_symm 130 80) 3200
  obtain ⟨powell, hd, hg⟩ := exists_powell
  obtain ⟨num, hn, -⟩ := exists_numerics
  exact ⟨_, sys, o, powell, num, hpd, ho, fun _ => isotropic_form 130 80, hd, hg, hn,
    fun v _ => by norm_num⟩

/-- C94: a solid that is not isotropic: its compressibility is negative along y and z. -/
example : ∃ (sys : System) (o : Solid), stretchC.PosDef ∧ load stretchC 0 = .ok (sys, o) ∧ ¬ available 0 .waves ∧
    available 0 .LC := by
  obtain ⟨sys, o, ho⟩ := load_of_symm (posDef_det stretch_posDef) stretch_symm 0
  exact ⟨sys, o, stretch_posDef, ho, by simp [available], by simp [available]⟩

/-- C95: the eigenvalues of an isotropic stiffness; the shear modulus is one of them. -/
example : Eigenvalues (isotropic 130 80) [80, 160, 390] := by
  intro x hx
  have hx' : x = 80 ∨ x = 160 ∨ x = 390 := by simpa using hx
  rcases hx' with rfl | rfl | rfl
  · refine ⟨![0, 0, 0, 1, 0, 0], fun h => by simpa using congrFun h 3, fun i => ?_⟩
    fin_cases i <;> simp [Fin.sum_univ_six, isotropic]
  · refine ⟨![1, -1, 0, 0, 0, 0], fun h => by simpa using congrFun h 0, fun i => ?_⟩
    fin_cases i <;> simp [Fin.sum_univ_six, isotropic] <;> norm_num
  · refine ⟨![1, 1, 1, 0, 0, 0], fun h => by simpa using congrFun h 0, fun i => ?_⟩
    fin_cases i <;> simp [Fin.sum_univ_six, isotropic] <;> norm_num

/-- The sections, figures and extremes of an isotropic solid, with a search that finds the least values. -/
example (n : ℕ) (h2 : 2 ≤ n) (k : Plane) (i : ℕ) (hi : i < n) (b : V3)
    (hb : Orthonormal (direction k (radians (angle n i))) b) : ∃ (sys : System) (o : Solid) (powell : Powell) (num : Numerics),
    load (isotropic 130 80) 3200 = .ok (sys, o) ∧
    (∃ table, (calculatePolar powell num o n).table k .waves = some table ∧ table.length = n) ∧
    (∃ table, (calculatePolar powell num o n).table k .E = some table ∧ WithinRange (axisOf .E k table)) ∧
    (∃ table lo hi, (calculatePolar powell num o n).table k .G = some table ∧ table[i]? = some [angle n i, lo, hi] ∧
      ∀ g, IsShear (isotropic 130 80) (direction k (radians (angle n i))) b g → lo ≤ g ∧ g ≤ hi) ∧
    ∀ v table, (calculatePolar powell num o n).table k v = some table →
      ∃ values, table[0]? = some (0 :: values) ∧ table[n - 1]? = some (360 :: values) := by
  have hpd := isotropic_posDef (K := 130) (G := 80) (by norm_num) (by norm_num)
  obtain ⟨sys, o, ho⟩ := load_of_symm (posDef_det hpd) (isotropic_symm 130 80) 3200
  obtain ⟨powell, hd, hg⟩ := exists_powell
  obtain ⟨num, hn, -⟩ := exists_numerics
  have hv : ∀ v, available 3200 v := fun v _ => by norm_num
  refine ⟨sys, o, powell, num, ho, ?_, ?_, ?_, fun v table h => C94_closed o powell num n h2 k v table h⟩
  · obtain ⟨t, h, hl, -⟩ := (C94_sections_partial _ hpd 3200 sys o ho (fun _ => isotropic_form 130 80) powell hd num hn n h2).1
      k .waves (hv _)
    exact ⟨t, h, hl⟩
  · obtain ⟨t, h, hr⟩ := C99_range_partial _ hpd 3200 sys o ho (fun _ => isotropic_form 130 80) powell hd num hn n h2 k .E (hv _)
      (by decide)
    exact ⟨t, h, hr (by intro h; cases h)⟩
  · exact (C94_extremes _ hpd 3200 sys o ho (fun _ => isotropic_form 130 80) powell hd hg num n h2 k i hi b hb).1

/-- C183: two different solids with the same Young's modulus in the rows of the table, and so between them. -/
example (powell : Powell) (num : Numerics) : ∃ (sys sys' : System) (o o' : Solid), load (isotropic 100 100) 3200 = .ok (sys, o) ∧
    load (isotropic 400 80) 3200 = .ok (sys', o') ∧
    (calculatePolar powell num o 360).table .xz .E = (calculatePolar powell num o' 360).table .xz .E ∧
    ∀ t E, IsYoung (isotropic 100 100) (direction .xz t) E ↔ IsYoung (isotropic 400 80) (direction .xz t) E := by
  have h1 := isotropic_posDef (K := 100) (G := 100) (by norm_num) (by norm_num)
  have h2 := isotropic_posDef (K := 400) (G := 80) (by norm_num) (by norm_num)
  obtain ⟨sys, o, ho⟩ := load_of_symm (posDef_det h1) (isotropic_symm 100 100) 3200
  obtain ⟨sys', o', ho'⟩ := load_of_symm (posDef_det h2) (isotropic_symm 400 80) 3200
  have ht : (calculatePolar powell num o 360).table .xz .E = (calculatePolar powell num o' 360).table .xz .E := by
    rw [tables_agree powell num o o' (by norm_num) .xz .E (by simp)]
    intro i _
    simp only [valuesAt]
    rw [(solid_generic ho fun _ => isotropic_form 100 100).1, (solid_generic ho' fun _ => isotropic_form 400 80).1,
      (C32_isotropic 100 100 3200 (by norm_num) (by norm_num) (by norm_num) _ (load_solid ho).1 _).1,
      (C32_isotropic 400 80 3200 (by norm_num) (by norm_num) (by norm_num) _ (load_solid ho').1 _).1]
    norm_num
  exact ⟨sys, sys', o, o', ho, ho', ht, (C183_young _ _ h1 h2 3200 3200 sys sys' o o' ho ho' (fun _ => isotropic_form 100 100)
    (fun _ => isotropic_form 400 80) powell num 360 (by norm_num) .xz).1 ht⟩
example (powell : Powell) (num : Numerics) : ∃ (sys : System) (o : Solid), load stretchC 0 = .ok (sys, o) ∧
    ((sys = .orthorhombic → OrthorhombicForm stretchC) → ∀ sys' o', load (isotropic 130 80) 0 = .ok (sys', o') →
      ((calculatePolar powell num o 360).table .xy .LC = (calculatePolar powell num o' 360).table .xy .LC ↔
        ∀ t β, IsCompressibility stretchC (direction .xy t) β ↔ IsCompressibility (isotropic 130 80) (direction .xy t) β)) := by
  obtain ⟨sys, o, ho⟩ := load_of_symm (posDef_det stretch_posDef) stretch_symm 0
  exact ⟨sys, o, ho, fun hs sys' o' h' => C183_compressibility _ _ stretch_posDef
    (isotropic_posDef (K := 130) (G := 80) (by norm_num) (by norm_num)) 0 0 sys sys' o o' ho h' hs (fun _ => isotropic_form 130 80)
    powell num 360 (by norm_num) .xy⟩

theorem stretch_form : OrthorhombicForm stretchC := by
  refine ⟨stretch_symm, ?_⟩
  intro i j hij h
  fin_cases i <;> fin_cases j <;> simp [stretchC] at hij h ⊢

/-- C186: a solid with negative compressibilities and a search that settles; the sum of its Poisson's ratios along each row. -/
example (n : ℕ) (h2 : 2 ≤ n) (k : Plane) (i : ℕ) (hi : i < n) (b : V3) (hb : Orthonormal (direction k (radians (angle n i))) b)
    (num : Numerics) : ∃ (sys : System) (o : Solid) (powell : Powell), load stretchC 0 = .ok (sys, o) ∧ Settles powell := by
  obtain ⟨sys, o, ho⟩ := load_of_symm (posDef_det stretch_posDef) stretch_symm 0
  obtain ⟨powell, hd, hg⟩ := exists_powell
  have hs := settles_of_global hd hg
  have _a := C186_extremes_partial _ stretch_posDef 0 sys o ho (fun _ => stretch_form) powell hs num n h2 k i hi b hb
  have _b := C186_shear_partial _ stretch_posDef 0 sys o ho (fun _ => stretch_form) powell hs num n h2 k i hi
  have _c := C186_poisson_partial _ stretch_posDef 0 sys o ho (fun _ => stretch_form) powell hs num n h2 k i hi
  exact ⟨sys, o, powell, ho, hs⟩

end Verif.Polar
