/-
A concrete solid that meets the hypotheses of C161.
-/
import Verif.Elastic.BinaryCases
import Verif.Seismic.BinaryProps
import Verif.Seismic.Cases

noncomputable section

namespace Verif.Seismic.Rounded
open Verif.Elastic Verif.Elastic.Rounded Verif.Elastic.Rounded.Spec Verif.Seismic.Spec Verif.Seismic.Rounded.Spec
open Verif.Elastic.Spec (isotropic)
open Verif.Seismic.Cases (num)

open Classical in
/-- A library routine that returns the exact eigenvalues. -/
def exactEigh (M : M3) : V3 := if h : ∀ i j, M i j = M j i then Classical.choose (exists_spectrum M h) else 0

/-- It is accurate, to any precision. -/
theorem exactEigh_accurate {η : ℝ} (hη : 0 ≤ η) : EighAccurate η exactEigh := by
  refine ⟨fun M => ?_, fun M hM w hw B hB i => ?_⟩
  · unfold exactEigh
    split
    next h =>
      obtain ⟨e, h1, h2, -⟩ := Classical.choose_spec (exists_spectrum M h)
      intro i j hij
      fin_cases i <;> fin_cases j <;> first | exact le_rfl | exact h1 | exact h2 | exact h1.trans h2 | exact absurd hij (by decide)
    next => exact fun _ _ _ => le_rfl
  · have : exactEigh M = w := by
      unfold exactEigh
      rw [dif_pos hM]
      obtain ⟨e, h1, h2, h3⟩ := Classical.choose_spec (exists_spectrum M hM)
      exact spectrum_unique ⟨h1, h2, e, h3⟩ hw
    rw [this, sub_self, abs_zero]
    exact mul_nonneg hη ((abs_nonneg _).trans (hB 0 0))

theorem sums_exists (m : Machine) {k : ℕ} (a b : Fin (k + 1) → ℝ) : ∃ r, Sums m a b r := by
  have key : ∀ (l : List (ℝ × ℝ)) (p : ℝ × ℝ), ∃ r, Dot m (p :: l) r := by
    intro l
    induction l with
    | nil => exact fun p => ⟨_, .one p.1 p.2⟩
    | cons q l ih =>
      intro p
      obtain ⟨r, hr⟩ := ih q
      exact ⟨_, (Dot.one p.1 p.2).both hr⟩
  unfold Sums
  rw [List.finRange_succ]
  exact key _ _

/-- The computer returns some velocities. -/
theorem elastic_exists (m : Machine) (eigh : M3 → V3) (C : M6) (density theta phi : ℝ) :
    ∃ v, ElasticVelocities m eigh C density theta phi v := by
  choose f hf using fun (a b : Fin 6 → ℝ) => sums_exists m (k := 5) a b
  exact ⟨_, Matrix.of fun i j => f _ _, Matrix.of fun i j => f _ _, fun i j => hf _ _, fun i j => hf _ _, rfl⟩

theorem seismic_exists (m : Machine) (eigh : M3 → V3) (C : M6) (density theta phi : ℝ) :
    ∃ v, SeismicVelocities m eigh C density theta phi v := by
  choose f hf using fun (a b : Fin 3 → ℝ) => sums_exists m (k := 2) a b
  exact ⟨_, fun a b d => f _ _, Matrix.of fun a d => f _ _, fun a b d => hf _ _, fun a d => hf _ _, rfl⟩

/-- The exact velocities of an isotropic solid. -/
theorem isotropic_velocities {K G density : ℝ} (hK : 0 < K) (hG : 0 < G) (hd : 0 < density) (theta phi : ℝ) :
    PhaseVelocities (isotropic K G) density (Elastic.vector theta phi) ![√(10 ^ 9 * G / density) / 1000,
      √(10 ^ 9 * G / density) / 1000, √(10 ^ 9 * (K + 4 * G / 3) / density) / 1000] := by
  have hp := isotropic_posDef hK hG
  obtain ⟨s, hs⟩ := soec_of_det (posDef_det hp) density
  obtain ⟨o, ho⟩ : ∃ o, seismic (isotropic K G) density = .ok o := ⟨_, if_neg (posDef_det hp)⟩
  have h := (C37_velocities num Cases.eigh _ hp _ hd _ hs _ ho theta phi).1
  rw [(C38_isotropic num Cases.eigh K G density hK hG hd s hs o ho theta phi).1] at h
  exact h

/-- An isotropic solid with bulk modulus 160 GPa, shear modulus 80 GPa and density 8000 kg/m³: shear waves travel at √10 km/s,
and both calculators say so to eleven digits, whatever routine with an accuracy of 10^-15 finds the eigenvalues. -/
example {eigh : M3 → V3} (he : EighAccurate 1e-15 eigh) (theta phi : ℝ) {v v' : V3}
    (hv : ElasticVelocities computer eigh (isotropic 160 80) 8000 theta phi v)
    (hv' : SeismicVelocities computer eigh (isotropic 160 80) 8000 theta phi v') :
    |v 0 - √10| ≤ 1e-11 ∧ |v' 0 - √10| ≤ 1e-11 := by
  have e : √(10 ^ 9 * 80 / 8000) / 1000 = √10 := by
    rw [show (10 ^ 9 * 80 / 8000 : ℝ) = 1000 ^ 2 * 10 by norm_num, Real.sqrt_mul (by norm_num), Real.sqrt_sq (by norm_num)]
    ring
  have hV := isotropic_velocities (K := 160) (G := 80) (density := 8000) (by norm_num) (by norm_num) (by norm_num) theta phi
  rw [e] at hV
  have h10 : √10 ≤ 4 := Real.sqrt_le_iff.2 ⟨by norm_num, by norm_num⟩
  have hN : ∀ i j, |isotropic 160 80 i j| ≤ 270 := by
    intro i j
    fin_cases i <;> fin_cases j <;> norm_num [isotropic, abs_le]
  have hm : (270 : ℝ) ≤ 4 * waveModulus 8000 (√10) := by
    rw [waveModulus, mul_pow, Real.sq_sqrt (by norm_num)]
    norm_num
  have hsym := posDef_entries (isotropic_posDef (K := 160) (G := 80) (by norm_num) (by norm_num))
  have b : ((340 * u + 5 * 1e-15) * 4 + 3 * u) * √10 ≤ 1e-11 := by
    refine (mul_le_mul_of_nonneg_left h10 (by norm_num [u])).trans ?_
    norm_num [u]
  exact ⟨(C161_elastic C154_computer (by norm_num) he hsym (by norm_num) hV hN 0 (by simp) hm (by norm_num [u]) hv).trans b,
    (C161_seismic C154_computer (by norm_num) he hsym (by norm_num) hV hN 0 (by simp) hm (by norm_num [u]) hv').trans b⟩

/-- The hypotheses of the agreement can be met, too: in an isotropic solid every wave probes at least the shear modulus. -/
example (theta phi : ℝ) : ∃ v v', ElasticVelocities computer exactEigh (isotropic 160 80) 8000 theta phi v ∧
    SeismicVelocities computer exactEigh (isotropic 160 80) 8000 theta phi v' ∧ ∀ i, |v i - v' i| ≤ 1e-11 * v' i := by
  obtain ⟨v, hv⟩ := elastic_exists computer exactEigh (isotropic 160 80) 8000 theta phi
  obtain ⟨v', hv'⟩ := seismic_exists computer exactEigh (isotropic 160 80) 8000 theta phi
  refine ⟨v, v', hv, hv', fun i => ?_⟩
  have hN : ∀ i j, |isotropic 160 80 i j| ≤ 270 := by
    intro i j
    fin_cases i <;> fin_cases j <;> norm_num [isotropic, abs_le]
  have hV := isotropic_velocities (K := 160) (G := 80) (density := 8000) (by norm_num) (by norm_num) (by norm_num) theta phi
  have key : ∀ V, PhaseVelocities (isotropic 160 80) 8000 (Elastic.vector theta phi) V → ∀ i, (270 : ℝ) ≤ 4 * waveModulus 8000 (V i) := by
    intro V h i
    have eq := spectrum_unique h.2 hV.2
    have eq := congrFun eq i
    rw [waveModulus, eq]
    have r : ∀ x : ℝ, 0 ≤ x → (1000 * (√x / 1000)) ^ 2 = x := fun x hx => by
      rw [mul_div_cancel₀ _ (by norm_num), Real.sq_sqrt hx]
    fin_cases i
    · exact (by norm_num : (270 : ℝ) ≤ 4 * (8000 * (10 ^ 9 * 80 / 8000) / 10 ^ 9)).trans_eq
        (congrArg (fun x : ℝ => 4 * (8000 * x / 10 ^ 9)) (r (10 ^ 9 * 80 / 8000) (by norm_num)).symm)
    · exact (by norm_num : (270 : ℝ) ≤ 4 * (8000 * (10 ^ 9 * 80 / 8000) / 10 ^ 9)).trans_eq
        (congrArg (fun x : ℝ => 4 * (8000 * x / 10 ^ 9)) (r (10 ^ 9 * 80 / 8000) (by norm_num)).symm)
    · exact (by norm_num : (270 : ℝ) ≤ 4 * (8000 * (10 ^ 9 * (160 + 4 * 80 / 3) / 8000) / 10 ^ 9)).trans_eq
        (congrArg (fun x : ℝ => 4 * (8000 * x / 10 ^ 9)) (r (10 ^ 9 * (160 + 4 * 80 / 3) / 8000) (by norm_num)).symm)
  have h := C161_agree C154_computer (η := 0) le_rfl (exactEigh_accurate le_rfl)
    (isotropic_posDef (K := 160) (G := 80) (by norm_num) (by norm_num)) (by norm_num) hN key (by norm_num [u]) hv hv' i
  refine h.trans ?_
  have a1 : 2.1 * ((340 * u + 5 * 0) * 4 + 3 * u) ≤ (1e-11 : ℝ) := by norm_num [u]
  have a3 : 0 ≤ v' i := by
    by_contra hc
    push Not at hc
    have a4 : 0 < 2.1 * ((340 * u + 5 * 0) * 4 + 3 * u) := by norm_num [u]
    linarith [(abs_nonneg _).trans h, mul_neg_of_pos_of_neg a4 hc]
  exact mul_le_mul_of_nonneg_right a1 a3

end Verif.Seismic.Rounded
