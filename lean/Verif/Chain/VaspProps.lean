/-
Property C142 for VASP: the moduli of `yz` and `xz` are exchanged on the way.
-/
import Verif.Chain.ElasticProps

namespace Verif.Chain
open Verif.Py Verif.IO Verif.Interfaces Verif.Elastic Verif.Elastic.Spec Spec
open Interfaces.Spec (Comp exchange voigt vasp TotalOutput ClampedOutput)

/-- The exchange in Voigt's numbers. -/
def sw : Fin 6 ≃ Fin 6 := Equiv.swap 3 4

theorem voigt_surjective (i : Fin 6) : ∃ p, voigt p = i := by
  fin_cases i
  exacts [⟨.xx, rfl⟩, ⟨.yy, rfl⟩, ⟨.zz, rfl⟩, ⟨.yz, rfl⟩, ⟨.xz, rfl⟩, ⟨.xy, rfl⟩]

theorem voigt_exchange (p : Comp) : voigt (exchange p) = sw (voigt p) := by cases p <;> rfl

theorem exchanged_eq {C X : Mat} (h : Exchanged C X) (i j : Fin 6) : X i j = C (sw i) (sw j) := by
  obtain ⟨p, rfl⟩ := voigt_surjective i
  obtain ⟨q, rfl⟩ := voigt_surjective j
  rw [h p q, voigt_exchange, voigt_exchange]

theorem real_exchanged {C X : Mat} (h : Exchanged C X) : real X = (real C).submatrix sw sw := by
  ext i j
  show ((X i j : ℚ) : ℝ) = C (sw i) (sw j)
  rw [exchanged_eq h]

theorem sw_sw (i : Fin 6) : sw (sw i) = i := Equiv.swap_apply_self 3 4 i

theorem quad_sw (C : M6) (e : Fin 6 → ℝ) : quad (C.submatrix sw sw) e e = quad C (e ∘ sw) (e ∘ sw) := by
  unfold quad
  rw [← Equiv.sum_comp sw]
  refine Finset.sum_congr rfl fun i _ => ?_
  rw [← Equiv.sum_comp sw]
  refine Finset.sum_congr rfl fun j _ => ?_
  simp [Matrix.submatrix_apply, sw_sw]

theorem resists_sw {C : M6} {l : ℝ} (h : Resists C l) : Resists (C.submatrix sw sw) l := by
  refine resists_of_quad fun e => ?_
  rw [quad_sw]
  have := resists_quad h (e ∘ sw)
  rwa [show ∑ I, (e ∘ sw) I ^ 2 = ∑ I, e I ^ 2 from Equiv.sum_comp sw fun I => e I ^ 2] at this

theorem chainError_exchanged {C X : Mat} (h : Exchanged C X) {t : ℝ} (hw : ChainError C t) : ChainError X t := by
  rcases hw with h0 | ⟨hc, hw⟩
  · exact .inl h0
  · have v3 : ∀ i : Fin 6, 3 ≤ (sw i).val ↔ 3 ≤ i.val := by decide
    refine .inr ⟨?_, ?_⟩
    · rcases hc with hc | ⟨i, j, hij, h3, hv⟩
      · refine .inl fun i j hij h3 => ?_
        rw [exchanged_eq h]
        exact hc _ _ (sw.injective.ne hij) (by rwa [v3, v3])
      · refine .inr ⟨sw i, sw j, sw.injective.ne hij, by rwa [v3, v3], ?_⟩
        rwa [exchanged_eq h, sw_sw, sw_sw]
    · rcases hw with h0 | ⟨h0, hn⟩
      · exact .inl h0
      · refine .inr ⟨h0, fun i j => ?_⟩
        rw [exchanged_eq h]
        exact hn _ _

/-- The averages do not notice the exchange. -/
theorem averages_sw {C : M6} {d d' : ℝ} {s s' : Soec} (e : soec C d = .ok s) (e' : soec (C.submatrix sw sw) d' = .ok s') :
    s'.averages = s.averages := by
  obtain ⟨-, rfl⟩ := soec_ok e
  obtain ⟨-, rfl⟩ := soec_ok e'
  have inv : (C.submatrix sw sw)⁻¹ = C⁻¹.submatrix sw sw := Matrix.inv_submatrix_equiv C sw sw
  have s0 : sw 0 = 0 := by decide
  have s1 : sw 1 = 1 := by decide
  have s2 : sw 2 = 2 := by decide
  have s3 : sw 3 = 4 := by decide
  have s4 : sw 4 = 3 := by decide
  have s5 : sw 5 = 5 := by decide
  have c : einsum_iijj (cTensor (C.submatrix sw sw)) = einsum_iijj (cTensor C) := by
    rw [einsum_c, einsum_c, quad_sw]
    congr 1 <;> · ext i; fin_cases i <;> rfl
  have k : einsum_iijj (sTensor (C⁻¹.submatrix sw sw)) = einsum_iijj (sTensor C⁻¹) := by
    rw [einsum_s, einsum_s, quad_sw]
    congr 1 <;> · ext i; fin_cases i <;> rfl
  have g : voigtG (C.submatrix sw sw) = voigtG C := by
    simp only [voigtG, Matrix.submatrix_apply, s0, s1, s2, s3, s4, s5]
    ring
  have g' : reussG (C⁻¹.submatrix sw sw) = reussG C⁻¹ := by
    simp only [reussG, Matrix.submatrix_apply, s0, s1, s2, s3, s4, s5]
    ring
  simp only [Soec.averages, inv, c, k, g, g']

/-- What the two commands make of a VASP output: a report on the crystal with the moduli of `yz` and `xz` exchanged. -/
theorem vasp_chain {ls : List Str} {output : Str} {m C X : Mat} (hf : IsText ls output)
    (ho : TotalOutput ls m ∨ ClampedOutput ls m) (hm : Printed m C) (hx : Exchanged C X) (hs : IO.Spec.Symmetric C)
    {answer : Str} (ha : answer = [] ∨ GoodTitle answer) {l t : ℝ} (hw : ChainError C t) (hl : 6 * t < l)
    (hr : Resists (real C) l) {eigvals : M6 → List ℝ} (he : EigenSolver eigvals) {min2 : Search (ℝ × ℝ)} (h2 : Finds min2)
    {min3 : Search (ℝ × ℝ × ℝ)} (h3 : Finds min3) :
    ∃ file i, generate .vasp output answer = .ok (.ok file) ∧ readInput file = .ok (.ok i) ∧
      (answer = [] → i.job = c!"Unknown") ∧ (answer ≠ [] → i.job = answer) ∧
      Accurate (real X) l t (run eigvals min2 min3 i.solid) := by
  obtain ⟨S, e, -⟩ := C57_rows_partial hf ho fun _ _ => 0
  have hS : S = X := by
    funext i j
    obtain ⟨p, rfl⟩ := voigt_surjective i
    obtain ⟨q, rfl⟩ := voigt_surjective j
    have := (C56_shear_violated hf ho fun _ _ => 0).1 p q
    rw [e] at this
    rw [hx p q, hm]
    exact this
  have hXs : IO.Spec.Symmetric X := fun i j => by rw [exchanged_eq hx, exchanged_eq hx, hs]
  obtain ⟨i, e1, e2, -, -, e5⟩ := read_written (rho := 0) hXs (goodTitle_job ha) (chainError_exchanged hx hw) hl
    (by rw [real_exchanged hx]; exact resists_sw hr) he h2 h3
  refine ⟨writeSoec X 0 (jobName answer), i, ?_, e1, fun h => ?_, fun h => ?_, e5⟩
  · simp [generate, readOutput, e, hS]
  · rw [e2, h]; rfl
  · rw [e2, jobName, if_neg h]

/-- C142, VASP: the averages reported are those of the crystal whose moduli VASP printed, up to the error of the way through the
file.  The extremes over all directions are so as well when the moduli do not change under the exchange of `yz` and `xz`.  Missing
from the full property: the extremes of all other crystals, see `C142_vasp_violated`. -/
theorem C142_vasp_partial {ls : List Str} {output : Str} {m C : Mat} (hf : IsText ls output)
    (ho : TotalOutput ls m ∨ ClampedOutput ls m) (hm : Printed m C) (hs : IO.Spec.Symmetric C)
    {answer : Str} (ha : answer = [] ∨ GoodTitle answer) {l t : ℝ} (hw : ChainError C t) (hl : 6 * t < l)
    (hr : Resists (real C) l) {eigvals : M6 → List ℝ} (he : EigenSolver eigvals) {min2 : Search (ℝ × ℝ)} (h2 : Finds min2)
    {min3 : Search (ℝ × ℝ × ℝ)} (h3 : Finds min3) :
    ∃ file i, generate .vasp output answer = .ok (.ok file) ∧ readInput file = .ok (.ok i) ∧
      (answer = [] → i.job = c!"Unknown") ∧ (answer ≠ [] → i.job = answer) ∧
      AccurateAverages (real C) l t (run eigvals min2 min3 i.solid) ∧
      (Exchanged C C → Accurate (real C) l t (run eigvals min2 min3 i.solid)) := by
  have hx : Exchanged C fun i j => C (sw i) (sw j) := fun p q => by rw [voigt_exchange, voigt_exchange]
  obtain ⟨file, i, a1, a2, a3, a4, a5⟩ := vasp_chain hf ho hm hx hs ha hw hl hr he h2 h3
  refine ⟨file, i, a1, a2, a3, a4, ⟨a5.1.1, fun s d e => ?_⟩, fun h => ?_⟩
  · have : (real fun i j => C (sw i) (sw j)) = (real C).submatrix sw sw := real_exchanged hx
    have a6 := a5.1.2
    rw [this] at a6
    have hd : ((real C).submatrix sw sw).det ≠ 0 := by
      rw [Matrix.det_submatrix_equiv_self]
      exact (soec_ok e).1
    obtain ⟨s', e'⟩ := soec_of_det hd d
    have := a6 s' d e'
    rwa [averages_sw e e'] at this
  · have : (fun i j => C (sw i) (sw j)) = C := by
      funext i j
      exact (exchanged_eq h i j).symm
    rwa [this] at a5

end Verif.Chain
