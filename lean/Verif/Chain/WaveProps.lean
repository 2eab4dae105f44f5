/-
Property C158: from an elastic input file to the exported tables of seismic waves.
-/
import Verif.Chain.WaveSpec
import Verif.Chain.SectionProps
import Verif.Export.SeismicProps
import Verif.Report.SeismicInputProps
import Verif.Seismic.Motion

noncomputable section

namespace Verif.Chain
open Verif.Py Verif.IO Verif.IO.Spec Verif.Elastic Verif.Elastic.Spec Verif.Seismic Verif.Seismic.Spec Spec
open Verif.Report (startSeismic)
open Verif.Export (H5 Answer Disk loadSeismic saveSeismic C98_tables)
open Verif.Export.Spec (Wave IsWaveTable tableFor NoWaves SavedSeismic afterLoadingWaves WroteWaves waveDecimals)

theorem bulk_tensor {C : M6} (hC : ∀ i j, C i j = C j i) :
    einsum_iijj (cTensor C) = C 0 0 + C 1 1 + C 2 2 + 2 * (C 0 1 + C 0 2 + C 1 2) := by
  simp only [einsum_iijj, cTensor, vm, Fin.sum_univ_three, Matrix.cons_val, hC 1 0, hC 2 0, hC 2 1]
  ring

theorem compliance_tensor {S : M6} (hS : ∀ i j, S i j = S j i) :
    einsum_iijj (sTensor S) = S 0 0 + S 1 1 + S 2 2 + 2 * (S 0 1 + S 0 2 + S 1 2) := by
  simp [einsum_iijj, sTensor, vm, sc, Fin.sum_univ_three, hS 1 0, hS 2 0, hS 2 1]
  ring

/-- The isotropic velocities. -/
theorem polycrystal {C : M6} (hC : C.PosDef) {rho : ℝ} (hr : 0 < rho) {o : Seismic} (ho : seismic C rho = .ok o) (w : Wave) :
    o.isotropicVelocity (rank w) = polycrystalSpeed C rho w ∧ 0 < polycrystalSpeed C rho w := by
  obtain ⟨s, hs⟩ := soec_of_det (posDef_det hC) rho
  obtain ⟨h1, h2, -⟩ := C36_modules C rho hr.ne' s o hs ho
  obtain ⟨k1, k2, -, g1, g2, -⟩ := C36_ordered C hC rho s hs
  have hsy := posDef_entries hC
  have hS : ∀ i j, C⁻¹ i j = C⁻¹ j i := posDef_entries hC.inv
  have eb : s.averages.hill.K = hillBulk C := by
    obtain ⟨-, rfl⟩ := soec_ok hs
    show 0.5 * (einsum_iijj (cTensor C) / 9 + 1 / einsum_iijj (sTensor C⁻¹)) = _
    rw [bulk_tensor hsy, compliance_tensor hS, hillBulk]
    ring
  have es : s.averages.hill.G = hillShear C := by
    obtain ⟨-, rfl⟩ := soec_ok hs
    show 0.5 * (voigtG C + reussG C⁻¹) = _
    rw [voigtG, reussG, hillShear]
    ring
  have hd : o.density = rho := by
    obtain ⟨-, rfl⟩ := seismic_ok ho
    rfl
  rw [eb] at h1 k2
  rw [es] at h2 g2
  have kp := k1.trans_le k2
  have gp := g1.trans_le g2
  have key : ∀ x : ℝ, Real.sqrt (1000 * x / rho) = Real.sqrt (10 ^ 9 * x / rho) / 1000 := fun x => by
    rw [show (10 : ℝ) ^ 9 * x / rho = 1000 ^ 2 * (1000 * x / rho) by ring, Real.sqrt_mul (by positivity),
      Real.sqrt_sq (by norm_num)]
    ring
  have hv : o.isotropicVelocity = ![Real.sqrt (10 ^ 9 * hillShear C / rho) / 1000, Real.sqrt (10 ^ 9 * hillShear C / rho) / 1000,
      Real.sqrt (10 ^ 9 * (hillBulk C + 4 * hillShear C / 3) / rho) / 1000] := by
    unfold Seismic.isotropicVelocity
    rw [h1, h2, hd, ← key, ← key]
  rw [hv]
  cases w
  · exact ⟨rfl, by simp only [polycrystalSpeed]; positivity⟩
  · exact ⟨rfl, by simp only [polycrystalSpeed]; positivity⟩
  · exact ⟨rfl, by simp only [polycrystalSpeed]; positivity⟩

/-- The rows of the scan describe the waves of the crystal. -/
theorem row_describes {num : Numerics} (hn : EighCorrect num) {C : M6} (hC : C.PosDef) {rho : ℝ} (hr : 0 < rho) {o : Seismic}
    (ho : seismic C rho = .ok o) {theta phi : ℝ} {w : Wave} {row : Row} (h : NodeRow num o theta phi (rank w) row) :
    DescribesWave C rho w theta phi row := by
  obtain ⟨pv, ga, pf, en, pol, gv, e1, e2, e3, e4, e5, -, r0, r1, r2, r3, r4, r5, r6, r7, r8, r9, r10, r11, r12, -⟩ := h
  have hsy := posDef_entries hC
  obtain ⟨q, pv', pol', gv', h1, h2, h3, h4, -, hf, hm⟩ :=
    C157_motion num hn C hsy rho hr o ho (.spherical theta phi) (.inl ⟨_, _, rfl⟩) {}
  obtain ⟨q', pv'', ga', pf', gv'', -, h2', h4', h5', h6', -, hg⟩ :=
    C39_projection_partial num hn C hsy rho o ho (.spherical theta phi) (.inl ⟨_, _, rfl⟩) {}
  obtain ⟨s, hs⟩ := soec_of_det (posDef_det hC) rho
  obtain ⟨hp, hpos, hread⟩ := C37_velocities num hn C hC rho hr s hs o ho theta phi
  have hvec : ∀ {x : Except PyErr Value} {a b : V3}, x = .ok (.vec a) → x = .ok (.vec b) → a = b := fun {x a b} h h' => by
    rw [h] at h'; injection h' with h'; injection h'
  have hmat : ∀ {x : Except PyErr Value} {a b : M3}, x = .ok (.mat a) → x = .ok (.mat b) → a = b := fun {x a b} h h' => by
    rw [h] at h'; injection h' with h'; injection h'
  have g : Good num o ⟨seismicVector theta phi, theta, phi⟩ (step num o (.spherical theta phi) {}).2 :=
    set_good (num := num) (o := o) (op := .spherical theta phi) rfl {}
  have hq : q = vector theta phi := hvec h1 (step_read g .q)
  cases hvec (e1 : (step num o (.read .phaseVelocity) (step num o (.spherical theta phi) {}).2).1 = _) h2
  cases hvec h2 h2'
  cases hmat (e2 : (step num o (.read .eigenvec) (step num o (.spherical theta phi) {}).2).1 = _) h3
  cases hmat (e3 : (step num o (.read .groupVelocity) (step num o (.spherical theta phi) {}).2).1 = _) h4
  cases hmat h4 h4'
  cases hvec (e4 : (step num o (.read .groupAbs) (step num o (.spherical theta phi) {}).2).1 = _) h5'
  cases hvec (e5 : (step num o (.read .powerflow) (step num o (.spherical theta phi) {}).2).1 = _) h6'
  have hpv := hvec h2 (hread {})
  rw [← hpv] at hp hpos
  subst hq
  obtain ⟨hiso, hisop⟩ := polycrystal hC hr ho w
  have he : (![row 4, row 5, row 6] : V3) = pol (rank w) := by
    rw [r4, r5, r6]; funext i; fin_cases i <;> rfl
  have hgv : (![row 9, row 10, row 11] : V3) = gv (rank w) := by
    rw [r9, r10, r11]; funext i; fin_cases i <;> rfl
  obtain ⟨-, -, a3, a4, a5, a6⟩ := hg (rank w) (hpos _)
  have rel : ∀ x : ℝ, 100 * (x / polycrystalSpeed C rho w - 1) = 100 * (x - polycrystalSpeed C rho w) / polycrystalSpeed C rho w :=
    fun x => by field_simp
  unfold DescribesWave
  simp only [he, hgv]
  rw [hiso] at r3 r8
  refine ⟨r0, r1, ⟨pv, hp, r2⟩, r2 ▸ hpos _, ?_, ?_, fun k => ?_, r7.trans a3, ?_, ?_, ?_, ?_⟩
  · rw [r3, r2, rel]
  · have := hf (rank w) (rank w)
    rwa [if_pos rfl] at this
  · rw [r2]
    exact ⟨(hm _ (hpos _) k _ rfl).1, (hm _ (hpos _) k _ rfl).2.1⟩
  · rw [r8, r7, rel]
  · rw [r12, r2, r7]
    have : pf (rank w) * 180 / Real.pi * Real.pi / 180 = pf (rank w) := by field_simp
    rw [this]
    exact a4
  · rw [r12]
    have := Real.pi_pos
    positivity
  · rw [r12, div_le_iff₀ Real.pi_pos]
    linarith

/-- A table of saved waves shows the numbers of the crystal. -/
theorem wave_shows {ε : ℝ} {C : M6} {rho : ℝ} {w : Wave} {ntheta nphi : ℕ} {table : List Row} {rows : List (List ℚ)} {text : Str}
    (hd : ∀ i < ntheta, ∀ j < nphi, ∃ row, table[i * nphi + j]? = some row ∧
      DescribesWave C rho w (gridTheta ntheta i) (gridPhi nphi j) row) (hlen : table.length = ntheta * nphi)
    (hh : Held ε (table.map List.ofFn) rows) (ht : IsWaveTable w rows text) : ExportsWaves ε C rho w ntheta nphi text := by
  intro i hi j hj
  obtain ⟨row, er, hrow⟩ := hd i hi j hj
  obtain ⟨lines, etext, hnl, hf⟩ := ht
  obtain ⟨qs, eq, hq⟩ := forall₂_getElem? hh (x := List.ofFn row) (i := i * nphi + j) (by rw [List.getElem?_map, er]; rfl)
  obtain ⟨l, el, vs, hvl, hnum, hround⟩ := forall₂_getElem? hf eq
  have hll : lines.length = ntheta * nphi := by
    rw [← hf.length_eq, ← hh.length_eq, List.length_map, hlen]
  have hql : qs.length = 14 := by rw [← hq.length_eq, List.length_ofFn]
  have hvs : List.ofFn (fun c : Fin 14 => vs[(c : ℕ)]'(by omega)) = vs := by
    apply List.ext_getElem
    · simp [hvl]
    · intro n h1 h2
      rw [List.getElem_ofFn]
  refine ⟨row, fun c => vs[(c : ℕ)]'(by omega), hrow, ⟨lines, l, hnl, etext, hll, el, by rw [hvs]; exact hnum⟩, fun c d hc => ?_⟩
  obtain ⟨q, e1, e2⟩ := forall₂_getElem? hq (x := row c) (i := c) (by rw [List.getElem?_ofFn, dif_pos c.isLt])
  exact rounded_near (hround c d q _ hc e1 (List.getElem?_eq_getElem (by omega))) e2

/-- C158, in part: for every input file with a title, the moduli of a stable crystal, as a full matrix or an upper triangle, and a
positive density, the seismic command takes the crystal, the scan of any grid succeeds, and when its tables are saved with the
relative error `ε`, the exporter offers the three waves and writes for each, whatever was loaded before, a table whose line for each
direction of the grid describes this wave of this crystal along that direction.  Missing: the fourteenth column, see
`C98_enhancement_violated`, lower triangles, see `C47_lower_violated`, and titles that are missing. -/
theorem C158_waves_partial {y : Layout} (hy : y ≠ .lower) {C : Mat} (hC : IO.Spec.Symmetric C) (hp : (real C).PosDef)
    {title : Str} {rho : ℚ} (hr : 0 < rho) {ls : List Str} {text : Str} (h : SoecLines y C (some title) (some rho) ls)
    (hf : IsFile ls text) :
    ∃ job o, startSeismic text .initial = .ok (.ready job C rho) ∧ seismic (real C) rho = .ok o ∧
      ∀ (num : Numerics), EighCorrect num → ∀ ntheta nphi, 2 ≤ ntheta → 2 ≤ nphi → ∀ st,
        ∃ t, scan num o ntheta nphi st = .ok t ∧
          ∀ ε slow fast primary, HoldsWaves ε t slow fast primary →
          ∀ history : List (Str × H5), (∀ p ∈ history, NoWaves p.2 ∨ SavedSeismic p.2) → ∀ filename,
            ∃ d e, loadSeismic (afterLoadingWaves [] history) filename (saveSeismic c!"GPa" slow fast primary) = (d, .ok e) ∧
              e.error = none ∧ (∀ key, key ∈ e.keys ↔ ∃ w : Wave, key = w.key) ∧
              ∀ (w : Wave) (a : Answer) (disk : Disk), a.selection = w.key →
                ∃ out, WroteWaves d e a disk out ∧ ExportsWaves ε (real C) rho w ntheta nphi out := by
  have hdet : Matrix.det (Matrix.of C) ≠ 0 := by
    intro hz
    apply posDef_det hp
    have : real C = (Rat.castHom ℝ).mapMatrix (Matrix.of C) := rfl
    rw [this, ← RingHom.map_det, hz, map_zero]
  obtain ⟨job, -, hs, -⟩ := (Report.C114_start_partial hy hC hdet h hf).1 rho rfl hr
  have hr' : (0 : ℝ) < rho := by exact_mod_cast hr
  obtain ⟨o, ho⟩ : ∃ o, seismic (real C) rho = .ok o := ⟨_, if_neg (posDef_det hp)⟩
  refine ⟨job, o, hs, ho, fun num hn ntheta nphi h1 h2 st => ?_⟩
  obtain ⟨t, ht, hlen, hrows⟩ := C43_rows num o ntheta nphi h1 h2 st
  refine ⟨t, ht, fun ε slow fast primary hh history hhist filename => ?_⟩
  obtain ⟨d, e, g1, g2, g3, g4⟩ := C98_tables history hhist slow fast primary filename
  refine ⟨d, e, g1, g2, g3, fun w a disk hsel => ?_⟩
  obtain ⟨out, w1, w2⟩ := g4 w (fun row hrow => by
    obtain ⟨x, hx, hxr⟩ := forall₂_mem (hh w) hrow
    obtain ⟨z, -, rfl⟩ := List.mem_map.1 hx
    rw [← hxr.length_eq, List.length_ofFn]) a disk hsel
  refine ⟨out, w1, wave_shows (fun i hi j hj => ?_) (hlen (rank w)) (hh w) w2⟩
  obtain ⟨row, er, hnode⟩ := hrows i hi j hj (rank w)
  exact ⟨row, er, row_describes hn hp hr' ho hnode⟩

end Verif.Chain
