/-
A concrete input file that meets the hypotheses of C158.
-/
import Verif.Chain.WaveProps
import Verif.Chain.SectionCases
import Verif.Seismic.Classes

noncomputable section

namespace Verif.Chain
open Verif.Py Verif.IO Verif.IO.Spec Verif.Elastic Verif.Elastic.Spec Verif.Seismic Verif.Seismic.Spec Spec
open Verif.Report (startSeismic)
open Verif.Export.Spec (Wave WroteWaves)

/-- Every three tables can be held by a file, with any relative error. -/
theorem holds_waves_exists (t : Tables) {ε : ℝ} (hε : 0 < ε) : ∃ slow fast primary, HoldsWaves ε t slow fast primary := by
  choose q hq using fun y => near_rat hε y
  refine ⟨(t.slow.map List.ofFn).map (List.map q), (t.fast.map List.ofFn).map (List.map q),
    (t.primary.map List.ofFn).map (List.map q), fun w => ?_⟩
  have key : ∀ l : List (List ℝ), Held ε l (l.map (List.map q)) := fun l =>
    forall₂_map (fun l => forall₂_map (R := fun (x : ℝ) (p : ℚ) => |(p : ℝ) - x| ≤ ε * |x|) (fun x => hq x) l) l
  cases w
  · exact key _
  · exact key _
  · exact key _

/-- The speeds of the layers along z. -/
theorem layered_speeds {V : V3} (h : PhaseVelocities (real layered) 3000 (vector 0 0) V) :
    (1000 * V 0) ^ 2 = 10 ^ 5 / 3 ∧ (1000 * V 1) ^ 2 = 10 ^ 6 / 3 ∧ (1000 * V 2) ^ 2 = 10 ^ 9 / 3 := by
  have hS : Spectrum (acoustic (fun i j k l => 10 ^ 9 * cTensor (real layered) i j k l) 3000 (vector 0 0))
      ![10 ^ 5 / 3, 10 ^ 6 / 3, 10 ^ 9 / 3] := by
    refine ⟨by norm_num, by show (10 ^ 6 / 3 : ℝ) ≤ 10 ^ 9 / 3; norm_num, ![axis 1, axis 2, axis 0], fun i j => ?_, fun i => ?_⟩
    · fin_cases i <;> fin_cases j <;> simp [dot, axis]
    · have hv : (vector 0 0 : V3) = ![0, 0, 1] := by simp [vector]
      have d2 : real layered 2 2 = 1 := by show ((layered 2 2 : ℚ) : ℝ) = 1; norm_num [show layered 2 2 = 1 by decide +kernel]
      have d3 : real layered 3 3 = 1 / 10 := by
        show ((layered 3 3 : ℚ) : ℝ) = 1 / 10; norm_num [show layered 3 3 = 1 / 10 by decide +kernel]
      have d4 : real layered 4 4 = 1000 := by
        show ((layered 4 4 : ℚ) : ℝ) = 1000; norm_num [show layered 4 4 = 1000 by decide +kernel]
      have dn : ∀ i j, i ≠ j → real layered i j = 0 := fun i j hij => by
        show ((layered i j : ℚ) : ℝ) = 0
        rw [layered_diagonal i j hij]; simp
      rw [hv]
      intro a
      fin_cases i <;> fin_cases a <;>
        simp [acoustic, axis, Fin.sum_univ_three, cTensor, vm, d2, d3, d4, dn 4 3 (by decide), dn 4 2 (by decide), dn 3 4 (by decide),
          dn 3 2 (by decide), dn 2 4 (by decide), dn 2 3 (by decide)] <;> norm_num
  have e := spectrum_unique h.2 hS
  exact ⟨congrFun e 0, congrFun e 1, congrFun e 2⟩

/-- `C158_waves_partial` applies to the input file of layers: the scan of the smallest grid can be saved with eleven correct digits,
the exporter writes the table of the slow wave, and its first line, for the direction z, shows the speed 0.18257 km/s. -/
example (disk : Export.Disk) : ∃ (job : Str) (o : Seismic) (num : Numerics) (t : Tables) (slow fast primary : List (List ℚ))
    (d : Export.WaveData) (e : Export.Exporter) (out : Str) (vs : Fin 14 → ℚ),
    startSeismic (writeSoec layered 3000 c!"layers") .initial = .ok (.ready job layered 3000) ∧
    seismic (real layered) 3000 = .ok o ∧ scan num o 2 2 {} = .ok t ∧
    Export.loadSeismic [] c!"layers.hdf5" (Export.saveSeismic c!"GPa" slow fast primary) = (d, .ok e) ∧
    WroteWaves d e ⟨c!"ssecondary", false, [], true⟩ disk out ∧
    ShowsWave out .slow 4 0 (List.ofFn vs) ∧ |(vs 0 : ℝ)| ≤ 1 / 10 ^ 6 ∧ |(vs 2 : ℝ) - 18257 / 10 ^ 5| ≤ 1 / 10 ^ 4 := by
  obtain ⟨num, hn, -⟩ := exists_numerics
  obtain ⟨job, o, h1, h2, h3⟩ := C158_waves_partial (by decide) layered_symm layered_posDef (by norm_num) layered_lines
    (writeSoec_file layered 3000 (by decide))
  obtain ⟨t, h4, h5⟩ := h3 num hn 2 2 le_rfl le_rfl {}
  obtain ⟨slow, fast, primary, hh⟩ := holds_waves_exists t (show (0 : ℝ) < 1 / 10 ^ 11 by norm_num)
  obtain ⟨d, e, g1, -, -, g2⟩ := h5 _ slow fast primary hh [] (by simp) c!"layers.hdf5"
  obtain ⟨out, g3, g4⟩ := g2 .slow ⟨c!"ssecondary", false, [], true⟩ disk rfl
  obtain ⟨row, vs, k1, k2, k3⟩ := g4 0 (by norm_num) 0 (by norm_num)
  refine ⟨job, o, num, t, slow, fast, primary, d, e, out, vs, h1, by simpa using h2, h4, g1, g3, by simpa using k2, ?_, ?_⟩
  · have := k3 0 6 rfl
    have r0 : row 0 = 0 := by rw [k1.1]; simp [gridTheta]
    rw [r0] at this
    norm_num at this ⊢
    linarith
  · have := k3 2 5 rfl
    obtain ⟨-, -, ⟨V, hV, r2⟩, hpos, -⟩ := k1
    have hv : vector (gridTheta 2 0) (gridPhi 2 0) = vector 0 0 := by simp [gridTheta, gridPhi]
    rw [hv] at hV
    have hs := (layered_speeds (by simpa using hV)).1
    rw [r2] at this hpos
    have hp : 0 < V 0 := hpos
    have b1 : V 0 ≤ 1 / 5 := by nlinarith
    have b2 : V 0 ≤ 182575 / 10 ^ 6 := by nlinarith
    have b3 : 182573 / 10 ^ 6 ≤ V 0 := by nlinarith
    change |(vs 2 : ℝ) - V 0| ≤ 1 / (2 * 10 ^ 5) + 1 / 10 ^ 11 * |V 0| at this
    rw [abs_of_pos hp] at this
    have c := abs_le.1 this
    rw [abs_le]
    norm_num at c ⊢
    constructor <;> linarith [c.1, c.2]

end Verif.Chain
