/-
A concrete output that meets the hypotheses of C148.
-/
import Verif.Chain.QuasiProps
import Verif.Chain.DispersionCases

noncomputable section

namespace Verif.Chain
open Verif.Py Verif.IO Verif.IO.Spec Verif.Interfaces Verif.Interfaces.Spec Verif.Phonon Verif.Phonon.Spec Verif.Units
  Verif.Units.Spec Verif.QHA.Spec Verif.Poly.Spec Spec

/-- The default settings at 300 K, with polynomials. -/
def quasiSettings : QHA.Settings 1 1 :=
  { scheme := .td, minimization := .poly, eos := c!"BM", edeg := 3, fdeg := 3,
    eunit := c!"Ha", vunit := c!"A", funit := c!"cm^-1", tunit := c!"K", punit := c!"GPa",
    kieffer := false, temperature := fun _ => 300, pressure := fun _ => 0 }

/-- `C148_quasi_harmonic` and `C148_four_volumes` apply: for the output with the volumes 50, 100, 125 and 150 the reported
volume lies between the first and the third of them. -/
theorem quasi_run (st : Phonon.State) {ext : QHA.Ext} (hext : Numerics ext) : ∃ (text : Str) (doc : Node) (r : QHA.Results 1 1),
    inpgen (quasiFiles quasiDisk) st c!"qha.out" c!"q" false 0 c!"crystal-qha" c!"oxide" =
      (st, .written c!"q.yaml" text) ∧ Denotes text doc ∧
    quasiHarmonic codata ext quasiSettings (.tree doc) = .ok (.ok r) ∧ 50 < r.VT 0 0 ∧ r.VT 0 0 < 125 := by
  obtain ⟨text, doc, h1, h2, -, ⟨nv, ha⟩, h3, h4⟩ := C148_quasi_harmonic (k := codata) hext (disk := quasiDisk)
    (filename := c!"qha.out") rfl quasi_output (by decide) (by decide) (job := c!"oxide")
    ⟨⟨_, _, rfl, by decide⟩, by decide, by decide, by decide⟩ st c!"q" 0 (s := quasiSettings) (u := ⟨.Ha, .A, .GPa, .K, .cm⟩)
    ⟨rfl, rfl, rfl, rfl, rfl⟩ rfl rfl
  obtain ⟨X, c, e, hrest⟩ := h4
  simp only [quasiData, List.length_cons, List.length_nil] at e
  subst e
  have h4 : Analysed codata _ quasiSettings _ _ _ ha _ := ⟨X, c, rfl, hrest⟩
  obtain ⟨-, hdes, -⟩ := hrest
  have hJ : 0 < codata.Ha := QHA.joule_pos codata .Ha
  -- the vibrations do not depend on the volume
  have hF : ∀ n U, quasiData.energies[(n : Fin 4).val]? = some U → |ha.F 0 n - (U + ha.Fvib 0 0)| ≤ 1 / 10 ^ 6 := by
    intro n U hU
    have hd := hdes 0 n U (by norm_num [TemperatureUnit.kelvin, quasiSettings]) hU
    have h0 := hdes 0 0 _ (by norm_num [TemperatureUnit.kelvin, quasiSettings]) (show quasiData.energies[0]? = some _ from rfl)
    have e : ha.Fvib 0 n = ha.Fvib 0 0 := by
      have a := hd.vibrational
      have b := h0.vibrational
      have : pointsAt quasiData n = pointsAt quasiData 0 := by fin_cases n <;> rfl
      simp only [this] at a
      exact mul_left_cancel₀ hJ.ne' (a.trans b.symm)
    have := hd.free
    rw [e] at this
    refine this.trans ?_
    have : U = -5.25 ∨ U = -5.375 ∨ U = -5 := by
      fin_cases n <;> simp only [quasiData] at hU <;> cases hU <;> norm_num
    rcases this with rfl | rfl | rfl <;> norm_num [abs_of_neg]
  have f0 := abs_le.1 (hF 0 _ rfl)
  have f1 := abs_le.1 (hF 1 _ rfl)
  have f2 := abs_le.1 (hF 2 _ rfl)
  have hb : ∀ i j, ha.F i 1 * codata.Ha + quasiSettings.pressure j * (10 : ℝ) ^ 9 * (100 * codata.Angstrom ^ 3) <
      ha.F i 0 * codata.Ha + quasiSettings.pressure j * (10 : ℝ) ^ 9 * (50 * codata.Angstrom ^ 3) ∧
      ha.F i 1 * codata.Ha + quasiSettings.pressure j * (10 : ℝ) ^ 9 * (100 * codata.Angstrom ^ 3) <
      ha.F i 2 * codata.Ha + quasiSettings.pressure j * (10 : ℝ) ^ 9 * (125 * codata.Angstrom ^ 3) := by
    intro i j
    obtain rfl : i = 0 := Subsingleton.elim _ _
    simp only [quasiSettings, zero_mul, add_zero]
    norm_num at f0 f1 f2
    exact ⟨mul_lt_mul_of_pos_right (by linarith [f0.1, f1.2]) hJ, mul_lt_mul_of_pos_right (by linarith [f2.1, f1.2]) hJ⟩
  have hbetween : ∀ i j, _ := fun i j => (⟨by decide +kernel, by decide +kernel,
    by simpa [quasiData, EnergyUnit.joule, PressureUnit.pascal, LengthUnit.m3] using (hb i j).1,
    by simpa [quasiData, EnergyUnit.joule, PressureUnit.pascal, LengthUnit.m3] using (hb i j).2⟩ :
    quasiData.volumes.getD (0 : Fin 4) 0 < quasiData.volumes.getD (1 : Fin 4) 0 ∧
    quasiData.volumes.getD (1 : Fin 4) 0 < quasiData.volumes.getD (2 : Fin 4) 0 ∧
    ha.F i 1 * EnergyUnit.joule codata .Ha + quasiSettings.pressure j * PressureUnit.pascal .GPa *
        ((quasiData.volumes.getD (1 : Fin 4) 0 : ℝ) * LengthUnit.m3 codata .A) <
      ha.F i 0 * EnergyUnit.joule codata .Ha + quasiSettings.pressure j * PressureUnit.pascal .GPa *
        ((quasiData.volumes.getD (0 : Fin 4) 0 : ℝ) * LengthUnit.m3 codata .A) ∧
    ha.F i 1 * EnergyUnit.joule codata .Ha + quasiSettings.pressure j * PressureUnit.pascal .GPa *
        ((quasiData.volumes.getD (1 : Fin 4) 0 : ℝ) * LengthUnit.m3 codata .A) <
      ha.F i 2 * EnergyUnit.joule codata .Ha + quasiSettings.pressure j * PressureUnit.pascal .GPa *
        ((quasiData.volumes.getD (2 : Fin 4) 0 : ℝ) * LengthUnit.m3 codata .A))
  obtain ⟨r, hr, hV⟩ := C148_four_volumes h4 rfl (by
      intro V hV
      simp only [quasiData, List.mem_cons, List.not_mem_nil, or_false] at hV
      rcases hV with rfl | rfl | rfl | rfl
      · exact ⟨5000000000, by norm_num⟩
      · exact ⟨10000000000, by norm_num⟩
      · exact ⟨12500000000, by norm_num⟩
      · exact ⟨15000000000, by norm_num⟩) (by decide +kernel) fun i j => ⟨0, 1, 2, hbetween i j⟩
  have := hV 0 0 0 1 2 (hbetween 0 0)
  refine ⟨text, doc, r, h1, h2, hr, ?_, ?_⟩
  · simpa [quasiData] using this.1
  · simpa [quasiData] using this.2

/-- Such routines exist. -/
example (st : Phonon.State) : ∃ (ext : QHA.Ext) (text : Str) (doc : Node) (r : QHA.Results 1 1),
    Numerics ext ∧ inpgen (quasiFiles quasiDisk) st c!"qha.out" c!"q" false 0 c!"crystal-qha" c!"oxide" =
      (st, .written c!"q.yaml" text) ∧ Denotes text doc ∧
    quasiHarmonic codata ext quasiSettings (.tree doc) = .ok (.ok r) ∧ 50 < r.VT 0 0 ∧ r.VT 0 0 < 125 := by
  obtain ⟨ext, hext⟩ := QHA.numerics_exists
  obtain ⟨text, doc, r, h⟩ := quasi_run st hext
  exact ⟨ext, text, doc, r, hext, h⟩

end Verif.Chain
