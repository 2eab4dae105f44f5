/-
C88: the units recorded with the results of a quasi-harmonic run.
-/
import Verif.Export.Exporter
import Verif.QHA.Props
import Verif.QHA.Witness

noncomputable section

namespace Verif.Export
open Verif.Py Verif.Units Verif.QHA Verif.QHA.Spec

/-! ### Specification -/

/-- What the text of a unit says: an energy or a pressure of a given size in SI, or something else. -/
inductive Spec.Meaning
  | joules (size : ℝ)
  | pascals (size : ℝ)
  | metres (size : ℝ)
  | other

/-- Metres per unit of length. -/
def Spec.metre (k : Consts) : LengthUnit → ℝ
  | .A => k.Angstrom | .bohr => k.Bohr

/-- How a unit of a run with these choices is read; the letter m before an energy is the prefix milli. -/
def Spec.meaning (k : Consts) (u : Choice) (label : Str) : Spec.Meaning :=
  if label = u.e.name then .joules (u.e.joule k)
  else if label = 'm' :: u.e.name then .joules (u.e.joule k / 1000)
  else if label = u.p.name then .pascals u.p.pascal
  else if label = u.v.name then .metres (Spec.metre k u.v)
  else .other

/-- The number means this many joules. -/
def Spec.IsJoules (k : Consts) (u : Choice) (label : Str) (x : ℝ) (j : ℝ) : Prop :=
  ∃ size, Spec.meaning k u label = .joules size ∧ x * size = j

/-- The number means this many pascals. -/
def Spec.IsPascals (k : Consts) (u : Choice) (label : Str) (x : ℝ) (p : ℝ) : Prop :=
  ∃ size, Spec.meaning k u label = .pascals size ∧ x * size = p

/-- The units of a run, as they are recorded. -/
def scalesOf {nt np : ℕ} (s : Settings nt np) : Scales := ⟨s.eunit, s.vunit, s.tunit, s.punit⟩

variable {nt np nb nf nv : ℕ} {k : Consts} {ext : Ext} {s : Settings nt np} {u : Choice}
  {x : QHA.Input nb nf nv} {r : Results nt np}

theorem meaning_energy (hu : u.Of s) {p : Str} (h : qhaUnit (scalesOf s) p = s.eunit) :
    Spec.meaning k u (qhaUnit (scalesOf s) p) = .joules (u.e.joule k) := by
  rw [h, hu.e, Spec.meaning, if_pos rfl]

theorem meaning_milli (hu : u.Of s) {p : Str} (h : qhaUnit (scalesOf s) p = 'm' :: s.eunit) :
    Spec.meaning k u (qhaUnit (scalesOf s) p) = .joules (u.e.joule k / 1000) := by
  rw [h, hu.e, Spec.meaning, if_neg, if_pos rfl]
  cases u.e <;> decide

theorem meaning_pressure (hu : u.Of s) {p : Str} (h : qhaUnit (scalesOf s) p = s.punit) :
    Spec.meaning k u (qhaUnit (scalesOf s) p) = .pascals u.p.pascal := by
  rw [h, hu.p, Spec.meaning, if_neg, if_neg, if_pos rfl]
  all_goals cases u.e <;> cases u.p <;> decide

/-! ### Theorems -/

/-- C88, in part: read with the recorded units, the enthalpy, the Gibbs energy and the entropy of every run
satisfy H = U + pV, G = F + pV and H - G = TS.  Missing: the heat capacities and the volume, see the next
theorems. -/
theorem C88_potentials_partial (hext : Numerics ext) (hu : u.Of s) (hrun : QHA.run k ext s x = .ok r)
    (htd : s.scheme = .td → Function.Injective x.volume ∧ s.edeg + 1 ≤ nv) (i : Fin nt) (j : Fin np) :
    let unit := qhaUnit (scalesOf s)
    ∃ H G U F S, Spec.IsJoules k u (unit c!"H") (r.H i j) H ∧ Spec.IsJoules k u (unit c!"G") (r.G i j) G ∧
      Spec.IsJoules k u (unit c!"Utot") (r.Utot i j) U ∧ Spec.IsJoules k u (unit c!"F") (r.F i j) F ∧
      Spec.IsJoules k u (unit c!"S") (r.S i j) S ∧
      H = U + (s.pressure j * u.p.pascal) * (r.VT i j * u.v.m3 k) ∧
      G = F + (s.pressure j * u.p.pascal) * (r.VT i j * u.v.m3 k) ∧
      H - G = u.t.kelvin (s.temperature i) * S := by
  intro unit
  obtain ⟨h1, h2⟩ := C15_legendre hu hrun i j
  have h3 := C68_H_minus_G hext hu hrun htd i j
  refine ⟨_, _, _, _, _, ⟨_, meaning_energy hu rfl, rfl⟩, ⟨_, meaning_energy hu rfl, rfl⟩,
    ⟨_, meaning_energy hu rfl, rfl⟩, ⟨_, meaning_energy hu rfl, rfl⟩, ⟨_, meaning_milli hu rfl, rfl⟩, h1, h2, ?_⟩
  rw [← sub_mul, h3]
  ring

/-- C88, in part: read with the recorded units, the bulk moduli and the isochoric heat capacity satisfy
KS = KT + alpha² KT² V T / Cv. -/
theorem C88_moduli_partial (hu : u.Of s) (hrun : QHA.run k ext s x = .ok r) (hn : 50 ≤ nt) (i : Fin nt)
    (j : Fin np) (hC : r.Cv i j ≠ 0) :
    let unit := qhaUnit (scalesOf s)
    ∃ KS KT Cv, Spec.IsPascals k u (unit c!"KS") (r.KS i j) KS ∧ Spec.IsPascals k u (unit c!"KT") (r.KT i j) KT ∧
      Spec.IsJoules k u (unit c!"Cv") (r.Cv i j) Cv ∧
      KS = KT + r.alphaV i j ^ 2 * KT ^ 2 * (r.VT i j * u.v.m3 k) * u.t.kelvin (s.temperature i) / Cv := by
  intro unit
  refine ⟨_, _, _, ⟨_, meaning_pressure hu rfl, rfl⟩, ⟨_, meaning_pressure hu rfl, rfl⟩,
    ⟨_, meaning_milli hu rfl, rfl⟩, ?_⟩
  obtain ⟨ha, hha⟩ := harmonic_exists k hu x
  obtain ⟨m, r0, hm, hf, hK, -⟩ := run_data hu hrun hha
  obtain ⟨-, -, -, h4, h5, -⟩ := finalize_long hu hn hf
  have hj := (joule_pos k u.e).ne'
  rw [hK.Cv] at hC
  rw [hK.Cv, hK.KT, hK.VT]
  by_cases h0 : u.t.kelvin (s.temperature i) = 0
  · rw [h4 i j (Or.inl h0), h0]; simp
  · have := h5 i j h0 hC
    rw [sub_mul, sub_eq_iff_eq_add] at this
    rw [this]
    field_simp
    ring

/-- C88, violated: read with its recorded unit, the correction Cp - Cv is a thousand times
alpha² KT V T, and the recorded heat capacities do not add up: with Cv and Cp - Cv read with their units the
sum is not the Cp read with its unit, at every point where Cv is not zero. -/
theorem C88_heat_capacity_violated (hu : u.Of s) (hrun : QHA.run k ext s x = .ok r) (hn : 50 ≤ nt) (i : Fin nt)
    (j : Fin np) (hC : r.Cv i j ≠ 0) :
    let unit := qhaUnit (scalesOf s)
    ∃ D Cv Cp, Spec.IsJoules k u (unit c!"Cp-Cv") (r.CpmCv i j) D ∧ Spec.IsJoules k u (unit c!"Cv") (r.Cv i j) Cv ∧
      Spec.IsJoules k u (unit c!"Cp") (r.Cp i j) Cp ∧
      D = 1000 * (r.alphaV i j ^ 2 * (r.KT i j * u.p.pascal) * (r.VT i j * u.v.m3 k) *
        u.t.kelvin (s.temperature i)) ∧
      Cp ≠ Cv + D := by
  intro unit
  refine ⟨_, _, _, ⟨_, meaning_energy hu rfl, rfl⟩, ⟨_, meaning_milli hu rfl, rfl⟩,
    ⟨_, meaning_energy hu rfl, rfl⟩, ?_, ?_⟩
  all_goals
    obtain ⟨ha, hha⟩ := harmonic_exists k hu x
    obtain ⟨m, r0, hm, hf, hK, -⟩ := run_data hu hrun hha
    obtain ⟨-, h2, h3, -⟩ := finalize_long hu hn hf
  · rw [hK.KT, hK.VT, h2]
    ring
  · rw [hK.Cv] at hC
    rw [h3, hK.Cv]
    intro h
    have hj := joule_pos k u.e
    have : r0.Cv i j * u.e.joule k = 0 := by linarith
    exact (mul_ne_zero hC hj.ne') this

/-- C88, violated: the unit recorded with the volumes is a length. -/
theorem C88_volume_violated (hu : u.Of s) :
    Spec.meaning k u (qhaUnit (scalesOf s) c!"VT") = .metres (Spec.metre k u.v) := by
  have h : qhaUnit (scalesOf s) c!"VT" = s.vunit := rfl
  rw [h, hu.v, Spec.meaning, if_neg, if_neg, if_neg, if_pos rfl]
  all_goals cases u.e <;> cases u.p <;> cases u.v <;> decide

/-- A run with sixty temperatures to which the theorems apply. -/
example (k : Consts) : ∃ (ext : Ext) (r : Results 60 1), QHA.run k ext (exSettings 60) exInput = .ok r ∧
    (∀ i j, ∃ D Cv Cp, Spec.IsJoules k exUnits (qhaUnit (scalesOf (exSettings 60)) c!"Cp-Cv") (r.CpmCv i j) D ∧
      Spec.IsJoules k exUnits (qhaUnit (scalesOf (exSettings 60)) c!"Cv") (r.Cv i j) Cv ∧
      Spec.IsJoules k exUnits (qhaUnit (scalesOf (exSettings 60)) c!"Cp") (r.Cp i j) Cp ∧ Cp ≠ Cv + D) := by
  obtain ⟨ext, ha, r, hext, hha, hr, h⟩ := witness k 60
  refine ⟨ext, r, hr, fun i j => ?_⟩
  obtain ⟨D, Cv, Cp, h1, h2, h3, -, h4⟩ := C88_heat_capacity_violated (exUnits_of 60) hr (by norm_num) i j
    (h i j).2.2.2.ne'
  exact ⟨D, Cv, Cp, h1, h2, h3, h4⟩

example (k : Consts) : ∃ (ext : Ext) (r : Results 60 1), Numerics ext ∧
    QHA.run k ext (exSettings 60) exInput = .ok r ∧ exUnits.Of (exSettings 60) ∧
    ((exSettings 60).scheme = .td → Function.Injective exInput.volume ∧ (exSettings 60).edeg + 1 ≤ 3) ∧
    ∀ i j, r.Cv i j ≠ 0 := by
  obtain ⟨ext, ha, r, hext, hha, hr, h⟩ := witness k 60
  exact ⟨ext, r, hext, hr, exUnits_of 60, fun _ => ⟨exInput_injective, le_refl 3⟩, fun i j => (h i j).2.2.2.ne'⟩

end Verif.Export
