/-
C109 and C110: the tables of the quasi-harmonic calculator.
-/
import Verif.Export.UnitLabels
import Verif.Poly.Props
import Verif.Report.EosFitProps
import Verif.Report.Qha
import Verif.Report.QhaSpec

noncomputable section

namespace Verif.Report
open Verif.Py Verif.IO Verif.IO.Spec Verif.Phonon Verif.Export Verif.Units Spec

variable {nt np : ℕ}

theorem qhaLine_spec (toKj : ℚ → ℚ) (t : QhaTable nt np) (i : Fin np) (j : Fin nt) :
    IsResultRow (t.temperature j) (t.VT j i) (t.alphaV j i) (t.KT j i) (t.KS j i) (toKj (t.CpmCv j i))
      (qhaLine toKj t i j) := by
  refine ⟨_, _, _, _, _, _, printed_rounded 1 _, printed_rounded 6 _, printedSci_significant 8 _, printed_rounded 3 _,
    printed_rounded 3 _, printed_rounded 6 _, ?_⟩
  refine numbers_of (ts := [formatFixed 1 (t.temperature j), formatFixed 6 (t.VT j i), sciLower 8 (t.alphaV j i),
    formatFixed 3 (t.KT j i), formatFixed 3 (t.KS j i), formatFixed 6 (toKj (t.CpmCv j i))]) ?_ ?_
  · have := tokens_next (cell_right (cell_spaced 1 (t.temperature j)) 7)
      (tokens_next (cell_right (cell_spaced 6 (t.VT j i)) 14)
      (tokens_next (cell_right (cell_sciSpaced 8 (t.alphaV j i)) 16)
      (tokens_next (cell_right (cell_spaced 3 (t.KT j i)) 9)
      (tokens_next (cell_right (cell_spaced 3 (t.KS j i)) 9)
      (tokens_last (cell_after blank_space_one (cell_right (cell_spaced 6 (toKj (t.CpmCv j i))) 16)))))))
    simpa [qhaLine] using this
  · simp only [List.forall₂_cons, List.Forall₂.nil, and_true]
    exact ⟨formatFixed_numeral 1 _, formatFixed_numeral 6 _, sciLower_numeral 8 _, formatFixed_numeral 3 _,
      formatFixed_numeral 3 _, formatFixed_numeral 6 _⟩

/-- C109, in part: the log has one block per pressure, headed by the pressure and its unit, with one line per temperature
that holds the six numbers at this temperature and pressure, correctly rounded.  Missing: the title of the volumes
is right only when the unit of length is the angstrom, see C109_volume_violated. -/
theorem C109_table_partial (repr : ℚ → Str) (toKj : ℚ → ℚ) (tunit punit : Str) (t : QhaTable nt np) :
    ∃ blocks : List (List Str), reportResults repr toKj tunit punit t = blocks.flatten ∧ blocks.length = np ∧
      ∀ (i : Fin np), ∃ titles rule rows,
        blocks[i.1]? = some ([[], frame, c!"# Results at " ++ repr (t.pressure i) ++ c!" " ++ punit, frame, [],
          titles, rule] ++ rows ++ [[]]) ∧
        Tokens [c!"T (" ++ tunit ++ c!")", c!"V(T) (A^3)", c!"a_V (K^-1)", c!"KT (" ++ punit ++ c!")",
          c!"KS (" ++ punit ++ c!")", c!"Cp-Cv (J/mol K)"] titles ∧
        rows.length = nt ∧ ∀ (j : Fin nt) l, rows[j.1]? = some l →
          IsResultRow (t.temperature j) (t.VT j i) (t.alphaV j i) (t.KT j i) (t.KS j i) (toKj (t.CpmCv j i)) l := by
  refine ⟨_, rfl, by simp, fun i => ⟨qhaTitles tunit punit, qhaRule, List.ofFn fun j => qhaLine toKj t i j, ?_, ?_,
    by simp, ?_⟩⟩
  · rw [List.getElem?_ofFn, dif_pos i.2]; rfl
  · have := tokens_next (cell_center 7 (c!"T (" ++ tunit ++ c!")")) (tokens_next (cell_center 14 c!"V(T) (A^3)")
      (tokens_next (cell_center 16 c!"a_V (K^-1)") (tokens_next (cell_center 9 (c!"KT (" ++ punit ++ c!")"))
      (tokens_next (cell_center 9 (c!"KS (" ++ punit ++ c!")")) (tokens_last (cell_center 16 c!"Cp-Cv (J/mol K)"))))))
    simpa [qhaTitles] using this
  · intro j l hl
    rw [List.getElem?_ofFn, dif_pos j.2, Option.some.injEq] at hl
    exact hl ▸ qhaLine_spec toKj t i j

/-- C109: the last column, which the report takes back to kJ/mol, is the isobaric minus the isochoric heat capacity of
a mole of cells in J/(mol K), `alpha² KT V T N`. -/
theorem C109_heat_capacity {nb nf nv : ℕ} {k : Consts} {ext : QHA.Ext} {s : QHA.Settings nt np} {u : QHA.Spec.Choice}
    {x : QHA.Input nb nf nv} {r : QHA.Results nt np} (hu : u.Of s) (hrun : QHA.run k ext s x = .ok r) (hn : 50 ≤ nt)
    (i : Fin nt) (j : Fin np) :
    ∃ toKj, HA.energyMap k s.eunit c!"kjmol" = .ok toKj ∧
      toKj (r.CpmCv i j) = r.alphaV i j ^ 2 * (r.KT i j * u.p.pascal) * (r.VT i j * u.v.m3 k) *
        u.t.kelvin (s.temperature i) * k.N := by
  obtain ⟨ha, hha⟩ := QHA.harmonic_exists k hu x
  obtain ⟨m, r0, hm, hf, hK, -⟩ := QHA.run_data hu hrun hha
  obtain ⟨-, h2, -⟩ := QHA.finalize_long hu hn hf
  refine ⟨_, by rw [hu.e, QHA.energyMap_to], ?_⟩
  have hN := k.N_pos.ne'
  simp only [h2, hK.KT, hK.VT]
  field_simp

/-- C109, violated: the volumes are printed in the cube of the unit of length of the run, under the title `V(T) (A^3)`
whatever this unit is: with the bohr, less than 0.53 A, no volume that matters is printed correctly. -/
theorem C109_volume_violated (toKj : ℚ → ℚ) (t : QhaTable nt np) (i : Fin np) (j : Fin nt) {bohr : ℚ} (h0 : 0 < bohr)
    (hb : bohr < 53 / 100) (hV : 1 / 10 ^ 5 ≤ t.VT j i) :
    ∃ qs, Numbers qs (qhaLine toKj t i j) ∧
      ∀ qs', Numbers qs' (qhaLine toKj t i j) → ∀ q, qs'[1]? = some q → ¬ Rounded 6 (t.VT j i * bohr ^ 3) q := by
  obtain ⟨T', V', a', KT', KS', D', -, h2, -, -, -, -, h⟩ := qhaLine_spec toKj t i j
  refine ⟨_, h, fun qs' hq q hg => ?_⟩
  obtain rfl := numbers_unique h hq
  simp only [List.getElem?_cons_succ, List.getElem?_cons_zero, Option.some.injEq] at hg
  subst hg
  refine not_rounded h2 ?_
  have h3 : bohr ^ 3 < 1 / 2 := by
    calc bohr ^ 3 ≤ (53 / 100) ^ 3 := by gcongr
      _ < 1 / 2 := by norm_num
  have h4 : (1 : ℚ) / 2 * (1 / 10 ^ 5) ≤ (1 - bohr ^ 3) * t.VT j i := by
    apply mul_le_mul _ hV (by positivity) <;> linarith
  rw [show t.VT j i - t.VT j i * bohr ^ 3 = (1 - bohr ^ 3) * t.VT j i by ring]
  refine lt_of_lt_of_le ?_ (le_trans h4 (le_abs_self _))
  norm_num

/-! ### C110: the fits of the frequencies -/

theorem frequencyLine_spec (x : ℚ) (j : ℕ) : IsFrequencyRow x j (frequencyLine x j) := by
  obtain ⟨v, hv, he⟩ : ∃ v, IsVerdict x v ∧ (if 90 / 100 ≤ x then c!"\tOK" else
      if x < 90 / 100 ∧ 80 / 100 ≤ x then c!"\tLow" else c!"\tBAD!") = '\t' :: v := by
    by_cases h1 : 90 / 100 ≤ x
    · exact ⟨c!"OK", .inl ⟨rfl, by linarith⟩, by rw [if_pos h1]⟩
    · by_cases h2 : 80 / 100 ≤ x
      · exact ⟨c!"Low", .inr (.inl ⟨rfl, by linarith, by linarith⟩), by rw [if_neg h1, if_pos ⟨by linarith, h2⟩]⟩
      · exact ⟨c!"BAD!", .inr (.inr ⟨rfl, by linarith⟩), by rw [if_neg h1, if_neg (fun h => h2 h.2)]⟩
  refine ⟨showNat (j + 1), formatFixed 6 x, v, _, (showNat_spec _).1,
    by rw [natOf_eq (showNat_spec _).1, (showNat_spec _).2.2], printed_rounded 6 x, formatFixed_numeral 6 x, hv, ?_⟩
  have last : Tokens [formatFixed 6 x, v] (formatFixed 6 x ++ '\t' :: v) := by
    have := Tokens.cons (s := formatFixed 6 x) blank_nil (.inr rfl) (tokens_last (cell_self v))
    simpa using this
  have := tokens_next (cell_before (g := c!"   ") (blank_replicate 3) (cell_self c!"*")) (tokens_next (cell_self c!"Frequency")
    (tokens_next (cell_before (blank_replicate (5 - (showNat (j + 1)).length)) (cell_self (showNat (j + 1) ++ c!":")))
      (tokens_next (cell_self c!"R^2") (tokens_next (cell_self c!"=") last))))
  rw [frequencyLine, he]
  simpa [alignRight] using this

/-- C110, in part: the report of the fits has one block per wave vector, with one line per frequency holding its number, the
coefficient of determination and the verdict that belongs to it, and the mean of the coefficients. -/
theorem C110_report_partial {nq nb : ℕ} (R2 : Fin nq → Fin nb → ℚ) :
    ∃ blocks : List (List Str), reportFrequencyFit R2 = blocks.flatten ∧ blocks.length = nq ∧
      ∀ i : Fin nq, ∃ head rows mean,
        blocks[i.1]? = some ([head] ++ rows ++ [mean, []]) ∧ rows.length = nb ∧
        (∃ tn, Digits tn ∧ natOf tn = i ∧ head = c!" - Band # " ++ tn) ∧
        (∀ (j : Fin nb) l, rows[j.1]? = some l → IsFrequencyRow (R2 i j) j l) ∧
        ∃ m t, Rounded 6 ((∑ j, R2 i j) / nb) m ∧ Numeral t m ∧ mean = c!"   Averaged R^2: " ++ t := by
  refine ⟨_, rfl, by simp, fun i => ⟨_, List.ofFn fun j : Fin nb => frequencyLine (R2 i j) j, _, ?_, by simp,
    ⟨showNat i, (showNat_spec _).1, by rw [natOf_eq (showNat_spec _).1, (showNat_spec _).2.2], rfl⟩, ?_, _, _,
    printed_rounded 6 _, formatFixed_numeral 6 _, rfl⟩⟩
  · rw [List.getElem?_ofFn, dif_pos i.2, bandLines, List.sum_ofFn]
  · intro j l hl
    rw [List.getElem?_ofFn, dif_pos j.2, Option.some.injEq] at hl
    exact hl ▸ frequencyLine_spec _ _

/-- C110, violated: a frequency that does not change with the volume, like the acoustic ones at the centre of the zone, is
reported as a bad fit although the polynomial goes through every point. -/
theorem C110_constant_violated {nx ny nc : ℕ} (X : Fin nx → ℝ) (Y : Fin ny → Fin nx → ℝ) (c : Fin ny → Fin nc → ℝ)
    (i : Fin ny) (hY : ∀ m n, Y i m = Y i n) (hfit : ∀ m, Poly.Spec.value (c i) (X m) = Y i m) {R2 : ℚ}
    (hR : (R2 : ℝ) = Poly.multiR2 X Y c i) (j : ℕ) :
    Poly.Spec.ssres X (Y i) (c i) = 0 ∧ ∃ l, frequencyLine R2 j = l ++ c!"\tBAD!" := by
  refine ⟨by simp [Poly.Spec.ssres, hfit], ?_⟩
  rw [((Poly.C22_agree X Y c i).2 hY).2] at hR
  have : R2 = 0 := by exact_mod_cast hR
  subst this
  exact ⟨_, by rw [frequencyLine, if_neg (by norm_num), if_neg (by norm_num)]⟩

/-- A frequency of 100 at three volumes, and the constant polynomial. -/
example : ∃ l, frequencyLine 0 4 = l ++ c!"\tBAD!" :=
  (C110_constant_violated (nx := 3) (ny := 1) (nc := 1) (fun m => m) (fun _ _ => 100) (fun _ _ => 100) 0 (fun _ _ => rfl)
    (fun m => by simp [Poly.Spec.value]) (R2 := 0)
    (by rw [((Poly.C22_agree _ _ _ _).2 fun _ _ => rfl).2]; simp) 4).2

/-- A run with sixty temperatures to which C109_heat_capacity applies. -/
example (k : Consts) : ∃ (ext : QHA.Ext) (r : QHA.Results 60 1),
    QHA.run k ext (QHA.exSettings 60) QHA.exInput = .ok r ∧ QHA.exUnits.Of (QHA.exSettings 60) := by
  obtain ⟨ext, ha, r, hext, hha, hr, h⟩ := QHA.witness k 60
  exact ⟨ext, r, hr, QHA.exUnits_of 60⟩

/-- Quartz in cubic bohr. -/
example : ∃ t : QhaTable 1 1, ∃ q, Rounded 6 (t.VT 0 0) q ∧ ¬ Rounded 6 (t.VT 0 0 * (529177 / 1000000) ^ 3) q := by
  let t : QhaTable 1 1 := ⟨fun _ => 300, fun _ => 0, fun _ _ => 762, fun _ _ => 3 / 100000, fun _ _ => 37, fun _ _ => 38,
    fun _ _ => 1⟩
  obtain ⟨qs, h1, h2⟩ := C109_volume_violated id t 0 0 (bohr := 529177 / 1000000) (by norm_num) (by norm_num) (by norm_num [t])
  obtain ⟨T', V', a', KT', KS', D', -, h3, -, -, -, -, h⟩ := qhaLine_spec id t 0 0
  exact ⟨t, V', h3, h2 _ h V' rfl⟩

end Verif.Report
