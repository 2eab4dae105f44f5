/-
Tables of results that the quasi-harmonic calculator writes to the log.  Numbers are exact rationals.
-/
import Verif.Report.Text
import Verif.Report.EosFit

noncomputable section

namespace Verif.Report
open Verif.Py Verif.IO Verif.Phonon Verif.Export

/-- What `report_results` reads from the calculator (qha.py:1197, 199-217): one row per temperature, one column
per pressure. -/
structure QhaTable (nt np : ℕ) where
  temperature : Fin nt → ℚ
  pressure : Fin np → ℚ
  VT : Fin nt → Fin np → ℚ
  alphaV : Fin nt → Fin np → ℚ
  KT : Fin nt → Fin np → ℚ
  KS : Fin nt → Fin np → ℚ
  CpmCv : Fin nt → Fin np → ℚ

variable {nt np : ℕ}

/-- The titles of the columns (qha.py:1205-1213); the unit of the volume is fixed. -/
def qhaTitles (tunit punit : Str) : Str :=
  center 7 (c!"T (" ++ tunit ++ c!")") ++ c!" " ++ center 14 c!"V(T) (A^3)" ++ c!" " ++ center 16 c!"a_V (K^-1)" ++
    c!" " ++ center 9 (c!"KT (" ++ punit ++ c!")") ++ c!" " ++ center 9 (c!"KS (" ++ punit ++ c!")") ++ c!" " ++
    center 16 c!"Cp-Cv (J/mol K)"

/-- The line under the titles (qha.py:1214-1216). -/
def qhaRule : Str :=
  dashes 7 ++ c!" " ++ dashes 14 ++ c!" " ++ dashes 16 ++ c!" " ++ dashes 9 ++ c!" " ++ dashes 9 ++ c!" " ++ dashes 16

/-- The line of one temperature (qha.py:1218-1225).  `toKj` is `convert_energy(·, eunit, 'kjmol')`. -/
def qhaLine (toKj : ℚ → ℚ) (t : QhaTable nt np) (i : Fin np) (j : Fin nt) : Str :=
  alignRight 7 (formatSpaced 1 (t.temperature j)) ++ c!" " ++ alignRight 14 (formatSpaced 6 (t.VT j i)) ++ c!" " ++
    alignRight 16 (sciSpaced 8 (t.alphaV j i)) ++ c!" " ++ alignRight 9 (formatSpaced 3 (t.KT j i)) ++ c!" " ++
    alignRight 9 (formatSpaced 3 (t.KS j i)) ++ c!" " ++ alignRight 16 (formatSpaced 6 (toKj (t.CpmCv j i))) ++ c!" "

/-- The block of one pressure (qha.py:1199-1226).  `repr` is what `'{}'` writes for a number. -/
def qhaBlock (repr : ℚ → Str) (toKj : ℚ → ℚ) (tunit punit : Str) (t : QhaTable nt np) (i : Fin np) : List Str :=
  [[], frame, c!"# Results at " ++ repr (t.pressure i) ++ c!" " ++ punit, frame, [], qhaTitles tunit punit, qhaRule] ++
    (List.ofFn fun j => qhaLine toKj t i j) ++ [[]]

/-- `report_results` (qha.py:1192-1226). -/
def reportResults (repr : ℚ → Str) (toKj : ℚ → ℚ) (tunit punit : Str) (t : QhaTable nt np) : List Str :=
  (List.ofFn fun i => qhaBlock repr toKj tunit punit t i).flatten

/-- The line of one frequency in the report of the fits (qha.py:1179-1187). -/
def frequencyLine (R2 : ℚ) (j : ℕ) : Str :=
  c!"   * Frequency " ++ alignRight 5 (showNat (j + 1)) ++ c!": R^2 = " ++ formatFixed 6 R2 ++
    (if 90 / 100 ≤ R2 then c!"\tOK" else if R2 < 90 / 100 ∧ 80 / 100 ≤ R2 then c!"\tLow" else c!"\tBAD!")

/-- The block of one band (qha.py:1176-1189); the first index of the array is that of the wave vector. -/
def bandLines {nb : ℕ} (R2 : Fin nb → ℚ) (i : ℕ) : List Str :=
  [c!" - Band # " ++ showNat i] ++ (List.ofFn fun j : Fin nb => frequencyLine (R2 j) j) ++
    [c!"   Averaged R^2: " ++ formatFixed 6 ((List.ofFn R2).sum / nb), []]

/-- `__report_frequency_fit` (qha.py:1175-1190). -/
def reportFrequencyFit {nq nb : ℕ} (R2 : Fin nq → Fin nb → ℚ) : List Str :=
  (List.ofFn fun i : Fin nq => bandLines (R2 i) i).flatten

end Verif.Report
