/-
Log of the elastic calculator (/repo/quantas/soec/soec.py).  Numbers are exact rationals, infinity or not a number.
-/
import Verif.Report.Text

noncomputable section

namespace Verif.Report
open Verif.Py Verif.IO Verif.Phonon Verif.Export

/-- A number as it is printed. -/
inductive Num
  | val (q : ℚ)
  | inf
  | nan

/-- `'{:.df}'.format(x)`. -/
def fixedNum (d : ℕ) : Num → Str
  | .val q => formatFixed d q
  | .inf => c!"inf"
  | .nan => c!"nan"

/-- `'{: .df}'.format(x)`. -/
def spacedNum (d : ℕ) : Num → Str
  | .val q => formatSpaced d q
  | .inf => c!" inf"
  | .nan => c!" nan"

/-- `x != np.nan` (soec.py:397): a comparison with NaN for inequality holds for every number, NaN included. -/
def neNan (_ : Num) : Bool := true

/-! ### Input -/

/-- A row of the stiffness (soec.py:204-206). -/
def stiffnessLine (row : Fin 6 → ℚ) : Str :=
  c!"  " ++ (List.ofFn fun j => alignRight 10 (formatSpaced 4 (row j)) ++ c!"    ").flatten

/-- A row of the compliance, multiplied by 1000 (soec.py:209-211). -/
def complianceLine (row : Fin 6 → ℚ) : Str :=
  c!"  " ++ (List.ofFn fun j => alignRight 9 (formatFixed 6 (row j * 1000)) ++ c!"    ").flatten

/-- `report_input_data` (soec.py:191-214).  `repr` is the text of `'{}'.format(density)`. -/
def reportElasticInput (job system repr : Str) (density : ℚ) (C S : Fin 6 → Fin 6 → ℚ) : List Str :=
  [c!"\nElastic analysis of " ++ job, [], c!"System is " ++ system,
    if density = 0 then c!"Density: not provided" else c!"Density: " ++ repr ++ c!" kg m^-3", [],
    c!"Stiffness matrix (values in GPa)"] ++ (List.ofFn fun i => stiffnessLine (C i)) ++
    [[], c!"Compliance tensor (values in TPa^-1)"] ++ (List.ofFn fun i => complianceLine (S i)) ++ [[]]

/-! ### Averages, velocities, eigenvalues -/

/-- `avgnames` (soec.py:387). -/
def averageName : Fin 3 → Str
  | 0 => c!"Voigt"
  | 1 => c!"Reuss"
  | 2 => c!"Hill"

/-- The line of one average: bulk, Young's, shear modulus, Poisson's ratio (soec.py:393-395). -/
def averageLine (name : Str) (a : Fin 4 → ℚ) : Str :=
  alignLeft 5 name ++ (List.ofFn fun j => c!"  " ++ center 10 (formatFixed 5 (a j))).flatten

/-- The titles above the averages (soec.py:388-392): one message of three lines. -/
def averageTitles : Str :=
  let line (a b c d : Str) := alignLeft 5 [] ++ c!"  " ++ center 10 a ++ c!"  " ++ center 10 b ++ c!"  " ++ center 10 c ++
    c!"  " ++ center 10 d
  line c!"Bulk" c!"Young's" c!"Shear" c!"Poisson's" ++ ['\n'] ++ line c!"modulus" c!"modulus" c!"modulus" c!"ratio" ++
    ['\n'] ++ line c!"(GPa)" c!"(GPa)" c!"(GPa)" []

/-- The velocities (soec.py:397-401). -/
def velocityLines (awv : Fin 3 → Num) : List Str :=
  if neNan (awv 0) then
    [c!"Average (VRH) wave velocities",
      c!"  - Transversal  (Vs): " ++ alignRight 10 (spacedNum 5 (awv 0)) ++ c!" km/s",
      c!"  - Longitudinal (Vp): " ++ alignRight 10 (spacedNum 5 (awv 2)) ++ c!" km/s", []]
  else []

/-- The line of one eigenvalue (soec.py:403-404). -/
def eigenvalueLine (i : ℕ) (x : ℚ) : Str := c!"    lambda_" ++ showNat (i + 1) ++ c!": " ++ center 7 (formatFixed 5 x)

/-- `report_initial_results` (soec.py:383-406). -/
def reportInitial (avg : Fin 3 → Fin 4 → ℚ) (eigenval : Fin 6 → ℚ) (awv : Fin 3 → Num) : List Str :=
  [c!"Average properties", averageTitles] ++ (List.ofFn fun i => averageLine (averageName i) (avg i)) ++ [[]] ++
    velocityLines awv ++ [c!"Eigenvalues of the stiffness matrix:"] ++
    (List.ofFn fun i : Fin 6 => eigenvalueLine i (eigenval i)) ++ [[]]

/-! ### Variations -/

/-- What `directional_variation` returns (soec.py:408-433): extremal values, their ratio, and the axes where they are
reached. -/
structure Extremes where
  minimum : ℚ
  maximum : ℚ
  anisotropy : Num
  minAxis1 : Fin 3 → ℚ
  maxAxis1 : Fin 3 → ℚ
  minAxis2 : Fin 3 → ℚ
  maxAxis2 : Fin 3 → ℚ

/-- `tl` and `ml` (soec.py:42-43): the lines of the table; `s` is what is between the columns. -/
def doubleRule (s : Str) : Str := c!"    " ++ dashes 10 ++ s ++ dashes 32 ++ s ++ dashes 32

/-- `ttl` and `tml` (soec.py:48-49). -/
def tripleRule (s : Str) : Str := c!"    " ++ dashes 10 ++ s ++ dashes 22 ++ s ++ dashes 22 ++ s ++ dashes 22

/-- `dh` (soec.py:44), `dv` (soec.py:45): two cells. -/
def double (label a b : Str) : Str :=
  c!"    " ++ alignLeft 10 label ++ c!" | " ++ center 32 a ++ c!" | " ++ center 32 b

/-- `qh` (soec.py:46), `qv` (soec.py:47): four cells. -/
def quad (label a b c d : Str) : Str :=
  c!"    " ++ alignLeft 10 label ++ c!" | " ++ center 15 a ++ c!"  " ++ center 15 b ++ c!" | " ++ center 15 c ++ c!"  " ++
    center 15 d

/-- `th` (soec.py:50), `tv` (soec.py:51): three cells. -/
def triple (label a b c : Str) : Str :=
  c!"    " ++ alignLeft 10 label ++ c!" | " ++ center 22 a ++ c!" | " ++ center 22 b ++ c!" | " ++ center 22 c

/-- `hh` (soec.py:52), `hv` (soec.py:53): six cells. -/
def hexa (label a b c d e f : Str) : Str :=
  c!"    " ++ alignLeft 10 label ++ c!" | " ++ center 10 a ++ c!"  " ++ center 10 b ++ c!" | " ++ center 10 c ++ c!"  " ++
    center 10 d ++ c!" | " ++ center 10 e ++ c!"  " ++ center 10 f

/-- `'{:.4f}'` of a finite number. -/
def four (q : ℚ) : Str := formatFixed 4 q

/-- Labels of the lines of an axis (soec.py:470, 490, 495, 517). -/
def axisLabel (label : Str) (i : Fin 3) : Str := if i = 1 then label else []

/-- `report_variation_single` (soec.py:457-477). -/
def reportSingle (E LC : Extremes) : List Str :=
  [c!"Variations of the elastic moduli:", [], doubleRule c!"---", double [] c!"Young's modulus" c!"Linear compressibility",
    doubleRule c!"-|-", quad [] c!"E_min" c!"E_max" c!"beta_min" c!"beta_max",
    quad c!"Values" (four E.minimum) (four E.maximum) (four LC.minimum) (four LC.maximum), doubleRule c!"-|-",
    double c!"Anisotropy" (fixedNum 4 E.anisotropy) (fixedNum 4 LC.anisotropy), doubleRule c!"-|-"] ++
  (List.ofFn fun i => quad (axisLabel c!"Axis" i) (four (E.minAxis1 i)) (four (E.maxAxis1 i)) (four (LC.minAxis1 i))
    (four (LC.maxAxis1 i))) ++
  [doubleRule c!"---", c!"Notes: E min/max values in GPa, beta min/max values in TPa^-1", []]

/-- `report_variation_dual` (soec.py:479-502). -/
def reportDual (G Nu : Extremes) : List Str :=
  [doubleRule c!"---", double [] c!"Shear modulus" c!"Poisson's ratio",
    doubleRule c!"-|-", quad [] c!"G_min" c!"G_max" c!"nu_min" c!"nu_max",
    quad c!"Values" (four G.minimum) (four G.maximum) (four Nu.minimum) (four Nu.maximum), doubleRule c!"-|-",
    double c!"Anisotropy" (fixedNum 4 G.anisotropy) (fixedNum 4 Nu.anisotropy), doubleRule c!"-|-"] ++
  (List.ofFn fun i => quad (axisLabel c!"1st Axis" i) (four (G.minAxis1 i)) (four (G.maxAxis1 i)) (four (Nu.minAxis1 i))
    (four (Nu.maxAxis1 i))) ++ [doubleRule c!"-|-"] ++
  (List.ofFn fun i => quad (axisLabel c!"2nd Axis" i) (four (G.minAxis2 i)) (four (G.maxAxis2 i)) (four (Nu.minAxis2 i))
    (four (Nu.maxAxis2 i))) ++
  [doubleRule c!"---", c!"Notes: G min/max values in GPa", []]

/-- `report_variation_seismic` (soec.py:504-528). -/
def reportSeismic (Vp Vs1 Vs2 : Extremes) : List Str :=
  [[], c!"Variations of the seismic velocities:", [], tripleRule c!"---", triple [] c!"V_s1" c!"V_s2" c!"V_p",
    tripleRule c!"-|-", hexa [] c!"min" c!"max" c!"min" c!"max" c!"min" c!"max",
    hexa c!"Values" (four Vs1.minimum) (four Vs1.maximum) (four Vs2.minimum) (four Vs2.maximum) (four Vp.minimum)
      (four Vp.maximum), tripleRule c!"-|-",
    triple c!"Anisotropy" (fixedNum 4 Vs1.anisotropy) (fixedNum 4 Vs2.anisotropy) (fixedNum 4 Vp.anisotropy),
    tripleRule c!"-|-"] ++
  (List.ofFn fun i => hexa (axisLabel c!"Axis" i) (four (Vs1.minAxis1 i)) (four (Vs1.maxAxis1 i)) (four (Vs2.minAxis1 i))
    (four (Vs2.maxAxis1 i)) (four (Vp.minAxis1 i)) (four (Vp.maxAxis1 i))) ++
  [tripleRule c!"---", c!"Notes: min/max values in km s^-1", []]

/-! ### Run -/

/-- The velocities that are reported and stored (soec.py:228-232). -/
def averageVelocities (density : ℚ) (iso : Fin 3 → ℚ) : Fin 3 → Num :=
  if 0 < density then fun i => .val (iso i) else fun _ => .nan

/-- `any(eigv) <= 0` (soec.py:248): refused only when every eigenvalue is zero. -/
def refused (eigenval : Fin 6 → ℚ) : Bool := ¬ ∃ i, eigenval i ≠ 0

/-- The lines of `run` (soec.py:216-268) before the sections and the time. -/
def runLog (density : ℚ) (avg : Fin 3 → Fin 4 → ℚ) (eigenval : Fin 6 → ℚ) (iso : Fin 3 → ℚ)
    (E LC G Nu Vp Vs1 Vs2 : Extremes) : List Str :=
  reportInitial avg eigenval (averageVelocities density iso) ++
    if refused eigenval then
      [c!"SOEC matrix is not definite positive, crystal is mechanically unstable",
        c!"No further analysis will be performed."]
    else reportSingle E LC ++ reportDual G Nu ++ if 0 < density then reportSeismic Vp Vs1 Vs2 else []

end Verif.Report
