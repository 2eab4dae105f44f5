/-
`quantas eosfit` from the text of the input to the log of a fit: the reader (/repo/quantas/IO/eos_reader.py), the
session (/repo/quantas/eosfit/eosfit.py) and the report of each fit, put together.  The data of the file are exact
rationals, and so are the numbers that the regression (scipy.odr, third party) returns; what lies between is real.
-/
import Verif.EoS.Units
import Verif.Report.EosFit

noncomputable section

namespace Verif.Chain.Eos
open Verif.Py Verif.IO Verif.EoS Verif.Session Verif.Report

/-- `data[key]` (interactive.py:261, eosfit.py:142). -/
def column (d : EoSData) (key : Str) : List ℚ := (d.columns key).getD []

/-- The data as arrays: as many entries as the fitted quantity has. -/
def vector (n : ℕ) (l : List ℚ) (i : Fin n) : ℝ := ((l.getD i 0 : ℚ) : ℝ)

/-- The regression `ODR(RealData(V, P, sigmaV, sigmaP), Model(eos, [order, linear, True]), p0, ifixb, maxit=500)` with the
kind of fit set (pv_eos.py:150-158; third party). -/
abbrev Odr := Formulation → ℕ → Bool → Setup → List ℚ → List ℚ → Option (List ℚ) → Option (List ℚ) → Output

/-- `results.beta` (eosfit.py:184). -/
def betaOf (o : Output) : Pars :=
  ⟨((o.beta.getD 0 0 : ℚ) : ℝ), ((o.beta.getD 1 0 : ℚ) : ℝ), ((o.beta.getD 2 0 : ℚ) : ℝ), ((o.beta.getD 3 0 : ℚ) : ℝ)⟩

/-- The fit of the column `sel` (eosfit.py:171-175); `weights` holds the arrays of the file or nothing
(interactive.py:372-387). -/
def fitColumn (odr : Odr) (d : EoSData) (sel : Str) (f : Formulation) (order : ℕ) (linear : Bool) (s : Setup)
    (sigmaP sigmaV : Bool) : Output :=
  odr f order linear s (column d sel) (column d c!"p") (if sigmaV then d.columns (c!"sigma" ++ sel) else none)
    (if sigmaP then d.columns c!"sigmap" else none)

/-- The session on the data of a file (eosfit.py:137-204): `is_available` asks for an array (interactive.py:88-107), the
starting values come from the columns.  Conversions of what the user types are those of click and numpy. -/
def world (parseInt : Str → Option ℕ) (parseFloat : Str → Option ℝ) (round5 : ℝ → ℝ) (polyfit : Guess.Polyfit) (odr : Odr)
    (d : EoSData) : World where
  parseInt := parseInt
  parseFloat := parseFloat
  round5 := round5
  avail k := (d.columns k).isSome
  guess sel := Guess.pvGuess polyfit (vector (column d sel).length (column d sel)) (vector _ (column d c!"p"))
  beta sel f order linear s sP sV := betaOf (fitColumn odr d sel f order linear s sP sV)

/-- `__repr__` of the formulations (pv_eos.py:168, 246, 453, 660, 852). -/
def nameOf : Formulation → Str
  | .murnaghan => c!"Murnaghan"
  | .birchMurnaghan => c!"Birch-Murnaghan"
  | .naturalStrain => c!"Natural Strain"
  | .vinet => c!"Vinet"
  | .tait => c!"Tait"

/-- What is written after a fit of the session (eosfit.py:177-180). -/
def logOf (vunit punit : Str) (odr : Odr) (d : EoSData) (r : Record) : Except PyErr (List Str) :=
  reportSelected vunit punit (column d c!"p") (fitColumn odr d r.sel r.form r.order r.linear r.setup r.sigmaP r.sigmaV)
    (column d r.sel) r.sel (nameOf r.form) r.order r.sigmaP r.sigmaV r.fixed

end Verif.Chain.Eos
