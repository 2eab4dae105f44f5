/-
What the reports of the equation-of-state calculator should say.
-/
import Verif.EoS.Model
import Verif.IO.TextLemmas
import Verif.Phonon.YamlSpec
import Verif.Report.EosFit

namespace Verif.Report.Spec
open Verif.Py Verif.IO Verif.IO.Spec Verif.EoS

/-- An entry of the table of the input: the number with five decimals, or `--` for a quantity that was not given. -/
def Entry (x : Option (List ℚ)) (i : ℕ) (t : Str) : Prop :=
  match x with
  | some xs => ∃ x v, xs[i]? = some x ∧ Rounded 5 x v ∧ Numeral t v
  | none => t = c!"--"

/-- The line of point `i` of the input: pressure with three decimals, volume, a, b, c. -/
def IsInputRow (d : EoSData) (p : List ℚ) (i : ℕ) (l : Str) : Prop :=
  ∃ x p' tp tv ta tb tc, p[i]? = some x ∧ Rounded 3 x p' ∧ Numeral tp p' ∧ Entry (d.get .volume) i tv ∧
    Entry (d.get .a) i ta ∧ Entry (d.get .b) i tb ∧ Entry (d.get .c) i tc ∧ Tokens [tp, tv, ta, tb, tc] l

/-- The name of a quantity with uncertainties. -/
def weightName : Quantity → Option Str
  | .sigmaP => some c!"pressure"
  | .sigmaV => some c!"volume"
  | .sigmaA => some c!"a-axis"
  | .sigmaB => some c!"b-axis"
  | .sigmaC => some c!"c-axis"
  | _ => none

/-- What can be fitted. -/
inductive Choice
  | volume | a | b | c

/-- The answer that selects it. -/
def Choice.key : Choice → Str
  | .volume => c!"v"
  | .a => c!"a"
  | .b => c!"b"
  | .c => c!"c"

/-- Its name. -/
def Choice.name : Choice → Str
  | .volume => c!"Volume"
  | .a => c!"a-axis"
  | .b => c!"b-axis"
  | .c => c!"c-axis"

/-- The title of its column: name and unit, cubed for volumes. -/
def Choice.title (unit : Str) : Choice → Str
  | .volume => c!"Volume (" ++ unit ++ c!"^3)"
  | .a => c!"a-axis (" ++ unit ++ c!")"
  | .b => c!"b-axis (" ++ unit ++ c!")"
  | .c => c!"c-axis (" ++ unit ++ c!")"

/-- The title of the column of its corrections. -/
def Choice.eps : Choice → Str
  | .volume => c!"eps_V"
  | .a => c!"eps_a"
  | .b => c!"eps_b"
  | .c => c!"eps_c"

/-- The names of the four parameters: bulk modulus, its derivatives and the volume, or the moduli and the length of an axis. -/
def Choice.parameter : Choice → Fin 4 → Str
  | .volume => ![c!"K0", c!"K'", c!"K''", c!"V0"]
  | .a => ![c!"M0(a)", c!"M'(a)", c!"M''(a)", c!"a0"]
  | .b => ![c!"M0(b)", c!"M'(b)", c!"M''(b)", c!"b0"]
  | .c => ![c!"M0(c)", c!"M'(c)", c!"M''(c)", c!"c0"]

/-- The line of a parameter: label, value and error with five decimals, and the two flags. -/
def IsParameter (label : Str) (b s : ℚ) (fixed implied : Prop) (l : Str) : Prop :=
  ∃ b' s' tb ts flags, Rounded 5 b b' ∧ Rounded 5 s s' ∧ Numeral tb b' ∧ Numeral ts s' ∧
    (∀ f, f ∈ flags ↔ (f = c!"(FIXED)" ∧ fixed) ∨ (f = c!"[IMPLIED]" ∧ implied)) ∧ flags.Nodup ∧
    Tokens ([label, c!"=", tb, c!"+/-", ts] ++ flags) l

/-- A row of the covariance: four numbers with six significant digits. -/
def IsCovariance (row : List ℚ) (l : Str) : Prop :=
  ∃ qs, List.Forall₂ (Phonon.Spec.Significant 5) row qs ∧ Numbers qs l

/-- A line of numbers with five decimals. -/
def IsFitRow (xs : List ℚ) (l : Str) : Prop := ∃ qs, List.Forall₂ (Rounded 5) xs qs ∧ Numbers qs l

/-- The parameters with the `i`-th of `K0, K', K'', V0` replaced. -/
def replace (p : Pars) (x : ℝ) : Fin 4 → Pars
  | 0 => { p with K0 := x }
  | 1 => { p with Kp := x }
  | 2 => { p with Kpp := x }
  | 3 => { p with V0 := x }

/-- The value given to the `i`-th parameter does not matter: the equation of state sets it. -/
def IsImplied (f : Formulation) (order : ℕ) (linear : Bool) (i : Fin 4) : Prop :=
  ∀ p x V, eos f (replace p x i) V order linear true = eos f p V order linear true

/-- The formulations and orders that a session offers. -/
def Offered (f : Formulation) (order : ℕ) : Prop :=
  match f with
  | .murnaghan => order = 3
  | .vinet => order = 2 ∨ order = 3
  | _ => order = 2 ∨ order = 3 ∨ order = 4

/-- The output of the fit fits the data: four parameters, and one value per point for each quantity; `y` are the
fitted pressures, so that `eps` is what they add to the observed ones (scipy.odr: `y = fcn(x + delta)`). -/
structure IsOutput (r : Output) (values pressure : List ℚ) : Prop where
  beta_len : r.beta.length = 4
  sdBeta_len : r.sdBeta.length = 4
  cov_len : r.covBeta.length = 4
  row_len : ∀ row ∈ r.covBeta, row.length = 4
  pressure_len : pressure.length = values.length
  delta_len : r.delta.length = values.length
  y_len : r.y.length = values.length
  eps_len : r.eps.length = values.length
  residual : ∀ i < values.length, r.y.getD i 0 = pressure.getD i 0 + r.eps.getD i 0

end Verif.Report.Spec
