/-
C151: what a user of `quantas eosfit` expects of exact data.
-/
import Verif.Chain.EosModel
import Verif.EoS.IdentifySpec
import Verif.Report.EosFitSpec

namespace Verif.Chain.Eos.Spec
open Verif.Py Verif.IO Verif.IO.Spec Verif.EoS Verif.EoS.Spec Verif.Session Verif.Report Verif.Report.Spec

/-- The parameters in the order `K0, K', K'', V0`. -/
def entry (p : Pars) : Fin 4 → ℝ
  | 0 => p.K0
  | 1 => p.Kp
  | 2 => p.Kpp
  | 3 => p.V0

/-- The regression is taken at its word, up to `ε`: its output has the shape of the data, and when there are parameters of
least misfit (among those of a solid that resists compression, holding the parameters it is told to hold), the parameters
it returns are within `ε` of such. -/
def Regresses (ε : ℝ) (odr : Odr) : Prop :=
  ∀ (f : Formulation) (order : ℕ) (linear : Bool) (s : Setup) (V P : List ℚ) (sV sP : Option (List ℚ)),
    P.length = V.length → (∀ l ∈ sV, l.length = V.length) → (∀ l ∈ sP, l.length = V.length) →
    let best := BestP (n := V.length) (fun r => PSolid f order (parsAfter f r order linear true) ∧ Held s.fix s.p0 r)
      (fun r v => (eos f r v order linear true).1) (decide (s.job = .odr)) (vector _ V) (vector _ P)
      (weight (sV.map (vector _))) (weight (sP.map (vector _)))
    IsOutput (odr f order linear s V P sV sP) V P ∧
    ((∃ p δ, best p δ) →
      ∃ p δ, best p δ ∧ ∀ i, |entry (betaOf (odr f order linear s V P sV sP)) i - entry p i| ≤ ε)

/-- Lengths of axes are fitted with the linear form of the equation of state, volumes are not. -/
def linear : Choice → Bool
  | .volume => false
  | _ => true

/-- The column `i` of a file with these column names holds the quantity `key` (in any letter case). -/
def Holds (names : List Str) (i : ℕ) (key : Str) : Prop := ∃ name, names[i]? = some name ∧ lower name = key

/-- The data of a file lie on a curve: the column `v` of the quantity is positive in every row, and the column `p` is the
pressure that the equation of state has there; no value occurs twice, and there are enough rows to determine the
parameters.  Uncertainties, if there are any, are not zero. -/
structure OnCurve (f : Formulation) (order : ℕ) (ch : Choice) (q : Pars) (names : List Str) (rows : List (List ℚ)) (p v : ℕ) :
    Prop where
  solid : PSolid f order (parsAfter f q order (linear ch) true)
  is_pressure : Holds names p c!"p"
  is_quantity : Holds names v ch.key
  positive : ∀ r ∈ rows, 0 < r.getD v 0
  distinct : (rows.map fun r => r.getD v 0).Nodup
  enough : enoughP f order ≤ rows.length
  pressure : ∀ r ∈ rows, ((r.getD p 0 : ℚ) : ℝ) = (eos f q ((r.getD v 0 : ℚ) : ℝ) order (linear ch) true).1
  errors : ∀ s, Holds names s c!"sigmap" ∨ Holds names s (c!"sigma" ++ ch.key) → ∀ r ∈ rows, r.getD s 0 ≠ 0

/-- Whatever the user holds fixed in this fit starts from its true value. -/
def HeldTrue (r : Record) (q : Pars) : Prop := ∀ i : Fin 4, r.fixed[i.1]? = some 0 → entry r.setup.p0 i = entry q i

/-- A line of the log that gives the parameter `label` a value within `tol` of `x`. -/
def Shows (label : Str) (x tol : ℝ) (l : Str) : Prop :=
  ∃ (b s : ℚ) (tb ts : Str) (flags : List Str), Numeral tb b ∧ Numeral ts s ∧ |(b : ℝ) - x| ≤ tol ∧
    Tokens ([label, c!"=", tb, c!"+/-", ts] ++ flags) l

/-- The parameters that an equation of state of some order does not imply. -/
def Refined (order : ℕ) (i : Fin 4) : Prop :=
  match i with
  | 0 | 3 => True
  | 1 => 3 ≤ order
  | 2 => 4 ≤ order

end Verif.Chain.Eos.Spec
