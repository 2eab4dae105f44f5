/-
Specification of what a user reads in an exported table of harmonic results.
-/
import Verif.Chain.PhononSpec
import Verif.Export.GenericProps

noncomputable section

namespace Verif.Chain.Spec
open Verif.Py Verif.IO Verif.IO.Spec Verif.Units Verif.Export

/-- The quantities that are tabulated against temperature and volume. -/
inductive Tabulated | thermal | total | entropy | vibrational | free | heat

/-- The name that the user types at the prompt of the exporter. -/
def Tabulated.name : Tabulated → Str
  | thermal => c!"Uth"
  | total => c!"Utot"
  | entropy => c!"S"
  | vibrational => c!"Fvib"
  | free => c!"F"
  | heat => c!"Cv"

/-- The result of a run. -/
def Tabulated.result {nt nv : ℕ} (res : HA.Results nt nv) : Tabulated → Fin nt → Fin nv → ℝ
  | thermal => res.Uth
  | total => res.Utot
  | entropy => res.S
  | vibrational => res.Fvib
  | free => res.F
  | heat => res.Cv

/-- The quantity of a crystal with the static energy `U` and the vibrations `points` at the temperature `T` (kelvin), in the
unit of energy `E` (joule), entropy and heat capacity in thousandths of it per kelvin. -/
def Tabulated.true (k : Consts) (E unit T U : ℝ) (points : List (ℚ × List ℚ)) : Tabulated → ℝ
  | thermal => cellMean (Spec.thermal k T) unit points / E
  | total => U + (cellMean (zeroPoint k) unit points + cellMean (Spec.thermal k T) unit points) / E
  | entropy => 1000 * cellMean (entropyOf k T) unit points / E
  | vibrational => cellMean (Spec.free k T) unit points / E
  | free => U + cellMean (Spec.free k T) unit points / E
  | heat => 1000 * cellMean (heatCapacity k T) unit points / E

/-- The result file holds the results, as numbers of the computer with the relative error `ε`: one line per temperature and
one column per volume. -/
structure Holds {nt nv : ℕ} (ε : ℝ) (r : HaRun) (T : Fin nt → ℝ) (res : HA.Results nt nv) : Prop where
  temperatures : r.temperature.length = nt
  temperature : ∀ (i : Fin nt) (q : ℚ), r.temperature[(i : ℕ)]? = some q → |q - T i| ≤ ε * |T i|
  volumes : r.volume.length = nv
  values : ∀ c : Tabulated, ∃ z : ℕ → ℕ → ℚ,
    r.results c.name = .mat ((List.range nt).map fun i => (List.range nv).map (z i)) ∧
    ∀ (i : Fin nt) (v : Fin nv), |z i v - c.result res i v| ≤ ε * |c.result res i v|

/-- In the text, a table with nine lines above its entries, the line of the entry with the number `i` starts with the number
`t`, and its column with the number `j` shows the number `x`. -/
def Shows (text : Str) (i j : ℕ) (t x : ℚ) : Prop :=
  ∃ lines l vs, (∀ l ∈ lines, '\n' ∉ l) ∧ text = List.intercalate ['\n'] lines ∧ lines[9 + i]? = some l ∧
    Numbers (t :: vs) l ∧ vs[j]? = some x

/-- The generic exporter accepts the result file, and each table that the user asks for shows, at every temperature (`T` in the
unit of the run, `Tk` in kelvin) above zero and every volume, the true quantity within the relative error `ε` of the saved
numbers and the thirteen digits printed. -/
def Exports {nt nv : ℕ} (k : Consts) (E unit ε : ℝ) (f : H5) (T Tk : Fin nt → ℝ) (U : Fin nv → ℝ)
    (pts : Fin nv → List (ℚ × List ℚ)) : Prop :=
  ∀ filename, ∃ e, Generic.readInput filename f = .ok (none, e) ∧
    ∀ c : Tabulated, ∃ text, Generic.Spec.Saves e f c.name text ∧
      ∀ (i : Fin nt) (v : Fin nv), 0 < Tk i → ∃ t x : ℚ, Shows text i v t x ∧ |t - T i| ≤ 1 / 200 + ε * |T i| ∧
        |x - c.true k E unit (Tk i) (U v) (pts v)| ≤
          (ε + 1 / 10 ^ 12) * (|c.true k E unit (Tk i) (U v) (pts v)| + |U v|)

/-- The result file of `quantas ha`. -/
def haFile (job e v f t : Str) (r : HaRun) : H5 :=
  saveHa ⟨e, v, t, []⟩ (Generic.haInfo job e v f t) (Generic.described Generic.haDescriptions) r

end Verif.Chain.Spec
