/-
Specification of what a user reads in an exported table of quasi-harmonic results.
-/
import Verif.Chain.TableSpec
import Verif.Chain.QuasiSpec

noncomputable section

namespace Verif.Chain.Spec
open Verif.Py Verif.IO Verif.IO.Spec Verif.Units Verif.Export Verif.QHA.Spec

/-- The results of a run, with the names that the user types at the prompt of the exporter. -/
def reported {nt np : ℕ} (r : QHA.Results nt np) : List (Str × (Fin nt → Fin np → ℝ)) :=
  [(c!"Uzp", r.Uzp), (c!"Uth", r.Uth), (c!"Utot", r.Utot), (c!"S", r.S), (c!"Fvib", r.Fvib), (c!"F", r.F), (c!"Cv", r.Cv),
    (c!"VT", r.VT), (c!"Cp", r.Cp), (c!"Cp-Cv", r.CpmCv), (c!"KT", r.KT), (c!"KS", r.KS), (c!"Kp", r.Kp), (c!"H", r.H),
    (c!"G", r.G), (c!"alphaV", r.alphaV), (c!"gruneisen", r.gruneisen)]

/-- The result file holds the results, as numbers of the computer with the relative error `ε`: one line per temperature and
one column per pressure. -/
structure HoldsQuasi {nt np : ℕ} (ε : ℝ) (r : QhaRun) (T : Fin nt → ℝ) (P : Fin np → ℝ) (res : QHA.Results nt np) : Prop where
  temperatures : r.temperature.length = nt
  temperature : ∀ (i : Fin nt) (q : ℚ), r.temperature[(i : ℕ)]? = some q → |q - T i| ≤ ε * |T i|
  pressures : r.pressure.length = np
  pressure : ∀ (j : Fin np) (q : ℚ), r.pressure[(j : ℕ)]? = some q → |q - P j| ≤ ε * |P j|
  values : ∀ x ∈ reported res, ∃ z : ℕ → ℕ → ℚ,
    r.results x.1 = .mat ((List.range nt).map fun i => (List.range np).map (z i)) ∧
    ∀ (i : Fin nt) (j : Fin np), |z i j - x.2 i j| ≤ ε * |x.2 i j|

/-- In the text, a table whose eighth line names its columns, the column with the number `j` is that of the number `p`. -/
def Heads (text : Str) (j : ℕ) (p : ℚ) : Prop :=
  ∃ lines l ps, (∀ l ∈ lines, '\n' ∉ l) ∧ text = List.intercalate ['\n'] lines ∧ lines[7]? = some l ∧
    Numbers ps l ∧ ps[j]? = some p

/-- The error of printing the quantity `y`: half a unit of the eighth decimal for volumes, bulk moduli and their derivatives,
and the thirteenth digit for all others. -/
def printing (name : Str) (y : ℝ) : ℝ :=
  if name ∈ [c!"VT", c!"KT", c!"KS", c!"Kp"] then 1 / (2 * 10 ^ 8) else 1 / 10 ^ 12 * |y|

/-- The text is a table of `y` with the line of each temperature and the column of each pressure. -/
def ShowsQuasi {nt np : ℕ} (ε : ℝ) (text name : Str) (T : Fin nt → ℝ) (P : Fin np → ℝ) (y : Fin nt → Fin np → ℝ) : Prop :=
  ∀ (i : Fin nt) (j : Fin np), ∃ t p x : ℚ, Shows text i j t x ∧ Heads text j p ∧ |t - T i| ≤ 1 / 200 + ε * |T i| ∧
    |p - P j| ≤ 1 / (2 * 10 ^ 8) + ε * |P j| ∧ |x - y i j| ≤ ε * |y i j| + printing name (y i j)

/-- The generic exporter accepts the result file, and each table that the user asks for shows the results.  The thermal
expansions are left out, see `C131_expansion_violated`. -/
def ExportsQuasi {nt np : ℕ} (ε : ℝ) (f : H5) (T : Fin nt → ℝ) (P : Fin np → ℝ) (res : QHA.Results nt np) : Prop :=
  ∀ filename, ∃ e, Generic.readInput filename f = .ok (none, e) ∧
    ∀ x ∈ reported res, x.1 ≠ c!"alphaV" → ∃ text, Generic.Spec.Saves e f x.1 text ∧ ShowsQuasi ε text x.1 T P x.2

/-- The result file of `quantas qha`. -/
def qhaFile {nt np : ℕ} (job : Str) (s : QHA.Settings nt np) (r : QhaRun) : H5 :=
  saveQha ⟨s.eunit, s.vunit, s.tunit, s.punit⟩
    (Generic.qhaInfo job s.eunit s.vunit s.funit s.tunit s.punit (decide (s.scheme = .freq)) (decide (s.minimization = .poly)))
    (Generic.described Generic.qhaDescriptions) r

/-- `out` is the outcome of the quasi-harmonic approximation for crystals of these volumes, where `ha` are the results of the
harmonic approximation.  The volumes `X` are those given to eight decimals, and the polynomials `c` fit the free energies of each
temperature.  When one of them has no equilibrium volume at some pressure, the outcome is `IndexError`.  Otherwise the run ends, and
the table of the volumes shows equilibrium volumes, where the potential is smaller than nearby.  With the interpolation of thermodynamic functions the tables of entropy, heat capacity,
internal and free energy show the values there of fitted polynomials. -/
def Tabled {nt np nv : ℕ} (k : Consts) (u : Choice) (s : QHA.Settings nt np) (job : Str) (volumes : List ℚ)
    (ha : HA.Results nt nv) (out : Except PyErr (Except QuasiError (QHA.Results nt np))) : Prop :=
  ∃ (X : Fin nv → ℝ) (c : Fin nt → Fin (s.edeg + 1) → ℝ),
    (∀ (n : Fin nv) V, volumes[(n : ℕ)]? = some V → |X n - V| ≤ 1 / (2 * 10 ^ 8)) ∧
    (∀ i, Poly.Spec.IsLeastSquares X (ha.F i) (c i)) ∧
    ((¬ ∀ i j, ∃ V, Equilibrium k u (c i) (s.pressure j) V) → out = .error .indexError) ∧
    ((∀ i j, ∃ V, Equilibrium k u (c i) (s.pressure j) V) →
      ∃ res, out = .ok (.ok res) ∧ ∃ V : Fin nt → Fin np → ℝ,
        (∀ i j, Equilibrium k u (c i) (s.pressure j) (V i j) ∧ Minimal k u (c i) (s.pressure j) (V i j)) ∧
        ∀ ε run, ε ≤ 1 / 2 → HoldsQuasi ε run s.temperature s.pressure res →
          ∀ filename, ∃ e, Generic.readInput filename (qhaFile job s run) = .ok (none, e) ∧
            (∃ text, Generic.Spec.Saves e (qhaFile job s run) c!"VT" text ∧
              ShowsQuasi ε text c!"VT" s.temperature s.pressure V) ∧
            (s.scheme = .td → ∀ q ∈ [(c!"S", ha.S), (c!"Cv", ha.Cv), (c!"Utot", ha.Utot), (c!"F", ha.F)],
              ∃ text y, Generic.Spec.Saves e (qhaFile job s run) q.1 text ∧
                (∀ i j, Fitted (s.edeg + 1) X (q.2 i) (V i j) (y i j)) ∧
                ShowsQuasi ε text q.1 s.temperature s.pressure y))

end Verif.Chain.Spec
