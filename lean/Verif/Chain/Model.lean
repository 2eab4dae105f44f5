/-
Model of the two commands of an elastic analysis: `quantas inpgen soec` (/repo/quantas/soec/commands/cmd_inpgen.py with
/repo/quantas/IO/soec_writer.py) and the reading part of `quantas soec` (/repo/quantas/soec/soec.py).  The files are texts; what
the commands echo and the names of the files are modelled elsewhere (`Verif.Command`, `Verif.Report`).
-/
import Verif.Interfaces.Soec
import Verif.IO.Soec
import Verif.Elastic.Run

namespace Verif.Chain
open Verif.Py Verif.IO Verif.Interfaces Verif.Elastic

/-- The choices of `--interface` (cmd_inpgen.py:36-39, 46-48). -/
inductive Program | crystal | vasp
  deriving DecidableEq

/-- `prompt(msg, default='Unknown')` (cmd_inpgen.py:90): an empty answer selects the default. -/
def jobName (answer : Str) : Str := if answer = [] then c!"Unknown" else answer

/-- `SOECInputCreator.read` in a new process (soec_writer.py:36-54): the moduli, the density and the outcome.  The VASP reader
never assigns the density of its class (vasp.py:24-27). -/
def readOutput (p : Program) (output : Str) : (Mat × ℚ) × Except PyErr (Outcome ReadError) :=
  match p with
  | .crystal =>
    let r := loadCrystal output .initial
    ((r.1.stiffness, r.1.density), r.2)
  | .vasp =>
    let r := loadVasp output fun _ _ => 0
    ((r.1, 0), r.2)

/-- `soec_inpgen` (cmd_inpgen.py:67-91): the text of the input file, or the error that is echoed; exceptions of the reader other
than the two that are caught (which these readers do not raise) leave the command. -/
def generate (p : Program) (output answer : Str) : Except PyErr (Except (Option ReadError) Str) :=
  match readOutput p output with
  | (_, .error e) => .error e
  | ((C, density), .ok r) =>
    if r.completed then .ok (.ok (writeSoec C density (jobName answer))) else .ok (.error r.error)

/-- The moduli as real numbers. -/
noncomputable def real (m : Mat) : M6 := Matrix.of fun i j => (m i j : ℝ)

/-- What `SOECCalculator.read_input` leaves (soec.py:163-189). -/
structure Input where
  job : Str
  system : System
  solid : Solid

/-- `SOECCalculator.read_input` in a new process (soec.py:163-189): the error of the reader, or the job, the crystal system and
the elastic object.  A reader that completed without a matrix does not occur; `reader.stiffness` would be an array of zeros. -/
noncomputable def readInput (text : Str) : Except PyErr (Except (Option SoecError) Input) :=
  match loadSoec text .initial with
  | (_, .error e) => .error e
  | (d, .ok r) =>
    if r.completed then do
      let (sys, o) ← load (real (d.stiffness.getD fun _ _ => 0)) d.density
      pure (.ok { job := d.job, system := sys, solid := o })
    else .ok (.error r.error)

end Verif.Chain
