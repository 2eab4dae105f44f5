/-
From the input file to the start of a seismic run (/repo/quantas/seismic/seismic.py, `read_input` and
`report_input_data`; constructor of `Seismic`).  Numbers are exact rationals: a matrix is refused as singular exactly when
its determinant is zero.
-/
import Mathlib.LinearAlgebra.Matrix.NonsingularInverse
import Verif.IO.Soec
import Verif.Report.Elastic

noncomputable section

namespace Verif.Report
open Verif.Py Verif.IO Verif.Phonon Verif.Export

/-- What `read_input` leaves: an error of the reader, the message that there is no density, or a `Seismic` object with its
title, stiffness and density. -/
inductive SeismicStart
  | refused (e : Option SoecError)
  | noDensity
  | ready (job : Str) (C : Mat) (density : ℚ)

/-- The constructor of `Seismic` inverts the matrix and raises ValueError when this fails (seismic_obj.py:131-135); a
matrix that is missing cannot be inverted either. -/
def construct (d : SoecData) : Except PyErr SeismicStart :=
  match d.stiffness with
  | none => .error .valueError
  | some C => if Matrix.det (Matrix.of C) = 0 then .error .valueError else .ok (.ready d.job C d.density)

/-- `read_input` (seismic.py:130-156) on the text of a file; `d` is the dictionary of the reader class before. -/
def startSeismic (text : Str) (d : SoecData) : Except PyErr SeismicStart :=
  match loadSoec text d with
  | (_, .error e) => .error e
  | (d, .ok o) =>
    if o.completed = false then .ok (.refused o.error)
    else if d.density = 0 then .ok .noDensity
    else construct d

/-- `report_input_data` (seismic.py:162-179).  `repr` is the text of `'{}'.format(density)`. -/
def reportSeismicInput (job repr : Str) (C S : Fin 6 → Fin 6 → ℚ) : List Str :=
  [c!"Analysis of the sound velocities in " ++ job, [], c!"Density: " ++ repr ++ c!" kg m^-3", [],
    c!"Stiffness matrix (values in GPa)"] ++ (List.ofFn fun i => stiffnessLine (C i)) ++
    [[], c!"Compliance tensor (values in TPa^-1)"] ++ (List.ofFn fun i => complianceLine (S i)) ++ [[]]

/-- What the input report of a seismic run shows: the compliance is the inverse of the stiffness (seismic_obj.py:133,
202-207). -/
def seismicInputLog (repr : ℚ → Str) : SeismicStart → Option (List Str)
  | .ready job C density =>
    some (reportSeismicInput job (repr density) C (@Inv.inv (Matrix (Fin 6) (Fin 6) ℚ) _ (Matrix.of C)))
  | _ => none

end Verif.Report
