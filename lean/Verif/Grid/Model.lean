/-
Model of the range setters (/repo/quantas/qha/qha.py:276-312, /repo/quantas/harmonic/harmonic.py:124-137)
and of the local fine grid (/repo/quantas/qha/qha.py:936-959).
-/
import Mathlib.Algebra.Order.Floor.Ring
import Mathlib.Algebra.Order.Archimedean.Real.Basic
import Verif.Tac
import Verif.Py.Basic

namespace Verif.Grid
open Verif.Py

/-- `np.arange(start, stop, step)` for floats (numpy): `ceil((stop - start)/step)` values
`start + i*step`; a zero step raises. -/
noncomputable def arange (start stop step : ℝ) : Except PyErr (List ℝ) :=
  if step = 0 then .error .zeroDivision
  else .ok ((List.range ⌈(stop - start) / step⌉.toNat).map fun (i : ℕ) => start + i * step)

/-- The setters `temperature` and `pressure` (qha.py:287, 313; harmonic.py:136), called with the
tuple (min, max, step). -/
noncomputable def range (min max step : ℝ) : Except PyErr (List ℝ) := arange min (max + step) step

/-- `np.arange(minimum, maximum, 1)` for integers (numpy; qha.py:957). -/
def intArange (start stop : ℤ) : List ℤ := (List.range (stop - start).toNat).map fun (i : ℕ) => start + i

/-- `fine_grid` (qha.py:936-959). -/
noncomputable def fineGrid (npoints : ℕ) (separation : ℝ) : List ℝ × ℕ :=
  let spacing := separation / 100
  let maximum : ℤ := -(((npoints / 2 : ℕ) : ℤ) - npoints)
  let minimum : ℤ := maximum - npoints
  let expansion := (intArange minimum maximum).map fun (m : ℤ) => (m : ℝ) * spacing
  let index := expansion.length / 2
  (expansion, index)

/-- The volumes built from it (qha.py:571-572, 841-842): `volume + volume * grid`. -/
noncomputable def volumeGrid (volume : ℝ) (grid : List ℝ) : List ℝ := grid.map fun g => volume + volume * g

end Verif.Grid
