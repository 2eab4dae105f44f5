/-
Model of `quantas qha` on a generated input (/repo/quantas/qha/qha.py: `read_input` and `run`).
-/
import Verif.Chain.PhononModel
import Verif.QHA.Model

noncomputable section

namespace Verif.Chain
open Verif.Py Verif.IO Verif.Phonon Verif.Units

/-- The refusals of `QHACalculator.read_input` (qha.py:336-341). -/
inductive QuasiError
  | input (e : Option InputError)
  | few
  deriving DecidableEq

/-- `QHACalculator.read_input` and `run` in a new process (qha.py:220-262, 318-344, 438-478): the refusal, or the results.
`len` refuses a single number (qha.py:338).  The report of the input between the two (qha.py:345-437) is not modelled. -/
def quasiHarmonic {nt np : ℕ} (k : Consts) (ext : QHA.Ext) (s : QHA.Settings nt np) (input : Loaded) :
    Except PyErr (Except QuasiError (QHA.Results nt np)) := do
  let r ← Reader.load {} input
  if r.completed then
    match ← r.volume with
    | .scalar _ => .error .typeError
    | .vec l =>
      if l.length < 4 then pure (.error .few)
      else
        let w ← r.weights
        let f ← r.frequencies
        let n ← r.natoms
        let e ← r.energy
        let x : QHA.Input w.length (3 * n.toNat) l.length :=
          { U0 := fun i => element (elements e) i
            freq := fun j m i => element (((f[(j : ℕ)]?).getD [])[(m : ℕ)]?.getD []) i
            weights := fun j => element w j
            volume := fun i => element l i }
        let res ← QHA.run k ext s x
        pure (.ok res)
  else pure (.error (.input r.error))

end Verif.Chain
