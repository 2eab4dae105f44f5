/-
Specification of the static pressures: minus the slope of the energy, in SI units.
-/
import Verif.QHA.Spec
import Verif.Report.Static

namespace Verif.Report.Spec
open Verif.QHA.Spec Verif.Units

/-- The number `p`, in the pressure unit of the run, is minus the slope `s` of the energy, in the energy unit
per cubed length unit of the run. -/
def IsPressure (k : Consts) (u : Choice) (p s : ℝ) : Prop :=
  p * u.p.pascal * u.v.m3 k = -s * u.e.joule k

/-- Volumes listed in increasing order. -/
def Increasing (n : ℕ) (x : ℕ → ℝ) : Prop := ∀ i, i + 1 < n → x i < x (i + 1)

end Verif.Report.Spec
