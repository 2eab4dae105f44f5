/-
What the equation-of-state minimisation of the quasi-harmonic calculation is meant to give.
-/
import Verif.QHA.Spec
import Verif.EoS.IdentifySpec

namespace Verif.QHA.Spec
open Verif.Py Verif.Units Verif.EoS Verif.EoS.Spec

/-- Name of a formulation in the settings (cmd_qha.py:42-47). -/
def formName : EForm → Str
  | .murnaghan => c!"murnaghan"
  | .birchMurnaghan => c!"birchmurnaghan"
  | .pourierTarantola => c!"pouriertarantola"
  | .vinet => c!"vinet"

/-- The parameters a fit returns. -/
def fitted (ext : Ext) (f : EForm) {n : ℕ} (V E : Fin n → ℝ) : EPars :=
  let c := ext.eosFit (formName f) V E
  ⟨c 0, c 1, c 2, c 3⟩

/-- The equation-of-state fits do what they document: a best fit is found whenever there is one. -/
def BestFits (ext : Ext) : Prop :=
  ∀ (f : EForm) {n : ℕ} (V E : Fin n → ℝ), (∃ q, Best f V E q) → Best f V E (fitted ext f V E)

/-- `F + p V` at the volumes of the input, in the unit of energy. -/
noncomputable def loaded {nt np nb nf nv : ℕ} (k : Consts) (u : Choice) (s : Settings nt np)
    (x : Input nb nf nv) (F : Fin nv → ℝ) (j : Fin np) (n : Fin nv) : ℝ :=
  F n + (s.pressure j * u.p.pascal) * (x.volume n * u.v.m3 k) / u.e.joule k

/-- The free energy curve of a fit to `F + p V`, in joule: the fitted curve less `p V`. -/
noncomputable def unloaded {nt np : ℕ} (k : Consts) (u : Choice) (s : Settings nt np) (f : EForm)
    (q : EPars) (j : Fin np) (V : ℝ) : ℝ :=
  energy f q.E0 q.K0 q.Kp q.V0 V * u.e.joule k - (s.pressure j * u.p.pascal) * (V * u.v.m3 k)

/-- The pressure of a free energy curve (in joule, of the volume in cubed units), in pascal. -/
noncomputable def pressureOf (k : Consts) (u : Choice) (A : ℝ → ℝ) (V : ℝ) : ℝ := -deriv A V / u.v.m3 k

end Verif.QHA.Spec
