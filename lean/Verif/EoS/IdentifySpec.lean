/-
What it means that a fit recovers the curve the data lie on.
-/
import Mathlib.Algebra.BigOperators.Ring.Finset
import Mathlib.Data.Fintype.BigOperators
import Verif.EoS.Spec

namespace Verif.EoS.Spec

/-- The parameters of an E(V) equation of state. -/
@[ext] structure EPars where
  E0 : ℝ
  K0 : ℝ
  Kp : ℝ
  V0 : ℝ

/-- Parameters of a solid that resists compression: a volume and a bulk modulus above zero, and no
vanishing denominator in the formula. -/
def Solid (f : EForm) (q : EPars) : Prop := 0 < q.K0 ∧ 0 < q.V0 ∧ ERegular f q.Kp

/-- The sum of the squared residuals of an E(V) curve. -/
noncomputable def misfit (f : EForm) {n : ℕ} (V E : Fin n → ℝ) (q : EPars) : ℝ :=
  ∑ i, (energy f q.E0 q.K0 q.Kp q.V0 (V i) - E i) ^ 2

/-- `q` is a best fit: no parameters of a solid leave smaller residuals. -/
def Best (f : EForm) {n : ℕ} (V E : Fin n → ℝ) (q : EPars) : Prop :=
  Solid f q ∧ ∀ q', Solid f q' → misfit f V E q ≤ misfit f V E q'

/-- The number of data that determine the parameters. -/
def enough : EForm → ℕ
  | .vinet => 5
  | _ => 4

/-- Parameters of a P(V) equation of state for a solid that resists compression, with no vanishing
denominator.  The Tait formulation and the strain expansions of fourth order also ask that the solid
stiffens. -/
def PSolid (f : Formulation) (order : ℕ) (q : Pars) : Prop :=
  0 < q.K0 ∧ 0 < q.V0 ∧ Regular f q ∧
    ((f = .tait ∨ 4 ≤ order ∧ (f = .birchMurnaghan ∨ f = .naturalStrain)) → Stiffening f q)

/-- The number of pressures that determine the parameters. -/
def enoughP (f : Formulation) (order : ℕ) : ℕ :=
  match f with
  | .murnaghan => 3
  | .vinet => 4
  | .tait => 4
  | _ => if order < 4 then 3 else 4

/-- What a fit minimises: the weighted squares of the shifts `δ` of the volumes and of the misfits of the
pressures at the shifted volumes.  `curve p` is the curve with the parameters `p`. -/
noncomputable def odrMisfit (curve : Pars → ℝ → ℝ) {n : ℕ} (V P wV wP : Fin n → ℝ) (p : Pars)
    (δ : Fin n → ℝ) : ℝ :=
  ∑ i, (wP i * (curve p (V i + δ i) - P i) ^ 2 + wV i * δ i ^ 2)

/-- A best fit among the parameters `A`: of the pressures alone (`orthogonal = false`, no shifts), or of
volumes and pressures. -/
def BestP (A : Pars → Prop) (curve : Pars → ℝ → ℝ) (orthogonal : Bool) {n : ℕ} (V P wV wP : Fin n → ℝ)
    (p : Pars) (δ : Fin n → ℝ) : Prop :=
  A p ∧ (orthogonal = false → δ = 0) ∧
    ∀ p' δ', A p' → (orthogonal = false → δ' = 0) →
      odrMisfit curve V P wV wP p δ ≤ odrMisfit curve V P wV wP p' δ'

end Verif.EoS.Spec
