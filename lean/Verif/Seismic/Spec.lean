/-
Vocabulary for the seismic properties.
-/
import Verif.Seismic.Model
import Verif.Elastic.Spec

namespace Verif.Seismic.Spec
open Verif.Seismic Verif.Elastic Verif.Elastic.Spec

/-- The vectors `e 0, e 1, e 2` form an orthonormal frame. -/
def Frame (e : Fin 3 → V3) : Prop := ∀ i j, dot (e i) (e j) = if i = j then 1 else 0

/-- `e` is an eigenvector of `M` for the value `w`. -/
def Eigen (M : M3) (w : ℝ) (e : V3) : Prop := ∀ i, ∑ j, M i j * e j = w * e i

/-- `w` lists the eigenvalues of `M` in ascending order, with multiplicity: there is an orthonormal
frame of eigenvectors that belongs to them. -/
def Spectrum (M : M3) (w : V3) : Prop :=
  w 0 ≤ w 1 ∧ w 1 ≤ w 2 ∧ ∃ e, Frame e ∧ ∀ i, Eigen M (w i) (e i)

/-- What the documentation of `np.linalg.eigh` promises for symmetric matrices: ascending
eigenvalues and an orthonormal frame of eigenvectors, one in each column. -/
def EighCorrect (num : Numerics) : Prop :=
  ∀ M : M3, (∀ i j, M i j = M j i) →
    (num.eigh M).1 0 ≤ (num.eigh M).1 1 ∧ (num.eigh M).1 1 ≤ (num.eigh M).1 2 ∧
    Frame (fun k i => (num.eigh M).2 i k) ∧
    ∀ k, Eigen M ((num.eigh M).1 k) (fun i => (num.eigh M).2 i k)

/-- The Christoffel (acoustic) matrix of a medium with stiffness tensor `c` and density `rho`, for a
plane wave in direction `n`: `Γ_ik = Σ_jl c_ijkl n_j n_l / ρ`. -/
noncomputable def acoustic (c : T4) (rho : ℝ) (n : V3) : M3 :=
  Matrix.of fun i k => (∑ j, ∑ l, c i j k l * n j * n l) / rho

/-- `V` are the phase velocities (km/s) of plane waves in direction `n`: `V²·10⁶` are the
eigenvalues of the acoustic matrix in SI units (stiffness in Pa, density in kg/m³). -/
def PhaseVelocities (C : M6) (rho : ℝ) (n : V3) (V : V3) : Prop :=
  (∀ i, 0 ≤ V i) ∧
    Spectrum (acoustic (fun i j k l => 10 ^ 9 * cTensor C i j k l) rho n) fun i => (1000 * V i) ^ 2

end Verif.Seismic.Spec
