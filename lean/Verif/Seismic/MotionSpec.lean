/-
Elastic waves as solutions of the equation of motion, independently of the code: displacements, stresses and the flow of energy in
an elastic continuum (SI units).
-/
import Mathlib.Analysis.Calculus.Deriv.Basic
import Mathlib.Analysis.SpecialFunctions.Trigonometric.Basic
import Verif.Seismic.Spec

noncomputable section

namespace Verif.Seismic.Spec
open Verif.Elastic Verif.Elastic.Spec

/-- A displacement field: the displacement of the point `x` at the time `t`. -/
abbrev Field := V3 → ℝ → V3

/-- The derivative of a function of the position along the axis `j`. -/
def partialAt (f : V3 → ℝ) (x : V3) (j : Fin 3) : ℝ := deriv (fun s => f (Function.update x j s)) (x j)

/-- Hooke's law: the stress of a displacement field. -/
def stressOf (c : T4) (u : Field) (x : V3) (t : ℝ) (i j : Fin 3) : ℝ :=
  ∑ k, ∑ l, c i j k l * partialAt (fun y => u y t k) x l

/-- The velocity of a point. -/
def velocityOf (u : Field) (x : V3) (t : ℝ) (i : Fin 3) : ℝ := deriv (fun s => u x s i) t

/-- Newton's law for a continuum of density `rho`: mass times acceleration is the divergence of the stress. -/
def ObeysMotion (c : T4) (rho : ℝ) (u : Field) : Prop :=
  ∀ x t i, rho * deriv (fun s => velocityOf u x s i) t = ∑ j, partialAt (fun y => stressOf c u y t i j) x j

/-- The flow of energy through a unit area: the power of the stress. -/
def energyFlux (c : T4) (u : Field) (x : V3) (t : ℝ) (j : Fin 3) : ℝ := -∑ i, stressOf c u x t i j * velocityOf u x t i

/-- The kinetic and the elastic energy of a unit volume. -/
def energyDensity (c : T4) (rho : ℝ) (u : Field) (x : V3) (t : ℝ) : ℝ :=
  rho / 2 * ∑ i, velocityOf u x t i ^ 2 + 1 / 2 * ∑ i, ∑ j, stressOf c u x t i j * partialAt (fun y => u y t i) x j

/-- The plane wave with the polarisation `e` that travels along `n` with the speed `v`; `k` is the wave number. -/
def planeWave (e n : V3) (k v : ℝ) : Field := fun x t i => e i * Real.cos (k * (dot n x - v * t))

end Verif.Seismic.Spec
