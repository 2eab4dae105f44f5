/-
Model of /repo/quantas/utils/math/polynomials.py and of the polynomial part of
/repo/quantas/utils/math/fast_math.pyx.  Coefficients are listed by increasing degree, as in
numpy.polynomial.polynomial.  The roots routine of numpy is a parameter.
-/
import Mathlib.Data.Complex.Basic
import Mathlib.Algebra.BigOperators.Fin
import Mathlib.Algebra.BigOperators.Field
import Mathlib.Algebra.BigOperators.Ring.Finset
import Verif.Tac
import Verif.Py.Basic

namespace Verif.Poly
open Verif.Py

/-- `np.polynomial.polynomial.polyval(x, c)` (numpy; used in polynomials.py:45-47, 63 and
qha.py:1102-1110): Horner from the highest coefficient. -/
def polyval {K : Type*} [CommRing K] (c : List K) (x : K) : K :=
  c.foldr (fun a acc => a + acc * x) 0

/-- `polyder(c)` (numpy; used in polynomials.py:61-66 and qha.py:1099-1100, 1107). -/
def polyder {K : Type*} [CommRing K] (c : List K) : List K :=
  (c.zipIdx.map fun p => (p.2 : K) * p.1).tail

/-- `Polynomial + scalar` (numpy; polynomials.py:63): the scalar is added to the constant
coefficient (numpy keeps the series `[0]` for the derivative of a constant, hence the `[a]`). -/
def addConst (c : List ℝ) (a : ℝ) : List ℝ :=
  match c with
  | [] => [a]
  | x :: xs => (x + a) :: xs

/-- `find_polynomial_minimum` (polynomials.py:57-68); `roots` is numpy's root finder, `addendum`
is optional. -/
noncomputable def findPolynomialMinimum (roots : List ℝ → List ℂ) (parameters : List ℝ)
    (addendum : Option ℝ) : List ℝ :=
  let df := polyder parameters
  let df := match addendum with
    | none => df
    | some a => addConst df a
  let crit := roots df
  let real := (crit.filter fun z => z.im = 0).map Complex.re
  real.filter fun x => polyval (polyder (polyder parameters)) x > 0

/-- `sInterp` (fast_math.pyx:22-23). -/
def sInterp (x : ℝ) (n : ℕ) (coeff : ℝ) : ℝ := coeff * x ^ n

/-- `multi_interpolate_array` (fast_math.pyx:27-42): one accumulator per (row, abscissa). -/
def multiInterpolateArray {nv nc nx : ℕ} (X : Fin nx → ℝ) (coeffs : Fin nv → Fin nc → ℝ) :
    Fin nv → Fin nx → ℝ :=
  fun i k => (List.finRange nc).foldl (fun acc (j : Fin nc) => acc + sInterp (X k) j.val (coeffs i j)) 0

/-- `multi_interpolate_scalar` (fast_math.pyx:46-58). -/
def multiInterpolateScalar {nv nc : ℕ} (x : ℝ) (coeffs : Fin nv → Fin nc → ℝ) : Fin nv → ℝ :=
  fun i => (List.finRange nc).foldl (fun acc (j : Fin nc) => acc + sInterp x j.val (coeffs i j)) 0

/-- `multi_R2` (fast_math.pyx:70-104). -/
noncomputable def multiR2 {nx ny nc : ℕ} (X : Fin nx → ℝ) (Y : Fin ny → Fin nx → ℝ)
    (coeffs : Fin ny → Fin nc → ℝ) : Fin ny → ℝ :=
  let yhat := multiInterpolateArray X coeffs
  let ybar := fun i => (List.finRange nx).foldl (fun acc j => acc + Y i j / nx) 0
  let ssreg := fun i => (List.finRange nx).foldl (fun acc j => acc + (yhat i j - ybar i) ^ 2) 0
  let sstot := fun i => (List.finRange nx).foldl (fun acc j => acc + (Y i j - ybar i) ^ 2) 0
  fun i => if sstot i = 0 then 0 else ssreg i / sstot i

/-- `single_R_squared` (polynomials.py:25-32); `none` stands for the NaN or infinity numpy returns
when the data are constant. -/
noncomputable def singleRSquared {nx : ℕ} (X Y : Fin nx → ℝ) (pars : List ℝ) : Option ℝ :=
  let yhat := fun j => polyval pars (X j)
  let ybar := (∑ j, Y j) / nx
  let ssreg := ∑ j, (yhat j - ybar) ^ 2
  let sstot := ∑ j, (Y j - ybar) ^ 2
  if sstot = 0 then none else some (ssreg / sstot)

/-- Result of `interpolate` (polynomials.py:41-55) for the ranks of `pars` it supports. -/
inductive Interp (np nv nx : ℕ) where
  | one (v : Fin nx → ℝ)
  | two (v : Fin nv → Fin nx → ℝ)
  | three (v : Fin np → Fin nv → Fin nx → ℝ)

/-- The coefficient arrays `interpolate` accepts. -/
inductive Coeffs (np nv : ℕ) where
  | one (c : List ℝ)
  | two (nc : ℕ) (c : Fin nv → Fin nc → ℝ)
  | three (nc : ℕ) (c : Fin np → Fin nv → Fin nc → ℝ)

/-- `interpolate` (polynomials.py:41-55) for an array of abscissae, where `multi_interpolate` is `multi_interpolate_array`
(fast_math.pyx:61-69). -/
def interpolate {np nv nx : ℕ} (X : Fin nx → ℝ) : Coeffs np nv → Interp np nv nx
  | .one c => .one fun k => polyval c (X k)
  | .two _ c => .two (multiInterpolateArray X c)
  | .three _ c => .three fun i => multiInterpolateArray X (c i)

end Verif.Poly
