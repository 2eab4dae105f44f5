/-
What a user expects of the elastic properties in the arithmetic of the computer.
-/
import Verif.Elastic.BinaryModel

noncomputable section

namespace Verif.Elastic.Rounded.Spec
open Verif.Elastic

/-- Half a unit in the last place of a double, relative to its value. -/
def u : ℝ := 1 / 2 ^ 53

/-- Operations are rounded to 53 binary digits, `sin` and `cos` are off by at most one unit in the last place. -/
structure Accurate (m : Machine) : Prop where
  rnd : ∀ x, |m.rnd x - x| ≤ u * |x|
  sin : ∀ x, |m.sin x - Real.sin x| ≤ 2 * u * |Real.sin x|
  cos : ∀ x, |m.cos x - Real.cos x| ≤ 2 * u * |Real.cos x|

/-- The compliance tensor `S` contracted with four directions. -/
def component (S : T4) (a b c d : V3) : ℝ := ∑ i, ∑ j, ∑ k, ∑ l, S i j k l * a i * b j * c k * d l

/-- The sum of the absolute values of the components of a tensor. -/
def size (S : T4) : ℝ := ∑ i, ∑ j, ∑ k, ∑ l, |S i j k l|

/-- Young's modulus along `a`. -/
def young (S : T4) (a : V3) : ℝ := 1 / component S a a a a

/-- Linear compressibility along `a`, in thousandths. -/
def compressibility (S : T4) (a : V3) : ℝ := 1000 * ∑ i, ∑ j, ∑ k, S i j k k * a i * a j

/-- Shear modulus on the pair of directions `a`, `b`. -/
def shear (S : T4) (a b : V3) : ℝ := 1 / (4 * component S a b a b)

/-- Poisson's ratio for a tension along `a` and a contraction along `b`. -/
def poisson (S : T4) (a b : V3) : ℝ := -component S a a b b / component S a a a a

/-- The sums behind the four averages are positive, and cancellation makes them smaller than the sums of the absolute values of
their terms by the factor `κ` at most. -/
structure Conditioned (κ : ℝ) (C S : M6) : Prop where
  bulkV : 0 < ∑ i : Fin 3, ∑ j : Fin 3, C (vm i i) (vm j j)
  bulkV_le : ∑ i : Fin 3, ∑ j : Fin 3, |C (vm i i) (vm j j)| ≤ κ * ∑ i : Fin 3, ∑ j : Fin 3, C (vm i i) (vm j j)
  bulkR : 0 < ∑ i : Fin 3, ∑ j : Fin 3, S (vm i i) (vm j j)
  bulkR_le : ∑ i : Fin 3, ∑ j : Fin 3, |S (vm i i) (vm j j)| ≤ κ * ∑ i : Fin 3, ∑ j : Fin 3, S (vm i i) (vm j j)
  shearV : 0 < C 0 0 + C 1 1 + C 2 2 - (C 0 1 + C 0 2 + C 1 2) + 3 * (C 3 3 + C 4 4 + C 5 5)
  shearV_le : |C 0 0| + |C 1 1| + |C 2 2| + (|C 0 1| + |C 0 2| + |C 1 2|) + 3 * (|C 3 3| + |C 4 4| + |C 5 5|) ≤
    κ * (C 0 0 + C 1 1 + C 2 2 - (C 0 1 + C 0 2 + C 1 2) + 3 * (C 3 3 + C 4 4 + C 5 5))
  shearR : 0 < 4 * (S 0 0 + S 1 1 + S 2 2) - 4 * (S 0 1 + S 0 2 + S 1 2) + 3 * (S 3 3 + S 4 4 + S 5 5)
  shearR_le : 4 * (|S 0 0| + |S 1 1| + |S 2 2|) + 4 * (|S 0 1| + |S 0 2| + |S 1 2|) + 3 * (|S 3 3| + |S 4 4| + |S 5 5|) ≤
    κ * (4 * (S 0 0 + S 1 1 + S 2 2) - 4 * (S 0 1 + S 0 2 + S 1 2) + 3 * (S 3 3 + S 4 4 + S 5 5))

/-- A row of averages is another one up to the relative error `η` of the moduli and the error `ζ` of Poisson's ratio. -/
structure CloseRow (η ζ : ℝ) (r R : Average) : Prop where
  K : |r.K - R.K| ≤ η * R.K
  G : |r.G - R.G| ≤ η * R.G
  E : |r.E - R.E| ≤ η * R.E
  nu : |r.nu - R.nu| ≤ ζ

end Verif.Elastic.Rounded.Spec
