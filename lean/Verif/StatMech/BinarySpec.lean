/-
Specification of an accurate arithmetic, and of close numbers.
-/
import Verif.StatMech.BinaryModel

namespace Verif.StatMech.Spec

/-- Half a unit in the last place: the relative error of a rounding to 53 binary digits. -/
noncomputable def u : ℝ := 1 / 2 ^ 53

/-- The operations are rounded to 53 binary digits, and the functions of the library are off by at most one unit in the last
place (two halves). -/
structure Accurate (a : Arith) : Prop where
  rnd : ∀ x, |a.rnd x - x| ≤ u * |x|
  exp : ∀ x, |a.exp x - Real.exp x| ≤ 2 * u * Real.exp x
  expm1 : ∀ x, |a.expm1 x - (Real.exp x - 1)| ≤ 2 * u * |Real.exp x - 1|
  log : ∀ x, 0 < x → |a.log x - Real.log x| ≤ 2 * u * |Real.log x|
  sq : ∀ x, |a.sq x - x ^ 2| ≤ 2 * u * x ^ 2
  milli : |a.milli - 1 / 1000| ≤ 2 * u * (1 / 1000)

/-! ### The exact molar functions of one mode (h ω, k_B T in J; energies in kJ/mol, entropy and heat capacity in J/mol/K) -/

noncomputable section
open Verif.Units (Consts)

/-- The modes of the sampled points with the weights of their points. -/
def modes (points : List (ℝ × List ℝ)) : List (ℝ × ℝ) := points.flatMap fun p => p.2.map fun ω => (p.1, ω)

/-- Modes without a positive frequency do not count. -/
def counted (f : ℝ → ℝ) (ω : ℝ) : ℝ := if 0 < ω then f ω else 0

/-- The weighted sum of `f` over the modes. -/
def total (f : ℝ → ℝ) (points : List (ℝ × List ℝ)) : ℝ := ((modes points).map fun m => m.1 * f m.2).sum

/-- The growth of the rounding errors in a sum of `n` products. -/
def growth (n : ℕ) : ℝ := (1 + u) ^ (n + 1) - 1

/-- The quantum over the thermal energy. -/
def ratio (k : Consts) (T ω : ℝ) : ℝ := k.h * ω / (k.kB * T)

def exactZpe (k : Consts) (ω : ℝ) : ℝ := k.N / 1000 * (k.h * ω / 2)

def exactEth (k : Consts) (T ω : ℝ) : ℝ := k.N / 1000 * (k.h * ω / (Real.exp (ratio k T ω) - 1))

def exactS (k : Consts) (T ω : ℝ) : ℝ :=
  k.N * k.kB * (ratio k T ω / (Real.exp (ratio k T ω) - 1) - Real.log (1 - Real.exp (-ratio k T ω)))

def exactF (k : Consts) (T ω : ℝ) : ℝ :=
  k.N / 1000 * (k.h * ω / 2 + k.kB * T * Real.log (1 - Real.exp (-ratio k T ω)))

def exactCv (k : Consts) (T ω : ℝ) : ℝ :=
  k.N * k.kB * (Real.exp (ratio k T ω) * (ratio k T ω / (Real.exp (ratio k T ω) - 1)) ^ 2)

end

end Verif.StatMech.Spec
