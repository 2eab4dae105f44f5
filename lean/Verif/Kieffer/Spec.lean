/-
Kieffer's model: one acoustic branch with the density of states of a sine dispersion, and the functions of
the single oscillator.
-/
import Mathlib.MeasureTheory.Integral.IntervalIntegral.Basic
import Verif.Kieffer.Model
import Verif.StatMech.Model

noncomputable section

namespace Verif.Kieffer.Spec
open Verif.Units Verif.StatMech

/-- Modes per hertz of a branch with the dispersion of a sine and the given highest frequency. -/
def density (cutoff ν : ℝ) : ℝ :=
  3 * (2 / Real.pi) ^ 3 * (Real.arcsin (ν / cutoff) ^ 2 / Real.sqrt (cutoff ^ 2 - ν ^ 2))

/-- The frequency from which the code integrates, where the quotient of the quantum and the thermal energy is
a millionth. -/
def lowest (k : Consts) (T : ℝ) : ℝ := 1e-6 * k.kB * T / k.h

/-- The Helmholtz energy of one mode without its zero-point energy, in joule per mole. -/
def modeF (k : Consts) (T ν : ℝ) : ℝ := 1000 * (hoF k T ν - hoZpe k T ν)

/-- The numerical integration is exact. -/
def Exact (quad : Quad) : Prop := ∀ f a b, quad f a b = ∫ x in a..b, f x

/-- What an integrand over x = hν/(kB T) contributes per hertz: the integral of `g` over x is that of this
function over the frequency (`integral_perHertz`). -/
def perHertz (k : Consts) (T : ℝ) (g : ℝ → ℝ) (ν : ℝ) : ℝ := k.h / (k.kB * T) * g (k.h / (k.kB * T) * ν)

/-- What the code takes for the entropy of one mode: the denominator of the first term is squared. -/
def codeS (k : Consts) (T ν : ℝ) : ℝ :=
  k.N * k.kB * (k.h * ν / (k.kB * T) / (Real.exp (k.h * ν / (k.kB * T)) - 1) ^ 2 -
    Real.log (1 - Real.exp (-(k.h * ν / (k.kB * T)))))

end Verif.Kieffer.Spec
