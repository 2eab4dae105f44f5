/-
Kieffer's model of the acoustic modes (quantas/qha/utils/kieffer.py).  Arrays are lists; the routine `quad`
of scipy is a parameter; `epsrel` is left out.
-/
import Mathlib.Analysis.SpecialFunctions.Trigonometric.Inverse
import Mathlib.Analysis.SpecialFunctions.Pow.Real
import Verif.Units.Model

noncomputable section

namespace Verif.Kieffer
open Verif.Units

/-- `quad(function, lower, upper)[0]`. -/
abbrev Quad := (ℝ → ℝ) → ℝ → ℝ → ℝ

/-- `acofreq_exp` (kieffer.py:55-64). -/
def acofreqExp (k : Consts) (frequencies : List ℝ) : List ℝ := frequencies.map fun f => f * k.h / k.kB

/-- `helmholtz_function` (kieffer.py:90-95). -/
def helmholtzFunction (x temperature xnti : ℝ) : ℝ :=
  let xi := xnti / temperature
  let num := Real.arcsin (x / xi) ^ 2 * Real.log (1 - Real.exp (-x))
  let den := (xi ^ 2 - x ^ 2) ^ (0.5 : ℝ)
  num / den

/-- `_helmholtz_integral` (kieffer.py:87-105). -/
def helmholtzIntegral (k : Consts) (quad : Quad) (temperature xnti : ℝ) : ℝ :=
  if temperature = 0 then 0
  else
    let wmin := 1e-6
    let wmax := xnti / temperature
    let integral := quad (fun x => helmholtzFunction x temperature xnti) wmin wmax
    let factor := 3 * temperature * k.N * k.kB * (2 / Real.pi) ^ 3
    integral * factor

/-- `helmholtz` (kieffer.py:66-85). -/
def helmholtz (k : Consts) (quad : Quad) (frequencies : List ℝ) (temperature : ℝ) : ℝ :=
  (acofreqExp k frequencies).foldl (fun value acofreq => value + helmholtzIntegral k quad temperature acofreq) 0

/-- `heat_capacity_function` (kieffer.py:131-156). -/
def heatCapacityFunction (x temperature xnti : ℝ) : ℝ :=
  let xi := xnti / temperature
  let num := Real.arcsin (x / xi) ^ 2 * x ^ 2
  let num := num * Real.exp x
  let den := (xi ^ 2 - x ^ 2) ^ (0.5 : ℝ)
  let den := den * (Real.exp x - 1) ^ 2
  num / den

/-- `_heat_capacity_integral` (kieffer.py:128-165). -/
def heatCapacityIntegral (k : Consts) (quad : Quad) (temperature xnti : ℝ) : ℝ :=
  if temperature = 0 then 0
  else
    let wmin := 1e-6
    let wmax := xnti / temperature
    let integral := quad (fun x => heatCapacityFunction x temperature xnti) wmin wmax
    integral * 3 * k.N * k.kB * (2 / Real.pi) ^ 3

/-- `heat_capacity` (kieffer.py:107-126). -/
def heatCapacity (k : Consts) (quad : Quad) (frequencies : List ℝ) (temperature : ℝ) : ℝ :=
  (acofreqExp k frequencies).foldl (fun value acofreq => value + heatCapacityIntegral k quad temperature acofreq) 0

/-- `entropy_function` (kieffer.py:191-223). -/
def entropyFunction (x temperature xnti : ℝ) : ℝ :=
  let xi := xnti / temperature
  let num := Real.arcsin (x / xi) ^ 2 * x
  let den := (xi ^ 2 - x ^ 2) ^ (0.5 : ℝ)
  let den := den * (Real.exp x - 1) ^ 2
  let firstTerm := num / den
  let num := Real.arcsin (x / xi) ^ 2
  let den := (xi ^ 2 - x ^ 2) ^ (0.5 : ℝ)
  let secondTerm := num * Real.log (1 - Real.exp (-x)) / den
  firstTerm - secondTerm

/-- `_entropy_integral` (kieffer.py:188-232). -/
def entropyIntegral (k : Consts) (quad : Quad) (temperature xnti : ℝ) : ℝ :=
  if temperature = 0 then 0
  else
    let wmin := 1e-6
    let wmax := xnti / temperature
    let integral := quad (fun x => entropyFunction x temperature xnti) wmin (0.999 * wmax)
    integral * 3 * k.N * k.kB * (2 / Real.pi) ^ 3

/-- `entropy` (kieffer.py:167-186). -/
def entropy (k : Consts) (quad : Quad) (frequencies : List ℝ) (temperature : ℝ) : ℝ :=
  (acofreqExp k frequencies).foldl (fun value acofreq => value + entropyIntegral k quad temperature acofreq) 0

end Verif.Kieffer
