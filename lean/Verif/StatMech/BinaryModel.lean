/-
Model of /repo/quantas/utils/physics/statistical_mechanics.pyx in the arithmetic of the computer: every operation is rounded,
and the functions of the C library are those of the library.  The arithmetic is a parameter; `binary64` is the one of IEEE 754
with correctly rounded library functions.  Simplification: exponents are not limited, so there is no overflow and no loss of
digits near zero.
-/
import Mathlib.Data.Int.Log
import Mathlib.Analysis.SpecialFunctions.Log.Basic
import Verif.Tac
import Verif.Units.Model

noncomputable section

namespace Verif.StatMech
open Verif.Units (Consts)

/-- An arithmetic: the rounding of the results of `+ - * /`, and `exp`, `expm1`, `log`, `pow(x, 2)`, `pow(10., -3.)` of `math.h`
(statistical_mechanics.pyx:22-26). -/
structure Arith where
  rnd : ℝ → ℝ
  exp : ℝ → ℝ
  expm1 : ℝ → ℝ
  log : ℝ → ℝ
  sq : ℝ → ℝ
  milli : ℝ

namespace Arith
variable (a : Arith) (k : Consts)

/-- `ho_zpe` (statistical_mechanics.pyx:28-33). -/
def hoZpe (_T ω : ℝ) : ℝ :=
  if ω ≤ 0 then 0 else a.rnd (a.rnd (a.rnd (a.milli * k.N) * k.h) * a.rnd (ω * 0.5))

/-- `ho_eth` (statistical_mechanics.pyx:92-100). -/
def hoEth (T ω : ℝ) : ℝ :=
  if ω ≤ 0 ∨ T = 0 then 0
  else
    let n := a.rnd (k.h * ω)
    let x := a.rnd (n / a.rnd (k.kB * T))
    a.rnd (a.rnd (a.milli * k.N) * a.rnd (n / a.expm1 x))

/-- The variable `x` (statistical_mechanics.pyx:200, 271, 359). -/
def x (T ω : ℝ) : ℝ := a.rnd (a.rnd (k.h * ω) / a.rnd (k.kB * T))

/-- `log(1. - exp(-x))` (statistical_mechanics.pyx:202, 273).  `log(0.)` is minus infinity and the logarithm of a negative
number is nan: both are shown as `none`. -/
def logTerm (x : ℝ) : Option ℝ :=
  let y := a.rnd (1 - a.exp (-x))
  if y ≤ 0 then none else some (a.log y)

/-- `ho_S` (statistical_mechanics.pyx:194-203). -/
def hoS (T ω : ℝ) : Option ℝ :=
  if ω ≤ 0 ∨ T = 0 then some 0
  else
    let n := a.rnd (1 / a.expm1 (a.x k T ω))
    (a.logTerm (a.x k T ω)).map fun l =>
      a.rnd (a.rnd (k.N * k.kB) * a.rnd (a.rnd (n * a.x k T ω) - l))

/-- `ho_F` (statistical_mechanics.pyx:262-274). -/
def hoF (T ω : ℝ) : Option ℝ :=
  if ω ≤ 0 then some 0
  else
    let hw := a.rnd (k.h * ω)
    if T = 0 then some (a.rnd (a.rnd (a.milli * k.N) * a.rnd (0.5 * hw)))
    else
      let kt := a.rnd (k.kB * T)
      (a.logTerm (a.x k T ω)).map fun l =>
        a.rnd (a.rnd (a.milli * k.N) * a.rnd (a.rnd (0.5 * hw) + a.rnd (kt * l)))

/-- `ho_Cv` (statistical_mechanics.pyx:353-365). -/
def hoCv (T ω : ℝ) : ℝ :=
  if ω ≤ 0 ∨ T = 0 then 0
  else
    let e := a.exp (a.x k T ω)
    let n := a.sq (a.rnd (a.x k T ω / a.expm1 (a.x k T ω)))
    if n = 0 then 0 else a.rnd (a.rnd (a.rnd (k.N * k.kB) * e) * n)

/-- The cell of one temperature and one volume (statistical_mechanics.pyx:72-89, 139-156, 243-259, 313-329, 370-386): for every
sampled point its weight and the frequencies of its modes.  A value that is not finite makes the sum not finite. -/
def kernel (f : ℝ → Option ℝ) (points : List (ℝ × List ℝ)) : Option ℝ :=
  (points.flatMap fun p => p.2.map fun ω => (ω, p.1)).foldl
    (fun r t => r.bind fun r => (f t.1).map fun v => a.rnd (r + a.rnd (v * t.2))) (some 0)

end Arith

/-! ### The arithmetic of IEEE 754 -/

/-- The integer nearest to `x`, ties to even. -/
def nearestEven (x : ℝ) : ℤ :=
  if x - ⌊x⌋ < 1 / 2 then ⌊x⌋ else if 1 / 2 < x - ⌊x⌋ then ⌊x⌋ + 1 else if ⌊x⌋ % 2 = 0 then ⌊x⌋ else ⌊x⌋ + 1

/-- The number with 53 significant binary digits nearest to `x` (IEEE 754, binary64 with unlimited exponents). -/
def roundBinary (x : ℝ) : ℝ :=
  let e := Int.log 2 |x| - 52
  nearestEven (x / 2 ^ e) * 2 ^ e

/-- Binary64 with correctly rounded library functions. -/
def binary64 : Arith where
  rnd := roundBinary
  exp := fun x => roundBinary (Real.exp x)
  expm1 := fun x => roundBinary (Real.exp x - 1)
  log := fun x => roundBinary (Real.log x)
  sq := fun x => roundBinary (x ^ 2)
  milli := roundBinary (1 / 1000)

end Verif.StatMech
