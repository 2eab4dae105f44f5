/-
Model of the lines `label = value(error)` of the input report of a quasi-harmonic run
(/repo/quantas/qha/qha.py, `report_input_data`).  Numbers are rationals, so the decimal rounding of
`np.round` is exact and the shortest decimal that `'{}'.format` prints for the rounded number is
that number without trailing zeros (true of doubles of at most fifteen digits that are written
without exponent, that is zero or between 1e-4 and 1e16 in size).
-/
import Mathlib.Data.Int.Log
import Verif.IO.Text

namespace Verif.Report
open Verif.Py Verif.IO

/-- A standard error delivered by the fit: `sqrt` of a diagonal element of the covariance. -/
inductive FitError
  | finite (e : ℚ)
  | inf
  | nan

/-- Trailing zeros of `n / 10 ^ d` dropped, one decimal kept. -/
def dropZeros : ℕ → ℕ → ℕ × ℕ
  | d + 2, n => if n % 10 = 0 then dropZeros (d + 1) (n / 10) else (d + 2, n)
  | d, n => (d, n)

/-- `'{}'.format(np.round(x, d))` for `d ≥ 1` (qha.py:416, 420). -/
def reprRounded (d : ℕ) (x : ℚ) : Str :=
  let n := (roundHalfEven (|x| * 10 ^ d)).toNat
  let (d', n') := dropZeros d n
  (if x < 0 then ['-'] else []) ++ showNat (n' / 10 ^ d') ++ '.' :: lastDigits d' n'

/-- `'{}'.format(i)` of an int. -/
def showInt (i : ℤ) : Str := (if i < 0 then ['-'] else []) ++ showNat i.natAbs

/-- `magnitude` before its correction (qha.py:406-410), `err > 0`; `np.log10(err) < 0.` is `err < 1`. -/
def magnitude (err : ℚ) : ℤ := if err < 1 then -Int.log 10 err else Int.log 10 err

/-- `magnitude` after its correction (qha.py:411-414): `np.log10(k) >= 1.` is `10 ≤ k`. -/
def corrected (err : ℚ) : ℤ :=
  let m := magnitude err
  if 10 ≤ roundHalfEven (err * 10 ^ m) then m - 1 else m

/-- The line of one parameter (qha.py:405-422).  `raw` is the text of the unrounded error.  A zero or
infinite error ends in OverflowError, which is caught; `int(nan)` raises ValueError, which is not. -/
def conciseLine (label : Str) (val : ℚ) (err : FitError) (raw : Str × Str) : Except PyErr Str :=
  match err with
  | .nan => .error .valueError
  | .inf => .ok (label ++ c!" = " ++ raw.1 ++ ['('] ++ raw.2 ++ [')'])
  | .finite e =>
    if e ≤ 0 then .ok (label ++ c!" = " ++ raw.1 ++ ['('] ++ raw.2 ++ [')'])
    else
      let m := corrected e
      let redVal := if 0 < m then reprRounded m.toNat val
        else showInt (roundHalfEven (val * 10 ^ m) * 10 ^ (-m).toNat)
      let redErr := roundHalfEven (e * 10 ^ m)
      .ok (label ++ c!" = " ++ redVal ++ ['('] ++ showInt redErr ++ [')'])

/-- The labels of the four parameters (qha.py:397-404). -/
def fitLabel : Fin 4 → Str
  | 0 => c!"E0"
  | 1 => c!"K0"
  | 2 => c!"K'"
  | 3 => c!"V0"

/-- The lines after the table (qha.py:391-422): a title and one line per parameter, in the order in which
`EnergyEOS.fit` returns them; the first exception that is not caught ends the report. -/
def conciseBlock (val : Fin 4 → ℚ) (err : Fin 4 → FitError) (raw : Fin 4 → Str × Str) : Except PyErr (List Str) := do
  let line := fun i => conciseLine (fitLabel i) (val i) (err i) (raw i)
  let e ← line 0
  let k ← line 1
  let kp ← line 2
  let v ← line 3
  .ok [[], c!"EoS fitting parameters for static energy vs volume data:", e, k, kp, v]

end Verif.Report
