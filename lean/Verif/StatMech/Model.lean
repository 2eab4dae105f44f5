/-
Model of /repo/quantas/utils/physics/statistical_mechanics.pyx.
Doubles are reals; `expm1(x)` is `exp x - 1`.  Arrays are functions on `Fin`.
-/
import Mathlib.Analysis.SpecialFunctions.Log.Basic
import Mathlib.Algebra.BigOperators.Fin
import Verif.Tac
import Verif.Units.Model

namespace Verif.StatMech
open Verif.Units (Consts)

/-- `ho_zpe` (statistical_mechanics.pyx:28-33); the temperature argument is not used. -/
noncomputable def hoZpe (k : Consts) (_T ω : ℝ) : ℝ :=
  if ω ≤ 0 then 0 else (10 : ℝ) ^ (-3 : ℤ) * k.N * k.h * (ω * 0.5)

/-- `ho_eth` (statistical_mechanics.pyx:92-100). -/
noncomputable def hoEth (k : Consts) (T ω : ℝ) : ℝ :=
  if ω ≤ 0 ∨ T = 0 then 0
  else
    let n := k.h * ω
    let x := n / (k.kB * T)
    (10 : ℝ) ^ (-3 : ℤ) * k.N * (n / (Real.exp x - 1))

/-- `ho_S` (statistical_mechanics.pyx:194-203). -/
noncomputable def hoS (k : Consts) (T ω : ℝ) : ℝ :=
  if ω ≤ 0 ∨ T = 0 then 0
  else
    let x := k.h * ω / (k.kB * T)
    let n := 1 / (Real.exp x - 1)
    let l := Real.log (1 - Real.exp (-x))
    k.N * k.kB * (n * x - l)

/-- `ho_F` (statistical_mechanics.pyx:262-274). -/
noncomputable def hoF (k : Consts) (T ω : ℝ) : ℝ :=
  if ω ≤ 0 then 0
  else
    let hw := k.h * ω
    if T = 0 then (10 : ℝ) ^ (-3 : ℤ) * k.N * (0.5 * hw)
    else
      let x := k.h * ω / (k.kB * T)
      let kt := k.kB * T
      (10 : ℝ) ^ (-3 : ℤ) * k.N * (0.5 * hw + kt * Real.log (1 - Real.exp (-x)))

/-- `ho_Cv` (statistical_mechanics.pyx:353-365). -/
noncomputable def hoCv (k : Consts) (T ω : ℝ) : ℝ :=
  if ω ≤ 0 ∨ T = 0 then 0
  else
    let x := k.h * ω / (k.kB * T)
    let e := Real.exp x
    let n := (x / (Real.exp x - 1)) ^ 2
    if n = 0 then 0 else k.N * k.kB * e * n

/-! ### The array kernels

All five kernels are the same loop nest over a different oscillator function `f`
(statistical_mechanics.pyx:72-89, 139-156, 243-259, 313-329, 370-386):

    for i in prange(nt):  for j in range(nb):  for k in range(nf):  for n in range(nv):
        result[i, n] += f(temperature[i], band[j,k,n]) * weights[j]

Each `+=` is split into a load into the executing iteration's register and a store, so that
interleavings of the parallel iterations `i` are visible. -/

variable {nt nb nf nv : ℕ}

/-- One machine step of iteration `row`. -/
inductive Instr (nt nv : ℕ) where
  | load (row : Fin nt) (col : Fin nv)
  | store (row : Fin nt) (col : Fin nv) (amount : ℝ)

/-- Which iteration of the parallel loop executes the step. -/
def Instr.row : Instr nt nv → Fin nt
  | .load i _ => i
  | .store i _ _ => i

/-- The shared result array and the registers of the iterations. -/
structure Mem (nt nv : ℕ) where
  cell : Fin nt → Fin nv → ℝ
  reg : Fin nt → ℝ

/-- `np.zeros((nt, nv))` -/
def Mem.zeros : Mem nt nv := ⟨fun _ _ => 0, fun _ => 0⟩

/-- Execute one step. -/
noncomputable def Instr.exec (m : Mem nt nv) : Instr nt nv → Mem nt nv
  | .load i n => ⟨m.cell, Function.update m.reg i (m.cell i n)⟩
  | .store i n a =>
    ⟨Function.update m.cell i (Function.update (m.cell i) n (m.reg i + a)), m.reg⟩

/-- Run a list of steps. -/
noncomputable def execAll (m : Mem nt nv) (s : List (Instr nt nv)) : Mem nt nv :=
  s.foldl Instr.exec m

/-- The program of iteration `i`: the three inner sequential loops. -/
noncomputable def rowProg (f : ℝ → ℝ → ℝ) (T : Fin nt → ℝ) (band : Fin nb → Fin nf → Fin nv → ℝ)
    (w : Fin nb → ℝ) (i : Fin nt) : List (Instr nt nv) :=
  (List.finRange nb).flatMap fun j => (List.finRange nf).flatMap fun k =>
    (List.finRange nv).flatMap fun n => [.load i n, .store i n (f (T i) (band j k n) * w j)]

/-- A run of the parallel loop: any list of steps in which each iteration's own steps appear in
program order (OpenMP static, dynamic or guided schedules with any number of threads). -/
def IsSchedule (f : ℝ → ℝ → ℝ) (T : Fin nt → ℝ) (band : Fin nb → Fin nf → Fin nv → ℝ)
    (w : Fin nb → ℝ) (s : List (Instr nt nv)) : Prop :=
  ∀ i, s.filter (fun a => decide (a.row = i)) = rowProg f T band w i

/-- The kernel run with one thread. -/
noncomputable def kernel (f : ℝ → ℝ → ℝ) (T : Fin nt → ℝ) (band : Fin nb → Fin nf → Fin nv → ℝ)
    (w : Fin nb → ℝ) : Fin nt → Fin nv → ℝ :=
  (execAll Mem.zeros ((List.finRange nt).flatMap (rowProg f T band w))).cell

/-- `zero_point_energy` (statistical_mechanics.pyx:37-89). -/
noncomputable def zeroPointEnergy (k : Consts) (T : Fin nt → ℝ)
    (band : Fin nb → Fin nf → Fin nv → ℝ) (w : Fin nb → ℝ) := kernel (hoZpe k) T band w

/-- `thermal_energy` (statistical_mechanics.pyx:105-156). -/
noncomputable def thermalEnergy (k : Consts) (T : Fin nt → ℝ)
    (band : Fin nb → Fin nf → Fin nv → ℝ) (w : Fin nb → ℝ) := kernel (hoEth k) T band w

/-- `entropy` (statistical_mechanics.pyx:208-259). -/
noncomputable def entropy (k : Consts) (T : Fin nt → ℝ)
    (band : Fin nb → Fin nf → Fin nv → ℝ) (w : Fin nb → ℝ) := kernel (hoS k) T band w

/-- `vibrational_free_energy` (statistical_mechanics.pyx:279-329). -/
noncomputable def vibrationalFreeEnergy (k : Consts) (T : Fin nt → ℝ)
    (band : Fin nb → Fin nf → Fin nv → ℝ) (w : Fin nb → ℝ) := kernel (hoF k) T band w

/-- `isochoric_heat_capacity` (statistical_mechanics.pyx:369-386). -/
noncomputable def isochoricHeatCapacity (k : Consts) (T : Fin nt → ℝ)
    (band : Fin nb → Fin nf → Fin nv → ℝ) (w : Fin nb → ℝ) := kernel (hoCv k) T band w

/-- `internal_energy` (statistical_mechanics.pyx:160-192); the parallel loop writes each cell
once, so it is written as the elementwise formula. -/
def internalEnergy (U0 Uzp : Fin nv → ℝ) (Uth : Fin nt → Fin nv → ℝ) : Fin nt → Fin nv → ℝ :=
  fun i j => 0 + (U0 j + Uzp j + Uth i j)

/-- `free_energy` (statistical_mechanics.pyx:334-350). -/
def freeEnergy (U0 : Fin nv → ℝ) (Fvib : Fin nt → Fin nv → ℝ) : Fin nt → Fin nv → ℝ :=
  fun i j => 0 + (U0 j + Fvib i j)

end Verif.StatMech
