/-
The parallel loops of /repo/quantas/utils/physics/statistical_mechanics.pyx for numbers of any kind: addition and multiplication
are arbitrary functions, so nothing is assumed about the order of a sum.
-/
import Mathlib.Data.List.FinRange
import Verif.Tac

namespace Verif.StatMech.Bits
variable {α : Type} {nt nb nf nv : ℕ}

/-- The numbers of a machine. -/
structure Numbers (α : Type) where
  zero : α
  add : α → α → α
  mul : α → α → α

/-- One machine step of iteration `row`: reading a cell into the register of the iteration, or writing the sum of the register
and an amount (the two halves of `result_view[i, n] += ...`, statistical_mechanics.pyx:86, 153, 256, 326, 383). -/
inductive Instr (α : Type) (nt nv : ℕ) where
  | load (row : Fin nt) (col : Fin nv)
  | store (row : Fin nt) (col : Fin nv) (amount : α)
  deriving DecidableEq

/-- Which iteration of the parallel loop executes the step. -/
def Instr.row : Instr α nt nv → Fin nt
  | .load i _ => i
  | .store i _ _ => i

/-- The shared result array and the registers of the iterations. -/
structure Mem (α : Type) (nt nv : ℕ) where
  cell : Fin nt → Fin nv → α
  reg : Fin nt → α

/-- `np.zeros((nt, nv))` (statistical_mechanics.pyx:78, 145, 248, 318, 375). -/
def Mem.zeros (N : Numbers α) : Mem α nt nv := ⟨fun _ _ => N.zero, fun _ => N.zero⟩

/-- Execute one step. -/
def Instr.exec (N : Numbers α) (m : Mem α nt nv) : Instr α nt nv → Mem α nt nv
  | .load i n => ⟨m.cell, Function.update m.reg i (m.cell i n)⟩
  | .store i n a => ⟨Function.update m.cell i (Function.update (m.cell i) n (N.add (m.reg i) a)), m.reg⟩

/-- Run a list of steps. -/
def execAll (N : Numbers α) (m : Mem α nt nv) (s : List (Instr α nt nv)) : Mem α nt nv := s.foldl (Instr.exec N) m

/-- The program of iteration `i`: the three inner sequential loops (statistical_mechanics.pyx:83-87, 150-154, 253-257, 323-327,
380-384). -/
def rowProg (N : Numbers α) (f : α → α → α) (T : Fin nt → α) (band : Fin nb → Fin nf → Fin nv → α) (w : Fin nb → α)
    (i : Fin nt) : List (Instr α nt nv) :=
  (List.finRange nb).flatMap fun j => (List.finRange nf).flatMap fun k =>
    (List.finRange nv).flatMap fun n => [.load i n, .store i n (N.mul (f (T i) (band j k n)) (w j))]

/-- A run of the parallel loop: any list of steps in which the steps of each iteration appear in the order of its program. -/
def IsSchedule (N : Numbers α) (f : α → α → α) (T : Fin nt → α) (band : Fin nb → Fin nf → Fin nv → α) (w : Fin nb → α)
    (s : List (Instr α nt nv)) : Prop :=
  ∀ i, s.filter (fun a => decide (a.row = i)) = rowProg N f T band w i

end Verif.StatMech.Bits
