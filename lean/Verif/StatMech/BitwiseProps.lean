/-
C12 in the arithmetic of the computer: the results do not depend on the schedule, not even in the last bit.
-/
import Verif.StatMech.BitwiseModel
import Verif.StatMech.BinaryModel

namespace Verif.StatMech.Bits
variable {α : Type} {nt nb nf nv : ℕ}

/-- The sum a single thread would form for one temperature and one volume: the products in the order of the points and their
modes, added one after the other. -/
def Spec.sequential (N : Numbers α) (f : α → α) (w : Fin nb → α) (modes : Fin nb → Fin nf → α) : α :=
  ((List.finRange nb).flatMap fun j => (List.finRange nf).map fun k => N.mul (f (modes j k)) (w j)).foldl N.add N.zero

/-! ### Proof work -/

def Mem.view (m : Mem α nt nv) (i : Fin nt) : (Fin nv → α) × α := (m.cell i, m.reg i)

def viewStep (N : Numbers α) (v : (Fin nv → α) × α) : Instr α nt nv → (Fin nv → α) × α
  | .load _ n => (v.1, v.1 n)
  | .store _ n a => (Function.update v.1 n (N.add v.2 a), v.2)

theorem view_exec_same (N : Numbers α) (m : Mem α nt nv) (a : Instr α nt nv) :
    (a.exec N m).view a.row = viewStep N (m.view a.row) a := by
  cases a <;> simp [Instr.exec, Mem.view, Instr.row, viewStep]

theorem view_exec_other (N : Numbers α) (m : Mem α nt nv) (a : Instr α nt nv) (i : Fin nt) (h : a.row ≠ i) :
    (a.exec N m).view i = m.view i := by
  cases a <;> simp only [Instr.row] at h <;> simp [Instr.exec, Mem.view, Function.update_of_ne h.symm]

theorem view_execAll (N : Numbers α) (s : List (Instr α nt nv)) (m : Mem α nt nv) (i : Fin nt) :
    (execAll N m s).view i = (s.filter fun a => decide (a.row = i)).foldl (viewStep N) (m.view i) := by
  induction s generalizing m with
  | nil => rfl
  | cons a s ih =>
    have : execAll N m (a :: s) = execAll N (a.exec N m) s := rfl
    rw [this, ih]
    by_cases h : a.row = i
    · subst h
      simp [view_exec_same]
    · simp [h, view_exec_other N m a i h]

theorem fold_inner (N : Numbers α) (i : Fin nt) (amt : Fin nv → α) (L : List (Fin nv)) (hL : L.Nodup)
    (v : (Fin nv → α) × α) :
    ∀ n, ((L.flatMap fun n => [Instr.load i n, Instr.store i n (amt n)]).foldl (viewStep N) v).1 n =
      if n ∈ L then N.add (v.1 n) (amt n) else v.1 n := by
  induction L generalizing v with
  | nil => simp
  | cons a L ih =>
    intro n
    obtain ⟨ha, hL⟩ := List.nodup_cons.1 hL
    simp only [List.flatMap_cons, List.foldl_append, List.foldl_cons, List.foldl_nil, viewStep]
    rw [ih hL]
    by_cases h : n = a
    · subst h; simp [ha]
    · simp [h]

theorem fold_bands (N : Numbers α) (i : Fin nt) (amt : Fin nf → Fin nv → α) (L : List (Fin nf))
    (v : (Fin nv → α) × α) (n : Fin nv) :
    ((L.flatMap fun k => (List.finRange nv).flatMap fun n =>
      [Instr.load i n, Instr.store i n (amt k n)]).foldl (viewStep N) v).1 n =
      (L.map fun k => amt k n).foldl N.add (v.1 n) := by
  induction L generalizing v with
  | nil => simp
  | cons a L ih =>
    simp only [List.flatMap_cons, List.foldl_append, List.map_cons, List.foldl_cons]
    rw [ih, fold_inner N i (amt a) _ (List.nodup_finRange nv)]
    simp

theorem fold_q (N : Numbers α) (i : Fin nt) (amt : Fin nb → Fin nf → Fin nv → α) (L : List (Fin nb))
    (v : (Fin nv → α) × α) (n : Fin nv) :
    ((L.flatMap fun j => (List.finRange nf).flatMap fun k => (List.finRange nv).flatMap fun n =>
      [Instr.load i n, Instr.store i n (amt j k n)]).foldl (viewStep N) v).1 n =
      (L.flatMap fun j => (List.finRange nf).map fun k => amt j k n).foldl N.add (v.1 n) := by
  induction L generalizing v with
  | nil => simp
  | cons a L ih =>
    simp only [List.flatMap_cons, List.foldl_append]
    rw [ih, fold_bands N i (amt a)]

/-! ### The properties -/

/-- C12: whatever the numbers and their addition are (no law is used), every schedule of the parallel loop leaves in each cell
the sum a single thread forms.  In particular two runs with any numbers of threads agree in every bit. -/
theorem C12_bitwise (N : Numbers α) (f : α → α → α) (T : Fin nt → α) (band : Fin nb → Fin nf → Fin nv → α)
    (w : Fin nb → α) (s : List (Instr α nt nv)) (hs : IsSchedule N f T band w s) (i : Fin nt) (n : Fin nv) :
    (execAll N (Mem.zeros N) s).cell i n = Spec.sequential N (f (T i)) w fun j k => band j k n := by
  have h := congrArg Prod.fst (view_execAll N s (Mem.zeros N) i)
  rw [hs i] at h
  have h' : (execAll N (Mem.zeros N) s).cell i = ((rowProg N f T band w i).foldl (viewStep N)
      ((Mem.zeros N (nt := nt) (nv := nv)).view i)).1 := h
  rw [h', rowProg, fold_q N i (fun j k n => N.mul (f (T i) (band j k n)) (w j))]
  rfl

/-- An interleaving of two iterations in an arithmetic that is not associative. -/
example : (execAll ⟨0, fun a b : ℤ => (a + b) / 2, (· * ·)⟩ (Mem.zeros ⟨0, fun a b : ℤ => (a + b) / 2, (· * ·)⟩)
    ([.load 0 0, .load 1 0, .store 1 0 (7 * 3), .store 0 0 (5 * 3)] : List (Instr ℤ 2 1))).cell 1 0 = 10 := by
  rw [C12_bitwise (nb := 1) (nf := 1) _ (fun t b => t + b) (fun i => if i = 0 then 1 else 3) (fun _ _ _ => 4) (fun _ => 3)]
  · decide
  · unfold IsSchedule
    decide

end Verif.StatMech.Bits

namespace Verif.StatMech
open Bits

/-- The numbers of an arithmetic; `none` is a value that is not finite. -/
noncomputable def Arith.numbers (a : Arith) : Numbers (Option ℝ) where
  zero := some 0
  add := fun r p => r.bind fun r => p.map fun p => a.rnd (r + p)
  mul := fun v w => v.bind fun v => w.map fun w => a.rnd (v * w)

/-- C145: what every schedule of the parallel loops leaves in a cell is the kernel whose errors are bounded. -/
theorem C145_schedules (a : Arith) {nt nb nf nv : ℕ} (f : ℝ → ℝ → Option ℝ) (T : Fin nt → ℝ)
    (band : Fin nb → Fin nf → Fin nv → ℝ) (w : Fin nb → ℝ) (s : List (Bits.Instr (Option ℝ) nt nv))
    (hs : Bits.IsSchedule a.numbers (fun t ω => t.bind fun t => ω.bind fun ω => f t ω) (fun i => some (T i))
      (fun j k n => some (band j k n)) (fun j => some (w j)) s) (i : Fin nt) (n : Fin nv) :
    (Bits.execAll a.numbers (Bits.Mem.zeros a.numbers) s).cell i n =
      a.kernel (f (T i)) (List.ofFn fun j => (w j, List.ofFn fun k => band j k n)) := by
  rw [C12_bitwise a.numbers _ _ _ _ s hs]
  simp only [Spec.sequential, Arith.kernel, List.ofFn_eq_map, List.flatMap_map, List.map_map]
  have : ∀ (L : List (Fin nb)) (r : Option ℝ),
      (L.flatMap fun j => (List.finRange nf).map fun k =>
        a.numbers.mul ((some (T i)).bind fun t => (some (band j k n)).bind fun ω => f t ω) (some (w j))).foldl a.numbers.add r =
      (L.flatMap fun j => (List.finRange nf).map ((fun ω => (ω, w j)) ∘ fun k => band j k n)).foldl
        (fun r t => r.bind fun r => (f (T i) t.1).map fun v => a.rnd (r + a.rnd (v * t.2))) r := by
    have inner : ∀ (j : Fin nb) (K : List (Fin nf)) (r : Option ℝ),
        (K.map fun k => a.numbers.mul ((some (T i)).bind fun t => (some (band j k n)).bind fun ω => f t ω)
          (some (w j))).foldl a.numbers.add r =
        (K.map ((fun ω => (ω, w j)) ∘ fun k => band j k n)).foldl
          (fun r t => r.bind fun r => (f (T i) t.1).map fun v => a.rnd (r + a.rnd (v * t.2))) r := by
      intro j K
      induction K with
      | nil => intro r; rfl
      | cons k K ih =>
        intro r
        simp only [List.map_cons, List.foldl_cons]
        rw [ih]
        congr 1
        cases r <;> cases hf : f (T i) (band j k n) <;> simp [Arith.numbers, hf]
    intro L
    induction L with
    | nil => intro r; rfl
    | cons j L ih =>
      intro r
      simp only [List.flatMap_cons, List.foldl_append]
      rw [inner, ih]
  exact this _ _

end Verif.StatMech
