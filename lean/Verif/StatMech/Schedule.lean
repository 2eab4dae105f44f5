/- Proof work: every schedule of the parallel loops computes the weighted sums. -/
import Verif.StatMech.Model

namespace Verif.StatMech
variable {nt nb nf nv : ℕ}

/-- The part of the memory that iteration `i` can see. -/
def Mem.view (m : Mem nt nv) (i : Fin nt) : (Fin nv → ℝ) × ℝ := (m.cell i, m.reg i)

noncomputable def viewStep (v : (Fin nv → ℝ) × ℝ) : Instr nt nv → (Fin nv → ℝ) × ℝ
  | .load _ n => (v.1, v.1 n)
  | .store _ n a => (Function.update v.1 n (v.2 + a), v.2)

theorem view_exec_same (m : Mem nt nv) (a : Instr nt nv) :
    (a.exec m).view a.row = viewStep (m.view a.row) a := by
  cases a <;> simp [Instr.exec, Mem.view, Instr.row, viewStep]

theorem view_exec_other (m : Mem nt nv) (a : Instr nt nv) (i : Fin nt) (h : a.row ≠ i) :
    (a.exec m).view i = m.view i := by
  cases a <;> simp only [Instr.row] at h <;>
    simp [Instr.exec, Mem.view, Function.update_of_ne h.symm]

theorem view_execAll (s : List (Instr nt nv)) (m : Mem nt nv) (i : Fin nt) :
    (execAll m s).view i = (s.filter fun a => decide (a.row = i)).foldl viewStep (m.view i) := by
  induction s generalizing m with
  | nil => rfl
  | cons a s ih =>
    have : execAll m (a :: s) = execAll (a.exec m) s := rfl
    rw [this, ih]
    by_cases h : a.row = i
    · subst h
      simp [view_exec_same]
    · simp [h, view_exec_other m a i h]

/-- Innermost loop over volumes. -/
theorem fold_inner (i : Fin nt) (amt : Fin nv → ℝ) (L : List (Fin nv)) (hL : L.Nodup)
    (v : (Fin nv → ℝ) × ℝ) :
    ∀ n, ((L.flatMap fun n => [Instr.load i n, Instr.store i n (amt n)]).foldl viewStep v).1 n =
      v.1 n + if n ∈ L then amt n else 0 := by
  induction L generalizing v with
  | nil => simp
  | cons a L ih =>
    intro n
    obtain ⟨ha, hL⟩ := List.nodup_cons.1 hL
    simp only [List.flatMap_cons, List.foldl_append, List.foldl_cons, List.foldl_nil, viewStep]
    rw [ih hL]
    by_cases h : n = a
    · subst h; simp [ha]
    · simp [h]

theorem fold_bands (i : Fin nt) (amt : Fin nf → Fin nv → ℝ) (L : List (Fin nf))
    (v : (Fin nv → ℝ) × ℝ) (n : Fin nv) :
    ((L.flatMap fun k => (List.finRange nv).flatMap fun n =>
      [Instr.load i n, Instr.store i n (amt k n)]).foldl viewStep v).1 n =
      v.1 n + (L.map fun k => amt k n).sum := by
  induction L generalizing v with
  | nil => simp
  | cons a L ih =>
    simp only [List.flatMap_cons, List.foldl_append, List.map_cons, List.sum_cons]
    rw [ih, fold_inner i (amt a) _ (List.nodup_finRange nv)]
    simp [add_assoc]

theorem fold_q (i : Fin nt) (amt : Fin nb → Fin nf → Fin nv → ℝ) (L : List (Fin nb))
    (v : (Fin nv → ℝ) × ℝ) (n : Fin nv) :
    ((L.flatMap fun j => (List.finRange nf).flatMap fun k => (List.finRange nv).flatMap fun n =>
      [Instr.load i n, Instr.store i n (amt j k n)]).foldl viewStep v).1 n =
      v.1 n + (L.map fun j => ((List.finRange nf).map fun k => amt j k n).sum).sum := by
  induction L generalizing v with
  | nil => simp
  | cons a L ih =>
    simp only [List.flatMap_cons, List.foldl_append, List.map_cons, List.sum_cons]
    rw [ih, fold_bands i (amt a)]
    simp [add_assoc]

theorem sum_finRange (n : ℕ) (f : Fin n → ℝ) : ((List.finRange n).map f).sum = ∑ i, f i := by
  rw [← List.sum_ofFn, List.ofFn_eq_map]

/-- The result of any schedule. -/
theorem schedule_result (f : ℝ → ℝ → ℝ) (T : Fin nt → ℝ) (band : Fin nb → Fin nf → Fin nv → ℝ)
    (w : Fin nb → ℝ) (s : List (Instr nt nv)) (hs : IsSchedule f T band w s) (i : Fin nt)
    (n : Fin nv) :
    (execAll Mem.zeros s).cell i n = ∑ j, ∑ k, f (T i) (band j k n) * w j := by
  have h := congrArg Prod.fst (view_execAll s Mem.zeros i)
  have h' : (execAll Mem.zeros s).cell i =
      ((rowProg f T band w i).foldl viewStep ((Mem.zeros (nt := nt) (nv := nv)).view i)).1 := by
    rw [← hs i]; exact h
  rw [h', rowProg, fold_q i (fun j k n => f (T i) (band j k n) * w j)]
  simp [Mem.view, Mem.zeros, sum_finRange]

theorem rowProg_row (f : ℝ → ℝ → ℝ) (T : Fin nt → ℝ) (band : Fin nb → Fin nf → Fin nv → ℝ)
    (w : Fin nb → ℝ) (i : Fin nt) : ∀ a ∈ rowProg f T band w i, a.row = i := by
  intro a ha
  simp only [rowProg, List.mem_flatMap] at ha
  obtain ⟨j, -, k, -, n, -, h⟩ := ha
  simp only [List.mem_cons, List.not_mem_nil, or_false] at h
  rcases h with rfl | rfl <;> rfl

/-- Running the rows one after the other, in any order, is a schedule. -/
theorem rows_isSchedule (f : ℝ → ℝ → ℝ) (T : Fin nt → ℝ) (band : Fin nb → Fin nf → Fin nv → ℝ)
    (w : Fin nb → ℝ) (order : List (Fin nt)) (ho : order.Perm (List.finRange nt)) :
    IsSchedule f T band w (order.flatMap (rowProg f T band w)) := by
  intro i
  have hnd : order.Nodup := ho.nodup_iff.2 (List.nodup_finRange nt)
  have hmem : i ∈ order := ho.mem_iff.2 (List.mem_finRange i)
  clear ho
  induction order with
  | nil => simp at hmem
  | cons a L ih =>
    obtain ⟨ha, hnd⟩ := List.nodup_cons.1 hnd
    rw [List.flatMap_cons, List.filter_append]
    by_cases h : a = i
    · subst h
      have h1 : (rowProg f T band w a).filter (fun b => decide (b.row = a)) = rowProg f T band w a :=
        List.filter_eq_self.2 fun b hb => by simpa using rowProg_row f T band w a b hb
      have h2 : (L.flatMap (rowProg f T band w)).filter (fun b => decide (b.row = a)) = [] := by
        rw [List.filter_eq_nil_iff]
        intro b hb
        obtain ⟨c, hc, hb⟩ := List.mem_flatMap.1 hb
        have := rowProg_row f T band w c b hb
        simp only [decide_eq_true_eq]
        rintro rfl
        exact ha (this ▸ hc)
      rw [h1, h2, List.append_nil]
    · have h1 : (rowProg f T band w a).filter (fun b => decide (b.row = i)) = [] := by
        rw [List.filter_eq_nil_iff]
        intro b hb
        have := rowProg_row f T band w a b hb
        simp only [decide_eq_true_eq]
        rintro rfl
        exact h this.symm
      rw [h1, List.nil_append]
      refine ih hnd ?_
      rcases List.mem_cons.1 hmem with h' | h'
      · exact absurd h'.symm h
      · exact h'

theorem kernel_eq (f : ℝ → ℝ → ℝ) (T : Fin nt → ℝ) (band : Fin nb → Fin nf → Fin nv → ℝ)
    (w : Fin nb → ℝ) (i : Fin nt) (n : Fin nv) :
    kernel f T band w i n = ∑ j, ∑ k, f (T i) (band j k n) * w j :=
  schedule_result f T band w _ (rows_isSchedule f T band w _ (List.Perm.refl _)) i n

end Verif.StatMech
