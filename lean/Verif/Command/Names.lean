/-
Lemmas about `os.path.splitext`.
-/
import Verif.Command.Model
import Verif.Command.Spec
import Verif.Tac

namespace Verif.Command
open Verif.Py Verif.Export Spec

theorem takeWhile_stop {p : Char → Bool} {a b : Str} {c : Char} (ha : ∀ x ∈ a, p x = true) (hc : p c = false) :
    (a ++ c :: b).takeWhile p = a := by
  induction a with
  | nil => simp [hc]
  | cons x a ih =>
    simp only [List.cons_append]
    rw [List.takeWhile_cons_of_pos (ha x (by simp)), ih fun y hy => ha y (by simp [hy])]

theorem takeWhile_all {p : Char → Bool} {a : Str} (ha : ∀ x ∈ a, p x = true) : a.takeWhile p = a := by
  induction a with
  | nil => rfl
  | cons x a ih =>
    rw [List.takeWhile_cons_of_pos (ha x (by simp)), ih fun y hy => ha y (by simp [hy])]

/-- The name at the end, backwards. -/
theorem takeWhile_name {path dir name : Str} (h : Splits path dir name) :
    path.reverse.takeWhile (· ≠ '/') = name.reverse := by
  obtain ⟨rfl, hn, hd⟩ := h
  have hn' : ∀ c ∈ name.reverse, decide (c ≠ '/') = true := by
    intro c hc
    simp only [decide_eq_true_eq]
    rintro rfl
    exact hn (List.mem_reverse.1 hc)
  rcases hd with rfl | ⟨d, rfl⟩
  · simpa using takeWhile_all hn'
  · rw [List.reverse_append, List.reverse_append]
    exact takeWhile_stop hn' (by simp)

theorem splits_unique {path d n d' n' : Str} (h : Splits path d n) (h' : Splits path d' n') : n = n' := by
  have := (takeWhile_name h).symm.trans (takeWhile_name h')
  exact List.reverse_injective this

theorem splitext_extension {stem ext : Str} (hs : HasName stem) (hd : '.' ∉ ext) (hx : '/' ∉ ext) :
    splitext (stem ++ '.' :: ext) = stem := by
  obtain ⟨dir, name, h, c, hc, hne⟩ := hs
  have h1 : (stem ++ '.' :: ext).reverse.takeWhile (fun c => c ≠ '.' ∧ c ≠ '/') = ext.reverse := by
    have : (stem ++ '.' :: ext).reverse = ext.reverse ++ '.' :: stem.reverse := by simp
    rw [this]
    refine takeWhile_stop ?_ (by simp)
    intro x hx'
    simp only [List.mem_reverse] at hx'
    simp only [decide_eq_true_eq]
    constructor
    · rintro rfl; exact hd hx'
    · rintro rfl; exact hx hx'
  have h2 : (stem ++ '.' :: ext).reverse.drop ext.reverse.length = '.' :: stem.reverse := by simp
  have h3 : (stem.reverse.takeWhile (· ≠ '/')).all (· = '.') = false := by
    rw [takeWhile_name h]
    rw [Bool.eq_false_iff]
    intro h
    simp only [List.all_eq_true, List.mem_reverse, decide_eq_true_eq] at h
    exact hne (h c hc)
  unfold splitext
  simp only [h1, h2, h3, List.reverse_reverse]
  simp

theorem splitext_plain {path dir points rest : Str} (h : Splits path dir (points ++ rest))
    (hp : ∀ c ∈ points, c = '.') (hr : '.' ∉ rest) : splitext path = path := by
  obtain ⟨e, hn, hd⟩ := h
  have hrest : ∀ x ∈ rest.reverse, decide (x ≠ '.' ∧ x ≠ '/') = true := by
    intro x hx
    simp only [List.mem_reverse] at hx
    simp only [decide_eq_true_eq]
    constructor
    · rintro rfl; exact hr hx
    · rintro rfl; exact hn (by simp [hx])
  rcases List.eq_nil_or_concat points with rfl | ⟨ps, c, rfl⟩
  · rcases hd with rfl | ⟨d, rfl⟩
    · have h1 : path.reverse.takeWhile (fun c => c ≠ '.' ∧ c ≠ '/') = path.reverse := by
        rw [e]; simpa using takeWhile_all hrest
      have h2 : path.reverse.drop path.reverse.length = [] := List.drop_length
      unfold splitext
      simp only [h1, h2]
    · have h1 : path.reverse.takeWhile (fun c => c ≠ '.' ∧ c ≠ '/') = rest.reverse := by
        rw [e]; simpa using takeWhile_stop hrest (b := d.reverse) (c := '/') (by simp)
      have h2 : path.reverse.drop rest.reverse.length = '/' :: d.reverse := by rw [e]; simp
      unfold splitext
      simp only [h1, h2]
      rfl
  · have hc : c = '.' := hp c (by simp)
    subst hc
    have h1 : path.reverse.takeWhile (fun c => c ≠ '.' ∧ c ≠ '/') = rest.reverse := by
      rw [e]; simpa using takeWhile_stop hrest (b := ps.reverse ++ dir.reverse) (c := '.') (by simp)
    have h2 : path.reverse.drop rest.reverse.length = '.' :: (ps.reverse ++ dir.reverse) := by rw [e]; simp
    have h3 : ((ps.reverse ++ dir.reverse).takeWhile (· ≠ '/')).all (· = '.') = true := by
      have : Splits (dir ++ ps) dir ps :=
        ⟨rfl, fun h => hn (by simp [h]), hd⟩
      have := takeWhile_name this
      rw [List.reverse_append] at this
      rw [this]
      simp only [List.all_eq_true, List.mem_reverse, decide_eq_true_eq]
      exact fun x hx => hp x (by simp [hx])
    unfold splitext
    simp only [h1, h2, h3, if_true]

theorem splitext_base {path stem : Str} (h : Base path stem) : splitext path = stem := by
  cases h with
  | extension _ ext hs hd hx => exact splitext_extension hs hd hx
  | plain _ _ _ _ h hp hr => exact splitext_plain h hp hr

/-- A suffix gives the path a name. -/
theorem hasName_suffix {stem suffix : Str} (hs : IsSuffix suffix) : HasName (stem ++ suffix) := by
  obtain ⟨h0, h1, h2⟩ := hs
  obtain ⟨dir, name, h⟩ : ∃ dir name, Splits stem dir name := by
    induction stem using List.reverseRecOn with
    | nil => exact ⟨[], [], rfl, by simp, .inl rfl⟩
    | append_singleton s c ih =>
      by_cases hc : c = '/'
      · exact ⟨s ++ [c], [], by simp, by simp, .inr ⟨s, by rw [hc]⟩⟩
      · obtain ⟨dir, name, e, hn, hd⟩ := ih
        exact ⟨dir, name ++ [c], by rw [e, List.append_assoc], by simp [hn, Ne.symm hc], hd⟩
  obtain ⟨e, hn, hd⟩ := h
  refine ⟨dir, name ++ suffix, ⟨by rw [e, List.append_assoc], by simp [hn, h2], hd⟩, ?_⟩
  obtain ⟨c, rest, rfl⟩ := List.exists_cons_of_ne_nil h0
  exact ⟨c, by simp, fun h => h1 (by simp [h])⟩

/-- The names of the files. -/
theorem filesOf_eq {suffix filename stem : Str} {outfile : Option Str} (hs : IsSuffix suffix)
    (hb : Base filename stem) (ho : ∀ o ∈ outfile, HasName o) :
    filesOf suffix filename outfile = ⟨resultsName suffix stem outfile, logName suffix stem outfile⟩ := by
  have hx : ∀ s, s ++ c!".hdf5" = s ++ '.' :: c!"hdf5" := fun _ => rfl
  cases outfile with
  | none =>
    simp only [filesOf, splitext_base hb, resultsName, logName]
    rw [hx, splitext_extension (hasName_suffix hs) (by decide) (by decide)]
  | some o =>
    simp only [filesOf, resultsName, logName]
    rw [hx, splitext_extension (ho o rfl) (by decide) (by decide)]

/-- Without the option, neither file is the input. -/
theorem default_ne {suffix filename stem : Str} (hs : IsSuffix suffix) (hb : Base filename stem) :
    filename ≠ resultsName suffix stem none ∧ filename ≠ logName suffix stem none := by
  have key : ∀ x : Str, filename ≠ stem ++ suffix ++ x := by
    intro x h
    obtain ⟨h0, h1, h2⟩ := hs
    obtain ⟨c, rest, rfl⟩ := List.exists_cons_of_ne_nil h0
    cases hb with
    | extension _ ext _ _ _ =>
      rw [List.append_assoc] at h
      have := List.append_cancel_left h
      simp only [List.cons_append, List.cons.injEq] at this
      exact h1 (this.1 ▸ List.mem_cons_self)
    | plain _ _ _ _ _ _ _ =>
      have : (filename : Str).length = (filename ++ c :: rest ++ x).length := congrArg _ h
      simp at this
  exact ⟨key _, key _⟩

end Verif.Command
