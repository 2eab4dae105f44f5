/-
Lemmas about the readers of elastic moduli from ab initio outputs.
-/
import Verif.IO.EoSLemmas
import Verif.IO.SoecLemmas
import Verif.Interfaces.Soec

namespace Verif.Interfaces
open Verif.Py Verif.IO Verif.IO.Spec

theorem hasSub_iff {p l : Str} : hasSub p l = true ↔ p <:+: l := by simp [hasSub]

theorem infix_newline {p l : Str} (hp : '\n' ∉ p) : p <:+: l ++ ['\n'] ↔ p <:+: l := by
  constructor
  · rintro ⟨a, b, h⟩
    rcases List.eq_nil_or_concat b with rfl | ⟨b', c, rfl⟩
    · rw [List.append_nil] at h
      rcases List.eq_nil_or_concat p with rfl | ⟨p', c, rfl⟩
      · exact List.nil_infix
      · rw [List.concat_eq_append, ← List.append_assoc] at h
        have := List.append_inj_right' h rfl
        simp only [List.cons.injEq, and_true] at this
        subst this
        simp at hp
    · rw [List.concat_eq_append, ← List.append_assoc] at h
      exact ⟨a, b', List.append_inj_left' h rfl⟩
  · rintro ⟨a, b, rfl⟩
    exact ⟨a, b ++ ['\n'], by simp⟩

theorem hasSub_raw {p r l : Str} (hp : '\n' ∉ p) (h : IsRaw r l) : hasSub p r = hasSub p l := by
  rcases h with rfl | rfl
  · rfl
  · rw [Bool.eq_iff_iff, hasSub_iff, hasSub_iff, infix_newline hp]

theorem any_raw {data ls : List Str} {p : Str} (hp : '\n' ∉ p) (h : List.Forall₂ IsRaw data ls) :
    data.any (hasSub p) = ls.any (hasSub p) := by
  induction h with
  | nil => rfl
  | cons hr _ ih => rw [List.any_cons, List.any_cons, hasSub_raw hp hr, ih]

theorem getElem?_raw {data ls : List Str} (h : List.Forall₂ IsRaw data ls) (n : ℕ) {α : Type}
    {f : Str → Option α} (hf : ∀ r l, IsRaw r l → f r = f l) : data[n]?.bind f = ls[n]?.bind f := by
  induction h generalizing n with
  | nil => rfl
  | cons hr _ ih =>
    cases n with
    | zero => simp [hf _ _ hr]
    | succ n => simpa using ih n

theorem scanLine_raw {r l : Str} (h : IsRaw r l) (s : Scan) : scanLine s r = scanLine s l := by
  unfold scanLine
  rw [hasSub_raw (by decide) h, hasSub_raw (by decide) h]

theorem scan_raw {data ls : List Str} (h : List.Forall₂ IsRaw data ls) (s : Scan) :
    data.foldl scanLine s = ls.foldl scanLine s := by
  induction h generalizing s with
  | nil => rfl
  | cons hr _ ih => rw [List.foldl_cons, List.foldl_cons, scanLine_raw hr, ih]

theorem loadVasp_text {ls : List Str} {text : Str} (h : IsText ls text) (S : Mat) :
    loadVasp text S = vaspLines ls S := by
  have hr := readlines_text h
  have h1 : isVasp (readlines text) = isVasp ls := any_raw (by decide) hr
  have h2 : vaspStart (readlines text) = vaspStart ls := by simp only [vaspStart, scan_raw hr]
  have h3 : ∀ n, vaspWord (readlines text) n = vaspWord ls n := fun n =>
    funext fun i => funext fun j => getElem?_raw hr _ fun r l h => by rw [words_raw h]
  simp only [loadVasp, vaspLines, h1, h2, h3]

theorem crystalStart_raw {data ls : List Str} (h : List.Forall₂ IsRaw data ls) :
    crystalStart data = crystalStart ls := by
  induction h with
  | nil => rfl
  | cons hr _ ih => rw [crystalStart, crystalStart, hasSub_raw (by decide) hr, ih]

theorem crystalDensity_raw {data ls : List Str} (h : List.Forall₂ IsRaw data ls) (b : Bool) :
    crystalDensity b data = crystalDensity b ls := by
  induction h generalizing b with
  | nil => rfl
  | cons hr _ ih =>
    rw [crystalDensity, crystalDensity, hasSub_raw (by decide) hr, hasSub_raw (by decide) hr,
      words_raw hr, ih]

theorem words_bars_raw {r l : Str} (h : IsRaw r l) :
    words (r.filter (· ≠ '|')) = words (l.filter (· ≠ '|')) := by
  rcases h with rfl | rfl
  · rfl
  · rw [List.filter_append]
    exact words_newline _

theorem loadCrystal_text {ls : List Str} {text : Str} (h : IsText ls text) (d : CrystalData) :
    loadCrystal text d = crystalLines ls d := by
  have hr := readlines_text h
  have h1 := any_raw (p := soecOption) (by decide) hr
  have h2 := any_raw (p := soecCompleted) (by decide) hr
  have h3 := crystalStart_raw hr
  have h4 := crystalDensity_raw hr false
  have h5 : ∀ n, crystalWord (readlines text) n = crystalWord ls n := fun n =>
    funext fun i => funext fun j => getElem?_raw hr _ fun r l h => by rw [words_bars_raw h]
  simp only [loadCrystal, crystalLines, h1, h2, h3, h4, h5]

/-- Filling: every cell of the list gets its number, the others keep theirs. -/
theorem fill_ok {tok : Fin 6 → Fin 6 → Option Str} {scale : ℚ} {m : Mat} (cells : List (Fin 6 × Fin 6))
    (h : ∀ p ∈ cells, ∃ t, tok p.1 p.2 = some t ∧ parseFloat t = some (m p.1 p.2)) (S : Mat) :
    fill tok scale cells S =
      (fun a b => if (a, b) ∈ cells then m a b / scale else S a b, .ok none) := by
  induction cells generalizing S with
  | nil => simp [fill]
  | cons p cs ih =>
    obtain ⟨i, j⟩ := p
    obtain ⟨t, h1, h2⟩ := h (i, j) (by simp)
    simp only at h1 h2
    rw [fill, h1]
    simp only [h2]
    rw [ih fun q hq => h q (by simp [hq])]
    congr 1
    funext a b
    by_cases hm : (a, b) ∈ cs
    · simp [hm]
    · simp only [hm, if_false, List.mem_cons, or_false, Prod.mk.injEq]
      by_cases he : a = i ∧ b = j
      · rw [if_pos he, if_pos he, he.1, he.2]
      · rw [if_neg he, if_neg he]

theorem mem_allCells (p : Fin 6 × Fin 6) : p ∈ allCells := by
  simp [allCells]

theorem mem_upperCells (p : Fin 6 × Fin 6) : p ∈ upperCells ↔ p.1 ≤ p.2 := by
  simp [upperCells, mem_allCells]

/-- Scanning lines none of which is the total header only counts them. -/
theorem scan_plain (ls : List Str) (h : ∀ l ∈ ls, ¬ soecRelaxed <:+: l) (s : Scan) :
    (ls.foldl scanLine s).counter = s.counter + ls.length ∧
    (ls.foldl scanLine s).relaxed = s.relaxed := by
  induction ls generalizing s with
  | nil => simp
  | cons l ls ih =>
    have h0 : hasSub soecRelaxed l = false := by
      rw [Bool.eq_false_iff, Ne, hasSub_iff]; exact h l (by simp)
    obtain ⟨h1, h2⟩ := ih (fun x hx => h x (by simp [hx])) (scanLine s l)
    have h3 : (scanLine s l).counter = s.counter + 1 ∧ (scanLine s l).relaxed = s.relaxed := by
      by_cases hc : hasSub soecClamped l = true <;> simp [scanLine, h0, hc]
    rw [List.foldl_cons, h1, h2, h3.1, h3.2, List.length_cons]
    exact ⟨by omega, rfl⟩

theorem scan_total {l : Str} (h : soecRelaxed <:+: l) (s : Scan) :
    (scanLine s l).counter = s.counter ∧ (scanLine s l).relaxed = some (s.counter + 3) := by
  have h0 := hasSub_iff.2 h
  simp only [scanLine, h0, if_true]
  constructor <;> split <;> simp

end Verif.Interfaces
