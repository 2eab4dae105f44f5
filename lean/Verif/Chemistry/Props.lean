/-
C61: chemical symbols and atomic numbers.
-/
import Verif.Tac
import Verif.Chemistry.Model

namespace Verif.Chemistry
open Verif.Py

namespace Spec

/-- The chemical elements in alphabetical order of their symbols, with their atomic numbers
(transcribed independently of the table in the code, which is in order of atomic number). -/
def elements : List (Str × ℕ) := [
  (c!"Ac", 89), (c!"Ag", 47), (c!"Al", 13), (c!"Am", 95), (c!"Ar", 18), (c!"As", 33),
  (c!"At", 85), (c!"Au", 79), (c!"B", 5), (c!"Ba", 56), (c!"Be", 4), (c!"Bh", 107),
  (c!"Bi", 83), (c!"Bk", 97), (c!"Br", 35), (c!"C", 6), (c!"Ca", 20), (c!"Cd", 48),
  (c!"Ce", 58), (c!"Cf", 98), (c!"Cl", 17), (c!"Cm", 96), (c!"Cn", 112), (c!"Co", 27),
  (c!"Cr", 24), (c!"Cs", 55), (c!"Cu", 29), (c!"Db", 105), (c!"Ds", 110), (c!"Dy", 66),
  (c!"Er", 68), (c!"Es", 99), (c!"Eu", 63), (c!"F", 9), (c!"Fe", 26), (c!"Fl", 114),
  (c!"Fm", 100), (c!"Fr", 87), (c!"Ga", 31), (c!"Gd", 64), (c!"Ge", 32), (c!"H", 1),
  (c!"He", 2), (c!"Hf", 72), (c!"Hg", 80), (c!"Ho", 67), (c!"Hs", 108), (c!"I", 53),
  (c!"In", 49), (c!"Ir", 77), (c!"K", 19), (c!"Kr", 36), (c!"La", 57), (c!"Li", 3),
  (c!"Lr", 103), (c!"Lu", 71), (c!"Lv", 116), (c!"Mc", 115), (c!"Md", 101), (c!"Mg", 12),
  (c!"Mn", 25), (c!"Mo", 42), (c!"Mt", 109), (c!"N", 7), (c!"Na", 11), (c!"Nb", 41),
  (c!"Nd", 60), (c!"Ne", 10), (c!"Nh", 113), (c!"Ni", 28), (c!"No", 102), (c!"Np", 93),
  (c!"O", 8), (c!"Og", 118), (c!"Os", 76), (c!"P", 15), (c!"Pa", 91), (c!"Pb", 82),
  (c!"Pd", 46), (c!"Pm", 61), (c!"Po", 84), (c!"Pr", 59), (c!"Pt", 78), (c!"Pu", 94),
  (c!"Ra", 88), (c!"Rb", 37), (c!"Re", 75), (c!"Rf", 104), (c!"Rg", 111), (c!"Rh", 45),
  (c!"Rn", 86), (c!"Ru", 44), (c!"S", 16), (c!"Sb", 51), (c!"Sc", 21), (c!"Se", 34),
  (c!"Sg", 106), (c!"Si", 14), (c!"Sm", 62), (c!"Sn", 50), (c!"Sr", 38), (c!"Ta", 73),
  (c!"Tb", 65), (c!"Tc", 43), (c!"Te", 52), (c!"Th", 90), (c!"Ti", 22), (c!"Tl", 81),
  (c!"Tm", 69), (c!"Ts", 117), (c!"U", 92), (c!"V", 23), (c!"W", 74), (c!"Xe", 54),
  (c!"Y", 39), (c!"Yb", 70), (c!"Zn", 30), (c!"Zr", 40)]

/-- The symbols the package knows: the elements and the dummy atom `X` with number zero. -/
def Known (s : Str) (Z : ℕ) : Prop := (s, Z) ∈ elements ∨ s = c!"X" ∧ Z = 0

end Spec
open Spec

theorem pyIndex_nat {α : Type} (l : List α) (i : ℕ) :
    pyIndex l i = match l[i]? with | some x => .ok x | none => .error .indexError := by
  rw [pyIndex, if_pos (by omega), Int.toNat_natCast]
  cases l[i]? <;> rfl

theorem fill_spec (l : List Str) (hn : l.Nodup) : ∀ (Z : ℕ) (d : Dict) (s : Str) (n : ℕ),
    (∀ s ∈ l, d s = none) →
    (fillNumbers Z l d s = some n ↔ d s = some n ∨ ∃ i, l[i]? = some s ∧ n = Z + i) := by
  induction l with
  | nil => intro Z d s n _; simp [fillNumbers]
  | cons x l ih =>
    intro Z d s n hd
    obtain ⟨hx, hn⟩ := List.nodup_cons.1 hn
    rw [fillNumbers, ih hn (Z + 1) _ s n]
    · constructor
      · rintro (h | ⟨i, h1, h2⟩)
        · by_cases hs : s = x
          · subst hs
            simp only [Dict.set, if_true, Option.some.injEq] at h
            exact .inr ⟨0, by simp, by simp [h]⟩
          · simp only [Dict.set, if_neg hs] at h
            exact .inl h
        · exact .inr ⟨i + 1, by simpa using h1, by omega⟩
      · rintro (h | ⟨i, h1, h2⟩)
        · have hs : s ≠ x := by
            rintro rfl
            rw [hd s (by simp)] at h
            cases h
          exact .inl (by simp [Dict.set, hs, h])
        · cases i with
          | zero =>
            simp only [List.getElem?_cons_zero, Option.some.injEq] at h1
            exact .inl (by simp [Dict.set, h1, h2])
          | succ i => exact .inr ⟨i, by simpa using h1, by omega⟩
    · intro t ht
      have : t ≠ x := by rintro rfl; exact hx ht
      simp [Dict.set, this, hd t (by simp [ht])]

theorem symbols_nodup : chemicalSymbols.Nodup := by decide +kernel

theorem symbol2number_iff (s : Str) (n : ℕ) :
    symbol2number s = .ok n ↔ chemicalSymbols[n]? = some s := by
  have h := fill_spec chemicalSymbols symbols_nodup 0 (fun _ => none) s n (by simp)
  simp only [reduceCtorEq, false_or, Nat.zero_add] at h
  have h2 : atomicNumbers s = some n ↔ chemicalSymbols[n]? = some s := by
    rw [atomicNumbers, h]
    constructor
    · rintro ⟨i, h1, rfl⟩; exact h1
    · intro h1; exact ⟨n, h1, rfl⟩
  rw [← h2, symbol2number]
  cases atomicNumbers s <;> simp

/-- The table in the code is the list of elements. -/
theorem known_iff (s : Str) (n : ℕ) : Known s n ↔ chemicalSymbols[n]? = some s := by
  have h1 : ∀ p ∈ (c!"X", 0) :: elements, chemicalSymbols[p.2]? = some p.1 := by decide +kernel
  have h2 : ∀ n : Fin 119, (chemicalSymbols[(n : ℕ)]?.getD [], (n : ℕ)) ∈ (c!"X", 0) :: elements := by
    decide +kernel
  have h3 : chemicalSymbols.length = 119 := by decide +kernel
  have hk : Known s n ↔ (s, n) ∈ (c!"X", 0) :: elements := by
    rw [Known, List.mem_cons, Prod.mk.injEq, or_comm]
  rw [hk]
  refine ⟨fun h => h1 _ h, fun h => ?_⟩
  have hn : n < 119 := by
    rw [← h3]
    by_contra hge
    rw [List.getElem?_eq_none (not_lt.1 hge)] at h
    cases h
  have := h2 ⟨n, hn⟩
  simpa only [h, Option.getD_some] using this

/-- C61: the atomic number of every known symbol is the right one. -/
theorem C61_symbol2number {s : Str} {Z : ℕ} : symbol2number s = .ok Z ↔ Known s Z := by
  rw [symbol2number_iff, known_iff]

/-- C61: the symbol of every atomic number is the right one. -/
theorem C61_number2symbol {s : Str} {Z : ℕ} : number2symbol Z = .ok s ↔ Known s Z := by
  rw [known_iff, number2symbol, pyIndex_nat]
  cases h : chemicalSymbols[Z]? <;> simp

/-- C61: the two functions undo each other. -/
theorem C61_inverse {s : Str} {Z : ℕ} : number2symbol Z = .ok s ↔ symbol2number s = .ok Z := by
  rw [C61_number2symbol, C61_symbol2number]

/-- C61: there is exactly one symbol for each number from 0 to 118, and at most one number for each
symbol. -/
theorem C61_unique (Z : ℕ) (hZ : Z ≤ 118) : ∃! s, Known s Z := by
  have h3 : chemicalSymbols.length = 119 := by decide +kernel
  have hlt : Z < chemicalSymbols.length := by omega
  refine ⟨chemicalSymbols[Z], (known_iff _ _).2 (List.getElem?_eq_getElem hlt), fun s hs => ?_⟩
  have := (known_iff _ _).1 hs
  rw [List.getElem?_eq_getElem hlt] at this
  exact (Option.some.inj this).symm

/-- C61: every other string is refused with KeyError. -/
theorem C61_unknown_symbol {s : Str} (h : ∀ Z, ¬ Known s Z) :
    symbol2number s = .error .keyError := by
  cases h1 : atomicNumbers s with
  | none => simp [symbol2number, h1]
  | some Z => exact absurd (C61_symbol2number.1 (by simp [symbol2number, h1])) (h Z)

/-- C61: numbers above 118 and below -119 are refused with IndexError. -/
theorem C61_unknown_number {Z : ℤ} (h : 118 < Z ∨ Z < -119) :
    number2symbol Z = .error .indexError := by
  have h3 : chemicalSymbols.length = 119 := by decide +kernel
  unfold number2symbol pyIndex
  rcases h with h | h
  · have : chemicalSymbols[Z.toNat]? = none := List.getElem?_eq_none (by omega)
    rw [if_pos (by omega), this]
  · rw [if_neg (by omega), if_pos (by omega)]

/-- C61: negative numbers from -119 on are not refused: they count from the end of the table. -/
theorem C61_negative_number {k : ℕ} (h1 : 1 ≤ k) (h2 : k ≤ 119) {s : Str} :
    number2symbol (-k) = .ok s ↔ Known s (119 - k) := by
  have h3 : chemicalSymbols.length = 119 := by decide +kernel
  rw [known_iff, number2symbol, pyIndex, if_neg (by omega), if_neg (by omega)]
  have : ((chemicalSymbols.length : ℤ) + -k).toNat = 119 - k := by omega
  rw [this]
  cases chemicalSymbols[119 - k]? <;> simp

example : Known c!"Mg" 12 := .inl (by decide +kernel)

example : ∀ Z, ¬ Known c!"mg" Z := by
  intro Z h
  have h := C61_symbol2number.2 h
  have : symbol2number c!"mg" = .error .keyError := by decide +kernel
  rw [this] at h
  cases h

end Verif.Chemistry
