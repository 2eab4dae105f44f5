/-
Heap view of the six `convert_*` functions of /repo/quantas/utils/physics/units.py: which array
objects they read, create and return.  Used for the aliasing property C06.
-/
import Verif.Tac
import Verif.Units.Spec

namespace Verif.Units.Alias
open Verif.Py Verif.Units

/-- Array objects, addressed by position. -/
abbrev Heap := List (List ℝ)

/-- What one branch does to the array object at hand: hand it on (`np.asanyarray(val)` or
`res = tempo`), or compute a new array (`np.asanyarray(val) * x` allocates), or update in place. -/
inductive Op where
  | keep
  | fresh (f : ℝ → ℝ)
  | inplace (f : ℝ → ℝ)

/-- Execute a branch on the object at address `a`. -/
def Op.exec : Op → Heap → ℕ → Heap × ℕ
  | .keep, h, a => (h, a)
  | .fresh f, h, a => (h ++ [((h[a]?).getD []).map f], h.length)
  | .inplace f, h, a => (h.modify a (List.map f), a)

/-- An `if/elif/else` chain: name lists with the branch they select. -/
abbrev Table := List (List Str × Op)

def Table.find (t : Table) (s : Str) : Option Op :=
  match t with
  | [] => none
  | (names, op) :: rest => if lower s ∈ names then some op else Table.find rest s

/-- Run chains one after the other; an unknown name raises `NotImplementedError`. -/
def run : List (Table × Str) → Heap → ℕ → Heap × Except PyErr ℕ
  | [], h, a => (h, .ok a)
  | (t, s) :: rest, h, a =>
    match t.find s with
    | none => (h, .error .notImplemented)
    | some op => let r := op.exec h a; run rest r.1 r.2

/-- units.py:87-99 -/
noncomputable def tTo : Table :=
  [([c!"celsius", c!"°c", c!"c"], .fresh fun v => v + zeroCelsius),
   ([c!"kelvin", c!"k"], .keep),
   ([c!"fahrenheit", c!"f"], .fresh fun v => (v - 32) * 5 / 9 + zeroCelsius),
   ([c!"rankine", c!"r"], .fresh fun v => v * 5 / 9)]

/-- units.py:101-113 -/
noncomputable def tFrom : Table :=
  [([c!"celsius", c!"°c", c!"c"], .fresh fun t => t - zeroCelsius),
   ([c!"kelvin", c!"k"], .keep),
   ([c!"fahrenheit", c!"f"], .fresh fun t => (t - zeroCelsius) * 9 / 5 + 32),
   ([c!"rankine", c!"r"], .fresh fun t => t * 9 / 5)]

/-- units.py:151-163 -/
noncomputable def eTo (k : Consts) : Table :=
  [([c!"Hartree", c!"Ha", c!"ha"], .keep),
   ([c!"electron volt", c!"eV", c!"ev"], .fresh fun v => v * (k.eV / k.Ha)),
   ([c!"Rydberg", c!"Ry", c!"ry"], .fresh fun v => v * (k.Ry / k.Ha)),
   ([c!"kJ/mol", c!"kj/mol", c!"kjmol"], .fresh fun v => v * (1000 / k.Ha / k.N))]

/-- units.py:164-176 -/
noncomputable def eFrom (k : Consts) : Table :=
  [([c!"Hartree", c!"Ha", c!"ha"], .keep),
   ([c!"electron volt", c!"eV", c!"ev"], .fresh fun e => e * (k.Ha / k.eV)),
   ([c!"Rydberg", c!"Ry", c!"ry"], .fresh fun e => e * (k.Ha / k.Ry)),
   ([c!"kJ/mol", c!"kj/mol", c!"kjmol"], .fresh fun e => e * (k.Ha * k.N / 1000))]

/-- units.py:219-237 -/
noncomputable def pTo : Table :=
  [([c!"gpa"], .fresh fun v => v * 10 ^ 9), ([c!"mpa"], .fresh fun v => v * 10 ^ 6),
   ([c!"kpa"], .fresh fun v => v * 10 ^ 3), ([c!"pa"], .keep),
   ([c!"gbar"], .fresh fun v => v * 10 ^ 14), ([c!"mbar"], .fresh fun v => v * 10 ^ 11),
   ([c!"kbar"], .fresh fun v => v * 10 ^ 8), ([c!"bar"], .fresh fun v => v * 10 ^ 5)]

/-- units.py:238-256 -/
noncomputable def pFrom : Table :=
  [([c!"gpa"], .fresh fun p => p / 10 ^ 9), ([c!"mpa"], .fresh fun p => p / 10 ^ 6),
   ([c!"kpa"], .fresh fun p => p / 10 ^ 3), ([c!"pa"], .keep),
   ([c!"gbar"], .fresh fun p => p / 10 ^ 14), ([c!"mbar"], .fresh fun p => p / 10 ^ 11),
   ([c!"kbar"], .fresh fun p => p / 10 ^ 8), ([c!"bar"], .fresh fun p => p / 10 ^ 5)]

/-- units.py:484-494 -/
noncomputable def fTo (k : Consts) : Table :=
  [([c!"cm^-1"], .keep), ([c!"Hz", c!"hz"], .fresh fun v => v / (k.c * 100)),
   ([c!"THz", c!"thz"], .fresh fun v => 10 ^ 12 * v / (k.c * 100))]

/-- units.py:495-505 -/
noncomputable def fFrom (k : Consts) : Table :=
  [([c!"cm^-1"], .keep), ([c!"Hz", c!"hz"], .fresh fun f => f * (k.c * 100)),
   ([c!"THz", c!"thz"], .fresh fun f => f * (k.c * 100) / 10 ^ 12)]

/-- units.py:540-548 -/
noncomputable def lTo (k : Consts) : Table :=
  [([c!"metre", c!"m"], .keep), ([c!"angstrom", c!"a"], .fresh fun v => v * k.Angstrom),
   ([c!"bohr"], .fresh fun v => v * k.Bohr)]

/-- units.py:549-557 -/
noncomputable def lFrom (k : Consts) : Table :=
  [([c!"metre", c!"m"], .keep), ([c!"angstrom", c!"a"], .fresh fun l => l / k.Angstrom),
   ([c!"bohr"], .fresh fun l => l / k.Bohr)]

/-- units.py:594-602 -/
noncomputable def vTo (k : Consts) : Table :=
  [([c!"metre", c!"m"], .keep), ([c!"angstrom", c!"a"], .fresh fun v => v * k.Angstrom ^ 3),
   ([c!"bohr"], .fresh fun v => v * k.Bohr ^ 3)]

/-- units.py:603-611 -/
noncomputable def vFrom (k : Consts) : Table :=
  [([c!"metre", c!"m"], .keep), ([c!"angstrom", c!"a"], .fresh fun v => v / k.Angstrom ^ 3),
   ([c!"bohr"], .fresh fun v => v / k.Bohr ^ 3)]

/-- units.py:314-351 (all branches update `res` in place). -/
noncomputable def e2p (k : Consts) (es vs ps : Str) : List (Table × Str) :=
  [((e2pEnergy k).map fun p => (p.1, .inplace p.2), es),
   ((e2pVolume k).map fun p => (p.1, .inplace p.2), vs),
   (e2pPressure.map fun p => (p.1, .inplace p.2), ps)]

/-- units.py:409-446 (all branches update `res` in place). -/
noncomputable def p2e (k : Consts) (es vs ps : Str) : List (Table × Str) :=
  [(p2ePressure.map fun p => (p.1, .inplace p.2), ps),
   ((p2eVolume k).map fun p => (p.1, .inplace p.2), vs),
   ((p2eEnergy k).map fun p => (p.1, .inplace p.2), es)]

/-- The `convert_*` calls as two chains each. -/
inductive Converter where
  | temperature | energy | pressure | frequency | length | volume

/-- The two chains of each `convert_*` function. -/
noncomputable def Converter.chains (k : Consts) : Converter → Table × Table
  | .temperature => (tTo, tFrom)
  | .energy => (eTo k, eFrom k)
  | .pressure => (pTo, pFrom)
  | .frequency => (fTo k, fFrom k)
  | .length => (lTo k, lFrom k)
  | .volume => (vTo k, vFrom k)

/-- A `convert_*` call on the array object at address `a`. -/
noncomputable def Converter.call (k : Consts) (c : Converter) (h : Heap) (a : ℕ) (old new : Str) :
    Heap × Except PyErr ℕ :=
  run [((c.chains k).1, old), ((c.chains k).2, new)] h a

/-- The value semantics of Model.lean for the same converters. -/
noncomputable def Converter.value (k : Consts) : Converter → List ℝ → Str → Str → Except PyErr (List ℝ)
  | .temperature => convertTemperature
  | .energy => convertEnergy k
  | .pressure => convertPressure
  | .frequency => convertFrequency k
  | .length => convertLength k
  | .volume => convertVolume k

/-! ### Lemmas -/

def Op.pure : Op → Prop
  | .inplace _ => False
  | _ => True

def Op.fn : Op → ℝ → ℝ
  | .keep => id
  | .fresh f => f
  | .inplace f => f

theorem exec_frame {op : Op} (hp : op.pure) (h : Heap) (a i : ℕ) (hi : i < h.length) :
    (op.exec h a).1[i]? = h[i]? ∧ h.length ≤ (op.exec h a).1.length := by
  cases op with
  | keep => simp [Op.exec]
  | fresh f => simp [Op.exec, List.getElem?_append_left hi]
  | inplace f => exact absurd hp id

theorem exec_value {op : Op} (hp : op.pure) (h : Heap) (a : ℕ) (l : List ℝ) (hl : h[a]? = some l) :
    (op.exec h a).1[(op.exec h a).2]? = some (l.map op.fn) := by
  cases op with
  | keep => simp [Op.exec, Op.fn, hl]
  | fresh f => simp [Op.exec, Op.fn, hl]
  | inplace f => exact absurd hp id

def Table.pure (t : Table) : Prop := ∀ p ∈ t, p.2.pure

theorem find_pure {t : Table} (ht : t.pure) {s : Str} {op : Op} (h : t.find s = some op) :
    op.pure := by
  induction t with
  | nil => simp [Table.find] at h
  | cons p rest ih =>
    obtain ⟨names, o⟩ := p
    rw [Table.find] at h
    split at h
    · cases h; exact ht _ (List.mem_cons_self ..)
    · exact ih (fun q hq => ht q (List.mem_cons_of_mem _ hq)) h

theorem run_frame {ts : List (Table × Str)} (ht : ∀ t ∈ ts, t.1.pure) (h : Heap) (a i : ℕ)
    (hi : i < h.length) : (run ts h a).1[i]? = h[i]? := by
  induction ts generalizing h a with
  | nil => simp [run]
  | cons t rest ih =>
    obtain ⟨t, s⟩ := t
    rw [run]
    split
    · rfl
    · rename_i op hop
      have hp := find_pure (ht _ (List.mem_cons_self ..)) hop
      have hf := exec_frame hp h a i hi
      simp only
      rw [ih (fun q hq => ht q (List.mem_cons_of_mem _ hq)) _ _ (lt_of_lt_of_le hi hf.2), hf.1]

theorem chains_pure (k : Consts) (c : Converter) :
    (c.chains k).1.pure ∧ (c.chains k).2.pure := by
  cases c <;> constructor <;>
    simp [Converter.chains, Table.pure, tTo, tFrom, eTo, eFrom, pTo, pFrom, fTo, fFrom, lTo, lFrom,
      vTo, vFrom, Op.pure]

theorem value_eq (k : Consts) (c : Converter) (l : List ℝ) (old new : Str) :
    c.value k l old new =
      match (c.chains k).1.find old, (c.chains k).2.find new with
      | some f, some g => .ok ((l.map f.fn).map g.fn)
      | _, _ => .error .notImplemented := by
  have key : ∀ (f g : Str → Except PyErr (ℝ → ℝ)) (t u : Table),
      (∀ s, f s = match t.find s with | some o => .ok o.fn | none => .error .notImplemented) →
      (∀ s, g s = match u.find s with | some o => .ok o.fn | none => .error .notImplemented) →
      (do let F ← f old
          let t := l.map F
          let G ← g new
          return t.map G : Except PyErr (List ℝ)) =
      match t.find old, u.find new with
      | some f, some g => .ok ((l.map f.fn).map g.fn)
      | _, _ => .error .notImplemented := by
    intro f g t u hf hg
    rw [hf, hg]
    cases t.find old <;> cases u.find new <;> rfl
  cases c with
  | temperature =>
    refine key tempToKelvin tempFromKelvin tTo tFrom ?_ ?_ <;> intro s <;>
      simp only [tempToKelvin, tTo, tempFromKelvin, tFrom, Table.find] <;>
      split_ifs <;> rfl
  | energy =>
    refine key (energyToHartree k) (energyFromHartree k) (eTo k) (eFrom k) ?_ ?_ <;> intro s <;>
      simp only [energyToHartree, eTo, energyFromHartree, eFrom, Table.find] <;>
      split_ifs <;> rfl
  | pressure =>
    refine key pressureToPa pressureFromPa pTo pFrom ?_ ?_ <;> intro s <;>
      simp only [pressureToPa, pTo, pressureFromPa, pFrom, Table.find] <;>
      split_ifs <;> rfl
  | frequency =>
    refine key (freqToCm k) (freqFromCm k) (fTo k) (fFrom k) ?_ ?_ <;> intro s <;>
      simp only [freqToCm, fTo, freqFromCm, fFrom, Table.find] <;>
      split_ifs <;> rfl
  | length =>
    refine key (lengthToM k) (lengthFromM k) (lTo k) (lFrom k) ?_ ?_ <;> intro s <;>
      simp only [lengthToM, lTo, lengthFromM, lFrom, Table.find] <;>
      split_ifs <;> rfl
  | volume =>
    refine key (volumeToM3 k) (volumeFromM3 k) (vTo k) (vFrom k) ?_ ?_ <;> intro s <;>
      simp only [volumeToM3, vTo, volumeFromM3, vFrom, Table.find] <;>
      split_ifs <;> rfl

end Verif.Units.Alias
