/-
Specification of the phonon input of Quantas, in terms of the tree that the YAML file denotes.
-/
import Verif.IO.Spec
import Verif.Phonon.Yaml

namespace Verif.Phonon.Spec
open Verif.Py Verif.IO.Spec

/-- The mapping `x` has the entry `key: v`, and no key twice. -/
def Entry (x : Node) (key : Str) (v : Node) : Prop :=
  ∃ l, x = .map l ∧ (key, v) ∈ l ∧ (l.map Prod.fst).Nodup

/-- The mapping `x` has no entry `key`. -/
def Lacks (x : Node) (key : Str) : Prop := ∃ l, x = .map l ∧ ∀ v, (key, v) ∉ l

/-- The item gives the number `q`: a float, an integer, or the text of a number. -/
def Gives (x : Node) (q : ℚ) : Prop :=
  x = .float q ∨ (∃ n : ℤ, x = .int n ∧ q = n) ∨ ∃ s, x = .str s ∧ Numeral s q

/-- The item gives the numbers `qs`: a list of them, or a list whose only item is a text with the
numbers separated by blanks. -/
def GivesList (x : Node) (qs : List ℚ) : Prop :=
  (∃ l, x = .list l ∧ List.Forall₂ Gives l qs) ∨ ∃ line, x = .list [.str line] ∧ Numbers qs line

/-- A q-point: its weight and, for each band, the frequencies at the volumes. -/
structure QPoint where
  weight : ℚ
  bands : List (List ℚ)

/-- An item of the list of q-points. -/
def PointGiven (x : Node) (p : QPoint) : Prop :=
  (∃ w, Entry x c!"weight" w ∧ Gives w p.weight) ∧
  ∃ bs, Entry x c!"band" (.list bs) ∧
    List.Forall₂ (fun b freqs => ∃ v, Entry b c!"frequency" v ∧ GivesList v freqs) bs p.bands

/-- A complete phonon input: the announced number of q-points, three bands per atom, and in each band
one frequency per volume. -/
structure PhononInput (doc : Node) (n : ℕ) (volumes energies : List ℚ) (points : List QPoint) :
    Prop where
  natom : Entry doc c!"natom" (.int n)
  qpoints : Entry doc c!"qpoints" (.int points.length)
  volume : ∃ v, Entry doc c!"volume" v ∧ GivesList v volumes
  energy : ∃ v, Entry doc c!"energy" v ∧ GivesList v energies
  phonon : ∃ qs, Entry doc c!"phonon" (.list qs) ∧ List.Forall₂ PointGiven qs points
  bands : ∀ p ∈ points, p.bands.length = 3 * n
  complete : ∀ p ∈ points, ∀ f ∈ p.bands, f.length = volumes.length

end Verif.Phonon.Spec
