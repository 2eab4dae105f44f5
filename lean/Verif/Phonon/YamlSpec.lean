/-
Specification of the fragment of YAML 1.1 that the generated phonon inputs use, as a relation between the
text and the tree it denotes.  It is independent of the writer and of the readers.
-/
import Verif.Phonon.Spec

namespace Verif.Phonon.Spec
open Verif.Py Verif.IO.Spec

/-- A string of spaces. -/
def Spaces (s : Str) : Prop := ∀ c ∈ s, c = ' '

/-- `n` spaces. -/
def indent (n : ℕ) : Str := List.replicate n ' '

/-- Latin letters. -/
def letters : List Char := c!"abcdefghijklmnopqrstuvwxyzABCDEFGHIJKLMNOPQRSTUVWXYZ"

/-- Words that YAML 1.1 reads as truth values or as null. -/
def reserved : List Str :=
  [c!"yes", c!"Yes", c!"YES", c!"no", c!"No", c!"NO", c!"true", c!"True", c!"TRUE", c!"false", c!"False",
    c!"FALSE", c!"on", c!"On", c!"ON", c!"off", c!"Off", c!"OFF", c!"null", c!"Null", c!"NULL"]

/-- A plain text: it begins with a letter, is made of letters, digits, hyphens, underscores and single
or multiple inner spaces, and is not a reserved word. -/
def Plain (s : Str) : Prop :=
  (∃ c r, s = c :: r ∧ c ∈ letters) ∧ (∀ c ∈ s, c ∈ letters ∨ c ∈ digits ∨ c = '-' ∨ c = '_' ∨ c = ' ') ∧
    s.getLast? ≠ some ' ' ∧ s ∉ reserved

/-- The exponent of a float: YAML 1.1 demands its sign. -/
def FloatExponent (s : Str) (e : ℤ) : Prop :=
  s = [] ∧ e = 0 ∨ ∃ c sgn f ds, (c = 'e' ∨ c = 'E') ∧ sgn ≠ [] ∧ Sign sgn f ∧ Digits ds ∧ ds ≠ [] ∧
    s = c :: sgn ++ ds ∧ e = f * natOf ds

/-- What a scalar denotes.  An integer has no leading zeros (they mean octal numbers), a float has digits
before the decimal point, and nothing at all is null. -/
inductive Scalar : Str → Node → Prop
  | null : Scalar [] .null
  | int {sgn ds : Str} {f : ℤ} : Sign sgn f → Digits ds → ds ≠ [] → (ds = ['0'] ∨ ds.head? ≠ some '0') →
      Scalar (sgn ++ ds) (.int (f * natOf ds))
  | float {sgn a b x : Str} {f e : ℤ} : Sign sgn f → Digits a → a ≠ [] → Digits b → FloatExponent x e →
      Scalar (sgn ++ a ++ '.' :: b ++ x)
        (.float (f * ((natOf a + (natOf b : ℚ) / 10 ^ b.length) * (10 : ℚ) ^ e)))
  | text {s : Str} : Plain s → Scalar s (.str s)

/-- The items of a sequence in brackets, separated by commas. -/
inductive FlowItems : Str → List Node → Prop
  | one {a s b : Str} {x : Node} : Spaces a → Spaces b → s ≠ [] → Scalar s x → FlowItems (a ++ s ++ b) [x]
  | cons {a s b rest : Str} {x : Node} {xs : List Node} : Spaces a → Spaces b → s ≠ [] → Scalar s x →
      FlowItems rest xs → FlowItems (a ++ s ++ b ++ ',' :: rest) (x :: xs)

/-- A value on one line: a scalar or a sequence in brackets. -/
inductive Value : Str → Node → Prop
  | scalar {a s b : Str} {x : Node} : Spaces a → Spaces b → Scalar s x → Value (a ++ s ++ b) x
  | flow {a s b : Str} {xs : List Node} : Spaces a → Spaces b → FlowItems s xs →
      Value (a ++ '[' :: s ++ ']' :: b) (.list xs)

/-- A key: a plain text without spaces. -/
def Key (k : Str) : Prop := Plain k ∧ ' ' ∉ k

mutual

/-- The lines of a mapping whose keys are indented by `n` spaces. -/
inductive Block : ℕ → List Str → List (Str × Node) → Prop
  | nil {n : ℕ} : Block n [] []
  /-- An empty line. -/
  | empty {n : ℕ} {l : Str} {ls : List Str} {es : List (Str × Node)} : Spaces l → Block n ls es →
      Block n (l :: ls) es
  /-- `key: value`. -/
  | entry {n : ℕ} {k v : Str} {x : Node} {ls : List Str} {es : List (Str × Node)} : Key k → Value v x →
      Block n ls es → Block n ((indent n ++ k ++ ':' :: ' ' :: v) :: ls) ((k, x) :: es)
  /-- `key:` and the items of a sequence, not indented further, below it. -/
  | sequence {n : ℕ} {k : Str} {ls ls' : List Str} {x : Node} {xs : List Node} {es : List (Str × Node)} :
      Key k → Items n ls (x :: xs) → Block n ls' es →
      Block n ((indent n ++ k ++ [':']) :: ls ++ ls') ((k, .list (x :: xs)) :: es)

/-- The lines of a sequence whose items are indented by `n` spaces. -/
inductive Items : ℕ → List Str → List Node → Prop
  | nil {n : ℕ} : Items n [] []
  /-- An empty line. -/
  | empty {n : ℕ} {l : Str} {ls : List Str} {xs : List Node} : Spaces l → Items n ls xs → Items n (l :: ls) xs
  /-- `- value`. -/
  | value {n : ℕ} {v : Str} {x : Node} {ls : List Str} {xs : List Node} : Value v x → Items n ls xs →
      Items n ((indent n ++ '-' :: ' ' :: v) :: ls) (x :: xs)
  /-- `- key: value`, the first line of a mapping. -/
  | mapping {n : ℕ} {k v : Str} {x : Node} {ls ls' : List Str} {es : List (Str × Node)} {xs : List Node} :
      Key k → Value v x → Block (n + 2) ls es → Items n ls' xs →
      Items n ((indent n ++ '-' :: ' ' :: k ++ ':' :: ' ' :: v) :: ls ++ ls') (.map ((k, x) :: es) :: xs)
  /-- `- # comment`, and a mapping below it. -/
  | comment {n : ℕ} {t : Str} {e : Str × Node} {ls ls' : List Str} {es : List (Str × Node)}
      {xs : List Node} :
      '\n' ∉ t → Block (n + 2) ls (e :: es) → Items n ls' xs →
      Items n ((indent n ++ '-' :: ' ' :: '#' :: t) :: ls ++ ls') (.map (e :: es) :: xs)

end

/-- The text is a YAML document that denotes the tree. -/
def Denotes (text : Str) (doc : Node) : Prop :=
  ∃ ls es, (∀ l ∈ ls, '\n' ∉ l) ∧ text = List.intercalate ['\n'] ls ∧ Block 0 ls es ∧ doc = .map es

/-- `y` is `x` written with `d + 1` significant digits: it is off by at most half a unit of the last of
`d` decimals of the mantissa. -/
def Significant (d : ℕ) (x y : ℚ) : Prop :=
  (∃ m e : ℤ, |m| < 10 ^ (d + 1) ∧ y = m * (10 : ℚ) ^ e) ∧ |y - x| * (2 * 10 ^ d) ≤ |x|

end Verif.Phonon.Spec
