/-
Specification of what a user reads in an exported section of an elastic property.
-/
import Verif.Export.ElasticProps
import Verif.Polar.Units

noncomputable section

namespace Verif.Chain.Spec
open Verif.Py Verif.IO.Spec Verif.Polar Verif.Export.Spec

/-- The moduli outside the upper left block and the diagonal, which vanish in orthorhombic crystals, are all zero, or one of them
is above the tolerance of the classifier. -/
def Plain (m : Fin 6 → Fin 6 → ℚ) : Prop :=
  (∀ i j, i ≠ j → (3 ≤ i.val ∨ 3 ≤ j.val) → m i j = 0) ∨ ∃ i j, i ≠ j ∧ (3 ≤ i.val ∨ 3 ≤ j.val) ∧ 1 / 1000 < |m i j|

/-- The numbers are those of the table, row by row, with the relative error `ε`. -/
def Held (ε : ℝ) (table : List (List ℝ)) (rows : List (List ℚ)) : Prop :=
  List.Forall₂ (List.Forall₂ fun (x : ℝ) (q : ℚ) => |(q : ℝ) - x| ≤ ε * |x|) table rows

/-- The result file holds the sections, as numbers of the computer with the relative error `ε`.  The angles of the planes are the
same numbers, since they are computed once. -/
def HoldsSections (ε : ℝ) (r : Results ℚ) (s : Sections ℝ) : Prop :=
  ∃ (waves : Bool) (tab : Plane → Var → List (List ℚ)) (angles : List ℚ), r.polar = sectionsOf waves tab ∧
    ∀ v, ((v = .waves → waves = true) ↔ ∃ table, s.table .xy v = some table) ∧
      ∀ k table, s.table k v = some table → Held ε table (tab k v) ∧ (tab k v).map List.head? = angles.map some

/-- The third and the fourth line of a table: the quantity and its unit. -/
def caption : Var → Str × Str
  | .E => (c!"Young's modulus", c!"Data in GPa units")
  | .LC => (c!"Linear compressibility", c!"Data in TPa^-1 units")
  | .G => (c!"Shear modulus", c!"Data in GPa units")
  | .Nu => (c!"Poisson's ratio", c!"Adimensional data")
  | .waves => (c!"Seismic wave velocities", c!"Data in km s^-1 units")

/-- In the text, a table of the quantity with ten lines above its entries, the line of the entry with the number `i` shows the
angle `t` and the numbers `vs`. -/
def ShowsSection (text : Str) (v : Var) (i : ℕ) (t : ℚ) (vs : List ℚ) : Prop :=
  ∃ lines l, (∀ l ∈ lines, '\n' ∉ l) ∧ text = List.intercalate ['\n'] lines ∧ lines[2]? = some (caption v).1 ∧
    lines[3]? = some (caption v).2 ∧ lines[10 + i]? = some l ∧ Numbers (t :: vs) l

/-- The direction at the angle with the number `i` on a plane: the angles go from 0 to 360 degrees in 359 steps. -/
def sectionDirection (k : Plane) (i : ℕ) : Elastic.V3 := Polar.Spec.direction k (360 * i / 359 * Real.pi / 180)

/-- The exported table of the quantity `v` is right for the crystal: it has a line for each angle, and this shows for each of the
planes (xy), (xz) and (yz) the values of the crystal along the direction at this angle, within the relative error `ε` of the
saved numbers and half a unit of the decimals printed.  Lines with values above 100000 are left out: they do not fit the columns. -/
def ExportsSections (ε : ℝ) (C : Elastic.M6) (density : ℝ) (v : Var) (text : Str) : Prop :=
  ∀ i < 360, (∀ k values, Polar.Spec.Listed C density (sectionDirection k i) v values → ∀ x ∈ values, |x| ≤ 100000) →
    ∃ (t : ℚ) (vs : Plane → List ℚ), ShowsSection text v i t (vs .xy ++ vs .xz ++ vs .yz) ∧
      |(t : ℝ) - 360 * i / 359| ≤ 1 / 20 + ε * (360 * i / 359) ∧
      ∀ k, ∃ values, Polar.Spec.Listed C density (sectionDirection k i) v values ∧
        List.Forall₂ (fun (x : ℝ) (q : ℚ) => |(q : ℝ) - x| ≤ 1 / (2 * 10 ^ 4) + ε * |x|) values (vs k)

end Verif.Chain.Spec
