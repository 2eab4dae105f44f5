/-
Specification of the tables exported from elastic results.
-/
import Verif.Export.TableSpec
import Verif.Export.Elastic

noncomputable section

namespace Verif.Export.Spec
open Verif.Py Verif.IO.Spec Verif.Polar

/-- The title of a table. -/
def sectionTitle : Var → Str
  | .E => c!"Young's modulus"
  | .LC => c!"Linear compressibility"
  | .G => c!"Shear modulus"
  | .Nu => c!"Poisson's ratio"
  | .waves => c!"Seismic wave velocities"

/-- The labels of the columns of a plane. -/
def sectionLabels : Var → List Str
  | .E => []
  | .LC => [c!"positive", c!"negative"]
  | .G => [c!"minimum", c!"maximum"]
  | .Nu => [c!"negative", c!"positive", c!"measurement"]
  | .waves => [c!"v_s1", c!"vs_2", c!"v_l"]

/-- The number of values of a quantity in each plane. -/
def sectionWidth : Var → ℕ
  | .E => 1
  | .LC => 2
  | .G => 2
  | .Nu => 3
  | .waves => 3

/-- The sections of a quantity: `n` rows for each plane, which start with the angle and continue with the values
of the quantity. -/
def SectionTables (v : Var) (n : ℕ) (angles : List ℚ) (values : Plane → ℕ → List ℚ) (tab : Plane → List (List ℚ)) :
    Prop :=
  angles.length = n ∧ (∀ k i, (values k i).length = sectionWidth v) ∧
  ∀ k, (tab k).length = n ∧ ∀ (i : ℕ) t, angles[i]? = some t → (tab k)[i]? = some (t :: values k i)

/-- The numbers fit in the cells. -/
def FitsSection (t : ℚ) (vs : List ℚ) : Prop := |t| ≤ 10 ^ 6 - 1 ∧ ∀ v ∈ vs, |v| ≤ 10 ^ 8 - 1

/-- The text is the table of a quantity, with one line per angle: the angle with one decimal and the values on
(xy), (xz) and (yz) with four.  `body` are the lines from the first rule on. -/
structure IsSectionTable (v : Var) (angles : List ℚ) (values : Plane → ℕ → List ℚ) (unit : Str)
    (body : List Str) (text : Str) : Prop where
  lines : ∀ l ∈ body, '\n' ∉ l
  text_eq : text = List.intercalate ['\n']
    ([c!"*- This file was created using Quantas -*", [], sectionTitle v,
      if unit = [] then c!"Adimensional data" else c!"Data in " ++ unit ++ c!" units", []] ++ body)
  body_eq : ∃ r1 labels dirs names r2 rows r3, body = r1 :: labels :: dirs :: names :: r2 :: (rows ++ [r3]) ∧
    IsRule '-' r1 ∧ IsLabels c!"Degrees" (sectionTitle v) labels ∧ Tokens [c!"(xy)", c!"(xz)", c!"(yz)"] dirs ∧
    Tokens (sectionLabels v ++ sectionLabels v ++ sectionLabels v) names ∧ IsRule '=' r2 ∧ IsRule '=' r3 ∧
    rows.length = angles.length ∧
    ∀ (i : ℕ) t l, angles[i]? = some t → rows[i]? = some l →
      FitsSection t (values .xy i ++ values .xz i ++ values .yz i) →
      ∃ t' vs, Rounded 1 t t' ∧ List.Forall₂ (Rounded 4) (values .xy i ++ values .xz i ++ values .yz i) vs ∧
        Numbers (t' :: vs) l

/-- The file has nothing to do with elastic results: it is no result file, or it holds no stiffness. -/
def Foreign (f : H5) : Prop := f.attrs.lookup c!"info" = none ∨ f.sets.lookup c!"stiffness" = none

/-- The file was saved by the elastic calculator: it has all sections, or all but those of the velocities. -/
def SavedElastic (f : H5) : Prop := ∃ (punit : Str) (r : Results ℚ) (waves : Bool) (tab : Plane → Var → List (List ℚ)),
  r.polar = [Plane.xy, .xz, .yz].map (fun k =>
    (k, ([Var.E, .LC, .G, .Nu] ++ if waves then [Var.waves] else []).map fun v => (v, tab k v))) ∧
  f = elasticFile (saveElastic punit r)

/-- The dictionary of the class after the files have been loaded one after the other, by any exporters. -/
def afterLoading (d : Data) : List (Str × H5) → Data
  | [] => d
  | (name, f) :: rest => afterLoading (loadElastic d name f).1 rest

end Verif.Export.Spec
