/-
The sections of the elastic properties on the coordinate planes (quantas/soec/soec.py and
quantas/soec/utils/soec_obj.py), the result file of the elastic calculator and the polar figures
(quantas/soec/utils/plotting.py).

Floats are reals.  `scipy.optimize.minimize(…, method='Powell')` is a parameter.
-/
import Verif.Seismic.Model
import Verif.Elastic.Run
import Verif.Interfaces.Soec

noncomputable section

namespace Verif.Polar
open Verif.Py Verif.Elastic Verif.Seismic

/-- `np.linspace(a, b, n)`. -/
def linspace (a b : ℝ) (n : ℕ) : List ℝ :=
  (List.range n).map fun i : ℕ => a + (i : ℝ) * ((b - a) / ((n - 1 : ℕ) : ℝ))

/-- `np.degrees(x)`. -/
def degrees (x : ℝ) : ℝ := x * 180 / Real.pi

/-- `np.radians(x)`. -/
def radians (x : ℝ) : ℝ := x * Real.pi / 180

/-- `optimize.minimize(func, x0, method='Powell')` for a function of one variable. -/
abbrev Powell := (ℝ → ℝ) → ℝ → Found ℝ

/-- `shear_2d(x)` (soec_obj.py:341-348). -/
def shear2d (powell : Powell) (o : Solid) (x : ℝ × ℝ) : List ℝ :=
  let r1 := powell (fun z => o.shearModulus (x.1, x.2, z)) (Real.pi / 2)
  let r2 := powell (fun z => -o.shearModulus (x.1, x.2, z)) (Real.pi / 2)
  [r1.value, -r2.value]

/-- `poisson_2d(x)` (soec_obj.py:350-357). -/
def poisson2d (powell : Powell) (o : Solid) (x : ℝ × ℝ) : List ℝ :=
  let r1 := powell (fun z => o.poissonRatio (x.1, x.2, z)) (Real.pi / 2)
  let r2 := powell (fun z => -o.poissonRatio (x.1, x.2, z)) (Real.pi / 2)
  [min 0 r1.value, max 0 r1.value, -r2.value]

/-- The loops of the `polar_…` methods: row `i` of the result is calculated from `theta[i]` and `phi[i]`. -/
def eachNode (f : ℝ × ℝ → List ℝ) (theta phi : List ℝ) : List (List ℝ) :=
  List.zipWith (fun t p => f (t, p)) theta phi

/-- `polar_young` (soec_obj.py:426-433). -/
def polarYoung (o : Solid) : List ℝ → List ℝ → List (List ℝ) :=
  eachNode fun x => [o.youngModulus x]

/-- `polar_compressibility` (soec_obj.py:435-444). -/
def polarCompressibility (o : Solid) : List ℝ → List ℝ → List (List ℝ) :=
  eachNode fun x => [max 0 (o.linearCompressibility x), max 0 (-o.linearCompressibility x)]

/-- `polar_shear` (soec_obj.py:446-455). -/
def polarShear (powell : Powell) (o : Solid) : List ℝ → List ℝ → List (List ℝ) :=
  eachNode (shear2d powell o)

/-- `polar_poisson` (soec_obj.py:457-467). -/
def polarPoisson (powell : Powell) (o : Solid) : List ℝ → List ℝ → List (List ℝ) :=
  eachNode (poisson2d powell o)

/-- `polar_waves` (soec_obj.py:469-479). -/
def polarWaves (num : Numerics) (o : Solid) : List ℝ → List ℝ → List (List ℝ) :=
  eachNode fun x => let tmp := Soec.phaseVelocity num o.soec x.1 x.2; [tmp 0, tmp 1, tmp 2]

/-- The planes, as the keys of the dictionary of the results. -/
inductive Plane | xy | xz | yz
  deriving DecidableEq

/-- The quantities, as the keys of the dictionaries of the planes. -/
inductive Var | E | LC | G | Nu | waves
  deriving DecidableEq

/-- `results['polar']`: the dictionary of the planes and their dictionaries, in order of insertion. -/
abbrev Sections (α : Type) := List (Plane × List (Var × List (List α)))

/-- The placeholders of `__init_data` (soec.py:129-151). -/
def placeholders {α : Type} [Zero α] : Sections α :=
  [Plane.xy, .xz, .yz].map fun k => (k,
    [(Var.E, [[0, 0]]), (.LC, [[0, 0, 0]]), (.G, [[0, 0, 0]]), (.Nu, [[0, 0, 0, 0]]), (.waves, [[0, 0, 0, 0]])])

/-- `np.column_stack((np.degrees(phi), columns))`. -/
def withDegrees (phi : List ℝ) (columns : List (List ℝ)) : List (List ℝ) :=
  List.zipWith (fun p row => degrees p :: row) phi columns

open Classical in
/-- The dictionary of a plane, whose nodes have the angles `theta` and `phi` (e.g. soec.py:316-327 and
360-365); `angle` is the array that runs over the circle. -/
def sections (powell : Powell) (num : Numerics) (o : Solid) (angle theta phi : List ℝ) :
    List (Var × List (List ℝ)) :=
  [(.E, withDegrees angle (polarYoung o theta phi)),
   (.LC, withDegrees angle (polarCompressibility o theta phi)),
   (.G, withDegrees angle (polarShear powell o theta phi)),
   (.Nu, withDegrees angle (polarPoisson powell o theta phi))] ++
  (if o.soec.density > 0 then [(.waves, withDegrees angle (polarWaves num o theta phi))] else [])

/-- `calculate_polar_properties(nrad)` (soec.py:301-381). -/
def calculatePolar (powell : Powell) (num : Numerics) (o : Solid) (nrad : ℕ) : Sections ℝ :=
  let phi := linspace 0 (2 * Real.pi) nrad
  let half := List.replicate nrad (Real.pi / 2)
  let zero := List.replicate nrad (0 : ℝ)
  [(.xy, sections powell num o phi half phi),
   (.xz, sections powell num o phi phi zero),
   (.yz, sections powell num o phi phi half)]

/-- `results['polar']` at the end of a run (soec.py:270-271): without `--polar` the placeholders remain. -/
def polarResults (powell : Powell) (num : Numerics) (o : Solid) (polar : Bool) : Sections ℝ :=
  if polar then calculatePolar powell num o 360 else placeholders

/-! ### The result file -/

/-- An array of one or two dimensions. -/
inductive Arr (α : Type) where
  | vec (xs : List α)
  | mat (rows : List (List α))

/-- The data sets of a result file with their units, in order of creation. -/
structure File (α : Type) where
  info : Str
  sets : List (Str × Arr α × Str)

/-- What the calculator holds when the results are saved. -/
structure Results (α : Type) where
  stiffness : List (List α)
  compliance : List (List α)
  averages : List (List α)
  eigenvals : List α
  polar : Sections α

/-- The key of a plane. -/
def Plane.key : Plane → Str
  | .xy => c!"xy"
  | .xz => c!"xz"
  | .yz => c!"yz"

/-- The key of a quantity. -/
def Var.key : Var → Str
  | .E => c!"E"
  | .LC => c!"LC"
  | .G => c!"G"
  | .Nu => c!"Nu"
  | .waves => c!"waves"

/-- The unit of a section (soec.py:555-563). -/
def unitOf (punit : Str) : Var → Str
  | .E => punit
  | .G => punit
  | .LC => c!"TPa^-1"
  | .waves => c!"km s^-1"
  | .Nu => []

/-- The name of a section (soec.py:552). -/
def setName (v : Var) (k : Plane) : Str := c!"polar_" ++ v.key ++ '_' :: k.key

/-- `info` (soec.py:531-539). -/
def infoText (punit : Str) : Str :=
  c!"\nThis file was created with Quantas.\n\nIt contains the results of the analysis of the second-order elastic constants\n(SOECs) matrix in Voigt's notation, performed with the following settings:\n  - pressure scale:    " ++
  punit ++ c!"\n  - density: kg m^-3\n\n"

/-- `export_hdf5` of the elastic calculator (soec.py:530-567). -/
def saveElastic {α : Type} (punit : Str) (r : Results α) : File α :=
  ⟨infoText punit,
    [(c!"stiffness", .mat r.stiffness, punit), (c!"compliance", .mat r.compliance, c!"TPa^-1"),
     (c!"averages", .mat r.averages, punit), (c!"eigenvals", .vec r.eigenvals, punit)] ++
    r.polar.flatMap fun (k, vars) => vars.map fun (v, rows) => (setName v k, .mat rows, unitOf punit v)⟩

/-- The rows of a matrix. -/
def rowsOf (M : M6) : List (List ℝ) := (List.finRange 6).map fun i => (List.finRange 6).map fun j => M i j

/-- A row of the averages (soec_obj.py:324-326). -/
def averageList (a : Average) : List ℝ := [a.K, a.E, a.G, a.nu]

/-- What the calculator holds after `run`, when the solid has not been refused (soec.py:224-245, 270-271);
`eigvals` is `sorted(np.linalg.eig(·)[0])`. -/
def finalResults (eigvals : M6 → List ℝ) (powell : Powell) (num : Numerics) (o : Solid) (polar : Bool) :
    Results ℝ :=
  { stiffness := rowsOf o.soec.C
    compliance := rowsOf o.soec.S
    averages := [averageList o.soec.averages.voigt, averageList o.soec.averages.reuss,
      averageList o.soec.averages.hill]
    eigenvals := eigvals o.soec.C
    polar := polarResults powell num o polar }

/-! ### The figures -/

/-- One of the three axes of a figure: its description, the curves as lists of angles (radians) and radii,
and the largest radius shown. -/
structure Axis where
  description : Str
  curves : List (List (ℝ × ℝ))
  rmax : ℝ

/-- `np.max` of a list with at least one entry. -/
def npMax : List ℝ → ℝ
  | [] => 0
  | x :: xs => xs.foldl max x

/-- `table[:, j]`. -/
def column (j : ℕ) (table : List (List ℝ)) : List ℝ := table.map fun r => r.getD j 0

/-- A curve `(np.radians(table[:, 0]), table[:, j])`. -/
def curve (table : List (List ℝ)) (j : ℕ) : List (ℝ × ℝ) :=
  List.zip ((column 0 table).map radians) (column j table)

/-- The number of curves and the column that fixes the range of a figure (plotting.py:93-103, 136-149,
183-196, 230-246, 280-296). -/
def drawn : Var → List ℕ × ℕ
  | .E => ([1], 1)
  | .LC => ([1, 2], 1)
  | .G => ([1, 2], 2)
  | .Nu => ([1, 2, 3], 3)
  | .waves => ([1, 2, 3], 3)

/-- The title of a figure (plotting.py:91, 134, 181, 228, 278). -/
def title : Var → Str
  | .E => c!"Young's modulus"
  | .LC => c!"Linear compressibility"
  | .G => c!"Shear modulus"
  | .Nu => c!"Poisson's ratio"
  | .waves => c!"Seismic waves"

/-- An axis of a figure. -/
def axisOf (v : Var) (k : Plane) (table : List (List ℝ)) : Axis :=
  { description := title v ++ c!" (" ++ k.key ++ c!")"
    curves := (drawn v).1.map (curve table)
    rmax := 11 / 10 * npMax (column (drawn v).2 table) }

/-- The figure of a quantity (soec.py:288-292): the axes for (xy), (xz) and (yz). -/
def figure (v : Var) (xy xz yz : List (List ℝ)) : List Axis :=
  [axisOf v .xy xy, axisOf v .xz xz, axisOf v .yz yz]

open Classical in
/-- The quantities plotted (soec.py:283-286). -/
def plotted (density : ℝ) : List Var :=
  if density > 0 then [.E, .LC, .G, .Nu, .waves] else [.E, .LC, .G, .Nu]

end Verif.Polar
