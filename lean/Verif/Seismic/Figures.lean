/-
What the figures of the seismic plotter show (seismic_plotter.py:419-757): points, values, marks and labels.  Colours, fonts,
contour lines and the drawing itself are not modelled.
-/
import Verif.Seismic.Model

namespace Verif.Seismic
open Verif.Py Verif.Elastic

/-- An entry of `SeismicPlotter.datasets` (seismic_plotter.py:101-216): the column, `name`, `title`, `title2D`, `suffix` and
`anisotropy`. -/
structure Plot where
  column : Fin 14
  name : Str
  title : Str
  title2D : Str
  suffix : Str
  anisotropy : Bool

/-- `SeismicPlotter.datasets` (seismic_plotter.py:101-216), in its order. -/
def plots : List Plot :=
  [⟨2, c!"phase velocity", c!"$\\huge{v_p \\: (km \\: s^{-1})}$", c!"$v_p \\: (km \\: s^{-1})$", c!"Vp", true⟩,
   ⟨3, c!"relative phase velocity", c!"$\\huge{v_p - v_{iso} \\: (\\%)}$", c!"$v_p - v_{iso} \\: (\\%)$", c!"Vp_rel", false⟩,
   ⟨7, c!"group velocity", c!"$\\huge{v_g \\: (km \\: s^{-1})}$", c!"$v_g \\: (km \\: s^{-1})$", c!"Vg", true⟩,
   ⟨8, c!"relative group velocity", c!"$\\huge{v_g - v_{iso} \\: (\\%)}$", c!"$v_g - v_{iso} \\: (\\%)$", c!"Vg_rel", false⟩,
   ⟨12, c!"powerflow angle", c!"$\\huge{\\psi \\: (°)}$", c!"$\\psi \\: (°)}$", c!"pf_angle", false⟩,
   ⟨13, c!"enhancement factor", c!"$\\huge{\\log_{10}(A)}$", c!"$\\log_{10}(A)$", c!"enhancement_factor", false⟩]

open Classical in
/-- The search of `argmax` (numpy) in the rest of the array, from index `k` on; `best` is the index and the value of the largest
element before. -/
noncomputable def argmaxFrom : List ℝ → ℕ → ℕ × ℝ → ℕ × ℝ
  | [], _, best => best
  | x :: xs, k, best => argmaxFrom xs (k + 1) (if best.2 < x then (k, x) else best)

/-- `z.argmax()` and `z.max()` (seismic_plotter.py:599, 608): the first of the largest elements; ValueError for an empty array. -/
noncomputable def argmax : List ℝ → Except PyErr (ℕ × ℝ)
  | [] => .error .valueError
  | x :: xs => .ok (argmaxFrom xs 1 (0, x))

/-- `z.argmin()` and `z.min()` (seismic_plotter.py:602, 608): the first of the smallest elements. -/
noncomputable def argmin (z : List ℝ) : Except PyErr (ℕ × ℝ) := do
  let m ← argmax (z.map fun x => -x)
  .ok (m.1, -m.2)

/-- One of the three panels of a plane figure: the label below it, the label of its colour bar, the points with their values, the
black square and the white circle (seismic_plotter.py:564-630). -/
structure Panel where
  label : Str
  bar : Str
  values : List ((ℝ × ℝ) × ℝ)
  square : ℝ × ℝ
  circle : ℝ × ℝ

/-- `x[i, j]`, `y[i, j]` (seismic_plotter.py:554-560). -/
noncomputable def place (pr : Projection) (ntheta nphi i j : ℕ) : ℝ × ℝ :=
  pr.project (mesh ntheta nphi i j).1 (mesh ntheta nphi i j).2

/-- The arrays `x` and `y`, node after node. -/
noncomputable def places (pr : Projection) (ntheta nphi : ℕ) : List (ℝ × ℝ) :=
  (List.range ntheta).flatMap fun i => (List.range nphi).map fun j => place pr ntheta nphi i j

/-- A panel that shows the values `z` (seismic_plotter.py:567-603): `reshape` raises ValueError for another number of values;
`np.unravel_index` gives row and column. -/
noncomputable def panel (pr : Projection) (ntheta nphi : ℕ) (label bar : Str) (z : List ℝ) : Except PyErr Panel := do
  if z.length ≠ ntheta * nphi then .error .valueError
  else
    let hi ← argmax z
    let lo ← argmin z
    .ok { label := label, bar := bar, values := (places pr ntheta nphi).zip z
          square := place pr ntheta nphi (hi.1 / nphi) (hi.1 % nphi)
          circle := place pr ntheta nphi (lo.1 / nphi) (lo.1 % nphi) }

/-- A plane figure: its file, its panels and the numbers written on the screen, with the waves they are given for. -/
structure Disc where
  name : Str
  panels : List Panel
  echoed : List (Str × ℝ)

/-- `self.__projection` (cmd_seismic.py; seismic_plotter.py:555-560). -/
def Projection.text : Projection → Str
  | .eqar => c!"eqar"
  | .stereo => c!"stereo"

/-- `self.titles[p]` (seismic_plotter.py:95-99). -/
def titleOf (p : Str) : Except PyErr Str :=
  match titles.lookup p with
  | some t => .ok t
  | none => .error .keyError

/-- The panel of one wave, and the anisotropy written on the screen (seismic_plotter.py:565-630). -/
noncomputable def wavePanel (file : List (Str × List Row)) (pr : Projection) (ntheta nphi : ℕ) (q : Plot) (p : Str) :
    Except PyErr (Panel × List (Str × ℝ)) := do
  let z ← plotted file p q.column
  let t ← titleOf p
  let d ← panel pr ntheta nphi t q.title2D z
  let hi ← argmax z
  let lo ← argmin z
  .ok (d, if q.anisotropy then [(t, anisotropyPercent lo.2 hi.2)] else [])

/-- `make_2D_plot` (seismic_plotter.py:536-643).  Simplification: the format of the numbers on the screen is left out. -/
noncomputable def discFigure (file : List (Str × List Row)) (pr : Projection) (ntheta nphi : ℕ) (base : Str) (q : Plot) :
    Except PyErr Disc := do
  let r ← waves.mapM (wavePanel file pr ntheta nphi q)
  .ok { name := base ++ c!"_" ++ q.suffix ++ c!"_2D_" ++ pr.text ++ c!".png"
        panels := r.map (·.1), echoed := r.flatMap (·.2) }

/-- `make_2D_plot_ratios` (seismic_plotter.py:645-757). -/
noncomputable def ratioFigure (file : List (Str × List Row)) (pr : Projection) (ntheta nphi : ℕ) (base : Str) :
    Except PyErr Disc := do
  let vp ← getDataColumn file c!"primary" 2
  let vs1 ← getDataColumn file c!"fsecondary" 2
  let vs2 ← getDataColumn file c!"ssecondary" 2
  let a ← panel pr ntheta nphi [] c!"S-wave anisotropy (%)" (List.zipWith anisotropyPercent vs2 vs1)
  let b ← panel pr ntheta nphi [] c!"$v_P / v_{s1}$" (List.zipWith (· / ·) vp vs1)
  let c ← panel pr ntheta nphi [] c!"$v_P / v_{s2}$" (List.zipWith (· / ·) vp vs2)
  .ok { name := base ++ c!"_ratios_2D.png", panels := [a, b, c], echoed := [] }

/-- A figure on the sphere: its file, its title, the title of its colour bar, and the points with their values
(seismic_plotter.py:497-533). -/
structure Sphere where
  name : Str
  label : Str
  bar : Str
  values : List (V3 × ℝ)

/-- The points of the two surfaces, node after node (seismic_plotter.py:485-488, 501-513). -/
noncomputable def sphereNodes (ntheta nphi : ℕ) (side : V3 × V3 → V3) : List V3 :=
  (List.range ntheta).flatMap fun i => (List.range nphi).map fun j =>
    side (spherePoints (mesh ntheta nphi i j).1 (mesh ntheta nphi i j).2)

/-- The figure of one wave (seismic_plotter.py:490-533). -/
noncomputable def sphereFigure (file : List (Str × List Row)) (ntheta nphi : ℕ) (base : Str) (q : Plot) (p : Str) :
    Except PyErr Sphere := do
  let c ← plotted file p q.column
  if c.length ≠ ntheta * nphi then .error .valueError
  else
    let t ← titleOf p
    .ok { name := base ++ c!"_" ++ q.suffix ++ c!"_3D_" ++ p ++ c!".png", label := t, bar := q.title
          values := (sphereNodes ntheta nphi Prod.fst).zip c ++ (sphereNodes ntheta nphi Prod.snd).zip c }

/-- `make_3D_plot` (seismic_plotter.py:472-534). -/
noncomputable def sphereFigures (file : List (Str × List Row)) (ntheta nphi : ℕ) (base : Str) (q : Plot) :
    Except PyErr (List Sphere) :=
  waves.mapM (sphereFigure file ntheta nphi base q)

end Verif.Seismic
