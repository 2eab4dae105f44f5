/-
Model of the symmetry classifier /repo/quantas/soec/utils/symmetry.py and of the elastic
calculator /repo/quantas/soec/soec.py (input switch, stability check, directional variations).
-/
import Verif.Elastic.Model

namespace Verif.Elastic
open Verif.Py

/-- The crystal systems of `Cij_symmetry`, in the order of the dictionary (symmetry.py:14-77). -/
inductive System
  | cubic | hexagonal | trigonalHigh | trigonalLow | tetragonalHigh | tetragonalLow
  | orthorhombic | monoclinic | triclinic
  deriving DecidableEq

/-- The tables `Cij_symmetry` (symmetry.py:14-77). -/
def table : System → Fin 6 → Fin 6 → ℤ
  | .cubic => ![![1, 7, 7, 0, 0, 0], ![7, 1, 7, 0, 0, 0], ![7, 7, 1, 0, 0, 0], ![0, 0, 0, 4, 0, 0],
      ![0, 0, 0, 0, 4, 0], ![0, 0, 0, 0, 0, 4]]
  | .hexagonal => ![![1, 7, 8, 9, 10, 0], ![7, 1, 8, 0, -9, 0], ![8, 8, 3, 0, 0, 0],
      ![9, -9, 0, 4, 0, 0], ![10, 0, 0, 0, 4, 0], ![0, 0, 0, 0, 0, 6]]
  | .trigonalHigh => ![![1, 7, 8, 9, 10, 0], ![7, 1, 8, 0, -9, 0], ![8, 8, 3, 0, 0, 0],
      ![9, -9, 0, 4, 0, 0], ![10, 0, 0, 0, 4, 0], ![0, 0, 0, 0, 0, 6]]
  | .trigonalLow => ![![1, 7, 8, 9, 10, 0], ![7, 1, 8, -9, -10, 0], ![8, 8, 3, 0, 0, 0],
      ![9, -9, 0, 4, 0, -10], ![10, -10, 0, 0, 4, 9], ![0, 0, 0, -10, 9, 6]]
  | .tetragonalHigh => ![![1, 7, 8, 0, 0, 0], ![7, 1, 8, 0, 0, 0], ![8, 8, 3, 0, 0, 0],
      ![0, 0, 0, 4, 0, 0], ![0, 0, 0, 0, 4, 0], ![0, 0, 0, 0, 0, 6]]
  | .tetragonalLow => ![![1, 7, 8, 0, 0, 11], ![7, 1, 8, 0, 0, -11], ![8, 8, 3, 0, 0, 0],
      ![0, 0, 0, 4, 0, 0], ![0, 0, 0, 0, 4, 0], ![11, -11, 0, 0, 0, 6]]
  | .orthorhombic => ![![1, 7, 8, 0, 0, 0], ![7, 2, 12, 0, 0, 0], ![8, 12, 3, 0, 0, 0],
      ![0, 0, 0, 4, 0, 0], ![0, 0, 0, 0, 5, 0], ![0, 0, 0, 0, 0, 6]]
  | .monoclinic => ![![1, 7, 8, 0, 10, 0], ![7, 2, 12, 0, 14, 0], ![8, 12, 3, 0, 17, 0],
      ![0, 0, 0, 4, 0, 20], ![10, 14, 17, 0, 5, 0], ![0, 0, 0, 20, 0, 6]]
  | .triclinic => ![![1, 7, 8, 9, 10, 11], ![7, 2, 12, 13, 14, 15], ![8, 12, 3, 16, 17, 18],
      ![9, 13, 16, 4, 19, 20], ![10, 14, 17, 19, 5, 21], ![11, 15, 18, 20, 21, 6]]

/-- The keys of `Cij_map` in insertion order: the upper triangle by rows, then its mirror image
(symmetry.py:107-114; diagonal keys are already there). -/
def mapKeys : List (Fin 6 × Fin 6) :=
  let upper := (List.finRange 6).flatMap fun i => ((List.finRange 6).filter (i ≤ ·)).map (i, ·)
  upper ++ (upper.filter fun k => k.1 < k.2).map fun k => (k.2, k.1)

/-- `Cij_map[(i, j)]`: the upper triangle of the table, mirrored (symmetry.py:107-114). -/
def cijMap (s : System) (k : Fin 6 × Fin 6) : ℤ := table s (min k.1 k.2) (max k.1 k.2)

/-- `tol = 1.e-3` (symmetry.py:104). -/
noncomputable def tol : ℝ := 1 / 1000

/-- The check of one code (symmetry.py:118-135): code 0 means "vanishes", any other code means
"all entries carrying it are equal"; `it.combinations(l, 2)` are the ordered pairs of `l`. -/
def codeHolds (m : M6) (s : System) (i : ℕ) : Prop :=
  let l := mapKeys.filter fun k => cijMap s k = i
  if i = 0 then ∀ k ∈ l, |m k.1 k.2| ≤ tol
  else l.Pairwise fun k k' => |m k.1 k.2 - m k'.1 k'.2| ≤ tol

/-- `run_check` (symmetry.py:103-141).  The codes run over `range(0, 22)`: negative codes of the
tables are never looked at. -/
def runCheck (m : M6) (s : System) : Prop :=
  (∀ i ∈ List.range 22, codeHolds m s i) ∧
    (s = .hexagonal → |m 5 5 - (m 0 0 - m 0 1) / 2| ≤ tol)

/-- Dictionary order (symmetry.py:14-77). -/
def systems : List System :=
  [.cubic, .hexagonal, .trigonalHigh, .trigonalLow, .tetragonalHigh, .tetragonalLow,
    .orthorhombic, .monoclinic, .triclinic]

open Classical in
/-- `check_symmetry` (symmetry.py:79-100): the first system that passes; `symm` is unbound when
none does. -/
noncomputable def checkSymmetry (m : M6) : Except PyErr System :=
  match systems.find? fun s => decide (runCheck m s) with
  | some s => .ok s
  | none => .error .unboundLocal

/-- The object kept by the calculator: a plain `SOEC` or its orthorhombic specialisation. -/
structure Solid where
  soec : Soec
  ortho : Bool

/-- `read_input` after the file has been read (soec.py:180-188). -/
noncomputable def load (C : M6) (density : ℝ) : Except PyErr (System × Solid) := do
  let s ← soec C density
  let sys ← checkSymmetry s.C
  pure (sys, { soec := s, ortho := decide (sys = .orthorhombic) })

/-- Method resolution of `young_modulus`: `SOECOrtho` overrides `SOEC`. -/
noncomputable def Solid.youngModulus (o : Solid) (x : ℝ × ℝ) : ℝ :=
  if o.ortho then orthoYoung o.soec.Smat x else o.soec.youngModulus x

/-- Method resolution of `linear_compressibility`. -/
noncomputable def Solid.linearCompressibility (o : Solid) (x : ℝ × ℝ) : ℝ :=
  if o.ortho then orthoCompressibility o.soec.Smat x else o.soec.linearCompressibility x

/-- Method resolution of `shear_modulus`. -/
noncomputable def Solid.shearModulus (o : Solid) (x : ℝ × ℝ × ℝ) : ℝ :=
  if o.ortho then orthoShear o.soec.Smat x else o.soec.shearModulus x

/-- Method resolution of `poisson_ratio`. -/
noncomputable def Solid.poissonRatio (o : Solid) (x : ℝ × ℝ × ℝ) : ℝ :=
  if o.ortho then orthoPoisson o.soec.Smat x else o.soec.poissonRatio x

/-- `any(eigv)`: true when some entry is non-zero. -/
def pyAny (l : List ℝ) : Prop := ∃ x ∈ l, x ≠ 0

/-- `any(eigv) <= 0` (soec.py:248): the comparison of a truth value with 0. -/
def refusal (eigv : List ℝ) : Prop := ¬ pyAny eigv

/-- `optimize.brute(...)[0:2]`: the point found and the value there. -/
structure Found (X : Type) where
  point : X
  value : ℝ

/-- `minimize(func, dim)` (soec.py:55-69): the search itself is a parameter. -/
abbrev Search (X : Type) := (X → ℝ) → Found X

/-- `maximize(func, dim)` (soec.py:72-74). -/
def maximize {X : Type} (minimize : Search X) (f : X → ℝ) : Found X :=
  let res := minimize fun x => -f x
  { point := res.point, value := -res.value }

/-- The list returned by `directional_variation` (soec.py:433).  `anisotropy = none` is `np.inf`. -/
structure Variation where
  minimum : ℝ
  maximum : ℝ
  anisotropy : Option ℝ
  minAxis1 : V3
  maxAxis1 : V3
  minAxis2 : Option V3
  maxAxis2 : Option V3

open Classical in
/-- Anisotropy (soec.py:417-420). -/
noncomputable def anisotropy (lo hi : ℝ) : Option ℝ := if lo > 0 then some (hi / lo) else none

/-- `directional_variation(func, 2)` (soec.py:408-433). -/
noncomputable def variation2 (minimize : Search (ℝ × ℝ)) (f : ℝ × ℝ → ℝ) : Variation :=
  let lo := minimize f
  let hi := maximize minimize f
  { minimum := lo.value, maximum := hi.value, anisotropy := anisotropy lo.value hi.value
    minAxis1 := vector lo.point.1 lo.point.2, maxAxis1 := vector hi.point.1 hi.point.2
    minAxis2 := none, maxAxis2 := none }

/-- `directional_variation(func, 3)` (soec.py:408-433): `vector(*minval[0])` receives three
angles, for the "first axis" too. -/
noncomputable def variation3 (minimize : Search (ℝ × ℝ × ℝ)) (f : ℝ × ℝ × ℝ → ℝ) : Variation :=
  let lo := minimize f
  let hi := maximize minimize f
  { minimum := lo.value, maximum := hi.value, anisotropy := anisotropy lo.value hi.value
    minAxis1 := vectorChi lo.point.1 lo.point.2.1 lo.point.2.2
    maxAxis1 := vectorChi hi.point.1 hi.point.2.1 hi.point.2.2
    minAxis2 := some (vectorChi lo.point.1 lo.point.2.1 lo.point.2.2)
    maxAxis2 := some (vectorChi hi.point.1 hi.point.2.1 hi.point.2.2) }

/-- What a run leaves behind: the averages, the eigenvalues and, unless the run was refused, the
variations. -/
structure Report where
  averages : Averages
  eigv : List ℝ
  variations : Option (Variation × Variation × Variation × Variation)
  completed : Bool

open Classical in
/-- `SOECCalculator.run` (soec.py:216-299) without the seismic, polar and plotting parts, which
come after the same check.  `eigvals` is `sorted(np.linalg.eig(·)[0])`. -/
noncomputable def run (eigvals : M6 → List ℝ) (min2 : Search (ℝ × ℝ)) (min3 : Search (ℝ × ℝ × ℝ))
    (o : Solid) : Report :=
  let avg := o.soec.averages
  let eigv := eigvals o.soec.C
  if refusal eigv then { averages := avg, eigv := eigv, variations := none, completed := false }
  else
    let E := variation2 min2 o.youngModulus
    let LC := variation2 min2 o.linearCompressibility
    let G := variation3 min3 o.shearModulus
    let Nu := variation3 min3 o.poissonRatio
    { averages := avg, eigv := eigv, variations := some (E, LC, G, Nu), completed := true }

end Verif.Elastic
