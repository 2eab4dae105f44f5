/-
Model of the seismic module: the Christoffel equation in both implementations, the `Seismic`
object with its caches, the angular scan of `SeismicCalculator.run`, and the parts of the plotter
that read and place the results.
-/
import Mathlib.Analysis.SpecialFunctions.Complex.Arg
import Mathlib.Analysis.SpecialFunctions.Trigonometric.Inverse
import Mathlib.Data.Fin.Tuple.Sort
import Mathlib.Data.Real.Sign
import Mathlib.Analysis.SpecialFunctions.Log.Basic
import Mathlib.Algebra.Order.Archimedean.Real.Basic
import Mathlib.Algebra.Order.Floor.Ring
import Verif.Elastic.Model

namespace Verif.Seismic
open Verif.Py Verif.Elastic

abbrev M3 := Matrix (Fin 3) (Fin 3) ℝ
/-- `ndarray` of shape (3, 3, 3): one matrix for each Cartesian component. -/
abbrev T3 := Fin 3 → M3

/-- External numerical routines: `np.linalg.eigh` (eigenvalues, eigenvectors in columns) and
`np.linalg.pinv(·, rcond=1e-10)`. -/
structure Numerics where
  eigh : M3 → V3 × M3
  pinv : M3 → M3

/-! ### The elastic module -/

/-- The divergence operator of `SOEC.phase_velocity` (soec_obj.py:381-392). -/
def divop (l : V3) : Matrix (Fin 3) (Fin 6) ℝ :=
  !![l 0, 0, 0, 0, l 2, l 1;
     0, l 1, 0, l 2, 0, l 0;
     0, 0, l 2, l 1, l 0, 0]

/-- The matrix `A` diagonalised by `SOEC.phase_velocity` (soec_obj.py:380-395). -/
noncomputable def elasticChristoffel (C : M6) (l : V3) : M3 :=
  let C' : M6 := (1000000000 : ℝ) • C
  let mult := C' * (divop l).transpose
  divop l * mult

/-- `SOEC.phase_velocity(angles)` (soec_obj.py:359-400).  In the code the square root of a negative
number is `nan`; here it is 0, so statements about it assume non-negative eigenvalues. -/
noncomputable def Soec.phaseVelocity (num : Numerics) (s : Soec) (theta phi : ℝ) : V3 :=
  let A := elasticChristoffel s.C (vector theta phi)
  let velocities := (num.eigh A).1
  fun i => Real.sqrt (velocities i / s.density) / 1000

/-! ### The seismic module -/

/-- `cofactor(A)` (seismic_obj.py:45-85): `det != 0` goes through the inverse, otherwise entry by
entry.  Exact arithmetic, so the `except` branch is not reached. -/
noncomputable def cofactor (A : M3) : M3 :=
  open Classical in
  if A.det ≠ 0 then A.det • A⁻¹.transpose
  else
    !![A 1 1 * A 2 2 - A 1 2 * A 2 1, A 1 2 * A 2 0 - A 1 0 * A 2 2, A 1 0 * A 2 1 - A 1 1 * A 2 0;
       A 0 2 * A 2 1 - A 0 1 * A 2 2, A 0 0 * A 2 2 - A 0 2 * A 2 0, A 0 1 * A 2 0 - A 0 0 * A 2 1;
       A 0 1 * A 1 2 - A 0 2 * A 1 1, A 0 2 * A 1 0 - A 0 0 * A 1 2, A 0 0 * A 1 1 - A 0 1 * A 1 0]

/-- `fast_math.cofactor(mat)` (fast_math.pyx:117-132): fills a local array and executes a bare
`return`, so the caller receives `None`. -/
def fastCofactor (_ : M3) : Option M3 := none

/-- `np.arctan2(y, x)`. -/
noncomputable def arctan2 (y x : ℝ) : ℝ := Complex.arg ⟨x, y⟩

/-- `np.linalg.norm` of a vector. -/
noncomputable def norm (v : V3) : ℝ := Real.sqrt (∑ i, v i ^ 2)

/-- Rounding to the nearest integer, ties to even (`np.rint`). -/
noncomputable def rint (x : ℝ) : ℤ :=
  open Classical in
  if x - ⌊x⌋ < 1 / 2 then ⌊x⌋
  else if 1 / 2 < x - ⌊x⌋ then ⌊x⌋ + 1
  else if Even ⌊x⌋ then ⌊x⌋ else ⌊x⌋ + 1

/-- `np.around(x, 10)`. -/
noncomputable def around10 (x : ℝ) : ℝ := rint (x * 10 ^ 10) / 10 ^ 10

/-- The Christoffel matrix `np.dot(q, np.dot(q, Cmat))` (seismic_obj.py:413, 441).  `np.dot` of a
vector and an n-dimensional array contracts the last but one axis of the array. -/
def christoffel (Cmat : T4) (q : V3) : M3 :=
  Matrix.of fun a d => ∑ b, q b * ∑ c, q c * Cmat a b c d

/-- The gradient computed in `grad_M` (seismic_obj.py:448-451):
`transpose(dot(q, Cmat + transpose(Cmat, (0, 2, 1, 3))), (1, 0, 2))`. -/
def gradChristoffel (Cmat : T4) (q : V3) : T3 :=
  fun b => Matrix.of fun a d => ∑ c, q c * (Cmat a b c d + Cmat a c b d)

/-- `solve` (seismic_obj.py:454-462): eigenvalues and eigenvectors (as rows), reordered by
`np.argsort`.  `Tuple.sort` is the stable sorting permutation. -/
noncomputable def sortedEigh (num : Numerics) (M : M3) : V3 × M3 :=
  let (eigenval, eigenvec) := num.eigh M
  let sorting := Tuple.sort eigenval
  (eigenval ∘ sorting, Matrix.of fun i j => eigenvec.transpose (sorting i) j)

/-- `phase_velocity` from the eigenvalues (seismic_obj.py:490). -/
noncomputable def phaseVelocity (eigenval : V3) : V3 :=
  fun i => Real.sign (eigenval i) * Real.sqrt |eigenval i|

/-- What `solve_group` stores (seismic_obj.py:562-569). -/
structure Group where
  velocity : M3
  gradEig : M3
  abs : V3
  dir : M3
  theta : V3
  phi : V3
  powerflow : V3

/-- The loop of `solve_group` (seismic_obj.py:541-569).  Division by zero, which gives `nan` or
`inf` in the code, gives 0 here: statements about it assume non-zero phase velocities. -/
noncomputable def groupOf (q : V3) (pvel : V3) (evec : M3) (gmat : T3) : Group :=
  let geig : M3 := Matrix.of fun i j => dotProduct (evec i) ((gmat j).mulVec (evec i))
  let gvel : M3 := Matrix.of fun i j => geig i j / (2 * pvel i)
  let gabs : V3 := fun i => norm (gvel i)
  let gdir : M3 := Matrix.of fun i j => gvel i j / gabs i
  { velocity := gvel, gradEig := geig, abs := gabs, dir := gdir
    phi := fun i => arctan2 (gdir i 0) (gdir i 1)
    theta := fun i => arctan2 (Real.sqrt (gdir i 1 ^ 2 + gdir i 0 ^ 2)) (gdir i 2)
    powerflow := fun i => Real.arccos (around10 (dotProduct (gdir i) q)) }

/-- `hessian_eigenval` (seismic_obj.py:513-522): `np.dot` contracts the last axis of `hessM`. -/
noncomputable def hessianEigenval (num : Numerics) (hessM : T4) (M : M3) (eigenval : V3)
    (eigenvec : M3) (gradM : T3) : T3 := fun n =>
  let first : M3 := Matrix.of fun i j => ∑ k, (∑ l, hessM i j k l * eigenvec n l) * eigenvec n k
  let pinv := num.pinv (eigenval n • (1 : M3) - M)
  let dvec : M3 := Matrix.of fun b a => ∑ d, gradM b a d * eigenvec n d
  first + (2 : ℝ) • (dvec * pinv * dvec.transpose)

/-- `enhancement` (seismic_obj.py:649-656). -/
noncomputable def enhancementOf (q : V3) (hessian : T3) (pvel : V3) (gvel : M3) (gabs : V3) : V3 :=
  fun i =>
    let grad : M3 := Matrix.of fun a b =>
      (hessian i a b / gabs i - gvel i a * (hessian i).mulVec (gvel i) b / gabs i ^ 3) / (2 * pvel i)
    1 / norm ((cofactor grad).mulVec q)

/-- The mutable attributes of a `Seismic` object (seismic_obj.py:105-121); `None` is `none`. -/
structure State where
  direction : Option V3 := none
  theta : Option ℝ := none
  phi : Option ℝ := none
  M : Option M3 := none
  gradM : Option T3 := none
  eigenval : Option V3 := none
  eigenvec : Option M3 := none
  gradEig : Option M3 := none
  groupVelocity : Option M3 := none
  groupAbs : Option V3 := none
  groupDir : Option M3 := none
  groupTheta : Option V3 := none
  groupPhi : Option V3 := none
  powerflow : Option V3 := none
  enhancement : Option V3 := none

/-- `clear` (seismic_obj.py:370-389). -/
def clear (_ : State) : State :=
  { direction := none, theta := none, phi := none, M := none, gradM := none, eigenval := none
    eigenvec := none, gradEig := none, groupVelocity := none, groupAbs := none, groupDir := none
    groupTheta := none, groupPhi := none, powerflow := none, enhancement := none }

/-- `spherical_direction` (seismic_obj.py:391-414). -/
noncomputable def sphericalDirection (o : Seismic) (theta phi : ℝ) (st : State) : State :=
  let st := clear st
  let q := seismicVector theta phi
  { st with direction := some q, theta := some theta, phi := some phi
            M := some (christoffel o.Cmat q) }

/-- `cartesian_direction` (seismic_obj.py:416-442).  A zero vector gives `nan` components in the
code and zeros here. -/
noncomputable def cartesianDirection (o : Seismic) (v : V3) (st : State) : State :=
  let st := clear st
  let q : V3 := fun i => v i / norm v
  let x := q 0
  let y := q 1
  let z := q 2
  { st with direction := some q, phi := some (arctan2 x y)
            theta := some (arctan2 (Real.sqrt (y ^ 2 + x ^ 2)) z)
            M := some (christoffel o.Cmat q) }

/-- A read of the object: a value and the new state, or an exception.  In every method below the
exceptions come before the first assignment, so an exception leaves the state alone. -/
abbrev Read (α : Type) := State → Except PyErr (α × State)

/-- `np.dot(None, ·)` and friends raise `TypeError`. -/
def need {α : Type} (x : Option α) : Except PyErr α :=
  match x with
  | some a => .ok a
  | none => .error .typeError

/-- `grad_M` (seismic_obj.py:444-452). -/
def readGradM (o : Seismic) : Read T3 := fun st =>
  match st.gradM with
  | some g => .ok (g, st)
  | none => do
    let q ← need st.direction
    let g := gradChristoffel o.Cmat q
    .ok (g, { st with gradM := some g })

/-- `solve` (seismic_obj.py:454-462).  (`eigh(None)` raises `LinAlgError`; the class of the
exception is simplified.) -/
noncomputable def solve (num : Numerics) (st : State) : Except PyErr State := do
  let M ← need st.M
  let (w, v) := sortedEigh num M
  .ok { st with eigenval := some w, eigenvec := some v }

/-- `if type(self._eigenval) == type(None): self.solve()`. -/
noncomputable def ensureSolved (num : Numerics) (st : State) : Except PyErr State :=
  if st.eigenval.isNone then solve num st else .ok st

/-- `eigenval` (seismic_obj.py:464-471). -/
noncomputable def readEigenval (num : Numerics) : Read V3 := fun st => do
  let st ← ensureSolved num st
  let w ← need st.eigenval
  .ok (w, st)

/-- `eigenvec` (seismic_obj.py:473-480): tests `_eigenval`, returns `_eigenvec`. -/
noncomputable def readEigenvec (num : Numerics) : Read M3 := fun st => do
  let st ← ensureSolved num st
  let v ← need st.eigenvec
  .ok (v, st)

/-- `phase_velocity` (seismic_obj.py:482-490). -/
noncomputable def readPhaseVelocity (num : Numerics) : Read V3 := fun st => do
  let st ← ensureSolved num st
  let w ← need st.eigenval
  .ok (phaseVelocity w, st)

/-- `rel_phase_velocity` (seismic_obj.py:492-500). -/
noncomputable def readRelPhaseVelocity (num : Numerics) (o : Seismic) : Read V3 := fun st => do
  let st ← ensureSolved num st
  let (p, st) ← readPhaseVelocity num st
  .ok (fun i => p i / o.isotropicVelocity i, st)

/-- `hessian_eigenval` (seismic_obj.py:502-522). -/
noncomputable def readHessianEigenval (num : Numerics) (o : Seismic) : Read T3 := fun st => do
  let (v, st) ← readEigenvec num st
  let (w, st) ← readEigenval num st
  let M ← need st.M
  let (g, st) ← readGradM o st
  .ok (hessianEigenval num o.hessM M w v g, st)

/-- `solve_group` (seismic_obj.py:524-570). -/
noncomputable def solveGroup (num : Numerics) (o : Seismic) (st : State) : Except PyErr State := do
  let (pvel, st) ← readPhaseVelocity num st
  let (evec, st) ← readEigenvec num st
  let (gmat, st) ← readGradM o st
  let q ← need st.direction
  let r := groupOf q pvel evec gmat
  .ok { st with groupVelocity := some r.velocity, gradEig := some r.gradEig
                groupAbs := some r.abs, groupDir := some r.dir, groupTheta := some r.theta
                groupPhi := some r.phi, powerflow := some r.powerflow }

/-- The lazy group properties: `if type(self._x) == type(None): self.solve_group()`, then the
attribute (seismic_obj.py:572-633). -/
noncomputable def readGroup {α : Type} (num : Numerics) (o : Seismic) (field : State → Option α) :
    Read α := fun st => do
  let st ← if (field st).isNone then solveGroup num o st else .ok st
  let x ← need (field st)
  .ok (x, st)

/-- `rel_group_velocity` (seismic_obj.py:599-606). -/
noncomputable def readRelGroupVelocity (num : Numerics) (o : Seismic) : Read V3 := fun st => do
  let (a, st) ← readGroup num o State.groupAbs st
  .ok (fun i => a i / o.isotropicVelocity i, st)

/-- `enhancement` (seismic_obj.py:635-659): recomputed at each read. -/
noncomputable def readEnhancement (num : Numerics) (o : Seismic) : Read V3 := fun st => do
  let (h, st) ← readHessianEigenval num o st
  let (pvel, st) ← readPhaseVelocity num st
  let (gvel, st) ← readGroup num o State.groupVelocity st
  let (gabs, st) ← readGroup num o State.groupAbs st
  let q ← need st.direction
  let e := enhancementOf q h pvel gvel gabs
  .ok (e, { st with enhancement := some e })

/-- The public properties and attributes that depend on the direction. -/
inductive Property where
  | q | theta | phi | christoffel
  | gradM | eigenval | eigenvec | phaseVelocity | relPhaseVelocity | hessianEigenval
  | groupVelocity | gradEigenval | groupAbs | relGroupVelocity | groupDir | groupTheta | groupPhi
  | powerflow | enhancement
  deriving DecidableEq

/-- Values of properties; `noneValue` is Python's `None`. -/
inductive Value where
  | noneValue
  | num (x : ℝ)
  | vec (v : V3)
  | mat (m : M3)
  | ten (t : T3)

/-- A plain attribute. -/
def plain {α : Type} (f : α → Value) (x : Option α) : Value :=
  match x with
  | some a => f a
  | none => .noneValue

/-- Reading a property. -/
noncomputable def read (num : Numerics) (o : Seismic) (p : Property) : Read Value := fun st =>
  match p with
  | .q => .ok (plain .vec st.direction, st)
  | .theta => .ok (plain .num st.theta, st)
  | .phi => .ok (plain .num st.phi, st)
  | .christoffel => .ok (plain .mat st.M, st)
  | .gradM => do let (x, st) ← readGradM o st; .ok (.ten x, st)
  | .eigenval => do let (x, st) ← readEigenval num st; .ok (.vec x, st)
  | .eigenvec => do let (x, st) ← readEigenvec num st; .ok (.mat x, st)
  | .phaseVelocity => do let (x, st) ← readPhaseVelocity num st; .ok (.vec x, st)
  | .relPhaseVelocity => do let (x, st) ← readRelPhaseVelocity num o st; .ok (.vec x, st)
  | .hessianEigenval => do let (x, st) ← readHessianEigenval num o st; .ok (.ten x, st)
  | .groupVelocity => do let (x, st) ← readGroup num o State.groupVelocity st; .ok (.mat x, st)
  | .gradEigenval => do let (x, st) ← readGroup num o State.gradEig st; .ok (.mat x, st)
  | .groupAbs => do let (x, st) ← readGroup num o State.groupAbs st; .ok (.vec x, st)
  | .relGroupVelocity => do let (x, st) ← readRelGroupVelocity num o st; .ok (.vec x, st)
  | .groupDir => do let (x, st) ← readGroup num o State.groupDir st; .ok (.mat x, st)
  | .groupTheta => do let (x, st) ← readGroup num o State.groupTheta st; .ok (.vec x, st)
  | .groupPhi => do let (x, st) ← readGroup num o State.groupPhi st; .ok (.vec x, st)
  | .powerflow => do let (x, st) ← readGroup num o State.powerflow st; .ok (.vec x, st)
  | .enhancement => do let (x, st) ← readEnhancement num o st; .ok (.vec x, st)

/-- What a user can do with a `Seismic` object. -/
inductive Op where
  | spherical (theta phi : ℝ)
  | cartesian (v : V3)
  | clear
  | solve
  | solveGroup
  | read (p : Property)

/-- One operation: what it returns or raises, and the state afterwards. -/
noncomputable def step (num : Numerics) (o : Seismic) (op : Op) (st : State) :
    Except PyErr Value × State :=
  let result : Except PyErr (Value × State) := match op with
    | .spherical theta phi => .ok (.noneValue, sphericalDirection o theta phi st)
    | .cartesian v => .ok (.noneValue, cartesianDirection o v st)
    | .clear => .ok (.noneValue, Verif.Seismic.clear st)
    | .solve => do let st ← Verif.Seismic.solve num st; .ok (.noneValue, st)
    | .solveGroup => do let st ← Verif.Seismic.solveGroup num o st; .ok (.noneValue, st)
    | .read p => Verif.Seismic.read num o p st
  match result with
  | .ok (v, st') => (.ok v, st')
  | .error e => (.error e, st)

/-- The state after a sequence of operations (exceptions caught by the caller). -/
noncomputable def exec (num : Numerics) (o : Seismic) (ops : List Op) (st : State) : State :=
  ops.foldl (fun st op => (step num o op st).2) st

/-! ### The angular scan -/

/-- A row of 14 columns. -/
abbrev Row := Fin 14 → ℝ

/-- The three result tables: slow secondary, fast secondary, primary (seismic.py:112-119). -/
structure Tables where
  slow : List Row
  fast : List Row
  primary : List Row

/-- `storing[i]` (seismic.py:196-199). -/
def Tables.get (t : Tables) (i : Fin 3) : List Row :=
  match i with
  | 0 => t.slow
  | 1 => t.fast
  | 2 => t.primary

/-- `__init_data` (seismic.py:109-120). -/
def initData (ntheta nphi : ℕ) : Tables :=
  { slow := List.replicate (ntheta * nphi) 0, fast := List.replicate (ntheta * nphi) 0
    primary := List.replicate (ntheta * nphi) 0 }

/-- `table[c][...] = row`. -/
def setRow (table : List Row) (c : ℕ) (row : Row) : Except PyErr (List Row) :=
  if c < table.length then .ok (table.set c row) else .error .indexError

/-- Division of a float by a Python `int`. -/
noncomputable def divInt (x : ℝ) (n : ℤ) : Except PyErr ℝ :=
  if n = 0 then .error .zeroDivision else .ok (x / n)

/-- The values collected at a node (seismic.py:219-229). -/
structure Node where
  theta : ℝ
  phi : ℝ
  velocity : V3
  polarization : M3
  groupVel : M3
  groupAbs : V3
  powerflow : V3
  enhancement : V3

/-- The row written for wave `i` (seismic.py:233-245). -/
noncomputable def rowOf (iso : V3) (n : Node) (i : Fin 3) : Row :=
  ![n.theta, n.phi, n.velocity i, 100 * (n.velocity i / iso i - 1),
    n.polarization i 0, n.polarization i 1, n.polarization i 2,
    n.groupAbs i, 100 * (n.groupAbs i / iso i - 1),
    n.groupVel i 0, n.groupVel i 1, n.groupVel i 2,
    n.powerflow i * (180 / Real.pi), n.enhancement i]

/-- The calculation at one node (seismic.py:211-229). -/
noncomputable def visit (num : Numerics) (o : Seismic) (theta phi : ℝ) (st : State) :
    Except PyErr (Node × State) := do
  let st := sphericalDirection o theta phi st
  let st ← solve num st
  let st ← solveGroup num o st
  let (velocity, st) ← readPhaseVelocity num st
  let (polarization, st) ← readEigenvec num st
  let (groupVel, st) ← readGroup num o State.groupVelocity st
  let (groupAbs, st) ← readGroup num o State.groupAbs st
  let (powerflow, st) ← readGroup num o State.powerflow st
  let (enhancement, st) ← readEnhancement num o st
  let th ← need st.theta
  let ph ← need st.phi
  .ok ({ theta := th, phi := ph, velocity := velocity, polarization := polarization
         groupVel := groupVel, groupAbs := groupAbs, powerflow := powerflow
         enhancement := enhancement }, st)

/-- State of the double loop: tables, row pointer, object. -/
structure Loop where
  tables : Tables
  c : ℕ
  st : State

/-- The body of the inner loop (seismic.py:210-248). -/
noncomputable def body (num : Numerics) (o : Seismic) (ntheta nphi theta phi : ℕ) (l : Loop) :
    Except PyErr Loop := do
  let th ← divInt (0.5 * Real.pi * theta) ((ntheta : ℤ) - 1)
  let ph ← divInt (2 * Real.pi * phi) ((nphi : ℤ) - 1)
  let (n, st) ← visit num o th ph l.st
  let iso := o.isotropicVelocity
  let slow ← setRow l.tables.slow l.c (rowOf iso n 0)
  let fast ← setRow l.tables.fast l.c (rowOf iso n 1)
  let primary ← setRow l.tables.primary l.c (rowOf iso n 2)
  .ok { tables := { slow := slow, fast := fast, primary := primary }, c := l.c + 1, st := st }

/-- The double loop of `SeismicCalculator.run` (seismic.py:201-249). -/
noncomputable def scan (num : Numerics) (o : Seismic) (ntheta nphi : ℕ) (st : State) :
    Except PyErr Tables := do
  let l ← (List.range ntheta).foldlM (fun l theta =>
    (List.range nphi).foldlM (fun l phi => body num o ntheta nphi theta phi l) l)
    { tables := initData ntheta nphi, c := 0, st := st }
  .ok l.tables

/-- `get_data_column(key, column)` (hdf5_reader.py) on a table. -/
def column (table : List Row) (k : Fin 14) : List ℝ := table.map fun r => r k

/-- The search for the first non-zero polar angle (seismic_plotter.py:400-406). -/
noncomputable def countZeros : List ℝ → ℕ → Except PyErr ℕ
  | [], _ => .error .indexError
  | x :: xs, n => open Classical in if x ≠ 0 then .ok n else countZeros xs (n + 1)

/-- `read_data`: the numbers of angles (seismic_plotter.py:396-408); `int(a / b)` with positive
integers is the integer quotient. -/
noncomputable def readData (t : Tables) : Except PyErr (ℕ × ℕ) := do
  let theta := column t.primary 0
  let nphi ← countZeros theta 0
  if nphi = 0 then .error .zeroDivision
  else .ok (theta.length / nphi, nphi)

/-- `z = get_data_column(p, k).reshape(ntheta, nphi)`, entry `[i, j]` (row-major). -/
def reshaped (t : Tables) (p : Fin 3) (k : Fin 14) (nphi i j : ℕ) : Option ℝ :=
  (column (t.get p) k)[i * nphi + j]?

/-- `np.mgrid[0:np.pi/2:ntheta*1j, 0:2*np.pi:nphi*1j]` (seismic_plotter.py:554): `start + k*step`. -/
noncomputable def mesh (ntheta nphi i j : ℕ) : ℝ × ℝ :=
  (0 + i * ((Real.pi / 2 - 0) / ((ntheta : ℝ) - 1)), 0 + j * ((2 * Real.pi - 0) / ((nphi : ℝ) - 1)))

/-- The two projections (seismic_plotter.py:555-560, 657-662, 778-783). -/
inductive Projection where
  | eqar | stereo

noncomputable def Projection.project (p : Projection) (u v : ℝ) : ℝ × ℝ :=
  match p with
  | .stereo => (Real.tan (0.5 * u) * Real.cos v, Real.tan (0.5 * u) * Real.sin v)
  | .eqar => (Real.sqrt 2 * Real.sin (0.5 * u) * Real.cos v,
              Real.sqrt 2 * Real.sin (0.5 * u) * Real.sin v)

/-- `anisotropy(xmin, xmax)` (seismic_plotter.py:446-470). -/
noncomputable def anisotropyPercent (xmin xmax : ℝ) : ℝ := 200 * (xmax - xmin) / (xmax + xmin)

/-! ### Files and figures -/

/-- `export_hdf5` (seismic.py:286-294): the datasets of the file. -/
def exported (t : Tables) : List (Str × List Row) :=
  [(c!"ssecondary", t.slow), (c!"fsecondary", t.fast), (c!"primary", t.primary)]

/-- `get_data_column(key, column)` (hdf5_reader.py): the error of an unknown dataset is returned as
text, which the plotter cannot reshape. -/
def getDataColumn (file : List (Str × List Row)) (key : Str) (k : Fin 14) : Except PyErr (List ℝ) :=
  match file.lookup key with
  | some table => .ok (column table k)
  | none => .error .attributeError

/-- `SeismicPlotter.datasets` (seismic_plotter.py:101-216): columns and the quantity they are
announced to hold. -/
def datasets : List (Fin 14 × Str) :=
  [(2, c!"phase velocity"), (3, c!"relative phase velocity"), (7, c!"group velocity"),
   (8, c!"relative group velocity"), (12, c!"powerflow angle"), (13, c!"enhancement factor")]

/-- The waves plotted, in order (seismic_plotter.py:490, 565, 788). -/
def waves : List Str := [c!"ssecondary", c!"fsecondary", c!"primary"]

/-- `SeismicPlotter.titles` (seismic_plotter.py:95-99). -/
def titles : List (Str × Str) :=
  [(c!"ssecondary", c!"Slow Secondary"), (c!"fsecondary", c!"Fast Secondary"),
   (c!"primary", c!"Primary")]

/-- Base-10 logarithm. -/
noncomputable def log10 (x : ℝ) : ℝ := Real.log x / Real.log 10

/-- The values plotted for a column (seismic_plotter.py:491-494, 567-571): the enhancement factor is
plotted as its base-10 logarithm. -/
noncomputable def plotted (file : List (Str × List Row)) (key : Str) (quantity : Fin 14) :
    Except PyErr (List ℝ) := do
  let c ← getDataColumn file key quantity
  .ok (if quantity = 13 then c.map log10 else c)

/-- The arrows drawn by `make_2D_plot_polarization` (seismic_plotter.py:794-798). -/
def arrows (file : List (Str × List Row)) (key : Str) : Except PyErr (List ℝ × List ℝ) := do
  let u ← getDataColumn file key 9
  let v ← getDataColumn file key 10
  .ok (u, v)

/-- The column descriptions in the header of the result file (seismic.py:275-284), columns counted
from zero. -/
def header : List (Fin 14 × Str) :=
  [(0, c!"Theta angle (rad)"), (1, c!"Phi angle (rad)"), (2, c!"Phase velocity (km s^-1)"),
   (3, c!"Relative phase velocity (%)"), (4, c!"Phase polarization (x,y,z)"),
   (5, c!"Phase polarization (x,y,z)"), (6, c!"Phase polarization (x,y,z)"),
   (7, c!"Group velocity (km s^-1)"), (8, c!"Relative group velocity (%)"),
   (9, c!"x, y, and z coordinates of the ray surface"),
   (10, c!"x, y, and z coordinates of the ray surface"),
   (11, c!"x, y, and z coordinates of the ray surface"),
   (12, c!"Powerflow angle (degree)"), (13, c!"Enhancement factor (log_10A)")]

/-- The three values of `make_2D_plot_ratios` at a node (seismic_plotter.py:667-750): S-wave
anisotropy, `v_P/v_s1` and `v_P/v_s2`. -/
noncomputable def ratios (vp vs1 vs2 : ℝ) : ℝ × ℝ × ℝ :=
  (anisotropyPercent vs2 vs1, vp / vs1, vp / vs2)

/-- The point of the sphere on which `make_3D_plot` draws the value of a node, and the opposite
point on which it draws the same value again (seismic_plotter.py:486-512). -/
noncomputable def spherePoints (u v : ℝ) : V3 × V3 :=
  let p : V3 := ![Real.sin u * Real.cos v, Real.sin u * Real.sin v, Real.cos u]
  (p, fun i => -p i)

end Verif.Seismic
