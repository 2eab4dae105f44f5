/-
Property C41: cached wave data always belongs to the current direction.
-/
import Verif.Seismic.Spec

namespace Verif.Seismic
open Verif.Py Verif.Elastic

/-- A direction as stored by the object. -/
structure Dir where
  q : V3
  theta : ℝ
  phi : ℝ

namespace Dir
variable (num : Numerics) (o : Seismic) (d : Dir)

def M : M3 := christoffel o.Cmat d.q
def gradM : T3 := gradChristoffel o.Cmat d.q
noncomputable def eigenval : V3 := (sortedEigh num (d.M o)).1
noncomputable def eigenvec : M3 := (sortedEigh num (d.M o)).2
noncomputable def phase : V3 := phaseVelocity (d.eigenval num o)
noncomputable def group : Group :=
  groupOf d.q (d.phase num o) (d.eigenvec num o) (d.gradM o)
noncomputable def hessian : T3 :=
  hessianEigenval num o.hessM (d.M o) (d.eigenval num o) (d.eigenvec num o) (d.gradM o)
noncomputable def enhancement : V3 :=
  enhancementOf d.q (d.hessian num o) (d.phase num o) (d.group num o).velocity (d.group num o).abs

/-- The value of each property for a direction, computed without any cache. -/
noncomputable def value : Property → Value
  | .q => .vec d.q
  | .theta => .num d.theta
  | .phi => .num d.phi
  | .christoffel => .mat (d.M o)
  | .gradM => .ten (d.gradM o)
  | .eigenval => .vec (d.eigenval num o)
  | .eigenvec => .mat (d.eigenvec num o)
  | .phaseVelocity => .vec (d.phase num o)
  | .relPhaseVelocity => .vec fun i => d.phase num o i / o.isotropicVelocity i
  | .hessianEigenval => .ten (d.hessian num o)
  | .groupVelocity => .mat (d.group num o).velocity
  | .gradEigenval => .mat (d.group num o).gradEig
  | .groupAbs => .vec (d.group num o).abs
  | .relGroupVelocity => .vec fun i => (d.group num o).abs i / o.isotropicVelocity i
  | .groupDir => .mat (d.group num o).dir
  | .groupTheta => .vec (d.group num o).theta
  | .groupPhi => .vec (d.group num o).phi
  | .powerflow => .vec (d.group num o).powerflow
  | .enhancement => .vec (d.enhancement num o)

end Dir

/-- A cache is empty or holds `x`. -/
def Holds {α : Type} (c : Option α) (x : α) : Prop := c = none ∨ c = some x

/-- The object looks in direction `d` and every cache is empty or belongs to `d`. -/
structure Good (num : Numerics) (o : Seismic) (d : Dir) (st : State) : Prop where
  direction : st.direction = some d.q
  theta : st.theta = some d.theta
  phi : st.phi = some d.phi
  M : st.M = some (d.M o)
  gradM : Holds st.gradM (d.gradM o)
  eig : (st.eigenval = none ∨
    (st.eigenval = some (d.eigenval num o) ∧ st.eigenvec = some (d.eigenvec num o)))
  gradEig : Holds st.gradEig (d.group num o).gradEig
  groupVelocity : Holds st.groupVelocity (d.group num o).velocity
  groupAbs : Holds st.groupAbs (d.group num o).abs
  groupDir : Holds st.groupDir (d.group num o).dir
  groupTheta : Holds st.groupTheta (d.group num o).theta
  groupPhi : Holds st.groupPhi (d.group num o).phi
  powerflow : Holds st.powerflow (d.group num o).powerflow

/-- `e` returns the value `x` and keeps the invariant. -/
def Gives {α : Type} (num : Numerics) (o : Seismic) (d : Dir) (x : α)
    (e : Except PyErr (α × State)) : Prop :=
  ∃ st, e = .ok (x, st) ∧ Good num o d st

variable {num : Numerics} {o : Seismic} {d : Dir} {st : State}

theorem gives_gradM (h : Good num o d st) : Gives num o d (d.gradM o) (readGradM o st) := by
  rcases h.gradM with hg | hg
  · refine ⟨{ st with gradM := some (d.gradM o) }, ?_, { h with gradM := Or.inr rfl }⟩
    simp only [readGradM, hg, h.direction, need, bind, Except.bind]
    rfl
  · refine ⟨st, ?_, h⟩
    simp only [readGradM, hg]

theorem solve_good (h : Good num o d st) :
    ∃ st', solve num st = .ok st' ∧ Good num o d st' ∧ st'.eigenval = some (d.eigenval num o) ∧
      st'.eigenvec = some (d.eigenvec num o) := by
  refine ⟨{ st with eigenval := some (d.eigenval num o), eigenvec := some (d.eigenvec num o) }, ?_,
    { h with eig := Or.inr ⟨rfl, rfl⟩ }, rfl, rfl⟩
  simp only [solve, h.M, need, bind, Except.bind]
  rfl

theorem ensure_good (h : Good num o d st) :
    ∃ st', ensureSolved num st = .ok st' ∧ Good num o d st' ∧
      st'.eigenval = some (d.eigenval num o) ∧ st'.eigenvec = some (d.eigenvec num o) := by
  rcases h.eig with he | ⟨he, hv⟩
  · obtain ⟨st', h1, h2⟩ := solve_good h
    exact ⟨st', by simp [ensureSolved, he, h1], h2⟩
  · exact ⟨st, by simp [ensureSolved, he], h, he, hv⟩

theorem gives_eigenval (h : Good num o d st) :
    Gives num o d (d.eigenval num o) (readEigenval num st) := by
  obtain ⟨st', h1, h2, h3, h4⟩ := ensure_good h
  exact ⟨st', by simp only [readEigenval, h1, h3, need, bind, Except.bind], h2⟩

theorem gives_eigenvec (h : Good num o d st) :
    Gives num o d (d.eigenvec num o) (readEigenvec num st) := by
  obtain ⟨st', h1, h2, h3, h4⟩ := ensure_good h
  exact ⟨st', by simp only [readEigenvec, h1, h4, need, bind, Except.bind], h2⟩

theorem gives_phase (h : Good num o d st) :
    Gives num o d (d.phase num o) (readPhaseVelocity num st) := by
  obtain ⟨st', h1, h2, h3, h4⟩ := ensure_good h
  exact ⟨st', by simp only [readPhaseVelocity, h1, h3, need, bind, Except.bind]; rfl, h2⟩

theorem gives_relPhase (h : Good num o d st) :
    Gives num o d (fun i => d.phase num o i / o.isotropicVelocity i)
      (readRelPhaseVelocity num o st) := by
  obtain ⟨st', h1, h2, -, -⟩ := ensure_good h
  obtain ⟨st2, h3, h4⟩ := gives_phase h2
  exact ⟨st2, by simp only [readRelPhaseVelocity, h1, h3, bind, Except.bind], h4⟩

theorem gives_hessian (h : Good num o d st) :
    Gives num o d (d.hessian num o) (readHessianEigenval num o st) := by
  obtain ⟨s1, e1, g1⟩ := gives_eigenvec h
  obtain ⟨s2, e2, g2⟩ := gives_eigenval g1
  obtain ⟨s3, e3, g3⟩ := gives_gradM g2
  exact ⟨s3, by simp only [readHessianEigenval, e1, e2, g2.M, e3, need, bind, Except.bind]; rfl, g3⟩

theorem solveGroup_good (h : Good num o d st) :
    ∃ st', solveGroup num o st = .ok st' ∧ Good num o d st' ∧
      st'.groupVelocity = some (d.group num o).velocity ∧
      st'.gradEig = some (d.group num o).gradEig ∧ st'.groupAbs = some (d.group num o).abs ∧
      st'.groupDir = some (d.group num o).dir ∧ st'.groupTheta = some (d.group num o).theta ∧
      st'.groupPhi = some (d.group num o).phi ∧
      st'.powerflow = some (d.group num o).powerflow := by
  obtain ⟨s1, e1, g1⟩ := gives_phase h
  obtain ⟨s2, e2, g2⟩ := gives_eigenvec g1
  obtain ⟨s3, e3, g3⟩ := gives_gradM g2
  refine ⟨{ s3 with groupVelocity := some (d.group num o).velocity
                    gradEig := some (d.group num o).gradEig
                    groupAbs := some (d.group num o).abs, groupDir := some (d.group num o).dir
                    groupTheta := some (d.group num o).theta
                    groupPhi := some (d.group num o).phi
                    powerflow := some (d.group num o).powerflow }, ?_, ?_,
    rfl, rfl, rfl, rfl, rfl, rfl, rfl⟩
  · simp only [solveGroup, e1, e2, e3, g3.direction, need, bind, Except.bind]
    rfl
  · exact { g3 with
      gradEig := Or.inr rfl, groupVelocity := Or.inr rfl, groupAbs := Or.inr rfl
      groupDir := Or.inr rfl, groupTheta := Or.inr rfl, groupPhi := Or.inr rfl
      powerflow := Or.inr rfl }

theorem gives_group {α : Type} {field : State → Option α} {x : α}
    (h : Good num o d st) (hc : Holds (field st) x)
    (hs : ∀ st', solveGroup num o st = .ok st' → field st' = some x) :
    Gives num o d x (readGroup num o field st) := by
  rcases hc with hc | hc
  · obtain ⟨st', h1, h2, -⟩ := solveGroup_good h
    exact ⟨st', by simp [readGroup, hc, h1, hs st' h1, need, bind, Except.bind], h2⟩
  · exact ⟨st, by simp [readGroup, hc, need, bind, Except.bind], h⟩

theorem group_field {α : Type} {field : State → Option α} {x : α} (h : Good num o d st)
    (hs : ∀ st', solveGroup num o st = .ok st' → Good num o d st' ∧
      st'.groupVelocity = some (d.group num o).velocity ∧
      st'.gradEig = some (d.group num o).gradEig ∧ st'.groupAbs = some (d.group num o).abs ∧
      st'.groupDir = some (d.group num o).dir ∧ st'.groupTheta = some (d.group num o).theta ∧
      st'.groupPhi = some (d.group num o).phi ∧
      st'.powerflow = some (d.group num o).powerflow → field st' = some x) :
    ∀ st', solveGroup num o st = .ok st' → field st' = some x := by
  intro st' e
  obtain ⟨s2, h1, h2⟩ := solveGroup_good h
  rw [e] at h1
  cases h1
  exact hs st' e h2

theorem gives_velocity (h : Good num o d st) :
    Gives num o d (d.group num o).velocity (readGroup num o State.groupVelocity st) :=
  gives_group h h.groupVelocity (group_field h fun _ _ k => k.2.1)

theorem gives_gradEig (h : Good num o d st) :
    Gives num o d (d.group num o).gradEig (readGroup num o State.gradEig st) :=
  gives_group h h.gradEig (group_field h fun _ _ k => k.2.2.1)

theorem gives_abs (h : Good num o d st) :
    Gives num o d (d.group num o).abs (readGroup num o State.groupAbs st) :=
  gives_group h h.groupAbs (group_field h fun _ _ k => k.2.2.2.1)

theorem gives_dir (h : Good num o d st) :
    Gives num o d (d.group num o).dir (readGroup num o State.groupDir st) :=
  gives_group h h.groupDir (group_field h fun _ _ k => k.2.2.2.2.1)

theorem gives_theta (h : Good num o d st) :
    Gives num o d (d.group num o).theta (readGroup num o State.groupTheta st) :=
  gives_group h h.groupTheta (group_field h fun _ _ k => k.2.2.2.2.2.1)

theorem gives_phi (h : Good num o d st) :
    Gives num o d (d.group num o).phi (readGroup num o State.groupPhi st) :=
  gives_group h h.groupPhi (group_field h fun _ _ k => k.2.2.2.2.2.2.1)

theorem gives_powerflow (h : Good num o d st) :
    Gives num o d (d.group num o).powerflow (readGroup num o State.powerflow st) :=
  gives_group h h.powerflow (group_field h fun _ _ k => k.2.2.2.2.2.2.2)

theorem gives_relGroup (h : Good num o d st) :
    Gives num o d (fun i => (d.group num o).abs i / o.isotropicVelocity i)
      (readRelGroupVelocity num o st) := by
  obtain ⟨s1, e1, g1⟩ := gives_abs h
  exact ⟨s1, by simp only [readRelGroupVelocity, e1, bind, Except.bind], g1⟩

theorem gives_enhancement (h : Good num o d st) :
    Gives num o d (d.enhancement num o) (readEnhancement num o st) := by
  obtain ⟨s1, e1, g1⟩ := gives_hessian h
  obtain ⟨s2, e2, g2⟩ := gives_phase g1
  obtain ⟨s3, e3, g3⟩ := gives_velocity g2
  obtain ⟨s4, e4, g4⟩ := gives_abs g3
  refine ⟨{ s4 with enhancement := some (d.enhancement num o) }, ?_, { g4 with }⟩
  simp only [readEnhancement, e1, e2, e3, e4, g4.direction, need, bind, Except.bind]
  rfl

/-- Every read returns the value that belongs to the direction. -/
theorem gives_read (h : Good num o d st) (p : Property) :
    Gives num o d (d.value num o p) (read num o p st) := by
  have lift : ∀ {α : Type} {x : α} {e : Except PyErr (α × State)} (f : α → Value),
      Gives num o d x e →
      Gives num o d (f x) (do let (y, st) ← e; .ok (f y, st)) := by
    rintro α x e f ⟨s, rfl, g⟩
    exact ⟨s, rfl, g⟩
  cases p
  case q => exact ⟨st, by simp only [read, h.direction]; rfl, h⟩
  case theta => exact ⟨st, by simp only [read, h.theta]; rfl, h⟩
  case phi => exact ⟨st, by simp only [read, h.phi]; rfl, h⟩
  case christoffel => exact ⟨st, by simp only [read, h.M]; rfl, h⟩
  case gradM => exact lift .ten (gives_gradM h)
  case eigenval => exact lift .vec (gives_eigenval h)
  case eigenvec => exact lift .mat (gives_eigenvec h)
  case phaseVelocity => exact lift .vec (gives_phase h)
  case relPhaseVelocity => exact lift .vec (gives_relPhase h)
  case hessianEigenval => exact lift .ten (gives_hessian h)
  case groupVelocity => exact lift .mat (gives_velocity h)
  case gradEigenval => exact lift .mat (gives_gradEig h)
  case groupAbs => exact lift .vec (gives_abs h)
  case relGroupVelocity => exact lift .vec (gives_relGroup h)
  case groupDir => exact lift .mat (gives_dir h)
  case groupTheta => exact lift .vec (gives_theta h)
  case groupPhi => exact lift .vec (gives_phi h)
  case powerflow => exact lift .vec (gives_powerflow h)
  case enhancement => exact lift .vec (gives_enhancement h)

/-- The direction an operation sets. -/
noncomputable def Op.dir : Op → Option Dir
  | .spherical theta phi => some ⟨seismicVector theta phi, theta, phi⟩
  | .cartesian v =>
    let q : V3 := fun i => v i / norm v
    some ⟨q, arctan2 (Real.sqrt (q 1 ^ 2 + q 0 ^ 2)) (q 2), arctan2 (q 0) (q 1)⟩
  | _ => none

theorem set_good {op : Op} (hd : op.dir = some d) (st : State) :
    Good num o d (step num o op st).2 := by
  cases op <;> simp only [Op.dir, Option.some.injEq, reduceCtorEq] at hd
  all_goals
    subst hd
    constructor <;> first | rfl | exact Or.inl rfl

/-- The operations that leave the direction alone. -/
def Op.keeps : Op → Bool
  | .spherical _ _ | .cartesian _ | .clear => false
  | .solve | .solveGroup | .read _ => true

theorem keep_good {op : Op} (hk : op.keeps) (h : Good num o d st) :
    Good num o d (step num o op st).2 := by
  cases op <;> simp only [Op.keeps, Bool.false_eq_true] at hk
  case solve =>
    obtain ⟨s, e, g, -⟩ := solve_good h
    simp only [step, e, bind, Except.bind]
    exact g
  case solveGroup =>
    obtain ⟨s, e, g, -⟩ := solveGroup_good h
    simp only [step, e, bind, Except.bind]
    exact g
  case read p =>
    obtain ⟨s, e, g⟩ := gives_read h p
    simp only [step, e]
    exact g

theorem exec_good {ops : List Op} (hk : ∀ op ∈ ops, op.keeps) (h : Good num o d st) :
    Good num o d (exec num o ops st) := by
  induction ops generalizing st with
  | nil => exact h
  | cons op ops ih =>
    exact ih (fun p hp => hk p (List.mem_cons_of_mem _ hp))
      (keep_good (hk op List.mem_cons_self) h)

theorem step_read (h : Good num o d st) (p : Property) :
    (step num o (.read p) st).1 = .ok (d.value num o p) := by
  obtain ⟨s, e, -⟩ := gives_read h p
  simp only [step, e]

/-- The object as the constructor leaves it. -/
def fresh : State := {}

/-- C41.  Take any history of operations, set a direction (by angles or by components), then do
anything that does not change the direction: solving, solving the group velocities, reading any
properties in any order and number.  Reading a property then returns what a new object returns on
which nothing happened but the setting of that direction.  No read fails. -/
theorem C41_current_direction (num : Numerics) (o : Seismic) (history later : List Op) (setting : Op)
    (hset : (∃ theta phi, setting = .spherical theta phi) ∨ ∃ v, setting = .cartesian v)
    (hlater : ∀ op ∈ later, op = .solve ∨ op = .solveGroup ∨ ∃ p, op = .read p) (p : Property) :
    (step num o (.read p) (exec num o (history ++ setting :: later) fresh)).1 =
      (step num o (.read p) (step num o setting fresh).2).1 ∧
    ∃ v, (step num o (.read p) (exec num o (history ++ setting :: later) fresh)).1 = .ok v ∧
      v ≠ .noneValue := by
  have hd : ∃ d, setting.dir = some d := by
    rcases hset with ⟨t, f, rfl⟩ | ⟨v, rfl⟩ <;> exact ⟨_, rfl⟩
  obtain ⟨d, hd⟩ := hd
  have hk : ∀ op ∈ later, op.keeps := by
    intro op hop
    rcases hlater op hop with rfl | rfl | ⟨p, rfl⟩ <;> rfl
  have g : Good num o d (exec num o (history ++ setting :: later) fresh) := by
    unfold exec
    rw [List.foldl_append, List.foldl_cons]
    exact exec_good hk (set_good hd _)
  rw [step_read g, step_read (set_good hd _)]
  refine ⟨rfl, _, rfl, ?_⟩
  cases p <;> exact fun h => by cases h

/-- Nothing is left after `clear`, nor at the start: attributes are `None` and every computed
property raises an exception, whatever was solved or read before. -/
theorem C41_cleared (num : Numerics) (o : Seismic) (history later : List Op)
    (hlater : ∀ op ∈ later, op = .solve ∨ op = .solveGroup ∨ ∃ p, op = .read p) (p : Property) :
    (step num o (.read p) (exec num o (history ++ .clear :: later) fresh)).1 =
      (step num o (.read p) fresh).1 ∧
    ((step num o (.read p) fresh).1 = .ok .noneValue ∨
      ∃ e, (step num o (.read p) fresh).1 = .error e) := by
  have stuck : ∀ op : Op, (op = .solve ∨ op = .solveGroup ∨ ∃ p, op = .read p) →
      (step num o op fresh).2 = fresh := by
    rintro op (rfl | rfl | ⟨p, rfl⟩)
    · rfl
    · rfl
    · cases p <;> rfl
  have all : ∀ ops : List Op, (∀ op ∈ ops, op = .solve ∨ op = .solveGroup ∨ ∃ p, op = .read p) →
      exec num o ops fresh = fresh := by
    intro ops
    induction ops with
    | nil => intro _; rfl
    | cons op ops ih =>
      intro h
      show exec num o ops (step num o op fresh).2 = fresh
      rw [stuck op (h op List.mem_cons_self)]
      exact ih fun q hq => h q (List.mem_cons_of_mem _ hq)
  constructor
  · unfold exec
    rw [List.foldl_append, List.foldl_cons]
    have : (step num o .clear (List.foldl (fun st op => (step num o op st).2) fresh history)).2 =
        fresh := rfl
    rw [this]
    have h := all later hlater
    unfold exec at h
    rw [h]
  · cases p <;> first | exact Or.inl rfl | exact Or.inr ⟨_, rfl⟩

/-- A non-trivial history. -/
example (num : Numerics) (o : Seismic) :
    (step num o (.read .groupVelocity) (exec num o ([.spherical 0 0, .read .enhancement] ++
      .cartesian ![1, 2, 3] :: [.solve, .read .powerflow, .solveGroup, .read .groupPhi]) fresh)).1 =
    (step num o (.read .groupVelocity) (step num o (.cartesian ![1, 2, 3]) fresh).2).1 :=
  (C41_current_direction num o _ _ _ (Or.inr ⟨_, rfl⟩) (by
    intro op h
    simp only [List.mem_cons, List.not_mem_nil, or_false] at h
    rcases h with rfl | rfl | rfl | rfl <;> simp) _).1

end Verif.Seismic
