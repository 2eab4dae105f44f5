/- Lemmas on dialogues. -/
import Verif.Session.Spec

namespace Verif.Session
open Verif.Py Verif.EoS Verif.Session.Spec

theorem bind_eq {α β : Type} (m : Ask α) (f : α → Ask β) (s : List Str) :
    (m >>= f) s = match m s with
      | .error e => .error e
      | .ok (a, s') => f a s' := rfl

theorem pure_eq {α : Type} (a : α) (s : List Str) : (pure a : Ask α) s = .ok (a, s) := rfl

theorem bind_ok {α β : Type} {m : Ask α} {f : α → Ask β} {s s'' : List Str} {b : β} :
    (m >>= f) s = .ok (b, s'') ↔ ∃ a s', m s = .ok (a, s') ∧ f a s' = .ok (b, s'') := by
  rw [bind_eq]
  rcases h : m s with e | ⟨a, s'⟩
  · simp
  · simp

theorem bind_error {α β : Type} {m : Ask α} {f : α → Ask β} {s : List Str} {e : Stop} :
    (m >>= f) s = .error e ↔
      m s = .error e ∨ ∃ a s', m s = .ok (a, s') ∧ f a s' = .error e := by
  rw [bind_eq]
  rcases h : m s with e | ⟨a, s'⟩
  · simp
  · simp

theorem pure_ok {α : Type} {a b : α} {s s' : List Str} :
    (pure a : Ask α) s = .ok (b, s') ↔ a = b ∧ s = s' := by
  rw [pure_eq]; simp

theorem ask_ok {α : Type} (value : Str → Option α) (s rest : List Str) (a : α) :
    ask value s = .ok (a, rest) ↔
      ∃ pre l, s = pre ++ l :: rest ∧ (∀ x ∈ pre, value x = none) ∧ value l = some a := by
  induction s with
  | nil => simp [ask]
  | cons x xs ih =>
    rcases h : value x with _ | b
    · simp only [ask, h]
      rw [ih]
      constructor
      · rintro ⟨pre, l, rfl, h1, h2⟩
        exact ⟨x :: pre, l, rfl, by simpa [h] using h1, h2⟩
      · rintro ⟨pre, l, h0, h1, h2⟩
        cases pre with
        | nil =>
          simp only [List.nil_append, List.cons.injEq] at h0
          rw [← h0.1, h] at h2
          simp at h2
        | cons y ys =>
          simp only [List.cons_append, List.cons.injEq] at h0
          exact ⟨ys, l, h0.2, fun z hz => h1 z (List.mem_cons_of_mem _ hz), h2⟩
    · simp only [ask, h]
      constructor
      · intro e
        simp only [Except.ok.injEq, Prod.mk.injEq] at e
        exact ⟨[], x, by simp [e.2], by simp, by rw [h, e.1]⟩
      · rintro ⟨pre, l, h0, h1, h2⟩
        cases pre with
        | nil =>
          simp only [List.nil_append, List.cons.injEq] at h0
          rw [← h0.1, h] at h2
          simp only [Option.some.injEq] at h2
          rw [h2, h0.2]
        | cons y ys =>
          simp only [List.cons_append, List.cons.injEq] at h0
          have := h1 y (List.mem_cons_self)
          rw [← h0.1, h] at this
          simp at this

theorem ask_error {α : Type} (value : Str → Option α) (s : List Str) (e : Stop) :
    ask value s = .error e ↔ e = .eof ∧ ∀ x ∈ s, value x = none := by
  induction s with
  | nil => simp [ask, eq_comm]
  | cons x xs ih =>
    rcases h : value x with _ | b
    · simp only [ask, h]; rw [ih]; simp [h]
    · simp [ask, h]

/-- A dialogue that reads at least one line (when it succeeds), and at most everything. -/
def Reads {α : Type} (m : Ask α) : Prop :=
  ∀ s a s', m s = .ok (a, s') → ∃ l pre, s = l :: pre ++ s'

/-- A dialogue that only moves forward in the input. -/
def Forward {α : Type} (m : Ask α) : Prop :=
  ∀ s a s', m s = .ok (a, s') → ∃ pre, s = pre ++ s'

theorem Reads.forward {α : Type} {m : Ask α} (h : Reads m) : Forward m := fun s a s' e => by
  obtain ⟨l, pre, rfl⟩ := h s a s' e
  exact ⟨l :: pre, rfl⟩

theorem reads_ask {α : Type} (value : Str → Option α) : Reads (ask value) := fun s a s' e => by
  obtain ⟨pre, l, rfl, -, -⟩ := (ask_ok value s s' a).1 e
  cases pre with
  | nil => exact ⟨l, [], rfl⟩
  | cons x xs => exact ⟨x, xs ++ [l], by simp⟩

theorem forward_pure {α : Type} (a : α) : Forward (pure a) := fun s b s' e => by
  obtain ⟨-, rfl⟩ := pure_ok.1 e
  exact ⟨[], rfl⟩

theorem reads_bind {α β : Type} {m : Ask α} {f : α → Ask β} (h : Reads m)
    (hf : ∀ a, Forward (f a)) : Reads (m >>= f) := fun s b s'' e => by
  obtain ⟨a, s', h1, h2⟩ := bind_ok.1 e
  obtain ⟨l, pre, rfl⟩ := h _ _ _ h1
  obtain ⟨pre2, rfl⟩ := hf a _ _ _ h2
  exact ⟨l, pre ++ pre2, by simp⟩

theorem forward_bind {α β : Type} {m : Ask α} {f : α → Ask β} (h : Forward m)
    (hf : ∀ a, Forward (f a)) : Forward (m >>= f) := fun s b s'' e => by
  obtain ⟨a, s', h1, h2⟩ := bind_ok.1 e
  obtain ⟨pre, rfl⟩ := h _ _ _ h1
  obtain ⟨pre2, rfl⟩ := hf a _ _ _ h2
  exact ⟨pre ++ pre2, by simp⟩

theorem reads_confirm (d : Bool) : Reads (confirm d) := reads_ask _

theorem reads_askFloat (w : World) (x : ℝ) : Reads (askFloat w x) := fun s a s' e => by
  cases s with
  | nil => simp [askFloat] at e
  | cons l ls =>
    simp only [askFloat] at e
    refine ⟨l, [], ?_⟩
    split_ifs at e
    · simp only [Except.ok.injEq, Prod.mk.injEq] at e
      simp [e.2]
    · cases h : w.parseFloat l with
      | none => simp [h] at e
      | some y =>
        simp only [h, Except.ok.injEq, Prod.mk.injEq] at e
        simp [e.2]

theorem reads_setParameters (w : World) (p : Pars) : Reads (setParameters w p) := by
  refine reads_bind (reads_confirm _) fun b => ?_
  cases b
  · exact forward_pure _
  · exact forward_bind (reads_askFloat _ _).forward fun _ =>
      forward_bind (reads_askFloat _ _).forward fun _ =>
      forward_bind (reads_askFloat _ _).forward fun _ =>
      forward_bind (reads_askFloat _ _).forward fun _ => forward_pure _

theorem reads_askFix : Reads askFix := reads_bind (reads_confirm _) fun b => by
  cases b <;> exact forward_pure _

theorem reads_setFixed : Reads setFixed := by
  refine reads_bind (reads_confirm _) fun b => ?_
  cases b
  · exact forward_pure _
  · exact forward_bind reads_askFix.forward fun _ => forward_bind reads_askFix.forward fun _ =>
      forward_bind reads_askFix.forward fun _ => forward_bind reads_askFix.forward fun _ =>
      forward_pure _

theorem forward_askWeight (b : Bool) : Forward (askWeight b) := by
  cases b
  · exact forward_pure _
  · exact (reads_confirm _).forward

theorem forward_setWeights (w : World) (q : Str) : Forward (setWeights w q) := by
  unfold setWeights
  split_ifs
  · exact forward_pure _
  · refine forward_bind (reads_confirm _).forward fun b => ?_
    cases b
    · exact forward_pure _
    · exact forward_bind (forward_askWeight _) fun _ => forward_bind (forward_askWeight _)
        fun _ => forward_pure _

theorem reads_fitStep (w : World) (sel : Str) (linear : Bool) (form : Formulation) (order : ℕ)
    (guess : Guess) (d : Option (Str × ℕ)) : Reads (fitStep w sel linear form order guess d) := by
  refine reads_bind (reads_setParameters _ _) fun entered =>
    forward_bind reads_setFixed.forward fun fixed =>
    forward_bind (forward_setWeights _ _) fun weights => ?_
  refine forward_bind (forward_bind (reads_confirm _).forward fun b => ?_) fun g =>
    forward_bind (reads_confirm _).forward fun b => ?_
  · cases b <;> exact forward_pure _
  · cases b
    · exact forward_pure _
    · refine forward_bind (reads_confirm _).forward fun b => ?_
      cases b <;> exact forward_pure _

theorem reads_setEosOrder (w : World) (key : Str) (d : ℕ) : Reads (setEosOrder w key d) := by
  intro s a s' e
  unfold setEosOrder at e
  split at e
  · simp at e
  · exact reads_ask _ s a s' e

theorem reads_selectEos (w : World) (d : Option (Str × ℕ)) : Reads (selectEos w d) := by
  refine reads_bind (reads_ask _) fun sel => forward_bind (reads_setEosOrder _ _ _).forward
    fun o s a s' e => ?_
  cases h : eosFunctions.lookup sel with
  | none => simp [eosResult, h] at e
  | some f =>
    simp only [eosResult, h, Except.ok.injEq, Prod.mk.injEq] at e
    exact ⟨[], by simp [e.2]⟩

theorem reads_step (w : World) (st : St) (h : st ≠ .done) : Reads (step w st) := by
  cases st with
  | data d =>
    exact reads_bind (reads_bind (reads_ask _) fun _ => forward_pure _) fun _ => forward_pure _
  | eos sel linear g d => exact reads_bind (reads_selectEos _ _) fun _ => forward_pure _
  | fit sel linear f o g d => exact reads_fitStep _ _ _ _ _ _ _
  | again d => exact reads_bind (reads_confirm _) fun b => by cases b <;> exact forward_pure _
  | done => exact absurd rfl h

/-! ### Selections -/

theorem choose_ok {α : Type} [DecidableEq α] {parse : Str → Option α} {d : Option α}
    {choices : List α} {s rest : List Str} {a : α} (h : choose parse d choices s = .ok (a, rest)) :
    a ∈ choices := by
  obtain ⟨pre, l, -, -, h2⟩ := (ask_ok _ _ _ _).1 h
  rcases hp : promptValue parse d l with _ | b
  · simp [chosen, hp] at h2
  · simp only [chosen, hp] at h2
    split_ifs at h2 with hb
    simp only [Option.some.injEq] at h2
    rwa [← h2]

theorem functions_orders (key : Str) (h : key ∈ eosFunctions.map (·.1)) :
    ∃ f o, eosFunctions.lookup key = some f ∧ eosOrders.lookup key = some o ∧ o = supported f ∧
      o ≠ [] := by
  simp only [eosFunctions, List.map_cons, List.map_nil, List.mem_cons, List.not_mem_nil,
    or_false] at h
  rcases h with h | h | h | h | h <;> subst h
  · exact ⟨.murnaghan, [3], rfl, rfl, rfl, by simp⟩
  · exact ⟨.birchMurnaghan, [2, 3, 4], rfl, rfl, rfl, by simp⟩
  · exact ⟨.naturalStrain, [2, 3, 4], rfl, rfl, rfl, by simp⟩
  · exact ⟨.vinet, [2, 3], rfl, rfl, rfl, by simp⟩
  · exact ⟨.tait, [2, 3, 4], rfl, rfl, rfl, by simp⟩

/-- The key and order of a selection are those offered. -/
def DefaultsOk (d : Option (Str × ℕ)) : Prop :=
  ∀ k o, d = some (k, o) → ∃ f, eosFunctions.lookup k = some f ∧ o ∈ supported f ∧
    k ∈ eosFunctions.map (·.1)

theorem selectEos_ok {w : World} {d : Option (Str × ℕ)} {s s' : List Str}
    {r : Formulation × ℕ × (Str × ℕ)} (h : selectEos w d s = .ok (r, s')) :
    r.2.1 ∈ supported r.1 ∧ eosFunctions.lookup r.2.2.1 = some r.1 ∧ r.2.2.2 = r.2.1 ∧
      DefaultsOk (some r.2.2) := by
  obtain ⟨sel, s1, h1, h2⟩ := bind_ok.1 h
  obtain ⟨o, s2, h3, h4⟩ := bind_ok.1 h2
  have hs : sel ∈ eosFunctions.map (·.1) := choose_ok h1
  obtain ⟨f, os, hf, ho, hso, hne⟩ := functions_orders sel hs
  simp only [setEosOrder, ho] at h3
  have ho' := choose_ok h3
  simp only [eosResult, hf, Except.ok.injEq, Prod.mk.injEq] at h4
  obtain ⟨rfl, rfl⟩ := h4
  rw [hso] at ho'
  refine ⟨ho', hf, rfl, ?_⟩
  intro k o' e
  simp only [Option.some.injEq, Prod.mk.injEq] at e
  obtain ⟨rfl, rfl⟩ := e
  exact ⟨f, hf, ho', hs⟩

theorem selectData_ok {w : World} {s s' : List Str} {r : Str × Bool}
    (h : selectData w s = .ok (r, s')) :
    r.1 ∈ dataTypes ∧ w.avail r.1 = true ∧ (r.2 = true ↔ r.1 ≠ c!"v") := by
  obtain ⟨sel, s1, h1, h2⟩ := bind_ok.1 h
  obtain ⟨rfl, rfl⟩ := pure_ok.1 h2
  have := choose_ok h1
  rw [List.mem_filter] at this
  refine ⟨this.1, this.2, ?_⟩
  dsimp only
  split_ifs with hh
  · simp [hh]
  · simp [hh]

/-- What holds of the selections at every point of a session. -/
def Good (w : World) : St → Prop
  | .data d => DefaultsOk d
  | .eos sel lin _ d =>
    DefaultsOk d ∧ sel ∈ dataTypes ∧ w.avail sel = true ∧ (lin = true ↔ sel ≠ c!"v")
  | .fit sel lin f o _ d =>
    DefaultsOk d ∧ sel ∈ dataTypes ∧ w.avail sel = true ∧ (lin = true ↔ sel ≠ c!"v") ∧
      o ∈ supported f
  | .again d => DefaultsOk d
  | .done => True

/-- What one successful fit pass does. -/
theorem fitStep_ok {w : World} {sel : Str} {lin : Bool} {f : Formulation} {o : ℕ} {g : Guess}
    {d : Option (Str × ℕ)} {s s' : List Str} {st : St} {rs : List Record}
    (h : fitStep w sel lin f o g d s = .ok ((st, rs), s')) :
    ∃ entered fixed weights s1 s2 s3, setParameters w g.pars s = .ok (entered, s1) ∧
      setFixed s1 = .ok (fixed, s2) ∧ setWeights w sel s2 = .ok (weights, s3) ∧
      rs = [⟨sel, f, o, lin, g.pars, entered, fixed, weights.1, weights.2,
        fitSetup (w.guess sel) (some entered) weights.2 weights.1 o lin (some fixed)⟩] ∧
      (∃ g', st = .eos sel lin (some g') d ∨ st = .fit sel lin f o g' d ∨ st = .again d) := by
  obtain ⟨entered, s1, h1, h⟩ := bind_ok.1 h
  obtain ⟨fixed, s2, h2, h⟩ := bind_ok.1 h
  obtain ⟨weights, s3, h3, h⟩ := bind_ok.1 h
  obtain ⟨g', s4, -, h⟩ := bind_ok.1 h
  obtain ⟨same, s5, -, h⟩ := bind_ok.1 h
  refine ⟨entered, fixed, weights, s1, s2, s3, h1, h2, h3, ?_⟩
  cases same
  · simp only [Bool.false_eq_true, if_false] at h
    obtain ⟨e, -⟩ := pure_ok.1 h
    simp only [Prod.mk.injEq] at e
    exact ⟨e.2.symm, g', Or.inr (Or.inr e.1.symm)⟩
  · simp only [if_true] at h
    obtain ⟨change, s6, -, h⟩ := bind_ok.1 h
    cases change
    · simp only [Bool.false_eq_true, if_false] at h
      obtain ⟨e, -⟩ := pure_ok.1 h
      simp only [Prod.mk.injEq] at e
      exact ⟨e.2.symm, g', Or.inr (Or.inl e.1.symm)⟩
    · simp only [if_true] at h
      obtain ⟨e, -⟩ := pure_ok.1 h
      simp only [Prod.mk.injEq] at e
      exact ⟨e.2.symm, g', Or.inl e.1.symm⟩

theorem good_step {w : World} {st st' : St} {s s' : List Str} {rs : List Record} (hg : Good w st)
    (h : step w st s = .ok ((st', rs), s')) : Good w st' := by
  cases st with
  | data d =>
    obtain ⟨r, s1, h1, h2⟩ := bind_ok.1 h
    obtain ⟨e, -⟩ := pure_ok.1 h2
    simp only [Prod.mk.injEq] at e
    rw [← e.1]
    exact ⟨hg, selectData_ok h1⟩
  | eos sel lin g d =>
    obtain ⟨r, s1, h1, h2⟩ := bind_ok.1 h
    obtain ⟨e, -⟩ := pure_ok.1 h2
    simp only [Prod.mk.injEq] at e
    rw [← e.1]
    obtain ⟨a, -, -, b⟩ := selectEos_ok h1
    exact ⟨b, hg.2.1, hg.2.2.1, hg.2.2.2, a⟩
  | fit sel lin f o g d =>
    obtain ⟨_, _, _, _, _, _, -, -, -, -, g', hst⟩ := fitStep_ok h
    obtain ⟨h0, h1, h2, h3, h4⟩ := hg
    rcases hst with e | e | e <;> subst e
    · exact ⟨h0, h1, h2, h3⟩
    · exact ⟨h0, h1, h2, h3, h4⟩
    · exact h0
  | again d =>
    obtain ⟨b, s1, -, h2⟩ := bind_ok.1 h
    cases b
    · simp only [Bool.false_eq_true, if_false] at h2
      obtain ⟨e, -⟩ := pure_ok.1 h2
      simp only [Prod.mk.injEq] at e
      rw [← e.1]; trivial
    · simp only [if_true] at h2
      obtain ⟨e, -⟩ := pure_ok.1 h2
      simp only [Prod.mk.injEq] at e
      rw [← e.1]; exact hg
  | done =>
    obtain ⟨e, -⟩ := pure_ok.1 h
    simp only [Prod.mk.injEq] at e
    rw [← e.1]; trivial

/-- Induction over an execution: what holds of the records of every pass from a good state holds of
all records. -/
theorem exec_forall {w : World} {Q : Record → Prop}
    (hQ : ∀ st s st' rs s', Good w st → step w st s = .ok ((st', rs), s') → ∀ r ∈ rs, Q r)
    (n : ℕ) : ∀ st s, Good w st → ∀ r ∈ (exec w n st s).1, Q r := by
  induction n with
  | zero => intro st s _ r hr; simp [exec] at hr
  | succ n ih =>
    intro st s hg r hr
    simp only [exec] at hr
    rcases h : step w st s with e | ⟨⟨st', rs⟩, s'⟩
    · simp [h] at hr
    · simp only [h, List.mem_append] at hr
      rcases hr with hr | hr
      · exact hQ st s st' rs s' hg h r hr
      · exact ih st' s' (good_step hg h) r hr

theorem exec_good {w : World} (n : ℕ) : ∀ st s st' s', Good w st →
    (exec w n st s).2 = some (st', s') → Good w st' := by
  induction n with
  | zero =>
    intro st s st' s' hg h
    simp only [exec, Option.some.injEq, Prod.mk.injEq] at h
    rw [← h.1]; exact hg
  | succ n ih =>
    intro st s st' s' hg h
    simp only [exec] at h
    rcases hs : step w st s with e | ⟨⟨st1, rs⟩, s1⟩
    · simp [hs] at h
    · simp only [hs] at h
      exact ih st1 s1 st' s' (good_step hg hs) h

theorem good_start (w : World) : Good w (.data none) := by
  intro k o h; simp at h

theorem records_of_fit {w : World} {st st' : St} {s s' : List Str} {rs : List Record} {r : Record}
    (h : step w st s = .ok ((st', rs), s')) (hr : r ∈ rs) :
    ∃ g d, st = .fit r.sel r.linear r.form r.order g d ∧ r.shown = g.pars ∧
      ∃ s1 s2 s3, setParameters w g.pars s = .ok (r.entered, s1) ∧
      setFixed s1 = .ok (r.fixed, s2) ∧ setWeights w r.sel s2 = .ok ((r.sigmaP, r.sigmaV), s3) ∧
      r.setup = fitSetup (w.guess r.sel) (some r.entered) r.sigmaV r.sigmaP r.order r.linear
        (some r.fixed) := by
  cases st with
  | data d =>
    obtain ⟨_, s1, -, h2⟩ := bind_ok.1 h
    obtain ⟨e, -⟩ := pure_ok.1 h2
    simp only [Prod.mk.injEq] at e
    rw [← e.2] at hr; simp at hr
  | eos sel lin g d =>
    obtain ⟨_, s1, -, h2⟩ := bind_ok.1 h
    obtain ⟨e, -⟩ := pure_ok.1 h2
    simp only [Prod.mk.injEq] at e
    rw [← e.2] at hr; simp at hr
  | fit sel lin f o g d =>
    obtain ⟨entered, fixed, weights, s1, s2, s3, h1, h2, h3, hrs, -⟩ := fitStep_ok h
    rw [hrs, List.mem_singleton] at hr
    subst hr
    exact ⟨g, d, rfl, rfl, s1, s2, s3, h1, h2, h3, rfl⟩
  | again d =>
    obtain ⟨b, s1, -, h2⟩ := bind_ok.1 h
    cases b
    · simp only [Bool.false_eq_true, if_false] at h2
      obtain ⟨e, -⟩ := pure_ok.1 h2
      simp only [Prod.mk.injEq] at e
      rw [← e.2] at hr; simp at hr
    · simp only [if_true] at h2
      obtain ⟨e, -⟩ := pure_ok.1 h2
      simp only [Prod.mk.injEq] at e
      rw [← e.2] at hr; simp at hr
  | done =>
    obtain ⟨e, -⟩ := pure_ok.1 h
    simp only [Prod.mk.injEq] at e
    rw [← e.2] at hr; simp at hr

/-! ### Parameters, fixed list and weights -/

theorem askFloat_ok {w : World} {x y : ℝ} {s s' : List Str} (h : askFloat w x s = .ok (y, s')) :
    Edited w x y := by
  cases s with
  | nil => simp [askFloat] at h
  | cons l ls =>
    simp only [askFloat] at h
    split_ifs at h with hl
    · simp only [Except.ok.injEq, Prod.mk.injEq] at h
      exact Or.inl h.1.symm
    · cases hp : w.parseFloat l with
      | none => simp [hp] at h
      | some z =>
        simp only [hp, Except.ok.injEq, Prod.mk.injEq] at h
        exact Or.inr ⟨l, hl, by rw [hp, h.1]⟩

theorem setParameters_ok {w : World} {p q : Pars} {s s' : List Str}
    (h : setParameters w p s = .ok (q, s')) :
    q = p ∨ (Edited w p.K0 q.K0 ∧ Edited w p.Kp q.Kp ∧ Edited w p.Kpp q.Kpp ∧
      Edited w p.V0 q.V0) := by
  obtain ⟨b, s1, -, h⟩ := bind_ok.1 h
  cases b
  · simp only [Bool.false_eq_true, if_false] at h
    exact Or.inl (pure_ok.1 h).1.symm
  · simp only [if_true] at h
    obtain ⟨a, s2, ha, h⟩ := bind_ok.1 h
    obtain ⟨b, s3, hb, h⟩ := bind_ok.1 h
    obtain ⟨c, s4, hc, h⟩ := bind_ok.1 h
    obtain ⟨d, s5, hd, h⟩ := bind_ok.1 h
    obtain ⟨rfl, -⟩ := pure_ok.1 h
    exact Or.inr ⟨askFloat_ok ha, askFloat_ok hb, askFloat_ok hc, askFloat_ok hd⟩

theorem askFix_ok {s s' : List Str} {x : ℕ} (h : askFix s = .ok (x, s')) : x = 0 ∨ x = 1 := by
  obtain ⟨b, s1, -, h⟩ := bind_ok.1 h
  cases b
  · simp only [Bool.false_eq_true, if_false] at h
    exact Or.inr (pure_ok.1 h).1.symm
  · simp only [if_true] at h
    exact Or.inl (pure_ok.1 h).1.symm

theorem setFixed_ok {s s' : List Str} {l : List ℕ} (h : setFixed s = .ok (l, s')) :
    l.length = 4 ∧ ∀ x ∈ l, x = 0 ∨ x = 1 := by
  obtain ⟨b, s1, -, h⟩ := bind_ok.1 h
  cases b
  · simp only [Bool.false_eq_true, if_false] at h
    obtain ⟨rfl, -⟩ := pure_ok.1 h
    simp
  · simp only [if_true] at h
    obtain ⟨a, s2, ha, h⟩ := bind_ok.1 h
    obtain ⟨b, s3, hb, h⟩ := bind_ok.1 h
    obtain ⟨c, s4, hc, h⟩ := bind_ok.1 h
    obtain ⟨d, s5, hd, h⟩ := bind_ok.1 h
    obtain ⟨rfl, -⟩ := pure_ok.1 h
    simp [askFix_ok ha, askFix_ok hb, askFix_ok hc, askFix_ok hd]

theorem askWeight_ok {b x : Bool} {s s' : List Str} (h : askWeight b s = .ok (x, s'))
    (hx : x = true) : b = true := by
  cases b
  · obtain ⟨e, -⟩ := pure_ok.1 (show (pure false : Ask Bool) s = _ from h)
    rw [← e] at hx; simp at hx
  · rfl

theorem setWeights_ok {w : World} {q : Str} {s s' : List Str} {r : Bool × Bool}
    (h : setWeights w q s = .ok (r, s')) :
    (r.1 = true → w.avail c!"sigmap" = true) ∧ (r.2 = true → w.avail (c!"sigma" ++ q) = true) := by
  unfold setWeights at h
  split_ifs at h with h0
  · obtain ⟨rfl, -⟩ := pure_ok.1 h
    simp
  · obtain ⟨b, s1, -, h⟩ := bind_ok.1 h
    cases b
    · simp only [Bool.false_eq_true, if_false] at h
      obtain ⟨rfl, -⟩ := pure_ok.1 h
      simp
    · simp only [if_true] at h
      obtain ⟨p, s2, hp, h⟩ := bind_ok.1 h
      obtain ⟨v, s3, hv, h⟩ := bind_ok.1 h
      obtain ⟨rfl, -⟩ := pure_ok.1 h
      constructor
      · intro e
        exact askWeight_ok hp e
      · intro e
        exact askWeight_ok hv e

end Verif.Session
