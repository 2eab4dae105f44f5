/- Properties C28-C30: fit set-up, starting parameters, interactive selections. -/
import Verif.Session.Lemmas

namespace Verif.Session
open Verif.Py Verif.EoS Verif.Session.Spec

/-! ### C28 -/

/-- **C28 (which fit).** Orthogonal distance regression exactly when uncertainties on the
volume-like variable are supplied, whatever else is supplied. -/
theorem C28_job (guessed : Pars) (guess : Option Pars) (sigmaV sigmaP : Bool) (order : ℕ)
    (linear : Bool) (fixed : Option (List ℕ)) :
    ((fitSetup guessed guess sigmaV sigmaP order linear fixed).job = .odr ↔ sigmaV = true) ∧
      ((fitSetup guessed guess sigmaV sigmaP order linear fixed).job = .ols ↔ sigmaV = false) := by
  cases sigmaV <;> simp [fitSetup, check]

/-- **C28 (fixed parameters).** Without a list of fixed parameters, the parameters held fixed are
exactly those implied by the order (2, 3 or 4); a supplied list is used unchanged, whatever its
length. -/
theorem C28_fixed (guessed : Pars) (guess : Option Pars) (sigmaV sigmaP : Bool) (order : ℕ)
    (ho : order = 2 ∨ order = 3 ∨ order = 4) (linear : Bool) :
    let fix := (fitSetup guessed guess sigmaV sigmaP order linear none).fix
    (fix.length = 4 ∧ ∀ i < 4, (fix[i]? = some 0 ↔ i ∈ implied order) ∧
      (fix[i]? = some 1 ↔ i ∉ implied order)) ∧
    ∀ l, (fitSetup guessed guess sigmaV sigmaP order linear (some l)).fix = l := by
  refine ⟨?_, fun l => rfl⟩
  rcases ho with h | h | h <;> subst h <;>
    refine ⟨rfl, fun i hi => ?_⟩ <;> interval_cases i <;> simp [fitSetup, implied]

/-- **C28 fails for interactive sessions.** However the user answers, the list handed to the fit is
the user's own (all free unless something is fixed by hand): a second-order fit in which the
user fixes nothing leaves the implied parameters free. -/
theorem C28_session_violated (w : World) (hv : w.avail c!"v" = true)
    (h2 : w.parseInt c!"2" = some 2) (hsp : w.avail c!"sigmap" = false)
    (hsv : w.avail c!"sigmav" = false) :
    ∃ lines n, ∃ r ∈ session w n lines, r.order = 2 ∧ r.setup.fix = [1, 1, 1, 1] ∧
      r.setup.fix ≠ (fitSetup (w.guess r.sel) (some r.entered) r.sigmaV r.sigmaP r.order r.linear
        none).fix := by
  refine ⟨[c!"v", c!"2", c!"2", [], [], [], []], 3, ?_⟩
  have e : session w 3 [c!"v", c!"2", c!"2", [], [], [], []] =
      [⟨c!"v", .birchMurnaghan, 2, false, w.guess c!"v", w.guess c!"v", [1, 1, 1, 1], false, false,
        fitSetup (w.guess c!"v") (some (w.guess c!"v")) false false 2 false
          (some [1, 1, 1, 1])⟩] := by
    simp [session, exec, step, selectData, selectEos, eosResult, setEos, setEosOrder, fitStep, setParameters,
      setFixed, setWeights, confirm, choose, chosen, ask, promptValue, bind_eq, pure_eq, dataTypes, hv, h2,
      hsp, hsv, eosFunctions, eosOrders, List.lookup, strip, lower]
  rw [e]
  refine ⟨_, List.mem_singleton.2 rfl, rfl, rfl, ?_⟩
  simp [fitSetup]

/-! ### C29 -/

/-- **C29, proved part.** In every session and for every fit of volume data, however many fits,
edits, changes of equation of state and of data went before, the fit starts from the parameters
shown, as edited by the user.  Missing: axial data (see `C29_axial_violated`). -/
theorem C29_starting_parameters_partial (w : World) (n : ℕ) (lines : List Str) :
    ∀ r ∈ session w n lines,
      (r.sel = c!"v" → r.setup.p0 = r.entered) ∧
      (r.entered = r.shown ∨ (Edited w r.shown.K0 r.entered.K0 ∧ Edited w r.shown.Kp r.entered.Kp ∧
        Edited w r.shown.Kpp r.entered.Kpp ∧ Edited w r.shown.V0 r.entered.V0)) := by
  refine exec_forall (fun st s st' rs s' hg h r hr => ?_) n _ _ (good_start w)
  obtain ⟨g, d, rfl, hs, s1, s2, s3, h1, -, -, hset⟩ := records_of_fit h hr
  obtain ⟨-, -, -, hl, -⟩ := hg
  constructor
  · intro hv
    have : r.linear = false := by
      cases hb : r.linear
      · rfl
      · exact absurd hv (hl.1 hb)
    rw [hset]
    simp [fitSetup, this]
  · rw [hs]
    exact setParameters_ok h1

/-- **C29 (the parameters shown).** After choosing the equation of state, the next fit starts by
showing the parameters carried over from the previous fit when there was one on the same data, and
otherwise the parameters guessed from the data. -/
theorem C29_shown (w : World) (sel : Str) (lin : Bool) (g : Option Guess) (d : Option (Str × ℕ))
    (s s1 s2 : List Str) (st1 st2 : St) (rs1 rs2 : List Record)
    (h1 : step w (.eos sel lin g d) s = .ok ((st1, rs1), s1))
    (h2 : step w st1 s1 = .ok ((st2, rs2), s2)) :
    rs1 = [] ∧ ∀ r ∈ rs2, r.sel = sel ∧ r.linear = lin ∧
      r.shown = match g with | some g => g.pars | none => w.guess sel := by
  obtain ⟨e, t, -, h1⟩ := bind_ok.1 (show (selectEos w d >>= fun e => _) s = _ from h1)
  obtain ⟨h1, -⟩ := pure_ok.1 h1
  obtain ⟨rfl, rfl⟩ := Prod.mk.inj h1
  refine ⟨rfl, fun r hr => ?_⟩
  obtain ⟨g', d', he, hs, -⟩ := records_of_fit h2 hr
  simp only [St.fit.injEq] at he
  obtain ⟨rfl, rfl, -, -, rfl, -⟩ := he
  refine ⟨rfl, rfl, ?_⟩
  rw [hs]
  cases g <;> rfl

/-- The session of `C29_history_violated` and others pass through such states. -/
example (w : World) (rest : List Str) : ∃ st1 s1,
    step w (.eos c!"v" false none none) ([] :: [] :: rest) = .ok ((st1, []), s1) :=
  ⟨.fit c!"v" false .murnaghan 3 ⟨w.guess c!"v", false⟩ (some (c!"1", 3)), rest, by
    simp [step, selectEos, eosResult, setEos, setEosOrder, choose, chosen, ask, promptValue, bind_eq,
      pure_eq, eosFunctions, eosOrders, List.lookup]⟩

/-- **C29 fails for axial data.** Every axial fit starts from three times the shown modulus. -/
theorem C29_axial_violated (w : World) (n : ℕ) (lines : List Str) :
    ∀ r ∈ session w n lines, r.sel ≠ c!"v" →
      r.setup.p0 = { r.entered with K0 := 3 * r.entered.K0 } ∧
      (r.entered.K0 ≠ 0 → r.setup.p0 ≠ r.entered) := by
  refine exec_forall (fun st s st' rs s' hg h r hr => ?_) n _ _ (good_start w)
  obtain ⟨g, d, rfl, hs, s1, s2, s3, h1, -, -, hset⟩ := records_of_fit h hr
  obtain ⟨-, -, -, hl, -⟩ := hg
  intro hv
  have hlin : r.linear = true := hl.2 hv
  have e : r.setup.p0 = { r.entered with K0 := 3 * r.entered.K0 } := by
    rw [hset]
    simp [fitSetup, hlin, mul_comm]
  refine ⟨e, fun h0 he => ?_⟩
  rw [he] at e
  have := congrArg Pars.K0 e
  simp only at this
  exact h0 (by linarith)

/-- Answers of one pass that refits the same data with the same equation of state, changing,
fixing and updating nothing. -/
def refit : List Str := [[], [], [], c!"y", []]

theorem refit_pass (w : World) (sel : Str) (f : Formulation) (o : ℕ) (p : Pars)
    (d : Option (Str × ℕ)) (hsp : w.avail c!"sigmap" = false)
    (hsq : w.avail (c!"sigma" ++ sel) = false) (rest : List Str) :
    step w (.fit sel true f o ⟨p, false⟩ d) (refit ++ rest) =
      .ok ((.fit sel true f o ⟨{ p with K0 := p.K0 * 3 }, false⟩ d,
        [⟨sel, f, o, true, p, p, [1, 1, 1, 1], false, false,
          fitSetup (w.guess sel) (some p) false false o true (some [1, 1, 1, 1])⟩]), rest) := by
  have hsq' : w.avail ('s' :: 'i' :: 'g' :: 'm' :: 'a' :: sel) = false := hsq
  simp [refit, step, fitStep, setParameters, setFixed, setWeights, confirm, ask, bind_eq, pure_eq,
    hsp, hsq', strip, lower, fitSetup]

theorem refit_exec (w : World) (sel : Str) (f : Formulation) (o : ℕ) (d : Option (Str × ℕ))
    (hsp : w.avail c!"sigmap" = false) (hsq : w.avail (c!"sigma" ++ sel) = false) (n : ℕ) :
    ∀ p : Pars, ((exec w n (.fit sel true f o ⟨p, false⟩ d) (List.replicate n refit).flatten).1.map
      (fun r => r.shown.K0)) = (List.range n).map (fun k => 3 ^ k * p.K0) := by
  induction n with
  | zero => intro p; simp [exec]
  | succ n ih =>
    intro p
    rw [List.replicate_succ, List.flatten_cons]
    simp only [exec, refit_pass w sel f o p d hsp hsq]
    simp only [List.cons_append, List.nil_append, List.map_cons, ih]
    rw [List.range_succ_eq_map]
    simp only [List.map_cons, pow_zero, one_mul, List.map_map]
    congr 1
    apply List.map_congr_left
    intro k _
    simp only [Function.comp, pow_succ]
    ring

/-- **C29 fails for axial data (history).** Refitting the `a` axis without touching anything, the
shown modulus is multiplied by three at each fit: at the `k`-th fit it is `3^k` times the first
one. -/
theorem C29_history_violated (w : World) (ha : w.avail c!"a" = true)
    (hsp : w.avail c!"sigmap" = false) (hsa : w.avail c!"sigmaa" = false) (n : ℕ) :
    (session w (n + 2) ([c!"a", [], []] ++ (List.replicate n refit).flatten)).map
        (fun r => r.shown.K0) =
      (List.range n).map (fun k => 3 ^ k * (w.guess c!"a").K0) := by
  have e1 : ∀ rest, step w (.data none) ([c!"a", [], []] ++ rest) =
      .ok ((.eos c!"a" true none none, []), [[], []] ++ rest) := by
    intro rest
    cases hv : w.avail c!"v" <;>
      simp [step, selectData, choose, chosen, ask, promptValue, bind_eq, pure_eq, dataTypes,
        List.filter_cons, ha, hv]
  have e2 : ∀ rest, step w (.eos c!"a" true none none) ([[], []] ++ rest) =
      .ok ((.fit c!"a" true .murnaghan 3 ⟨w.guess c!"a", false⟩ (some (c!"1", 3)), []), rest) := by
    intro rest
    simp [step, selectEos, eosResult, setEos, setEosOrder, choose, chosen, ask, promptValue, bind_eq, pure_eq,
      eosFunctions, eosOrders, List.lookup]
  simp only [session, exec, e1, e2, List.nil_append]
  exact refit_exec w c!"a" .murnaghan 3 _ hsp hsa n (w.guess c!"a")

/-! ### C30 -/

/-- **C30 (one question).** A selection returns the value of the first line that stands for an
offered choice, skipping every line that does not; it can only fail by running out of input
without any valid line. -/
theorem C30_choose {α : Type} [DecidableEq α] (parse : Str → Option α) (default : Option α)
    (choices : List α) (lines : List Str) :
    let valid := fun (l : Str) (a : α) => promptValue parse default l = some a ∧ a ∈ choices
    (∀ a rest, choose parse default choices lines = .ok (a, rest) ↔
      ∃ pre l, lines = pre ++ l :: rest ∧ (∀ x ∈ pre, ∀ b, ¬ valid x b) ∧ valid l a) ∧
    (∀ e, choose parse default choices lines = .error e ↔
      e = .eof ∧ ∀ x ∈ lines, ∀ b, ¬ valid x b) := by
  intro valid
  have hs : ∀ l a, chosen parse default choices l = some a ↔ valid l a := by
    intro l a
    rcases h : promptValue parse default l with _ | b
    · simp [chosen, valid, h]
    · simp only [chosen, valid, h, Option.some.injEq]
      split_ifs with hb
      · simp only [Option.some.injEq]
        constructor
        · rintro rfl; exact ⟨rfl, hb⟩
        · rintro ⟨rfl, -⟩; rfl
      · simp only [reduceCtorEq, false_iff, not_and]
        rintro rfl; exact hb
  have hn : ∀ l, chosen parse default choices l = none ↔ ∀ b, ¬ valid l b := by
    intro l
    rw [Option.eq_none_iff_forall_ne_some]
    exact forall_congr' fun b => not_congr (hs l b)
  constructor
  · intro a rest
    rw [choose, ask_ok]
    simp only [hs, hn]
  · intro e
    rw [choose, ask_error]
    simp only [hn]

/-- **C30 (sessions).** Whatever the answers, every fit is made on a column present in the input,
linearised exactly when it is not the volume, with an order that exists for the chosen
formulation; weights are used only when the input has them; and four parameters are each either
fixed or free. -/
theorem C30_session (w : World) (n : ℕ) (lines : List Str) :
    ∀ r ∈ session w n lines,
      r.sel ∈ [c!"v", c!"a", c!"b", c!"c"] ∧ w.avail r.sel = true ∧
      (r.linear = true ↔ r.sel ≠ c!"v") ∧ r.order ∈ supported r.form ∧
      (r.sigmaP = true → w.avail c!"sigmap" = true) ∧
      (r.sigmaV = true → w.avail (c!"sigma" ++ r.sel) = true) ∧
      r.setup.fix.length = 4 ∧ (∀ x ∈ r.setup.fix, x = 0 ∨ x = 1) ∧
      (r.setup.job = .odr ↔ r.sigmaV = true) := by
  refine exec_forall (fun st s st' rs s' hg h r hr => ?_) n _ _ (good_start w)
  obtain ⟨g, d, rfl, hs, s1, s2, s3, h1, h2, h3, hset⟩ := records_of_fit h hr
  obtain ⟨-, a, b, c, e⟩ := hg
  obtain ⟨hp, hv⟩ := setWeights_ok h3
  obtain ⟨hl, hf⟩ := setFixed_ok h2
  refine ⟨a, b, c, e, hp, hv, ?_, ?_, ?_⟩
  · rw [hset]; exact hl
  · rw [hset]; exact hf
  · rw [hset]; exact (C28_job _ _ _ _ _ _ _).1

/-- **C30 (defaults).** At every equation-of-state question of a session, pressing Return twice is
a valid answer, and repeats the previous formulation and order (Murnaghan of order 3 the first
time). -/
theorem C30_defaults (w : World) (n : ℕ) (lines : List Str) (sel : Str) (lin : Bool)
    (g : Option Guess) (d : Option (Str × ℕ)) (rest : List Str)
    (h : (exec w n (.data none) lines).2 = some (.eos sel lin g d, rest)) (rest' : List Str) :
    ∃ f o, selectEos w d ([] :: [] :: rest') = .ok ((f, o, (d.getD (c!"1", 3))), rest') ∧
      o ∈ supported f ∧ eosFunctions.lookup (d.getD (c!"1", 3)).1 = some f ∧
      o = (d.getD (c!"1", 3)).2 := by
  have hg := exec_good n _ _ _ _ (good_start w) h
  obtain ⟨hd, -⟩ := hg
  cases d with
  | none =>
    exact ⟨.murnaghan, 3, by
      simp [selectEos, eosResult, setEos, setEosOrder, choose, chosen, ask, promptValue, bind_eq, eosFunctions,
        eosOrders, List.lookup], by simp [supported], rfl, rfl⟩
  | some ko =>
    obtain ⟨k, o⟩ := ko
    obtain ⟨f, hf, ho, hk⟩ := hd k o rfl
    obtain ⟨f', os, hf', hos, hso, -⟩ := functions_orders k hk
    have hff : f' = f := by rw [hf] at hf'; simpa using hf'.symm
    have hok : o ∈ os := by rw [hso, hff]; exact ho
    refine ⟨f, o, ?_, ho, hf, rfl⟩
    simp only [selectEos, eosResult, bind_eq, setEos, choose, chosen, ask, promptValue, Option.getD_some, if_true]
    rw [if_pos hk]
    simp only [setEosOrder, hos, choose, chosen, ask, promptValue, if_true]
    rw [if_neg (not_not_intro hok), if_pos hok]
    simp only [hf]

/-- **C30 (fixed parameters).** The answers about fixed parameters are attributed to the parameters
`[K0, K', K'', V0]` in the order in which they are asked: `y` fixes (0), `n` leaves free (1); nothing
is fixed when the user declines. -/
theorem C30_fixed_answers (f : Fin 4 → Bool) (rest : List Str) :
    setFixed ((c!"y" :: List.ofFn fun k => if f k then c!"y" else c!"n") ++ rest) =
      .ok (List.ofFn fun k => if f k then 0 else 1, rest) ∧
    setFixed (c!"n" :: rest) = .ok ([1, 1, 1, 1], rest) := by
  have hy : ∀ r, confirm false (c!"y" :: r) = .ok (true, r) := fun r => rfl
  have hn : ∀ r, confirm false (c!"n" :: r) = .ok (false, r) := fun r => rfl
  have hf : ∀ (b : Bool) r, askFix ((if b then c!"y" else c!"n") :: r) = .ok (if b then 0 else 1, r) := by
    intro b r
    cases b
    · simp [askFix, bind_eq, hn, pure_eq]
    · simp [askFix, bind_eq, hy, pure_eq]
  constructor
  · simp only [List.ofFn_succ, List.ofFn_zero, List.cons_append, List.nil_append, setFixed, bind_eq, hy,
      if_true, hf, pure_eq]
  · simp [setFixed, bind_eq, hn, pure_eq]

/-- The answer `y` or `n`. -/
def yn (b : Bool) : Str := if b then c!"y" else c!"n"

theorem confirm_yn (d b : Bool) (r : List Str) : confirm d (yn b :: r) = .ok (b, r) := by
  cases b <;> rfl

/-- **C30 (one fit).** A user who types four starting values, answers `y` or `n` for each parameter and for the weights of the
pressures and of the data, and ends the fits of these data afterwards, gets exactly one fit: of the selected data, with the
formulation and order chosen before, with the starting values typed (in the order `K0`, `K'`, `K''`, `V0`; the modulus is tripled
for a linear dimension), with exactly those parameters fixed that were named, and with exactly the weights asked for. -/
theorem C30_one_fit (w : World) (sel : Str) (linear : Bool) (form : Formulation) (order : ℕ) (guess : Guess)
    (defaults : Option (Str × ℕ)) (hp : w.avail c!"sigmap" = true) (hv : w.avail (c!"sigma" ++ sel) = true)
    (typed : Fin 4 → Str) (x : Fin 4 → ℝ) (hx : ∀ k, typed k ≠ [] ∧ w.parseFloat (typed k) = some (x k))
    (fixes : Fin 4 → Bool) (weightP weightV keep : Bool) (rest : List Str) :
    ∃ r : Record, step w (.fit sel linear form order guess defaults)
        (c!"y" :: List.ofFn typed ++ c!"y" :: (List.ofFn fun k => yn (fixes k)) ++
          [c!"y", yn weightP, yn weightV, yn keep, c!"n"] ++ rest) = .ok ((.again defaults, [r]), rest) ∧
      r.sel = sel ∧ r.linear = linear ∧ r.form = form ∧ r.order = order ∧ r.shown = guess.pars ∧
      r.entered = ⟨x 0, x 1, x 2, x 3⟩ ∧
      r.setup.p0 = ⟨if linear then 3 * x 0 else x 0, x 1, x 2, x 3⟩ ∧
      r.setup.fix = (List.ofFn fun k => if fixes k then 0 else 1) ∧ r.fixed = r.setup.fix ∧
      r.sigmaP = weightP ∧ r.sigmaV = weightV ∧ (r.setup.job = .odr ↔ weightV = true) := by
  have hy : ∀ d r, confirm d (c!"y" :: r) = .ok (true, r) := fun d r => rfl
  have hn : ∀ d r, confirm d (c!"n" :: r) = .ok (false, r) := fun d r => rfl
  have hf : ∀ (b : Bool) r, askFix (yn b :: r) = .ok (if b then 0 else 1, r) := by
    intro b r
    cases b
    · simp [askFix, bind_eq, confirm_yn, pure_eq]
    · simp [askFix, bind_eq, confirm_yn, pure_eq]
  have ha : ∀ k y r, askFloat w y (typed k :: r) = .ok (x k, r) := by
    intro k y r
    simp only [askFloat, if_neg (hx k).1, (hx k).2]
  have e1 : ∀ r, setParameters w guess.pars (c!"y" :: List.ofFn typed ++ r) = .ok (⟨x 0, x 1, x 2, x 3⟩, r) := by
    intro r
    simp only [List.ofFn_succ, List.ofFn_zero, List.cons_append, List.nil_append, setParameters, bind_eq, hy, if_true, ha, pure_eq]
    rfl
  have e2 : ∀ r, setFixed (c!"y" :: (List.ofFn fun k => yn (fixes k)) ++ r) =
      .ok (List.ofFn fun k => if fixes k then 0 else 1, r) := by
    intro r
    simp only [List.ofFn_succ, List.ofFn_zero, List.cons_append, List.nil_append, setFixed, bind_eq, hy, if_true, hf, pure_eq]
  have e3 : ∀ r, setWeights w sel (c!"y" :: yn weightP :: yn weightV :: r) = .ok ((weightP, weightV), r) := by
    intro r
    have hv' : w.avail ('s' :: 'i' :: 'g' :: 'm' :: 'a' :: sel) = true := hv
    simp [setWeights, askWeight, hp, hv', bind_eq, hy, confirm_yn, pure_eq]
  have h : ∃ r : Record, step w (.fit sel linear form order guess defaults)
        (c!"y" :: List.ofFn typed ++ (c!"y" :: (List.ofFn fun k => yn (fixes k)) ++
          (c!"y" :: yn weightP :: yn weightV :: yn keep :: c!"n" :: rest))) = .ok ((.again defaults, [r]), rest) ∧
      r = ⟨sel, form, order, linear, guess.pars, ⟨x 0, x 1, x 2, x 3⟩, List.ofFn fun k => if fixes k then 0 else 1, weightP,
        weightV, fitSetup (w.guess sel) (some ⟨x 0, x 1, x 2, x 3⟩) weightV weightP order linear
          (some (List.ofFn fun k => if fixes k then 0 else 1))⟩ := by
    refine ⟨_, ?_, rfl⟩
    simp only [step, fitStep, bind_eq, e1, e2, e3, confirm_yn]
    cases keep <;> simp only [if_true, Bool.false_eq_true, if_false, pure_eq, hn]
  obtain ⟨r, h, rfl⟩ := h
  have e : (c!"y" :: List.ofFn typed ++ c!"y" :: (List.ofFn fun k => yn (fixes k)) ++
      [c!"y", yn weightP, yn weightV, yn keep, c!"n"] ++ rest) = c!"y" :: List.ofFn typed ++
        (c!"y" :: (List.ofFn fun k => yn (fixes k)) ++ (c!"y" :: yn weightP :: yn weightV :: yn keep :: c!"n" :: rest)) := by
    simp only [List.cons_append, List.append_assoc, List.nil_append]
  rw [e]
  refine ⟨_, h, rfl, rfl, rfl, rfl, rfl, rfl, ?_, rfl, rfl, rfl, rfl, (C28_job _ _ _ _ _ _ _).1⟩
  · cases linear
    · rfl
    · simp only [fitSetup, if_true]
      rw [mul_comm]

/-- **C30 (only Return).** A user who names one of the available data and answers everything else by Return gets exactly one
fit, after which the session is over: Murnaghan's third order equation started from the guess made from the data, with no
parameter changed or fixed, weighted with every uncertainty the data have. -/
theorem C30_return (w : World) (sel : Str) (hsel : sel ∈ dataTypes) (hav : w.avail sel = true) (m : ℕ) (hm : 10 ≤ m) :
    ∃ r rest, exec w 4 (.data none) (sel :: List.replicate m []) = ([r], some (.done, rest)) ∧ r.sel = sel ∧
      r.linear = decide (sel ≠ c!"v") ∧ r.form = .murnaghan ∧ r.order = 3 ∧ r.shown = w.guess sel ∧
      r.entered = w.guess sel ∧ r.fixed = [1, 1, 1, 1] ∧ r.sigmaP = w.avail c!"sigmap" ∧
      r.sigmaV = w.avail (c!"sigma" ++ sel) := by
  obtain ⟨q, rfl⟩ := Nat.exists_eq_add_of_le' hm
  have hc : ∀ d r, confirm d ([] :: r) = .ok (d, r) := fun d r => rfl
  have h1 : ∀ r, selectData w (sel :: r) = .ok ((sel, decide (sel ≠ c!"v")), r) := by
    intro r
    have hne : sel ≠ [] := by rintro rfl; simp [dataTypes] at hsel
    have hin : sel ∈ dataTypes.filter w.avail := List.mem_filter.2 ⟨hsel, hav⟩
    simp only [selectData, bind_eq, choose, ask, chosen, promptValue, if_neg hne, hin, if_true, pure_eq]
    by_cases h : sel = c!"v" <;> simp [h]
  have h2 : ∀ r, selectEos w none ([] :: [] :: r) = .ok ((.murnaghan, 3, (c!"1", 3)), r) := fun r => rfl
  have hp : ∀ g r, setParameters w g ([] :: r) = .ok (g, r) := fun g r => rfl
  have hf : ∀ r, setFixed ([] :: r) = .ok ([1, 1, 1, 1], r) := fun r => rfl
  have hw : ∃ l, setWeights w sel (List.replicate (q + 6) []) =
      .ok ((w.avail c!"sigmap", w.avail (c!"sigma" ++ sel)), [] :: [] :: [] :: l) := by
    have e : List.replicate (q + 6) ([] : Str) = [] :: [] :: [] :: [] :: [] :: [] :: List.replicate q [] := rfl
    rw [e]
    cases ha : w.avail c!"sigmap" <;> cases hb : w.avail (c!"sigma" ++ sel) <;>
      (have hb' : w.avail ('s' :: 'i' :: 'g' :: 'm' :: 'a' :: sel) = _ := hb
       simp [setWeights, askWeight, ha, hb', bind_eq, hc, pure_eq])
  obtain ⟨l, hw⟩ := hw
  have e : List.replicate (q + 10) ([] : Str) = [] :: [] :: [] :: [] :: List.replicate (q + 6) [] := rfl
  refine ⟨⟨sel, .murnaghan, 3, decide (sel ≠ c!"v"), w.guess sel, w.guess sel, [1, 1, 1, 1], w.avail c!"sigmap",
    w.avail (c!"sigma" ++ sel), fitSetup (w.guess sel) (some (w.guess sel)) (w.avail (c!"sigma" ++ sel)) (w.avail c!"sigmap") 3
      (decide (sel ≠ c!"v")) (some [1, 1, 1, 1])⟩, l, ?_, rfl, rfl, rfl, rfl, rfl, rfl, rfl, rfl, rfl⟩
  rw [e]
  simp only [exec, step, bind_eq, h1, h2, pure_eq, Option.getD_none, fitStep, hp, hf, hw, hc, Bool.false_eq_true, if_false]
  rfl

/-- **C30 (progress).** Every pass of a session loop reads at least one line: the session never
runs on without the user. -/
theorem C30_progress (w : World) (st st' : St) (hst : st ≠ .done) (lines rest : List Str)
    (rs : List Record) (h : step w st lines = .ok ((st', rs), rest)) :
    rest.length < lines.length := by
  obtain ⟨l, pre, rfl⟩ := reads_step w st hst _ _ _ h
  simp only [List.cons_append, List.length_cons, List.length_append]
  omega

/-- Stops that are not defects of the dialogue: end of input, or a parameter value that is not a
number. -/
def Benign (w : World) {α : Type} (m : Ask α) : Prop :=
  ∀ s e, m s = .error e →
    e = .eof ∨ (e = .crash .valueError ∧ ∃ l ∈ s, l ≠ [] ∧ w.parseFloat l = none)

theorem benign_ask (w : World) {α : Type} (v : Str → Option α) : Benign w (ask v) :=
  fun s e h => Or.inl ((ask_error v s e).1 h).1

theorem benign_pure (w : World) {α : Type} (a : α) : Benign w (pure a : Ask α) := fun s e h => by
  rw [pure_eq] at h; simp at h

theorem benign_bind {w : World} {α β : Type} {m : Ask α} {f : α → Ask β} (h : Benign w m)
    (hm : Forward m) (hf : ∀ s a s', m s = .ok (a, s') → Benign w (f a)) : Benign w (m >>= f) := by
  intro s e he
  rcases bind_error.1 he with h1 | ⟨a, s', h1, h2⟩
  · exact h s e h1
  · rcases hf s a s' h1 s' e h2 with h3 | ⟨h3, l, hl, h4⟩
    · exact Or.inl h3
    · obtain ⟨pre, rfl⟩ := hm s a s' h1
      exact Or.inr ⟨h3, l, List.mem_append_right _ hl, h4⟩

theorem benign_askFloat (w : World) (x : ℝ) : Benign w (askFloat w x) := by
  intro s e h
  cases s with
  | nil =>
    simp only [askFloat, Except.error.injEq] at h
    exact Or.inl h.symm
  | cons l ls =>
    simp only [askFloat] at h
    split_ifs at h with hl
    cases hp : w.parseFloat l with
    | none =>
      simp only [hp, Except.error.injEq] at h
      exact Or.inr ⟨h.symm, l, List.mem_cons_self, hl, hp⟩
    | some y => simp [hp] at h

theorem benign_setParameters (w : World) (p : Pars) : Benign w (setParameters w p) := by
  refine benign_bind (benign_ask w _) (reads_confirm _).forward fun _ b _ _ => ?_
  cases b
  · exact benign_pure w _
  · exact benign_bind (benign_askFloat w _) (reads_askFloat _ _).forward fun _ _ _ _ =>
      benign_bind (benign_askFloat w _) (reads_askFloat _ _).forward fun _ _ _ _ =>
      benign_bind (benign_askFloat w _) (reads_askFloat _ _).forward fun _ _ _ _ =>
      benign_bind (benign_askFloat w _) (reads_askFloat _ _).forward fun _ _ _ _ =>
      benign_pure w _

theorem benign_askFix (w : World) : Benign w askFix :=
  benign_bind (benign_ask w _) (reads_confirm _).forward fun _ b _ _ => by
    cases b <;> exact benign_pure w _

theorem benign_setFixed (w : World) : Benign w setFixed := by
  refine benign_bind (benign_ask w _) (reads_confirm _).forward fun _ b _ _ => ?_
  cases b
  · exact benign_pure w _
  · exact benign_bind (benign_askFix w) reads_askFix.forward fun _ _ _ _ =>
      benign_bind (benign_askFix w) reads_askFix.forward fun _ _ _ _ =>
      benign_bind (benign_askFix w) reads_askFix.forward fun _ _ _ _ =>
      benign_bind (benign_askFix w) reads_askFix.forward fun _ _ _ _ => benign_pure w _

theorem benign_askWeight (w : World) (b : Bool) : Benign w (askWeight b) := by
  cases b
  · exact benign_pure w _
  · exact benign_ask w _

theorem benign_setWeights (w : World) (q : Str) : Benign w (setWeights w q) := by
  unfold setWeights
  split_ifs
  · exact benign_pure w _
  · refine benign_bind (benign_ask w _) (reads_confirm _).forward fun _ b _ _ => ?_
    cases b
    · exact benign_pure w _
    · exact benign_bind (benign_askWeight w _) (forward_askWeight _) fun _ _ _ _ =>
        benign_bind (benign_askWeight w _) (forward_askWeight _) fun _ _ _ _ => benign_pure w _

theorem benign_fitStep (w : World) (sel : Str) (lin : Bool) (f : Formulation) (o : ℕ) (g : Guess)
    (d : Option (Str × ℕ)) : Benign w (fitStep w sel lin f o g d) := by
  refine benign_bind (benign_setParameters w _) (reads_setParameters _ _).forward fun _ _ _ _ =>
    benign_bind (benign_setFixed w) reads_setFixed.forward fun _ _ _ _ =>
    benign_bind (benign_setWeights w _) (forward_setWeights _ _) fun _ _ _ _ => ?_
  refine benign_bind (benign_bind (benign_ask w _) (reads_confirm _).forward fun _ b _ _ => ?_)
    (forward_bind (reads_confirm _).forward fun b => ?_) fun _ _ _ _ =>
    benign_bind (benign_ask w _) (reads_confirm _).forward fun _ b _ _ => ?_
  · cases b <;> exact benign_pure w _
  · cases b <;> exact forward_pure _
  · cases b
    · exact benign_pure w _
    · refine benign_bind (benign_ask w _) (reads_confirm _).forward fun _ b _ _ => ?_
      cases b <;> exact benign_pure w _

theorem benign_selectEos (w : World) (d : Option (Str × ℕ)) : Benign w (selectEos w d) := by
  refine benign_bind (benign_ask w _) (reads_ask _).forward fun s sel s' hsel => ?_
  obtain ⟨f, os, hf, hos, -, -⟩ := functions_orders sel (choose_ok hsel)
  refine benign_bind ?_ (reads_setEosOrder _ _ _).forward fun _ _ _ _ => ?_
  · intro s e h
    simp only [setEosOrder, hos] at h
    exact benign_ask w _ s e h
  · intro s e h
    simp [eosResult, hf] at h

/-- **C30 (no failures).** From any point of a session, the only ways to stop are the end of the
input and a typed parameter value that is not a number: no answer leads to a missing key or
another exception. -/
theorem C30_no_failures (w : World) (st : St) (lines : List Str) (e : Stop)
    (h : step w st lines = .error e) :
    e = .eof ∨ (e = .crash .valueError ∧ ∃ l ∈ lines, l ≠ [] ∧ w.parseFloat l = none) := by
  have key : Benign w (step w st) := by
    cases st with
    | data d =>
      exact benign_bind (benign_bind (benign_ask w _) (reads_ask _).forward fun _ _ _ _ =>
        benign_pure w _) (forward_bind (reads_ask _).forward fun _ => forward_pure _)
        fun _ _ _ _ => benign_pure w _
    | eos sel lin g d =>
      exact benign_bind (benign_selectEos w d) (reads_selectEos _ _).forward fun _ _ _ _ =>
        benign_pure w _
    | fit sel lin f o g d => exact benign_fitStep w sel lin f o g d
    | again d =>
      refine benign_bind (benign_ask w _) (reads_confirm _).forward fun _ b _ _ => ?_
      cases b <;> exact benign_pure w _
    | done => exact benign_pure w _
  exact key lines e h

/-! ### Witness: a session with volume and axis data -/

/-- A world with volume, `a` axis and pressure uncertainties. -/
noncomputable def sample : World where
  parseInt l := if l = c!"2" then some 2 else if l = c!"3" then some 3 else none
  parseFloat l := if l = c!"5" then some 5 else none
  round5 x := x
  avail k := k = c!"v" ∨ k = c!"a"
  guess _ := ⟨160, 4, 0, 74.7⟩
  beta _ _ _ _ s _ _ := s.p0

/-- Non-trivial run: an invalid answer, a volume fit with edited parameters, a change of data, an
axial fit. -/
example : (session sample 7
    ([c!"x", c!"v", c!"9", c!"2", c!"3"] ++ [c!"y", c!"5", [], [], [], [], [], []] ++
      [c!"y", c!"a", [], []] ++ [[], [], [], []])).map (fun r => (r.sel, r.order, r.setup.p0.K0)) =
      [(c!"v", 3, 5), (c!"a", 3, 480)] := by
  simp [sample, session, exec, step, selectData, selectEos, eosResult, setEos, setEosOrder, fitStep,
    setParameters, askFloat, setFixed, setWeights, confirm, choose, chosen, ask, promptValue, bind_eq,
    pure_eq, dataTypes, eosFunctions, eosOrders, List.lookup, strip, lower, fitSetup]
  norm_num

example : sample.avail c!"v" = true ∧ sample.avail c!"a" = true ∧ sample.parseInt c!"2" = some 2 ∧
    sample.avail c!"sigmap" = false ∧ sample.avail c!"sigmav" = false ∧
    sample.avail c!"sigmaa" = false := by simp [sample]

end Verif.Session
