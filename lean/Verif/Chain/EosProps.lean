/-
C151: the log of `quantas eosfit` on exact data.
-/
import Verif.Chain.EosSpec
import Verif.EoS.IdentifyP
import Verif.IO.EoSProps
import Verif.Report.EosFitProps
import Verif.Session.Props

noncomputable section

namespace Verif.Chain.Eos
open Verif.Py Verif.IO Verif.IO.Spec Verif.EoS Verif.EoS.Spec Verif.Session Verif.Report Verif.Report.Spec Verif.Chain.Eos.Spec

/-! ### The regression -/

theorem odrMisfit_nonneg (curve : Pars → ℝ → ℝ) {n : ℕ} {V P wV wP : Fin n → ℝ} (hV : ∀ i, 0 < wV i) (hP : ∀ i, 0 < wP i)
    (p : Pars) (δ : Fin n → ℝ) : 0 ≤ odrMisfit curve V P wV wP p δ :=
  Finset.sum_nonneg fun i _ => add_nonneg (mul_nonneg (hP i).le (sq_nonneg _)) (mul_nonneg (hV i).le (sq_nonneg _))

/-- With exact data the best fits among parameters that include the true ones are best fits among all. -/
theorem best_exact {f : Formulation} {order : ℕ} {linear orthogonal : Bool} {q : Pars}
    (h : PSolid f order (parsAfter f q order linear true)) {n : ℕ} (hn : enoughP f order ≤ n)
    {V P wV wP : Fin n → ℝ} (hV : Function.Injective V) (hpos : ∀ i, 0 < V i) (hwV : ∀ i, 0 < wV i)
    (hwP : ∀ i, 0 < wP i) (hP : ∀ i, P i = (eos f q (V i) order linear true).1) {B : Pars → Prop} (hB : B q) :
    BestP (fun r => PSolid f order (parsAfter f r order linear true) ∧ B r) (fun r v => (eos f r v order linear true).1)
      orthogonal V P wV wP q 0 ∧
    ∀ r δ, BestP (fun r => PSolid f order (parsAfter f r order linear true) ∧ B r)
        (fun r v => (eos f r v order linear true).1) orthogonal V P wV wP r δ →
      parsAfter f r order linear true = parsAfter f q order linear true := by
  have h0 : odrMisfit (fun r v => (eos f r v order linear true).1) V P wV wP q 0 = 0 := by
    simp [odrMisfit, hP]
  refine ⟨⟨⟨h, hB⟩, fun _ => rfl, fun p' δ' _ _ => h0 ▸ odrMisfit_nonneg _ hwV hwP _ _⟩, fun r δ hr => ?_⟩
  refine ((C105_recovered f order linear orthogonal h hn hV hpos hwV hwP hP r δ).1 ?_).1
  refine ⟨hr.1.1, hr.2.1, fun p' δ' _ _ => ?_⟩
  exact (hr.2.2 q 0 ⟨h, hB⟩ fun _ => rfl).trans (h0 ▸ odrMisfit_nonneg _ hwV hwP _ _)

/-- The parameters that are not implied are not changed by the equation of state. -/
theorem refined_entry {f : Formulation} {order : ℕ} (ho : order ∈ Session.Spec.supported f) {linear : Bool} {r q : Pars}
    (h : parsAfter f r order linear true = parsAfter f q order linear true) (i : Fin 4) (hi : Refined order i) :
    entry r i = entry q i := by
  have hK : ∀ p : Pars, (parsAfter f p order linear true).K0 = p.K0 := fun p => by
    unfold parsAfter setKpp setKp
    cases f <;> simp only [if_true] <;> split_ifs <;> rfl
  have hV : ∀ p : Pars, (parsAfter f p order linear true).V0 = p.V0 := fun p => by
    unfold parsAfter setKpp setKp
    cases f <;> simp only [if_true] <;> split_ifs <;> rfl
  have hKp : 3 ≤ order → ∀ p : Pars, (parsAfter f p order linear true).Kp = p.Kp := fun h3 p => by
    have : order ≠ 2 := by omega
    unfold parsAfter setKpp setKp
    cases f <;> simp only [if_true, this, false_and, if_false] <;> try split_ifs
    all_goals rfl
  have hKpp : 4 ≤ order → ∀ p : Pars, (parsAfter f p order linear true).Kpp = p.Kpp := fun h4 p => by
    have h2 : order ≠ 2 := by omega
    have h4' : ¬ order < 4 := by omega
    have e : setKp f p order linear true = p := by simp [setKp, h2]
    rw [parsAfter, e]
    cases f <;> simp only [Session.Spec.supported, List.mem_cons, List.not_mem_nil, or_false] at ho <;>
      first | omega | simp [setKpp, h4']
  match i with
  | 0 => simpa only [entry, hK] using congrArg Pars.K0 h
  | 1 => simpa only [entry, hKp hi] using congrArg Pars.Kp h
  | 2 => simpa only [entry, hKpp hi] using congrArg Pars.Kpp h
  | 3 => simpa only [entry, hV] using congrArg Pars.V0 h

/-! ### Columns -/

/-- The quantity and its uncertainty in the reader. -/
def quantity : Choice → Quantity
  | .volume => .volume
  | .a => .a
  | .b => .b
  | .c => .c

def sigma : Choice → Quantity
  | .volume => .sigmaV
  | .a => .sigmaA
  | .b => .sigmaB
  | .c => .sigmaC

theorem quantity_key (ch : Choice) : (quantity ch).key = ch.key := by cases ch <;> rfl

theorem sigma_key (ch : Choice) : (sigma ch).key = c!"sigma" ++ ch.key := by cases ch <;> rfl

variable {names : List Str} {rows : List (List ℚ)} {title : Option Str} {js ls : List Str} {text : Str}

/-- What a file with these columns is read as. -/
structure ReadAs (d : EoSData) (names : List Str) (rows : List (List ℚ)) : Prop where
  present : ∀ q n, Holds names n (Quantity.key q) → d.columns q.key = some (rows.map fun r => r.getD n 0)
  absent : ∀ q : Quantity, q.key ∉ names.map lower → d.columns q.key = none

theorem ReadAs.sigma_ok {d : EoSData} (h : ReadAs d names rows) {q : Quantity} {l : List ℚ} (hl : d.columns q.key = some l)
    (he : ∀ s, Holds names s q.key → ∀ r ∈ rows, r.getD s 0 ≠ 0) : l.length = rows.length ∧ ∀ x ∈ l, x ≠ 0 := by
  by_cases hq : q.key ∈ names.map lower
  · obtain ⟨name, hm, e⟩ := List.mem_map.1 hq
    obtain ⟨n, hn, rfl⟩ := List.getElem_of_mem hm
    have hh : Holds names n q.key := ⟨_, List.getElem?_eq_getElem hn, e⟩
    rw [h.present q n hh] at hl
    cases hl
    refine ⟨by simp, fun x hx => ?_⟩
    obtain ⟨r, hr, rfl⟩ := List.mem_map.1 hx
    exact he n hh r hr
  · rw [h.absent q hq] at hl
    cases hl

theorem read_file (hj : match title with | some t => JobSection t js | none => js = [])
    (h : FormatData names.length names rows ls) (hf : IsText (js ++ ls) text) (hdis : (names.map lower).Nodup)
    (hu : title ≠ some c!"Unknown") {p v : ℕ} (hp : Holds names p c!"p") {ch : Choice} (hv : Holds names v ch.key) :
    ∃ d, readInput text .initial = .ok (d, none) ∧ ReadAs d names rows := by
  obtain ⟨name, hn, e⟩ := hp
  obtain ⟨d, h1, h2, h3, -⟩ := C50_columns_partial hj h hf hdis (List.mem_map.2 ⟨name, List.mem_of_getElem? hn, e⟩)
    (d := .initial) rfl rfl hu
  have hr : ReadAs d names rows := by
    refine ⟨fun q n ⟨name, hn, e⟩ => ?_, fun q hq => ?_⟩
    · obtain ⟨hn', rfl⟩ := List.getElem?_eq_some_iff.1 hn
      exact h2 q n hn' e
    · exact h3 q hq
  refine ⟨d, ?_, hr⟩
  have hs : (d.get (quantity ch)).isSome := by
    have := hr.present (quantity ch) v (by rw [quantity_key]; exact hv)
    rw [EoSData.get, this]
    rfl
  have hne : ([Quantity.volume, .a, .b, .c].filter fun q => (d.get q).isNone).length < 4 := by
    refine lt_of_le_of_ne (List.length_filter_le _ _) fun he => ?_
    have hall := List.filter_eq_self.1 ((List.filter_sublist (l := [Quantity.volume, .a, .b, .c])).eq_of_length he)
    have := hall (quantity ch) (by cases ch <;> simp [quantity])
    rw [Option.isNone_iff_eq_none] at this
    rw [this] at hs
    cases hs
  rw [readInput, h1]
  simp only [Bind.bind, Except.bind]
  rw [if_neg (by simp), if_neg (by omega)]

/-! ### Sessions -/

theorem setup_eq (w : World) (n : ℕ) (lines : List Str) : ∀ r ∈ session w n lines,
    r.setup = fitSetup (w.guess r.sel) (some r.entered) r.sigmaV r.sigmaP r.order r.linear (some r.fixed) := by
  refine exec_forall (fun st s st' rs s' hg h r hr => ?_) n _ _ (good_start w)
  obtain ⟨g, d, -, -, s1, s2, s3, -, -, -, hset⟩ := records_of_fit h hr
  exact hset

/-- The list of held parameters as it is reported. -/
theorem fixed_ofFn {l : List ℕ} (h4 : l.length = 4) (h : ∀ x ∈ l, x = 0 ∨ x = 1) :
    (List.ofFn fun i : Fin 4 => decide (l.getD i.1 0 = 0)).map (fun b => if b then 0 else 1) = l := by
  match l, h4 with
  | [a, b, c, d], _ =>
    simp only [List.mem_cons, List.not_mem_nil, or_false, forall_eq_or_imp, forall_eq] at h
    obtain ⟨ha, hb, hc, hd⟩ := h
    simp only [List.ofFn_succ, List.ofFn_zero, List.map_cons, List.map_nil]
    rcases ha with rfl | rfl <;> rcases hb with rfl | rfl <;> rcases hc with rfl | rfl <;> rcases hd with rfl | rfl <;> rfl

theorem vector_pos {n : ℕ} {l : List ℚ} (hn : l.length = n) (h : ∀ x ∈ l, 0 < x) (i : Fin n) : 0 < vector n l i := by
  unfold vector
  have hi : i.1 < l.length := hn ▸ i.2
  rw [List.getD_eq_getElem?_getD, List.getElem?_eq_getElem hi]
  exact_mod_cast h _ (List.getElem_mem hi)

theorem weight_pos {n : ℕ} {o : Option (List ℚ)} (h : ∀ l ∈ o, l.length = n ∧ ∀ x ∈ l, x ≠ 0) (i : Fin n) :
    0 < weight (o.map (vector n)) i := by
  match o with
  | none => simp [weight]
  | some l =>
    obtain ⟨hl, hx⟩ := h l rfl
    have hi : i.1 < l.length := hl ▸ i.2
    have : vector n l i ≠ 0 := by
      unfold vector
      rw [List.getD_eq_getElem?_getD, List.getElem?_eq_getElem hi]
      exact_mod_cast hx _ (List.getElem_mem hi)
    simp only [Option.map_some, weight]
    positivity

/-- A fit of a session on exact data: what the regression returned is within `ε` of parameters that have the true curve and
keep what was held. -/
theorem fit_exact {f : Formulation} {order : ℕ} {ch : Choice} {q : Pars} {p v : ℕ} (hc : OnCurve f order ch q names rows p v)
    {d : EoSData} (hd : ReadAs d names rows) {ε : ℝ} {odr : Odr} (hodr : Regresses ε odr) {w : World}
    (hw : ∀ k, w.avail k = (d.columns k).isSome) {n : ℕ} {lines : List Str} {r : Record} (hr : r ∈ session w n lines)
    (hs : r.sel = ch.key) (hf : r.form = f) (ho : r.order = order) (hh : HeldTrue r q) :
    let out := fitColumn odr d r.sel r.form r.order r.linear r.setup r.sigmaP r.sigmaV
    IsOutput out (column d r.sel) (column d c!"p") ∧ r.linear = linear ch ∧
    ∃ b : Pars, parsAfter f b order (linear ch) true = parsAfter f q order (linear ch) true ∧
      Held r.fixed r.setup.p0 b ∧ ∀ i, |entry (betaOf out) i - entry b i| ≤ ε := by
  obtain ⟨-, hav, hlin, hsup, hsp, hsv, hl4, h01, hjob⟩ := C30_session w n lines r hr
  have hset := setup_eq w n lines r hr
  have hfix : r.setup.fix = r.fixed := by rw [hset]; rfl
  have hV : d.columns r.sel = some (rows.map fun r => r.getD v 0) := by
    have := hd.present (quantity ch) v (by rw [quantity_key]; exact hc.is_quantity)
    rwa [quantity_key, ← hs] at this
  have hP : d.columns c!"p" = some (rows.map fun r => r.getD p 0) := hd.present .pressure p hc.is_pressure
  have hl : r.linear = linear ch := by
    rw [Bool.eq_iff_iff, hlin, hs]
    cases ch <;> simp [linear, Choice.key]
  intro out
  -- uncertainties
  have hsV : ∀ l ∈ (if r.sigmaV then d.columns (c!"sigma" ++ r.sel) else none), l.length = rows.length ∧ ∀ x ∈ l, x ≠ 0 := by
    intro l hx
    split_ifs at hx with hb
    · rw [hs, ← sigma_key] at hx
      exact hd.sigma_ok hx fun s h => hc.errors s (.inr (sigma_key ch ▸ h))
    · cases hx
  have hsP : ∀ l ∈ (if r.sigmaP then d.columns c!"sigmap" else none), l.length = rows.length ∧ ∀ x ∈ l, x ≠ 0 := by
    intro l hx
    split_ifs at hx with hb
    · exact hd.sigma_ok (q := .sigmaP) hx fun s h => hc.errors s (.inl h)
    · cases hx
  have eV : column d r.sel = rows.map fun r => r.getD v 0 := by rw [column, hV]; rfl
  have eP : column d c!"p" = rows.map fun r => r.getD p 0 := by rw [column, hP]; rfl
  have hlen : (column d r.sel).length = rows.length := by rw [eV, List.length_map]
  obtain ⟨h1, h2⟩ := hodr r.form r.order r.linear r.setup (column d r.sel) (column d c!"p")
    (if r.sigmaV then d.columns (c!"sigma" ++ r.sel) else none) (if r.sigmaP then d.columns c!"sigmap" else none)
    (by rw [eP, eV, List.length_map, List.length_map]) (fun l h => by rw [hlen]; exact (hsV l h).1)
    (fun l h => by rw [hlen]; exact (hsP l h).1)
  refine ⟨h1, hl, ?_⟩
  have hinj : Function.Injective (vector (column d r.sel).length (column d r.sel)) := by
    intro i j hij
    unfold vector at hij
    have hi := i.2
    have hj := j.2
    rw [List.getD_eq_getElem?_getD, List.getD_eq_getElem?_getD, List.getElem?_eq_getElem hi, List.getElem?_eq_getElem hj] at hij
    have hij' : (column d r.sel)[i.1] = (column d r.sel)[j.1] := by exact_mod_cast hij
    exact Fin.ext ((List.Nodup.getElem_inj_iff (eV ▸ hc.distinct)).1 hij')
  have hpos : ∀ i, 0 < vector (column d r.sel).length (column d r.sel) i := vector_pos rfl fun x hx => by
    rw [eV] at hx
    obtain ⟨row, hrow, rfl⟩ := List.mem_map.1 hx
    exact hc.positive row hrow
  have hpress : ∀ i, vector (column d r.sel).length (column d c!"p") i =
      (eos f q (vector (column d r.sel).length (column d r.sel) i) order (linear ch) true).1 := by
    intro i
    have hi : i.1 < rows.length := hlen ▸ i.2
    unfold vector
    generalize i.1 = k at hi
    rw [eP, eV]
    simp only [List.getD_eq_getElem?_getD, List.getElem?_map, List.getElem?_eq_getElem hi, Option.map_some, Option.getD_some]
    have := hc.pressure _ (List.getElem_mem hi)
    simpa only [List.getD_eq_getElem?_getD] using this
  have hheld : Held r.setup.fix r.setup.p0 q := by
    rw [hfix]
    exact ⟨fun h => (hh 0 h).symm, fun h => (hh 1 h).symm, fun h => (hh 2 h).symm, fun h => (hh 3 h).symm⟩
  rw [hf, ho, hl] at h2
  obtain ⟨best, only⟩ := best_exact (orthogonal := decide (r.setup.job = .odr)) hc.solid (hlen ▸ hc.enough) hinj hpos
    (weight_pos fun l h => by rw [hlen]; exact hsV l h) (weight_pos fun l h => by rw [hlen]; exact hsP l h) hpress
    (B := Held r.setup.fix r.setup.p0) hheld
  obtain ⟨b, δ, hb, hε⟩ := h2 ⟨q, 0, best⟩
  refine ⟨b, only b δ hb, hfix ▸ hb.1.2, fun i => ?_⟩
  have e : out = odr f order (linear ch) r.setup (column d r.sel) (column d c!"p")
      (if r.sigmaV then d.columns (c!"sigma" ++ r.sel) else none) (if r.sigmaP then d.columns c!"sigmap" else none) := by
    simp only [out, fitColumn, hf, ho, hl]
  rw [e]
  exact hε i

/-- The line of a parameter in the log of a fit. -/
theorem log_lines {d : EoSData} {odr : Odr} {r : Record} {ch : Choice} (hs : r.sel = ch.key) (ho : 2 ≤ r.order ∧ r.order ≤ 4)
    (h4 : r.fixed.length = 4) (h01 : ∀ x ∈ r.fixed, x = 0 ∨ x = 1)
    (hout : IsOutput (fitColumn odr d r.sel r.form r.order r.linear r.setup r.sigmaP r.sigmaV) (column d r.sel) (column d c!"p"))
    (vunit punit : Str) :
    ∃ before parameters after, logOf vunit punit odr d r = .ok (before ++ [c!"Fitting parameters:"] ++ parameters ++ after) ∧
      parameters.length = 4 ∧ c!"EOS formulation: " ++ nameOf r.form ∈ before ∧
      ∀ (i : Fin 4) (x ε : ℝ),
        |entry (betaOf (fitColumn odr d r.sel r.form r.order r.linear r.setup r.sigmaP r.sigmaV)) i - x| ≤ ε →
        ∃ l, parameters[i.1]? = some l ∧ Shows (ch.parameter i) x (ε + 1 / (2 * 10 ^ 5)) l := by
  obtain ⟨head, parameters, covariance, variance, stops, titles, rule, lines, h, hlen, hpar, -, -, -, -, hname, -⟩ :=
    C107_report_partial vunit punit hout ch (nameOf r.form) ho r.sigmaP r.sigmaV (fun i => decide (r.fixed.getD i.1 0 = 0))
  rw [fixed_ofFn h4 h01] at h
  refine ⟨head, parameters, [[], c!"Covariance matrix:"] ++ covariance ++
          [[], variance, [], c!"Exited ODR loop because:"] ++ stops ++
          [[], c!"Calculated data:\n", titles, rule] ++ lines ++ [[], frame, []], ?_, hlen, hname, fun i x ε hx => ?_⟩
  · rw [logOf, hs] at *
    rw [h]
    simp only [List.append_assoc]
  · set out := fitColumn odr d r.sel r.form r.order r.linear r.setup r.sigmaP r.sigmaV with hout'
    have hi := i.2
    obtain ⟨β, hb⟩ : ∃ β, out.beta[i.1]? = some β := ⟨_, List.getElem?_eq_getElem (by rw [hout.beta_len]; exact hi)⟩
    obtain ⟨σ, hsd⟩ : ∃ σ, out.sdBeta[i.1]? = some σ := ⟨_, List.getElem?_eq_getElem (by rw [hout.sdBeta_len]; exact hi)⟩
    obtain ⟨l, hl⟩ : ∃ l, parameters[i.1]? = some l := ⟨_, List.getElem?_eq_getElem (by rw [hlen]; exact hi)⟩
    obtain ⟨b', s', tb, ts, flags, hb', -, htb, hts, -, -, htok⟩ := hpar i _ _ _ hb hsd hl
    refine ⟨_, hl, b', s', tb, ts, flags, htb, hts, ?_, htok⟩
    have he : entry (betaOf out) i = (β : ℝ) := by
      fin_cases i <;> simp only [Fin.mk_zero, Fin.mk_one, Fin.reduceFinMk, Fin.isValue, Fin.val_zero, Fin.val_one] at hb <;>
        simp_all [entry, betaOf, List.getD_eq_getElem?_getD]
    rw [he] at hx
    have h5 : ((|b' - β| : ℚ) : ℝ) ≤ ((1 / (2 * 10 ^ 5) : ℚ) : ℝ) := Rat.cast_le.2 hb'.2
    push_cast at h5
    calc |(b' : ℝ) - x| ≤ |(b' : ℝ) - β| + |(β : ℝ) - x| := abs_sub_le _ _ _
      _ ≤ ε + 1 / (2 * 10 ^ 5) := by linarith

theorem order_range {f : Formulation} {order : ℕ} (h : order ∈ Session.Spec.supported f) : 2 ≤ order ∧ order ≤ 4 := by
  cases f <;> simp only [Session.Spec.supported, List.mem_cons, List.not_mem_nil, or_false] at h <;> omega

/-- **C151, proved part.**  A file of volumes (or lengths of an axis) and pressures that lie on an equation of state is read,
and in every session on it, whatever was answered and fitted before, each fit with that equation of state writes a log in
which the parameters that it refines have their true values: within the error of the regression and half a unit of the
fifth decimal.  The answers may weight the fit or not, and hold true values.  Missing: the parameters that the order
implies (see `C151_implied_violated`). -/
theorem C151_recovered_partial (hj : match title with | some t => JobSection t js | none => js = [])
    (h : FormatData names.length names rows ls) (hf : IsText (js ++ ls) text) (hdis : (names.map lower).Nodup)
    (hu : title ≠ some c!"Unknown") {f : Formulation} {order : ℕ} {ch : Choice} {q : Pars} {p v : ℕ}
    (hc : OnCurve f order ch q names rows p v) {ε : ℝ} {odr : Odr} (hodr : Regresses ε odr) :
    ∃ d, readInput text .initial = .ok (d, none) ∧
      ∀ parseInt parseFloat round5 polyfit n lines,
        ∀ r ∈ session (world parseInt parseFloat round5 polyfit odr d) n lines,
          r.sel = ch.key → r.form = f → r.order = order → HeldTrue r q → ∀ vunit punit : Str,
            ∃ before parameters after,
              logOf vunit punit odr d r = .ok (before ++ [c!"Fitting parameters:"] ++ parameters ++ after) ∧
              parameters.length = 4 ∧ c!"EOS formulation: " ++ nameOf f ∈ before ∧
              ∀ i, Refined order i → ∃ l, parameters[i.1]? = some l ∧
                Shows (ch.parameter i) (entry q i) (ε + 1 / (2 * 10 ^ 5)) l := by
  obtain ⟨d, h1, h2⟩ := read_file hj h hf hdis hu hc.is_pressure hc.is_quantity
  refine ⟨d, h1, fun parseInt parseFloat round5 polyfit n lines r hr hs hform ho hh vunit punit => ?_⟩
  obtain ⟨hout, -, b, hb, -, hε⟩ := fit_exact hc h2 hodr (fun k => rfl) hr hs hform ho hh
  obtain ⟨-, -, -, hsup, -, -, hl4, h01, -⟩ := C30_session _ n lines r hr
  have hfix : r.setup.fix = r.fixed := by rw [setup_eq _ n lines r hr]; rfl
  rw [hfix] at hl4 h01
  obtain ⟨before, parameters, after, e1, e2, e3, e4⟩ := log_lines hs (order_range hsup) hl4 h01 hout vunit punit
  refine ⟨before, parameters, after, e1, e2, hform ▸ e3, fun i hi => ?_⟩
  refine e4 i _ ε ?_
  rw [← refined_entry (hform ▸ ho ▸ hsup) hb i hi]
  exact hε i

/-- **C151, violated.**  In a second-order fit the equation of state has a derivative `K'` of its own (4, 2, 1, 4 for the four
formulations that have a second order), whatever is given.  When the user holds `K'`, the log shows the value they started
from as the result: for any entered value that differs, a `K'` that the fitted curve does not have. -/
theorem C151_implied_violated (hj : match title with | some t => JobSection t js | none => js = [])
    (h : FormatData names.length names rows ls) (hf : IsText (js ++ ls) text) (hdis : (names.map lower).Nodup)
    (hu : title ≠ some c!"Unknown") {f : Formulation} {q : Pars} {p v : ℕ}
    (hc : OnCurve f 2 .volume q names rows p v) {ε : ℝ} {odr : Odr} (hodr : Regresses ε odr) :
    ∃ d, readInput text .initial = .ok (d, none) ∧
      ∀ parseInt parseFloat round5 polyfit n lines,
        ∀ r ∈ session (world parseInt parseFloat round5 polyfit odr d) n lines,
          r.sel = c!"v" → r.form = f → r.order = 2 → r.fixed = [1, 0, 1, 1] → ∀ vunit punit : Str,
            (∃ before parameters after,
              logOf vunit punit odr d r = .ok (before ++ [c!"Fitting parameters:"] ++ parameters ++ after) ∧
              ∃ l, parameters[1]? = some l ∧ Shows c!"K'" r.entered.Kp (ε + 1 / (2 * 10 ^ 5)) l) ∧
            ∀ b V, some (eos f b V 2 false true).2.Kp = impliedKp f := by
  -- the true solid, with the entered `K'`
  have hc' : ∀ x : ℝ, OnCurve f 2 .volume { q with Kp := x } names rows p v ∨ f = .murnaghan := by
    intro x
    by_cases hm : f = .murnaghan
    · exact .inr hm
    · left
      have e : parsAfter f { q with Kp := x } 2 false true = parsAfter f q 2 false true := by
        unfold parsAfter
        congr 1
        cases f
        · exact absurd rfl hm
        all_goals rfl
      exact { hc with
        solid := by
          show PSolid f 2 (parsAfter f { q with Kp := x } 2 false true)
          rw [e]; exact hc.solid
        pressure := fun r hr => by
          show _ = (eos f { q with Kp := x } _ 2 false true).1
          rw [eos, e]; exact hc.pressure r hr }
  obtain ⟨d, h1, h2⟩ := read_file hj h hf hdis hu hc.is_pressure hc.is_quantity
  refine ⟨d, h1, fun parseInt parseFloat round5 polyfit n lines r hr hs hform ho hfx vunit punit => ?_⟩
  obtain ⟨-, -, hlin, hsup, -, -, hl4, h01, -⟩ := C30_session _ n lines r hr
  have hm : f ≠ .murnaghan := by
    rintro rfl
    rw [hform, ho] at hsup
    simp [Session.Spec.supported] at hsup
  have hset := setup_eq _ n lines r hr
  have hl : r.linear = false := by
    cases hb : r.linear
    · rfl
    · exact absurd hs (hlin.1 hb)
  have hp0 : r.setup.p0 = r.entered := by rw [hset]; simp [fitSetup, hl]
  obtain ⟨hout, -, b, hb, hheld, hε⟩ := fit_exact ((hc' r.entered.Kp).resolve_right hm) h2 hodr (fun k => rfl) hr hs hform ho
    (by
      intro i hi
      rw [hfx] at hi
      rw [hp0]
      fin_cases i <;> simp at hi
      rfl)
  have hfix : r.setup.fix = r.fixed := by rw [hset]; rfl
  rw [hfix] at hl4 h01
  obtain ⟨before, parameters, after, e1, e2, e3, e4⟩ := log_lines (ch := .volume) hs (order_range hsup) hl4 h01 hout vunit punit
  refine ⟨⟨before, parameters, after, e1, e4 1 _ ε ?_⟩, fun b V => ?_⟩
  · have : b.Kp = r.entered.Kp := by rw [← hp0]; exact hheld.2.1 (by rw [hfx]; rfl)
    rw [← this]
    exact hε 1
  · cases f
    · exact absurd rfl hm
    all_goals rfl

end Verif.Chain.Eos
