/-
The theorems about `quantas eosfit` applied to concrete files and sessions.
-/
import Verif.Chain.EosProps

noncomputable section

namespace Verif.Chain.Eos.Cases
open Verif.Py Verif.IO Verif.IO.Spec Verif.EoS Verif.EoS.Spec Verif.Session Verif.Report Verif.Report.Spec Verif.Chain.Eos Spec

/-! ### A regression that can be taken at its word, to any accuracy -/

theorem rat_near (x : ℝ) {ε : ℝ} (hε : 0 < ε) : ∃ y : ℚ, |(y : ℝ) - x| ≤ ε := by
  obtain ⟨y, h1, h2⟩ := exists_rat_btwn (show x - ε < x + ε by linarith)
  exact ⟨y, abs_le.2 ⟨by linarith, by linarith⟩⟩

def outputOf (b : Fin 4 → ℚ) (P : List ℚ) : Output :=
  ⟨[b 0, b 1, b 2, b 3], [0, 0, 0, 0], [[0, 0, 0, 0], [0, 0, 0, 0], [0, 0, 0, 0], [0, 0, 0, 0]], 0, [c!"Sum of squares convergence"],
    P.map fun _ => 0, P, P.map fun _ => 0⟩

theorem outputOf_shape (b : Fin 4 → ℚ) {V P : List ℚ} (h : P.length = V.length) : IsOutput (outputOf b P) V P where
  beta_len := rfl
  sdBeta_len := rfl
  cov_len := rfl
  row_len := by simp [outputOf]
  pressure_len := h
  delta_len := by simp [outputOf, h]
  y_len := h
  eps_len := by simp [outputOf, h]
  residual := by
    intro i _
    simp only [outputOf, List.getD_eq_getElem?_getD, List.getElem?_map]
    cases P[i]? <;> simp

/-- For every accuracy there is a regression that has it. -/
theorem regresses_exists {ε : ℝ} (hε : 0 < ε) : ∃ odr : Odr, Regresses ε odr := by
  have key : ∀ (f : Formulation) (order : ℕ) (linear : Bool) (s : Setup) (V P : List ℚ) (sV sP : Option (List ℚ)),
      ∃ o : Output, P.length = V.length → (∀ l ∈ sV, l.length = V.length) → (∀ l ∈ sP, l.length = V.length) →
        let best := BestP (n := V.length) (fun r => PSolid f order (parsAfter f r order linear true) ∧ Held s.fix s.p0 r)
          (fun r v => (eos f r v order linear true).1) (decide (s.job = .odr)) (vector _ V) (vector _ P)
          (weight (sV.map (vector _))) (weight (sP.map (vector _)))
        IsOutput o V P ∧ ((∃ p δ, best p δ) → ∃ p δ, best p δ ∧ ∀ i, |entry (betaOf o) i - entry p i| ≤ ε) := by
    intro f order linear s V P sV sP
    by_cases hb : ∃ p δ, BestP (n := V.length) (fun r => PSolid f order (parsAfter f r order linear true) ∧ Held s.fix s.p0 r)
          (fun r v => (eos f r v order linear true).1) (decide (s.job = .odr)) (vector _ V) (vector _ P)
          (weight (sV.map (vector _))) (weight (sP.map (vector _))) p δ
    · obtain ⟨p, δ, hp⟩ := hb
      choose b hb using fun i => rat_near (entry p i) hε
      refine ⟨outputOf b P, fun h _ _ => ⟨outputOf_shape b h, fun _ => ⟨p, δ, hp, fun i => ?_⟩⟩⟩
      have := hb i
      fin_cases i <;> simpa [outputOf, betaOf, entry] using this
    · exact ⟨outputOf 0 P, fun h _ _ => ⟨outputOf_shape 0 h, fun h => absurd h hb⟩⟩
  choose odr h using key
  exact ⟨odr, h⟩

/-! ### A file on a curve of Murnaghan -/

/-- The lines, each with its newline. -/
def etext (ls : List Str) : Str := ls.flatMap (· ++ ['\n'])

def lines : List Str := [c!"FORMAT", c!"P V", c!"DATA", c!"0 8", c!"57.65625 6.4", c!"600 4", c!"222.144 5"]

theorem lines_data : FormatData 2 [c!"P", c!"V"] [[0, 8], [57.65625, 6.4], [600, 4], [222.144, 5]] lines :=
  ⟨[], c!"FORMAT", [], c!"P V", [], c!"DATA", _, rfl, by simp,
    ⟨c!"FORMAT", [], words_witness (by decide) (by decide), by decide⟩, by simp,
    words_witness (by decide) (by decide), ⟨_, _, rfl, by decide, by decide⟩, by simp,
    ⟨c!"DATA", [], words_witness (by decide) (by decide), by decide⟩,
    .row (numbers_of (by decide) (by decide +kernel)) (by simp) (by simp)
      (.row (numbers_of (by decide) (by decide +kernel)) (by simp) (by simp)
        (.row (numbers_of (by decide) (by decide +kernel)) (by simp) (by simp)
          (.row (numbers_of (by decide) (by decide +kernel)) (by simp) (by simp) .nil)))⟩

theorem lines_text : IsText ([] ++ lines) (etext lines) := ⟨by decide, .inl rfl⟩

theorem no_sigma {names : List Str} (h : ∀ n ∈ names, lower n ≠ c!"sigmap" ∧ lower n ≠ c!"sigmav") {s : ℕ} {k : Str}
    (hk : k = c!"sigmap" ∨ k = c!"sigmav") : ¬ Holds names s k := by
  rintro ⟨name, hn, e⟩
  have := h name (List.mem_of_getElem? hn)
  rcases hk with rfl | rfl
  · exact this.1 e
  · exact this.2 e

theorem on_curve : OnCurve .murnaghan 3 .volume ⟨160, 4, 0, 8⟩ [c!"P", c!"V"]
    [[0, 8], [57.65625, 6.4], [600, 4], [222.144, 5]] 0 1 where
  solid := by simp [linear, PSolid, parsAfter, setKp, setKpp, Regular, Stiffening] 
  is_pressure := ⟨_, rfl, by decide⟩
  is_quantity := ⟨_, rfl, by decide⟩
  positive := by decide +kernel
  distinct := by decide +kernel
  enough := by decide
  pressure := by
    simp only [List.mem_cons, List.not_mem_nil, or_false, forall_eq_or_imp, forall_eq, linear, eos, parsAfter, setKp, setKpp,
      formula]
    norm_num
  errors := by
    rintro s (h | h)
    · exact absurd h (no_sigma (by decide) (.inl rfl))
    · exact absurd h (no_sigma (by decide) (.inr rfl))

/-- The session: volumes, the formulation offered first, all defaults. -/
theorem one_fit {w : World} (hv : w.avail c!"v" = true) (h1 : w.avail c!"sigmap" = false) (h2 : w.avail c!"sigmav" = false) :
    ∃ r ∈ session w 3 [c!"v", [], [], [], [], [], []], r.sel = c!"v" ∧ r.form = .murnaghan ∧ r.order = 3 ∧
      r.fixed = [1, 1, 1, 1] := by
  simp [hv, h1, h2, session, exec, step, selectData, selectEos, eosResult, setEos, setEosOrder, fitStep,
    setParameters, setFixed, setWeights, confirm, choose, chosen, ask, promptValue, bind_eq,
    pure_eq, Session.dataTypes, eosFunctions, eosOrders, List.lookup, Session.strip, lower, fitSetup]

/-- A log of this file that has the true parameters to within 10⁻⁵. -/
example : ∃ (odr : Odr) (d : EoSData), readInput (etext lines) .initial = .ok (d, none) ∧
    ∀ parseInt parseFloat round5 polyfit, ∃ r ∈ session (world parseInt parseFloat round5 polyfit odr d) 3
        [c!"v", [], [], [], [], [], []], ∃ before parameters after,
      logOf c!"A^3" c!"GPa" odr d r = .ok (before ++ [c!"Fitting parameters:"] ++ parameters ++ after) ∧
      ∃ l, parameters[0]? = some l ∧ Shows c!"K0" 160 (1 / 10 ^ 5) l := by
  obtain ⟨odr, h⟩ := regresses_exists (ε := 1 / (2 * 10 ^ 5)) (by norm_num)
  obtain ⟨d, h1, h2⟩ := C151_recovered_partial (title := none) rfl lines_data lines_text (by decide) (by decide) on_curve h
  obtain ⟨d', h1', hd⟩ := read_file (title := none) rfl lines_data lines_text (by decide) (by decide) on_curve.is_pressure
    on_curve.is_quantity
  obtain rfl : d = d' := by rw [h1] at h1'; simpa using h1'
  refine ⟨odr, d, h1, fun parseInt parseFloat round5 polyfit => ?_⟩
  obtain ⟨r, hr, hs, hf, ho, hx⟩ := one_fit (w := world parseInt parseFloat round5 polyfit odr d)
    (by show (d.columns (Quantity.key .volume)).isSome = true; rw [hd.present .volume 1 ⟨_, rfl, by decide⟩]; rfl)
    (by show (d.columns (Quantity.key .sigmaP)).isSome = false; rw [hd.absent .sigmaP (by decide)]; rfl)
    (by show (d.columns (Quantity.key .sigmaV)).isSome = false; rw [hd.absent .sigmaV (by decide)]; rfl)
  obtain ⟨before, parameters, after, e1, -, -, e2⟩ := h2 _ _ _ _ _ _ r hr hs hf ho
    (fun i hi => by rw [hx] at hi; fin_cases i <;> simp at hi) c!"A^3" c!"GPa"
  obtain ⟨l, hl, hs⟩ := e2 0 trivial
  exact ⟨r, hr, before, parameters, after, e1, l, hl, by norm_num at hs ⊢; exact hs⟩

/-! ### A second-order curve of Birch and Murnaghan -/

def lines2 : List Str := [c!"FORMAT", c!"P V", c!"DATA", c!"0 27", c!"2278.125 8", c!"466560 1"]

theorem lines2_data : FormatData 2 [c!"P", c!"V"] [[0, 27], [2278.125, 8], [466560, 1]] lines2 :=
  ⟨[], c!"FORMAT", [], c!"P V", [], c!"DATA", _, rfl, by simp,
    ⟨c!"FORMAT", [], words_witness (by decide) (by decide), by decide⟩, by simp,
    words_witness (by decide) (by decide), ⟨_, _, rfl, by decide, by decide⟩, by simp,
    ⟨c!"DATA", [], words_witness (by decide) (by decide), by decide⟩,
    .row (numbers_of (by decide) (by decide +kernel)) (by simp) (by simp)
      (.row (numbers_of (by decide) (by decide +kernel)) (by simp) (by simp)
        (.row (numbers_of (by decide) (by decide +kernel)) (by simp) (by simp) .nil))⟩

theorem lines2_text : IsText ([] ++ lines2) (etext lines2) := ⟨by decide, .inl rfl⟩

/-- The pressure of the second order where the ratio of the volumes is a cube. -/
theorem birch2 {r : ℝ} (hr : 0 < r) {V : ℝ} (hV : 0 < V) (h : 27 / V = r ^ 3) :
    (eos .birchMurnaghan ⟨160, 4, 0, 27⟩ V 2 false true).1 = 240 * (r ^ 2 - 1) * r ^ 5 := by
  have e1 : (27 / V : ℝ) ^ ((2 : ℝ) / 3) = r ^ 2 := by
    rw [h, ← Real.rpow_natCast, ← Real.rpow_mul hr.le, ← Real.rpow_natCast]
    norm_num
  have e2 : (r ^ 2 : ℝ) ^ (2.5 : ℝ) = r ^ 5 := by
    rw [← Real.rpow_natCast, ← Real.rpow_mul hr.le, ← Real.rpow_natCast]
    norm_num
  simp only [eos, parsAfter, setKp, setKpp, formula, impliedKp]
  norm_num [e1]
  rw [show (1 : ℝ) + 2 * (1 / 2 * (r ^ 2 - 1)) = r ^ 2 by ring, show (5 / 2 : ℝ) = 2.5 by norm_num, e2]
  ring

theorem on_curve2 : OnCurve .birchMurnaghan 2 .volume ⟨160, 4, 0, 27⟩ [c!"P", c!"V"]
    [[0, 27], [2278.125, 8], [466560, 1]] 0 1 where
  solid := by simp [linear, PSolid, parsAfter, setKp, setKpp, Regular, Stiffening, impliedKp]
  is_pressure := ⟨_, rfl, by decide⟩
  is_quantity := ⟨_, rfl, by decide⟩
  positive := by decide +kernel
  distinct := by decide +kernel
  enough := by decide
  pressure := by
    simp only [List.mem_cons, List.not_mem_nil, or_false, forall_eq_or_imp, forall_eq, linear]
    refine ⟨?_, ?_, ?_⟩
    · rw [birch2 (r := 1)] <;> norm_num
    · rw [birch2 (r := 3 / 2)] <;> norm_num
    · rw [birch2 (r := 3)] <;> norm_num
  errors := by
    rintro s (h | h)
    · exact absurd h (no_sigma (by decide) (.inl rfl))
    · exact absurd h (no_sigma (by decide) (.inr rfl))

/-- The session: volumes, Birch-Murnaghan of second order, `K'` typed as 5 and held. -/
theorem held_fit {w : World} (hv : w.avail c!"v" = true) (h1 : w.avail c!"sigmap" = false) (h2 : w.avail c!"sigmav" = false)
    (hi : w.parseInt c!"2" = some 2) (hp : w.parseFloat c!"5" = some 5) :
    ∃ r ∈ session w 3 [c!"v", c!"2", c!"2", c!"y", [], c!"5", [], [], c!"y", [], c!"y", [], [], [], []], r.sel = c!"v" ∧
      r.form = .birchMurnaghan ∧ r.order = 2 ∧ r.fixed = [1, 0, 1, 1] ∧ r.entered.Kp = 5 := by
  simp [hv, h1, h2, hi, hp, session, exec, step, selectData, selectEos, eosResult, setEos, setEosOrder, fitStep, askFloat, askFix,
    setParameters, setFixed, setWeights, confirm, choose, chosen, ask, promptValue, bind_eq,
    pure_eq, Session.dataTypes, eosFunctions, eosOrders, List.lookup, Session.strip, lower, fitSetup]

/-- The log says that `K'` is 5; the curve of second order has 4. -/
example : ∃ (odr : Odr) (d : EoSData), readInput (etext lines2) .initial = .ok (d, none) ∧
    ∀ polyfit, ∃ r ∈ session (world (fun _ => some 2) (fun _ => some 5) id polyfit odr d) 3
        [c!"v", c!"2", c!"2", c!"y", [], c!"5", [], [], c!"y", [], c!"y", [], [], [], []], ∃ before parameters after,
      logOf c!"A^3" c!"GPa" odr d r = .ok (before ++ [c!"Fitting parameters:"] ++ parameters ++ after) ∧
      (∃ l, parameters[1]? = some l ∧ Shows c!"K'" 5 (1 / 10 ^ 5) l) ∧
      ∀ b V, (eos .birchMurnaghan b V 2 false true).2.Kp = 4 := by
  obtain ⟨odr, h⟩ := regresses_exists (ε := 1 / (2 * 10 ^ 5)) (by norm_num)
  obtain ⟨d, h1, h2⟩ := C151_implied_violated (title := none) rfl lines2_data lines2_text (by decide) (by decide) on_curve2 h
  obtain ⟨d', h1', hd⟩ := read_file (title := none) rfl lines2_data lines2_text (by decide) (by decide) on_curve2.is_pressure
    on_curve2.is_quantity
  obtain rfl : d = d' := by rw [h1] at h1'; simpa using h1'
  refine ⟨odr, d, h1, fun polyfit => ?_⟩
  obtain ⟨r, hr, hs, hf, ho, hx, he⟩ := held_fit (w := world (fun _ => some 2) (fun _ => some 5) id polyfit odr d)
    (by show (d.columns (Quantity.key .volume)).isSome = true; rw [hd.present .volume 1 ⟨_, rfl, by decide⟩]; rfl)
    (by show (d.columns (Quantity.key .sigmaP)).isSome = false; rw [hd.absent .sigmaP (by decide)]; rfl)
    (by show (d.columns (Quantity.key .sigmaV)).isSome = false; rw [hd.absent .sigmaV (by decide)]; rfl) rfl rfl
  obtain ⟨⟨before, parameters, after, e1, l, hl, hs⟩, e2⟩ := h2 _ _ _ _ _ _ r hr hs hf ho hx c!"A^3" c!"GPa"
  rw [he] at hs
  exact ⟨r, hr, before, parameters, after, e1, ⟨l, hl, by norm_num at hs ⊢; exact hs⟩, fun b V => by
    have := e2 b V
    simpa [impliedKp] using this⟩

end Verif.Chain.Eos.Cases
