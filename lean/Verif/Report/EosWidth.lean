/-
C107, C108, C109: the lines of the tables of the equation-of-state and quasi-harmonic logs are as long as their rules.
-/
import Verif.Report.ElasticWidth
import Verif.Report.QhaProps

noncomputable section

namespace Verif.Report
open Verif.Py Verif.IO Verif.Phonon Verif.Export Verif.Export.Spec Spec

theorem collect_mem {l : List (Except PyErr Str)} {ls : List Str} (h : collect l = .ok ls) {x : Str} (hx : x ∈ ls) :
    .ok x ∈ l := by
  induction l generalizing ls with
  | nil => obtain rfl := Except.ok.inj h; cases hx
  | cons a rest ih =>
    cases a with
    | error e => simp [collect] at h
    | ok y =>
      rw [collect] at h
      split at h
      · rename_i ys hys
        obtain rfl := Except.ok.inj h
        rcases List.mem_cons.1 hx with rfl | hx
        · exact List.mem_cons_self
        · exact List.mem_cons_of_mem _ (ih hys hx)
      · cases h

theorem item_get {α : Type} {xs : List α} {i : ℕ} {x : α} (h : item xs i = .ok x) : xs[i]? = some x := by
  unfold item at h
  split at h
  · rename_i y hy; rw [hy]; exact congrArg some (Except.ok.inj h)
  · cases h

theorem alignRight_length {w : ℕ} {s : Str} (h : s.length ≤ w) : (IO.alignRight w s).length = w := by
  simp [IO.alignRight]; omega

theorem formatFixed_length_nonneg {d k : ℕ} {x : ℚ} (hk : 0 < k) (h0 : 0 ≤ x) (h : x ≤ 10 ^ k - 1) :
    (formatFixed d x).length ≤ k + d + 1 := by
  rcases eq_or_lt_of_le h0 with rfl | hx
  · have := formatFixed_length (d := d) (k := k) (x := 0) hk (by simpa using h)
    have e : (showNat ((roundHalfEven (|(0 : ℚ)| * 10 ^ d)).toNat / 10 ^ d)).length ≤ k := by
      refine showNat_length hk ?_
      have : roundHalfEven (|(0 : ℚ)| * 10 ^ d) = 0 := by
        have := roundHalfEven_int 0
        simpa using this
      rw [this]
      simp
    have h4 := (lastDigits_spec d (roundHalfEven (|(0 : ℚ)| * 10 ^ d)).toNat).2.1
    simp only [formatFixed, List.length_append, List.length_cons, h4, lt_irrefl, if_false, List.length_nil]
    omega
  · have hneg := formatFixed_length (d := d) (k := k) (x := -x) hk (by rw [abs_neg, abs_of_pos hx]; exact h)
    simp only [formatFixed, abs_neg, List.length_append, List.length_cons] at hneg ⊢
    simp only [Left.neg_neg_iff, hx, if_true, not_lt.2 h0, if_false, List.length_nil, List.length_cons] at hneg ⊢
    omega

theorem formatSpaced_length {d k : ℕ} {x : ℚ} (hk : 0 < k) (h : |x| ≤ 10 ^ k - 1) :
    (formatSpaced d x).length ≤ k + d + 2 := by
  unfold formatSpaced
  split
  · simpa using formatFixed_length (d := d) hk h
  · rename_i hx
    push Not at hx
    have := formatFixed_length_nonneg (d := d) hk hx (by rwa [abs_of_nonneg hx] at h)
    simp only [List.length_append, List.length_singleton]
    omega

/-! ### C108: the input of the equations of state -/

/-- The numbers of a column lie between the bounds. -/
def Spec.Between (lo hi : ℚ) (x : Option (List ℚ)) : Prop := ∀ xs, x = some xs → ∀ q ∈ xs, lo ≤ q ∧ q ≤ hi

theorem inputCell_length {x : Option (List ℚ)} {i : ℕ} {l : Str} (hb : Between 0 9999 x) (h : inputCell x i = .ok l) :
    l.length = 12 := by
  cases x with
  | none =>
    obtain rfl := Except.ok.inj h
    simp [center_length 10 c!"--" (by decide)]
  | some xs =>
    simp only [inputCell] at h
    cases hi : item xs i with
    | error e => rw [hi] at h; cases h
    | ok v =>
      rw [hi] at h
      obtain rfl := Except.ok.inj h
      obtain ⟨h1, h2⟩ := hb xs rfl v (List.mem_of_getElem? (item_get hi))
      have := formatFixed_length_nonneg (d := 5) (k := 4) (by norm_num) h1 (by norm_num; exact h2)
      simp [center_length 10 _ this]

/-- C108: when the pressures are below 10^5 GPa in absolute value and the volumes and axes are positive and below
10^4, the titles, the rule and the rows of the table all have 58 characters. -/
theorem C108_aligned (vunit punit : Str) {d : EoSData} {out : List Str} (h : reportInput vunit punit d = .ok out)
    (hp : Between (-99999) 99999 (d.get .pressure))
    (hd : ∀ q ∈ [Quantity.volume, .a, .b, .c], Between 0 9999 (d.get q)) :
    ∃ titles rule rows weights, out = [[], c!"Job: " ++ d.job, [], titles, rule] ++ rows ++ [[]] ++ weights ++ [[]] ∧
      ∀ l ∈ titles :: rule :: rows, l.length = 58 := by
  unfold reportInput at h
  split at h
  · cases h
  · rename_i p hpp
    cases hc : collect ((List.range p.length).map (inputLine d p)) with
    | error e => rw [hc] at h; cases h
    | ok rows =>
      rw [hc] at h
      obtain rfl := Except.ok.inj h
      refine ⟨_, _, rows, weightLines d, rfl, ?_⟩
      intro l hl
      rcases List.mem_cons.1 hl with rfl | hl
      · decide +kernel
      rcases List.mem_cons.1 hl with rfl | hl
      · decide +kernel
      have hm := collect_mem hc hl
      obtain ⟨i, -, hi⟩ := List.mem_map.1 hm
      unfold inputLine at hi
      cases h1 : item p i with
      | error e => rw [h1] at hi; cases hi
      | ok x =>
      cases h2 : inputCell (d.get .volume) i with
      | error e => rw [h1, h2] at hi; cases hi
      | ok v =>
      cases h3 : inputCell (d.get .a) i with
      | error e => rw [h1, h2, h3] at hi; cases hi
      | ok a =>
      cases h4 : inputCell (d.get .b) i with
      | error e => rw [h1, h2, h3, h4] at hi; cases hi
      | ok b =>
      cases h5 : inputCell (d.get .c) i with
      | error e => rw [h1, h2, h3, h4, h5] at hi; cases hi
      | ok c =>
        rw [h1, h2, h3, h4, h5] at hi
        obtain rfl := Except.ok.inj hi
        obtain ⟨b1, b2⟩ := hp p hpp x (List.mem_of_getElem? (item_get h1))
        have e : (formatFixed 3 x).length ≤ 10 :=
          formatFixed_length (d := 3) (k := 5) (by norm_num) (by rw [abs_le]; norm_num; exact ⟨b1, b2⟩)
        simp only [List.length_append, center_length 10 _ e, inputCell_length (hd _ (by simp)) h2,
          inputCell_length (hd _ (by simp)) h3, inputCell_length (hd _ (by simp)) h4,
          inputCell_length (hd _ (by simp)) h5]

/-! ### C107: the fit -/

/-- C107: when the numbers are below 10^8 in absolute value the titles, the rule and the rows of the table of a fit all
have 79 characters, and the lines of the frame have 80. -/
theorem C107_aligned {punit : Str} {pressure values : List ℚ} {r : Output} {eosName : Str} {order : ℕ} {wP wV : Bool}
    {fix : List ℕ} {out : List Str} (ch : Choice)
    (h : reportSelected c!"A" punit pressure r values ch.key eosName order wP wV fix = .ok out)
    (hb : ∀ q ∈ values ++ r.delta ++ pressure ++ r.y ++ r.eps, |q| ≤ 99999999) :
    ∃ before titles rule rows frame, out = before ++ [[], c!"Calculated data:\n", titles, rule] ++ rows ++ [[], frame, []] ∧
      frame.length = 80 ∧ ∀ l ∈ titles :: rule :: rows, l.length = 79 := by
  have hname : dataName ch.key = .ok ch.name := by cases ch <;> rfl
  simp only [reportSelected, hname, bind, Except.bind, reportFit] at h
  split at h
  · cases h
  split at h
  · cases h
  split at h
  · cases h
  rename_i titles ht
  split at h
  · cases h
  rename_i rows hr
  obtain rfl := Except.ok.inj h
  refine ⟨_, titles, fitRule, rows, frame, rfl, by decide +kernel, ?_⟩
  intro l hl
  rcases List.mem_cons.1 hl with rfl | hl
  · cases ch <;> (obtain rfl := Except.ok.inj ht; decide +kernel)
  rcases List.mem_cons.1 hl with rfl | hl
  · decide +kernel
  obtain ⟨i, -, hi⟩ := List.mem_map.1 (collect_mem hr hl)
  unfold fitLine at hi
  cases h1 : item values i with
  | error e => rw [h1] at hi; cases hi
  | ok v =>
  cases h2 : item r.delta i with
  | error e => rw [h1, h2] at hi; cases hi
  | ok d =>
  cases h3 : item pressure i with
  | error e => rw [h1, h2, h3] at hi; cases hi
  | ok p =>
  cases h4 : item r.y i with
  | error e => rw [h1, h2, h3, h4] at hi; cases hi
  | ok y =>
  cases h5 : item r.eps i with
  | error e => rw [h1, h2, h3, h4, h5] at hi; cases hi
  | ok e =>
    rw [h1, h2, h3, h4, h5] at hi
    obtain rfl := Except.ok.inj hi
    have m1 := hb v (by simp [List.mem_of_getElem? (item_get h1)])
    have m2 := hb d (by simp [List.mem_of_getElem? (item_get h2)])
    have m3 := hb p (by simp [List.mem_of_getElem? (item_get h3)])
    have m4 := hb y (by simp [List.mem_of_getElem? (item_get h4)])
    have m5 := hb e (by simp [List.mem_of_getElem? (item_get h5)])
    have f : ∀ {q : ℚ}, |q| ≤ 99999999 → (formatFixed 5 q).length ≤ 15 := fun h =>
      formatFixed_length (d := 5) (k := 8) (by norm_num) (by norm_num; exact h)
    have g : ∀ {q : ℚ}, |q| ≤ 99999999 → (formatSpaced 5 q).length ≤ 15 := fun h =>
      formatSpaced_length (d := 5) (k := 8) (by norm_num) (by norm_num; exact h)
    simp only [List.length_append, center_length 15 _ (f m1), center_length 15 _ (g m2), center_length 15 _ (f m3),
      center_length 15 _ (f m4), center_length 15 _ (g m5), List.length_cons, List.length_nil]

/-! ### C109: the quasi-harmonic results -/

theorem sciParts_small {d : ℕ} {x : ℚ} (h : FitsEnergy x) :
    (sciParts d x).1 / 10 ^ d < 10 ∧ (sciParts d x).2.natAbs < 10 ^ 3 := by
  by_cases h0 : x = 0
  · simp [sciParts, h0]
  obtain ⟨l1, l2⟩ := log_bounds h h0
  have hx : 0 < |x| := abs_pos.2 h0
  set e := Int.log 10 |x| with he
  have hhi : |x| < (10 : ℚ) ^ (e + 1) := by
    have := Int.lt_zpow_succ_log_self (b := 10) (by norm_num) |x|
    simpa using this
  have hle : roundHalfEven (|x| * (10 : ℚ) ^ ((d : ℤ) - e)) ≤ 10 ^ (d + 1) := by
    refine roundHalfEven_le ?_
    have : (10 : ℚ) ^ (e + 1) * (10 : ℚ) ^ ((d : ℤ) - e) = 10 ^ (d + 1) := by
      rw [← zpow_add₀ (by norm_num), ← zpow_natCast]
      congr 1
      push_cast
      ring
    have h3 := (mul_lt_mul_of_pos_right hhi (show (0 : ℚ) < (10 : ℚ) ^ ((d : ℤ) - e) by positivity)).le
    rw [this] at h3
    exact_mod_cast h3
  simp only [sciParts, if_neg h0, ← he]
  split
  · refine ⟨?_, ?_⟩
    · show 10 ^ d / 10 ^ d < 10
      rw [Nat.div_self (by positivity)]; norm_num
    · show (e + 1).natAbs < 1000
      omega
  · rename_i hm
    refine ⟨?_, ?_⟩
    · show (roundHalfEven (|x| * (10 : ℚ) ^ ((d : ℤ) - e))).toNat / 10 ^ d < 10
      rw [Nat.div_lt_iff_lt_mul (by positivity)]
      have h0' := roundHalfEven_nonneg (q := |x| * (10 : ℚ) ^ ((d : ℤ) - e)) (by positivity)
      have e10 : ((10 * 10 ^ d : ℕ) : ℤ) = 10 ^ (d + 1) := by push_cast; ring
      have hne : (roundHalfEven (|x| * (10 : ℚ) ^ ((d : ℤ) - e))).toNat ≠ 10 * 10 ^ d := by
        intro hc; exact hm (by rw [hc]; ring)
      omega
    · show e.natAbs < 1000
      omega

theorem sciSpaced_length {d : ℕ} {x : ℚ} (h : FitsEnergy x) : (sciSpaced d x).length ≤ d + 8 := by
  obtain ⟨h1, h2⟩ := sciParts_small (d := d) h
  have a := showNat_length (n := (sciParts d x).1 / 10 ^ d) (k := 1) (by norm_num) (by simpa using h1)
  have b := showNat_length (n := (sciParts d x).2.natAbs) (k := 3) (by norm_num) h2
  have c := (lastDigits_spec d (sciParts d x).1).2.1
  have g : (sciParts d x).2.natAbs < 10 → (showNat (sciParts d x).2.natAbs).length ≤ 1 := fun h =>
    showNat_length (k := 1) (by norm_num) (by simpa using h)
  have e1 : (if x < 0 then [] else [' ']).length + (if x < 0 then ['-'] else []).length ≤ 1 := by split <;> simp
  have e2 : (if (sciParts d x).2.natAbs < 10 then ['0'] else []).length +
      (showNat (sciParts d x).2.natAbs).length ≤ 3 := by
    split
    · have := g ‹_›
      simp only [List.length_singleton]; omega
    · simpa using b
  simp only [sciSpaced, sciLower, showExp, List.length_append, List.length_cons, c, List.cons_append, List.tail_cons]
  omega

variable {nt np : ℕ}

/-- C109: the titles and the rule of a block have 76 characters and the rows 77, the last a space, when the unit of the
temperature has at most three characters and that of the pressure at most four, the temperatures and the bulk moduli are
below 10^4, the volumes below 10^6 and the differences of the heat capacities below 10^7. -/
theorem C109_aligned (repr : ℚ → Str) (toKj : ℚ → ℚ) {tunit punit : Str} (t : QhaTable nt np) (ht : tunit.length ≤ 3)
    (hp : punit.length ≤ 4) (hT : ∀ j, |t.temperature j| ≤ 9999) (hV : ∀ j i, |t.VT j i| ≤ 999999)
    (hA : ∀ j i, FitsEnergy (t.alphaV j i)) (hK : ∀ j i, |t.KT j i| ≤ 9999) (hS : ∀ j i, |t.KS j i| ≤ 9999)
    (hC : ∀ j i, |toKj (t.CpmCv j i)| ≤ 9999999) :
    ∃ blocks : List (List Str), reportResults repr toKj tunit punit t = blocks.flatten ∧ blocks.length = np ∧
      ∀ (i : Fin np), ∃ head titles rule rows, blocks[i.1]? = some (head ++ [titles, rule] ++ rows ++ [[]]) ∧
        titles.length = 76 ∧ rule.length = 76 ∧ rows.length = nt ∧
        ∀ l ∈ rows, ∃ l', l = l' ++ [' '] ∧ l'.length = 76 := by
  refine ⟨_, rfl, by simp, fun i => ⟨[[], frame, c!"# Results at " ++ repr (t.pressure i) ++ c!" " ++ punit, frame, []],
    qhaTitles tunit punit, qhaRule, List.ofFn fun j => qhaLine toKj t i j, ?_, ?_, by decide +kernel, by simp, ?_⟩⟩
  · rw [List.getElem?_ofFn, dif_pos i.2]; rfl
  · have e1 : (c!"T (" ++ tunit ++ c!")").length ≤ 7 := by simp; omega
    have e2 : (c!"KT (" ++ punit ++ c!")").length ≤ 9 := by simp; omega
    have e3 : (c!"KS (" ++ punit ++ c!")").length ≤ 9 := by simp; omega
    unfold qhaTitles
    rw [List.length_append, List.length_append, List.length_append, List.length_append, List.length_append,
      List.length_append, List.length_append, List.length_append, List.length_append, List.length_append,
      center_length 7 _ e1, center_length 14 _ (by decide), center_length 16 _ (by decide), center_length 9 _ e2,
      center_length 9 _ e3, center_length 16 _ (by decide)]
    rfl
  · intro l hl
    obtain ⟨j, rfl⟩ := (List.mem_ofFn' _ _).1 hl
    refine ⟨_, rfl, ?_⟩
    have f : ∀ {d k : ℕ} {q : ℚ}, 0 < k → |q| ≤ 10 ^ k - 1 → (formatSpaced d q).length ≤ k + d + 2 := fun a b =>
      formatSpaced_length a b
    simp only [List.length_append, List.length_cons, List.length_nil,
      alignRight_length (w := 7) (f (d := 1) (k := 4) (by norm_num) (by norm_num; exact hT j)),
      alignRight_length (w := 14) (f (d := 6) (k := 6) (by norm_num) (by norm_num; exact hV j i)),
      alignRight_length (w := 16) (sciSpaced_length (d := 8) (hA j i)),
      alignRight_length (w := 9) (f (d := 3) (k := 4) (by norm_num) (by norm_num; exact hK j i)),
      alignRight_length (w := 9) (f (d := 3) (k := 4) (by norm_num) (by norm_num; exact hS j i)),
      alignRight_length (w := 16) ((f (d := 6) (k := 7) (by norm_num) (by norm_num; exact hC j i)).trans (by norm_num))]

/-- Two points of periclase: pressures and volumes. -/
example : ∃ (d : EoSData) (out : List Str), reportInput c!"A" c!"GPa" d = .ok out ∧
    Between (-99999) 99999 (d.get .pressure) ∧ ∀ q ∈ [Quantity.volume, .a, .b, .c], Between 0 9999 (d.get q) := by
  let d : EoSData := ⟨c!"MgO", fun s => if s = c!"p" then some [0, 2.5] else if s = c!"v" then some [74.7, 73.5] else none, []⟩
  have h1 : d.get .pressure = some [0, 2.5] := rfl
  have h2 : d.get .volume = some [74.7, 73.5] := rfl
  have h3 : ∀ q ∈ [Quantity.a, .b, .c], d.get q = none := by decide
  obtain ⟨titles, rule, rows, weights, h, -⟩ := C108_table c!"A" c!"GPa" (d := d) h1 (by
    intro q hq xs hxs
    rcases List.mem_cons.1 hq with rfl | hq
    · rw [h2, Option.some.injEq] at hxs; subst hxs; rfl
    · rw [h3 q hq] at hxs; cases hxs)
  refine ⟨d, _, h, ?_, ?_⟩
  · intro xs hxs q hq
    rw [h1, Option.some.injEq] at hxs
    subst hxs
    simp only [List.mem_cons, List.not_mem_nil, or_false] at hq
    rcases hq with rfl | rfl <;> norm_num
  · intro q hq xs hxs
    rcases List.mem_cons.1 hq with rfl | hq
    · rw [h2, Option.some.injEq] at hxs
      subst hxs
      intro q hq
      simp only [List.mem_cons, List.not_mem_nil, or_false] at hq
      rcases hq with rfl | rfl <;> norm_num
    · rw [h3 q hq] at hxs; cases hxs

/-- Their fit: the log is written, and its numbers are small. -/
example : ∃ (r : Output) (out : List Str), reportSelected c!"A" c!"GPa" [0, 2.5] r [74, 73] Choice.volume.key c!"BM" 3 true true
      ((List.ofFn fun _ : Fin 4 => false).map fun b => if b then 0 else 1) = .ok out ∧
    ∀ q ∈ ([74, 73] : List ℚ) ++ r.delta ++ [0, 2.5] ++ r.y ++ r.eps, |q| ≤ 99999999 := by
  let r : Output := ⟨[160, 4, -0.02, 74], [1, 0, 0, 0], List.replicate 4 [1, 0, 0, 0], 1 / 2, [c!"Sum of squares convergence"],
      [0, 0], [0.01, 2.52], [0.01, 0.02]⟩
  have hr : IsOutput r [74, 73] [0, 2.5] := ⟨rfl, rfl, rfl, by simp [r], rfl, rfl, rfl, rfl, fun i hi => by
    simp only [List.length_cons, List.length_nil] at hi
    interval_cases i <;> norm_num [r]⟩
  obtain ⟨head, parameters, covariance, variance, stops, titles, rule, rows, h, -⟩ :=
    C107_report_partial c!"A" c!"GPa" hr .volume c!"BM" (order := 3) ⟨by norm_num, by norm_num⟩ true true fun _ => false
  refine ⟨r, _, h, ?_⟩
  intro q hq
  simp only [r, List.cons_append, List.nil_append, List.mem_cons, List.not_mem_nil, or_false] at hq
  rcases hq with rfl | rfl | rfl | rfl | rfl | rfl | rfl | rfl | rfl | rfl <;> norm_num [abs_le]

/-- Quartz at room temperature. -/
example := C109_aligned (fun _ => c!"0.0") id (tunit := c!"K") (punit := c!"GPa")
  (⟨fun _ => 300, fun _ => 0, fun _ _ => 112.9, fun _ _ => 3 / 100000, fun _ _ => 37, fun _ _ => 38, fun _ _ => 1⟩ : QhaTable 1 1)
  (by decide) (by decide) (fun _ => by norm_num [abs_le]) (fun _ _ => by norm_num [abs_le])
  (fun _ _ => .inr ⟨by
    rw [abs_of_pos (by norm_num)]
    have e : (10 : ℚ) ^ 5 ≤ 10 ^ 324 := pow_le_pow_right₀ (by norm_num) (by norm_num)
    exact (one_div_le_one_div_of_le (by norm_num) e).trans (by norm_num), by
    rw [abs_of_pos (by norm_num)]
    exact lt_of_lt_of_le (by norm_num) (one_le_pow₀ (a := (10 : ℚ)) (n := 309) (by norm_num))⟩) (fun _ _ => by norm_num [abs_le])
  (fun _ _ => by norm_num [abs_le]) (fun _ _ => by norm_num [abs_le])

end Verif.Report
