/-
C124: an equation of state fitted in other units of pressure and volume, or to a cell of another size, is the
same equation of state.
-/
import Verif.EoS.IdentifySpec
import Verif.Guess.Props
import Verif.Session.Model

namespace Verif.EoS
open Verif.Py Verif.EoS.Spec Verif.Session

/-! ### What `EOS.fit` returns -/

/-- The arrays handed to `EOS.fit` (pv_eos.py:88-96): volumes, pressures and their uncertainties, which may be
missing. -/
structure Data (n : ℕ) where
  V : Fin n → ℝ
  P : Fin n → ℝ
  sV : Option (Fin n → ℝ)
  sP : Option (Fin n → ℝ)

/-- Weights of the data (`RealData(V, P, sigmaV, sigmaP)`, pv_eos.py:152; third party): the inverse squares of the
uncertainties, and one where they are missing. -/
noncomputable def weight {n : ℕ} : Option (Fin n → ℝ) → Fin n → ℝ
  | none, _ => 1
  | some s, i => 1 / s i ^ 2

/-- `ifixb=fix` (pv_eos.py:153; third party): a parameter marked 0 keeps its starting value. -/
def Held (fix : List ℕ) (p0 r : Pars) : Prop :=
  (fix[0]? = some 0 → r.K0 = p0.K0) ∧ (fix[1]? = some 0 → r.Kp = p0.Kp) ∧
    (fix[2]? = some 0 → r.Kpp = p0.Kpp) ∧ (fix[3]? = some 0 → r.V0 = p0.V0)

/-- `EOS.fit` (pv_eos.py:88-159): `p` is what the regression returns, with the shifts `δ` of the volumes.  The
regression (third party) is taken at its word: it finds parameters of least misfit among those of a solid that
resists compression, holding the parameters it is told to hold. -/
def Fitted (polyfit : Guess.Polyfit) (f : Formulation) {n : ℕ} (d : Data n) (guess : Option Pars) (order : ℕ)
    (linear : Bool) (fixed : Option (List ℕ)) (p : Pars) (δ : Fin n → ℝ) : Prop :=
  let s := fitSetup (Guess.pvGuess polyfit d.V d.P) guess d.sV.isSome d.sP.isSome order linear fixed
  BestP (fun r => PSolid f order (parsAfter f r order linear true) ∧ Held s.fix s.p0 r)
    (fun r v => (eos f r v order linear true).1) (decide (s.job = .odr)) d.V d.P (weight d.sV) (weight d.sP) p δ

namespace Spec

/-- Parameters in units in which a volume has `l` times and a pressure `m` times its numerical value: `K0` is a
pressure, `K'` a number, `K''` an inverse pressure, `V0` a volume. -/
noncomputable def Pars.convert (l m : ℝ) (p : Pars) : Pars := ⟨m * p.K0, p.Kp, p.Kpp / m, l * p.V0⟩

/-- The same data in these units. -/
noncomputable def Data.convert {n : ℕ} (l m : ℝ) (d : Data n) : Data n :=
  ⟨fun i => l * d.V i, fun i => m * d.P i, d.sV.map fun s i => l * s i, d.sP.map fun s i => m * s i⟩

/-- Parameters of an E(V) curve when volumes are multiplied by `l`, energies by `a` and the zero of energy is
moved by `c`. -/
noncomputable def EPars.convert (l a c : ℝ) (q : EPars) : EPars := ⟨a * q.E0 + c, a / l * q.K0, q.Kp, l * q.V0⟩

end Spec

open Spec.Pars (convert)

variable {l m : ℝ}

theorem convert_after (f : Formulation) (hm : m ≠ 0) (p : Pars) (order : ℕ) (linear dofit : Bool) :
    parsAfter f (convert l m p) order linear dofit = convert l m (parsAfter f p order linear dofit) := by
  have hk : setKp f (convert l m p) order linear dofit = convert l m (setKp f p order linear dofit) := by
    unfold setKp
    simp only [Spec.Pars.convert]
    split_ifs <;> rfl
  unfold parsAfter
  rw [hk]
  generalize setKp f p order linear dofit = q
  cases f <;> simp only [setKpp, Spec.Pars.convert] <;> try split_ifs
  all_goals apply Pars.ext <;> simp only [zero_div] <;> ring

theorem convert_formula (f : Formulation) (hl : 0 < l) (hm : 0 < m) (q : Pars) (V : ℝ) :
    formula f (convert l m q) (l * V) = m * formula f q V := by
  have e1 : l * q.V0 / (l * V) = q.V0 / V := mul_div_mul_left _ _ hl.ne'
  have e2 : l * V / (l * q.V0) = V / q.V0 := mul_div_mul_left _ _ hl.ne'
  have e3 : m * q.K0 * (q.Kpp / m) = q.K0 * q.Kpp := by field_simp
  have e4 : q.Kpp / m * (m * q.K0) = q.Kpp * q.K0 := by field_simp
  cases f <;> simp only [formula, Spec.Pars.convert, e1, e2, e3, e4]
  · ring
  · ring
  · ring
  · ring
  · have : q.Kp / (m * q.K0) - q.Kpp / m / (1 + q.Kp) = (q.Kp / q.K0 - q.Kpp / (1 + q.Kp)) / m := by
      rw [sub_div, div_div, div_div, div_div, mul_comm m, mul_comm m]
    rw [this, one_div_div]
    ring

theorem convert_convert (hl : l ≠ 0) (hm : m ≠ 0) (p : Pars) : convert l m (convert (1 / l) (1 / m) p) = p := by
  apply Pars.ext <;> simp only [Spec.Pars.convert] <;> field_simp

/-- C124, curves: in other units of volume and pressure an equation of state with the converted parameters is the
same curve, for every formulation and order, for volumes and lengths; the parameters implied by the order are
converted too. -/
theorem C124_curve (f : Formulation) (hl : 0 < l) (hm : 0 < m) (p : Pars) (V : ℝ) (order : ℕ)
    (linear dofit : Bool) :
    eos f (convert l m p) (l * V) order linear dofit =
      (m * (eos f p V order linear dofit).1, convert l m (eos f p V order linear dofit).2) := by
  simp only [eos, convert_after f hm.ne', convert_formula f hl hm]

theorem convert_solid (f : Formulation) (hl : 0 < l) (hm : 0 < m) (order : ℕ) (q : Pars) :
    PSolid f order (convert l m q) ↔ PSolid f order q := by
  have e3 : m * q.K0 * (q.Kpp / m) = q.K0 * q.Kpp := by field_simp
  have e4 : q.Kpp / m * (m * q.K0) = q.Kpp * q.K0 := by field_simp
  have e5 : q.Kpp / m ≤ 0 ↔ q.Kpp ≤ 0 := by
    rw [div_le_iff₀ hm, zero_mul]
  have r : Regular f (convert l m q) ↔ Regular f q := by
    cases f <;> simp only [Regular, Spec.Pars.convert, e3]
  have s : Stiffening f (convert l m q) ↔ Stiffening f q := by
    cases f <;> simp only [Stiffening, Spec.Pars.convert, e3, e4, e5]
  simp only [PSolid, r, s]
  simp only [Spec.Pars.convert, mul_pos_iff_of_pos_left hl, mul_pos_iff_of_pos_left hm]

theorem convert_held (hl : 0 < l) (hm : 0 < m) (fix : List ℕ) (p0 r : Pars) :
    Held fix (convert l m p0) (convert l m r) ↔ Held fix p0 r := by
  simp only [Held, Spec.Pars.convert, mul_right_inj' hl.ne', mul_right_inj' hm.ne', div_left_inj' hm.ne']

/-- Best fits correspond when the parameters, the shifts and the misfit do. -/
theorem best_convert {A A' : Pars → Prop} {curve : Pars → ℝ → ℝ} (hl : 0 < l) (hm : 0 < m)
    (hA : ∀ r, A' (convert l m r) ↔ A r) {n : ℕ} {V P wV wP V' P' wV' wP' : Fin n → ℝ} (orthogonal : Bool) {k : ℝ}
    (hk : 0 < k)
    (hmis : ∀ r δ, (orthogonal = false → δ = 0) →
      odrMisfit curve V' P' wV' wP' (convert l m r) (fun i => l * δ i) = k * odrMisfit curve V P wV wP r δ)
    (p : Pars) (δ : Fin n → ℝ) :
    BestP A' curve orthogonal V' P' wV' wP' (convert l m p) (fun i => l * δ i) ↔
      BestP A curve orthogonal V P wV wP p δ := by
  have hz : ∀ η : Fin n → ℝ, (orthogonal = false → (fun i => l * η i) = 0) ↔ (orthogonal = false → η = 0) :=
    fun η => imp_congr_right fun _ => by
      simp only [funext_iff, Pi.zero_apply, mul_eq_zero, hl.ne', false_or]
  unfold BestP
  rw [hA, hz]
  refine and_congr_right fun _ => and_congr_right fun h0 => ⟨fun h p' δ' a b => ?_, fun h p' δ' a b => ?_⟩
  · have := h (convert l m p') (fun i => l * δ' i) ((hA _).2 a) ((hz _).2 b)
    rw [hmis _ _ h0, hmis _ _ b] at this
    exact le_of_mul_le_mul_left this hk
  · have e : (fun i => l * (δ' i / l)) = δ' := funext fun i => by field_simp
    have b' : orthogonal = false → (fun i => δ' i / l) = 0 := (hz _).1 (by rw [e]; exact b)
    have := h (convert (1 / l) (1 / m) p') (fun i => δ' i / l)
      ((hA _).1 (by rw [convert_convert hl.ne' hm.ne']; exact a)) b'
    rw [hmis _ _ h0, ← convert_convert hl.ne' hm.ne' p', ← e, hmis _ _ b']
    exact mul_le_mul_of_nonneg_left this hk.le

/-- C124, fits: in other units of volume and pressure, or for a cell of another size, the fit returns the converted
parameters and shifts.  The uncertainties and the starting values, if given, are converted with the data; without
starting values the program makes its own from four or more distinct data.  Uncertainties may be missing, given for
the pressures, or given for both. -/
theorem C124_fit_partial {polyfit : Guess.Polyfit} (hfit : Guess.Spec.Fits polyfit) (f : Formulation) (hl : 0 < l)
    (hm : 0 < m) {n : ℕ} (d : Data n) (guess : Option Pars) (order : ℕ) (linear : Bool) (fixed : Option (List ℕ))
    (hguess : guess = none → 4 ≤ n ∧ Function.Injective d.V ∧ Function.Injective d.P)
    (hs : d.sV = none ∨ d.sP ≠ none) (p : Pars) (δ : Fin n → ℝ) :
    Fitted polyfit f (Spec.Data.convert l m d) (guess.map (convert l m)) order linear fixed (convert l m p)
        (fun i => l * δ i) ↔
      Fitted polyfit f d guess order linear fixed p δ := by
  obtain ⟨V, P, sV, sP⟩ := d
  -- starting values
  have hp0 : ∀ a b, (fitSetup (Guess.pvGuess polyfit (fun i => l * V i) fun i => m * P i) (guess.map (convert l m))
      a b order linear fixed).p0 = convert l m (fitSetup (Guess.pvGuess polyfit V P) guess a b order linear fixed).p0 := by
    intro a b
    have : ∀ q : Pars, (if linear = true then { convert l m q with K0 := (convert l m q).K0 * 3 } else convert l m q) =
        convert l m (if linear = true then { q with K0 := q.K0 * 3 } else q) := fun q => by
      split_ifs
      · apply Pars.ext <;> simp only [Spec.Pars.convert]; ring
      · rfl
    cases guess with
    | some g => exact this g
    | none =>
      obtain ⟨h4, hV, hP⟩ := hguess rfl
      have hg : Guess.pvGuess polyfit (fun i => l * V i) (fun i => m * P i) =
          convert l m (Guess.pvGuess polyfit V P) := by
        rw [Guess.C100_units hfit h4 hV hP hl.ne' hm.ne']
        apply Pars.ext <;> simp [Spec.Pars.convert, Guess.pvGuess]
      simp only [fitSetup, Option.map_none, hg]
      exact this _
  have hfix : ∀ a b, (fitSetup (Guess.pvGuess polyfit (fun i => l * V i) fun i => m * P i) (guess.map (convert l m))
      a b order linear fixed).fix = (fitSetup (Guess.pvGuess polyfit V P) guess a b order linear fixed).fix :=
    fun a b => rfl
  have hjob : ∀ a b, (fitSetup (Guess.pvGuess polyfit (fun i => l * V i) fun i => m * P i) (guess.map (convert l m))
      a b order linear fixed).job = (fitSetup (Guess.pvGuess polyfit V P) guess a b order linear fixed).job :=
    fun a b => rfl
  simp only [Fitted, Spec.Data.convert, Option.isSome_map, hp0, hfix, hjob]
  -- the misfit, in terms of the weights
  have hmis : ∀ (wV wP wV' wP' : Fin n → ℝ) (k : ℝ) (r : Pars) (δ : Fin n → ℝ),
      (∀ i, wP' i * m ^ 2 = k * wP i) → (∀ i, wV' i * (l * δ i) ^ 2 = k * (wV i * δ i ^ 2)) →
      odrMisfit (fun r v => (eos f r v order linear true).1) (fun i => l * V i) (fun i => m * P i) wV' wP'
        (convert l m r) (fun i => l * δ i) =
      k * odrMisfit (fun r v => (eos f r v order linear true).1) V P wV wP r δ := by
    intro wV wP wV' wP' k r δ h1 h2
    simp only [odrMisfit, Finset.mul_sum]
    refine Finset.sum_congr rfl fun i _ => ?_
    rw [h2, ← mul_add, C124_curve f hl hm]
    linear_combination ((eos f r (V i + δ i) order linear true).1 - P i) ^ 2 * h1 i
  have hA : ∀ fix p0 r, (PSolid f order (parsAfter f (convert l m r) order linear true) ∧
      Held fix (convert l m p0) (convert l m r)) ↔
      (PSolid f order (parsAfter f r order linear true) ∧ Held fix p0 r) := fun fix p0 r => by
    rw [convert_after f hm.ne', convert_solid f hl hm, convert_held hl hm]
  have hw : ∀ (s : Fin n → ℝ) (c : ℝ), c ≠ 0 → ∀ i, weight (some fun i => c * s i) i * c ^ 2 = weight (some s) i :=
    fun s c hc i => by
      simp only [weight, mul_pow]
      rw [one_div_mul_eq_div, div_mul_cancel_left₀ (pow_ne_zero 2 hc), one_div]
  cases sV with
  | none =>
    have hj : ∀ b, decide ((fitSetup (Guess.pvGuess polyfit V P) guess (Option.isSome (none : Option (Fin n → ℝ))) b
        order linear fixed).job = .odr) = false := fun b => by simp [fitSetup, check]
    simp only [hj, Option.map_none]
    cases sP with
    | none =>
      exact best_convert hl hm (hA _ _) false (k := m ^ 2) (by positivity)
        (fun r δ h0 => hmis _ _ _ _ _ r δ (fun i => by simp [weight]) (fun i => by simp [h0 rfl])) p δ
    | some t =>
      exact best_convert hl hm (hA _ _) false (k := 1) one_pos
        (fun r δ h0 => hmis _ _ _ _ _ r δ (fun i => by rw [one_mul]; exact hw t m hm.ne' i)
          (fun i => by simp [h0 rfl])) p δ
  | some s =>
    cases sP with
    | none => simp at hs
    | some t =>
      exact best_convert hl hm (hA _ _) _ (k := 1) one_pos
        (fun r δ h0 => hmis _ _ _ _ _ r δ (fun i => by rw [one_mul]; exact hw t m hm.ne' i)
          (fun i => by
            have := hw s l hl.ne' i
            rw [one_mul, mul_pow, ← mul_assoc]
            exact congrArg (· * δ i ^ 2) this)) p δ

/-- Data on a Birch-Murnaghan curve, with uncertainties: the curve is a best fit, also for the doubled cell and
pressures in kbar. -/
example {polyfit : Guess.Polyfit} (hfit : Guess.Spec.Fits polyfit) :
    Fitted polyfit .birchMurnaghan
      (Spec.Data.convert 2 10 ⟨![70, 72, 74, 76],
        fun i => (eos .birchMurnaghan ⟨160, 4, 0, 75⟩ ((![70, 72, 74, 76] : Fin 4 → ℝ) i) 2 false true).1,
        some fun _ => 0.1, some fun _ => 0.2⟩)
      (some (convert 2 10 ⟨150, 4, 0, 74⟩)) 2 false none (convert 2 10 ⟨160, 4, 0, 75⟩) 0 := by
  have := (C124_fit_partial hfit .birchMurnaghan (l := 2) (m := 10) (by norm_num) (by norm_num)
    ⟨![70, 72, 74, 76],
      fun i => (eos .birchMurnaghan ⟨160, 4, 0, 75⟩ ((![70, 72, 74, 76] : Fin 4 → ℝ) i) 2 false true).1,
      some fun _ => 0.1, some fun _ => 0.2⟩ (some ⟨150, 4, 0, 74⟩) 2 false none (by simp) (by simp)
    ⟨160, 4, 0, 75⟩ 0).2 ?_
  · have hz : (fun i : Fin 4 => (2:ℝ) * (0 : Fin 4 → ℝ) i) = 0 := funext fun i => mul_zero _
    rw [hz] at this
    exact this
  · refine ⟨⟨⟨?_, ?_, trivial, ?_⟩, ?_⟩, fun _ => rfl, fun p' δ' _ _ => ?_⟩
    · norm_num [parsAfter, setKpp, setKp, impliedKp]
    · norm_num [parsAfter, setKpp, setKp, impliedKp]
    · rintro (h | h)
      · cases h
      · omega
    · simp [Held, fitSetup]
    · have h0 : ∀ curve : Pars → ℝ → ℝ, ∀ (V wV wP : Fin 4 → ℝ) (p : Pars),
          odrMisfit curve V (fun i => curve p (V i)) wV wP p 0 = 0 := fun curve V wV wP p => by simp [odrMisfit]
      refine le_trans (le_of_eq (h0 (fun r v => (eos .birchMurnaghan r v 2 false true).1) _ _ _ _)) ?_
      exact Finset.sum_nonneg fun i _ => by simp only [weight]; positivity

/-! ### Uncertainties of the volumes alone -/

theorem eq_zero_of_slope {A B r : ℝ} (hr : 0 < r) (h : ∀ t, |t| < r → t * A ≤ t ^ 2 * B) : A = 0 := by
  by_contra hA
  have hq : 0 < |A| := abs_pos.2 hA
  set e := min (r / 2) (|A| / (2 * (|B| + 1))) with he
  have hB : 0 < |B| + 1 := by positivity
  have he0 : 0 < e := lt_min (by linarith) (by positivity)
  have her : e < r := lt_of_le_of_lt (min_le_left _ _) (by linarith)
  have heB : e * (|B| + 1) ≤ |A| / 2 := by
    have := mul_le_mul_of_nonneg_right (min_le_right (r / 2) (|A| / (2 * (|B| + 1)))) hB.le
    rw [← he] at this
    refine this.trans (le_of_eq ?_)
    field_simp
  have key : e * |A| ≤ e ^ 2 * B := by
    rcases le_total 0 A with h0 | h0
    · have := h e (by rwa [abs_of_pos he0])
      rwa [abs_of_nonneg h0]
    · have := h (-e) (by rwa [abs_neg, abs_of_pos he0])
      rw [abs_of_nonpos h0]
      linarith [this, neg_sq e]
  have hb : B ≤ |B| := le_abs_self B
  nlinarith [mul_pos he0 hq, mul_pos he0 he0]

theorem murnaghan_after (p : Pars) (order : ℕ) (linear : Bool) :
    parsAfter .murnaghan p order linear true = { p with Kpp := 0 } := by
  simp only [parsAfter, setKpp, setKp, impliedKp, impliedKpLinear, Option.getD_none, if_true]
  split_ifs <;> rfl

/-- The curve of a Murnaghan solid with `K' = -1`: the pressure falls in proportion to the volume. -/
theorem murnaghan_line {p : Pars} (hp : p.Kp = -1) (V : ℝ) (order : ℕ) (linear : Bool) :
    (eos .murnaghan p V order linear true).1 = p.K0 - p.K0 / p.V0 * V := by
  simp only [eos, formula, murnaghan_after, hp, Real.rpow_neg_one]
  rw [inv_div]
  ring

/-- Solids of `K' = -1`. -/
theorem line_admissible (p : Pars) (order : ℕ) (linear : Bool) (K W : ℝ) :
    (PSolid .murnaghan order (parsAfter .murnaghan p order linear true) ∧
      Held [1, 0, 0, 1] ⟨K, -1, 0, W⟩ p) ↔ (0 < p.K0 ∧ 0 < p.V0) ∧ p.Kp = -1 ∧ p.Kpp = 0 := by
  rw [murnaghan_after]
  simp only [PSolid, Regular, Held]
  simp
  intro h _ _ _
  rw [h]
  norm_num

/-- The least weighted distance of a point from a line, reached by a shift of the volume. -/
theorem line_distance {g w b e : ℝ} (hg : 0 < g) (hw : 0 < w) (d : ℝ) :
    g * w * e ^ 2 / (w + g * b ^ 2) ≤ g * (e - b * d) ^ 2 + w * d ^ 2 ∧
      g * (e - b * (g * b * e / (w + g * b ^ 2))) ^ 2 + w * (g * b * e / (w + g * b ^ 2)) ^ 2 =
        g * w * e ^ 2 / (w + g * b ^ 2) := by
  have hD : 0 < w + g * b ^ 2 := by positivity
  constructor
  · rw [div_le_iff₀ hD]
    have : (g * (e - b * d) ^ 2 + w * d ^ 2) * (w + g * b ^ 2) - g * w * e ^ 2 =
        (g * b * e - (w + g * b ^ 2) * d) ^ 2 := by ring
    nlinarith [sq_nonneg (g * b * e - (w + g * b ^ 2) * d)]
  · field_simp
    ring

/-- Best fits with lines, when the volumes have one weight and the pressures weight one. -/
theorem line_best {n : ℕ} {V P : Fin n → ℝ} {w : ℝ} (hw : 0 < w) {order : ℕ} {linear : Bool} {K W : ℝ} {p : Pars}
    {δ : Fin n → ℝ}
    (h : BestP (fun r => PSolid .murnaghan order (parsAfter .murnaghan r order linear true) ∧
        Held [1, 0, 0, 1] ⟨K, -1, 0, W⟩ r)
      (fun r v => (eos .murnaghan r v order linear true).1) true V P (fun _ => w) (fun _ => 1) p δ) {a b : ℝ}
    (ha : 0 < a) (hb : 0 < b) :
    (w + b ^ 2) * ∑ i, (p.K0 - p.K0 / p.V0 * V i - P i) ^ 2 ≤
      (w + (p.K0 / p.V0) ^ 2) * ∑ i, (a - b * V i - P i) ^ 2 := by
  obtain ⟨h1, -, h3⟩ := h
  rw [line_admissible] at h1
  obtain ⟨⟨hK, hV⟩, hp, -⟩ := h1
  set b0 := p.K0 / p.V0 with hb0
  have := h3 ⟨a, -1, 0, a / b⟩ (fun i => b * (a - b * V i - P i) / (w + b ^ 2))
    ((line_admissible _ _ _ _ _).2 ⟨⟨ha, by positivity⟩, rfl, rfl⟩) (by simp)
  simp only [odrMisfit, murnaghan_line hp, one_mul] at this
  have hab : a / (a / b) = b := by field_simp
  have upper : ∀ i, ((eos .murnaghan ⟨a, -1, 0, a / b⟩ (V i + b * (a - b * V i - P i) / (w + b ^ 2)) order linear
      true).1 - P i) ^ 2 + w * (b * (a - b * V i - P i) / (w + b ^ 2)) ^ 2 =
      w * (a - b * V i - P i) ^ 2 / (w + b ^ 2) := fun i => by
    rw [murnaghan_line rfl]
    simp only [hab]
    have := (line_distance (g := 1) (w := w) (b := b) (e := a - b * V i - P i) one_pos hw 0).2
    simp only [one_mul] at this
    rw [← this]
    ring
  rw [Finset.sum_congr rfl fun i _ => upper i] at this
  have lower : ∑ i, w * (p.K0 - b0 * V i - P i) ^ 2 / (w + b0 ^ 2) ≤
      ∑ i, ((p.K0 - b0 * (V i + δ i) - P i) ^ 2 + w * δ i ^ 2) := Finset.sum_le_sum fun i _ => by
    have := (line_distance (g := 1) (w := w) (b := b0) (e := p.K0 - b0 * V i - P i) one_pos hw (δ i)).1
    simp only [one_mul] at this
    refine this.trans (le_of_eq ?_)
    ring
  have := lower.trans this
  rw [← Finset.sum_div, ← Finset.sum_div, ← Finset.mul_sum, ← Finset.mul_sum,
    div_le_div_iff₀ (by positivity) (by positivity), mul_assoc, mul_assoc] at this
  have := le_of_mul_le_mul_left this hw
  linarith

/-- C124, violated when only the volumes have uncertainties: the pressures then count with weight one in whatever
unit they are given.  Take a fit with `K'` held at -1 and equal uncertainties of the volumes.  Unless the data lie
on the curve, the best parameters are not the best after a change of the unit of pressure. -/
theorem C124_volume_errors_violated (polyfit : Guess.Polyfit) {n : ℕ} (V P : Fin n → ℝ) {s : ℝ} (hs : 0 < s)
    (hm : 0 < m) (hm1 : m ≠ 1) (K W : ℝ) {p : Pars} {δ : Fin n → ℝ}
    (h : Fitted polyfit .murnaghan ⟨V, P, some fun _ => s, none⟩ (some ⟨K, -1, 0, W⟩) 2 false none p δ)
    (hne : ¬ ∀ i, (eos .murnaghan p (V i) 2 false true).1 = P i) (δ' : Fin n → ℝ) :
    ¬ Fitted polyfit .murnaghan (Spec.Data.convert 1 m ⟨V, P, some fun _ => s, none⟩)
      (some (convert 1 m ⟨K, -1, 0, W⟩)) 2 false none (convert 1 m p) δ' := by
  intro h'
  have hadm := h.1.2
  have hadm' : (0 < p.K0 ∧ 0 < p.V0) ∧ p.Kp = -1 ∧ p.Kpp = 0 := (line_admissible p 2 false K W).1 h.1
  obtain ⟨⟨hK, hV⟩, hp, -⟩ := hadm'
  set w := 1 / s ^ 2 with hwd
  have hw : 0 < w := by positivity
  have g1 : ∀ {a b : ℝ}, 0 < a → 0 < b → (w + b ^ 2) * ∑ i, (p.K0 - p.K0 / p.V0 * V i - P i) ^ 2 ≤
      (w + (p.K0 / p.V0) ^ 2) * ∑ i, (a - b * V i - P i) ^ 2 := fun ha hb => line_best hw h ha hb
  have g2 : ∀ {a b : ℝ}, 0 < a → 0 < b → (w + m ^ 2 * b ^ 2) * ∑ i, (p.K0 - p.K0 / p.V0 * V i - P i) ^ 2 ≤
      (w + m ^ 2 * (p.K0 / p.V0) ^ 2) * ∑ i, (a - b * V i - P i) ^ 2 := by
    intro a b ha hb
    have hh : BestP (fun r => PSolid .murnaghan 2 (parsAfter .murnaghan r 2 false true) ∧
        Held [1, 0, 0, 1] ⟨m * K, -1, 0, W⟩ r) (fun r v => (eos .murnaghan r v 2 false true).1) true
        (fun i => 1 * V i) (fun i => m * P i) (fun _ => w) (fun _ => 1) (convert 1 m p) δ' := by
      have hwt : (weight (some fun _ => s) : Fin n → ℝ) = fun _ => w := rfl
      have hwn : (weight none : Fin n → ℝ) = fun _ => 1 := rfl
      simpa [Fitted, Spec.Data.convert, fitSetup, check, Spec.Pars.convert, hwt, hwn] using h'
    have := line_best hw hh (mul_pos hm ha) (mul_pos hm hb)
    simp only [Spec.Pars.convert, one_mul] at this
    have r1 : ∀ i, (m * p.K0 - m * p.K0 / p.V0 * V i - m * P i) ^ 2 =
        m ^ 2 * (p.K0 - p.K0 / p.V0 * V i - P i) ^ 2 := fun i => by ring
    have r2 : ∀ i, (m * a - m * b * V i - m * P i) ^ 2 = m ^ 2 * (a - b * V i - P i) ^ 2 := fun i => by ring
    simp only [r1, r2, ← Finset.mul_sum] at this
    have hm2 : 0 < m ^ 2 := by positivity
    refine le_of_mul_le_mul_left (le_of_eq_of_le ?_ (this.trans (le_of_eq ?_))) hm2 <;> ring
  set b0 := p.K0 / p.V0 with hb0
  have hb0p : 0 < b0 := by positivity
  set S := ∑ i, (p.K0 - b0 * V i - P i) ^ 2 with hS
  set S1 := ∑ i, (p.K0 - b0 * V i - P i) * V i with hS1
  set S2 := ∑ i, V i ^ 2 with hS2
  have hexp : ∀ t, ∑ i, (p.K0 - (b0 + t) * V i - P i) ^ 2 = S - 2 * t * S1 + t ^ 2 * S2 := fun t => by
    rw [hS, hS1, hS2, Finset.mul_sum, Finset.mul_sum, ← Finset.sum_sub_distrib, ← Finset.sum_add_distrib]
    exact Finset.sum_congr rfl fun i _ => by ring
  have slope : ∀ g : ℝ, (∀ {a b : ℝ}, 0 < a → 0 < b → (w + g * b ^ 2) * S ≤
      (w + g * b0 ^ 2) * ∑ i, (a - b * V i - P i) ^ 2) → 2 * g * b0 * S + 2 * (w + g * b0 ^ 2) * S1 = 0 :=
    fun g hg => eq_zero_of_slope (B := (w + g * b0 ^ 2) * S2 - g * S) hb0p fun t ht => by
      have := hg (a := p.K0) (b := b0 + t) hK (by linarith [(abs_lt.1 ht).1])
      rw [hexp] at this
      linarith
  have s1 := slope 1 (by simpa only [one_mul] using @g1)
  have s2 := slope (m ^ 2) @g2
  have hz : S1 = 0 := by
    have : w * (1 - m ^ 2) * S1 = 0 := by linear_combination (s2 - m ^ 2 * s1) / 2
    have hm2 : 1 - m ^ 2 ≠ 0 := fun h0 => hm1 (by
      have : (m - 1) * (m + 1) = 0 := by linear_combination -h0
      rcases mul_eq_zero.1 this with q | q <;> linarith)
    exact (mul_eq_zero.1 this).resolve_left (mul_ne_zero hw.ne' hm2)
  have hS0 : S = 0 := by
    rw [hz] at s1
    have : b0 * S = 0 := by linear_combination s1 / 2
    exact (mul_eq_zero.1 this).resolve_left hb0p.ne'
  refine hne fun i => ?_
  have := (Finset.sum_eq_zero_iff_of_nonneg fun i _ => sq_nonneg _).1 hS0 i (Finset.mem_univ i)
  rw [murnaghan_line hp]
  exact sub_eq_zero.1 (pow_eq_zero_iff two_ne_zero |>.1 this)

/-- Three data beside the line `P = 13 - V`, with an uncertainty of 1 on the volumes: `K0 = V0 = 13` is a best fit,
so `K0 = 130 kbar` is not one when the pressures are given in kbar. -/
example (polyfit : Guess.Polyfit) (δ' : Fin 3 → ℝ) :
    ¬ Fitted polyfit .murnaghan (Spec.Data.convert 1 10 ⟨![8.5, 10, 14.5], ![5.5, 1, -0.5], some fun _ => 1, none⟩)
      (some (convert 1 10 ⟨12, -1, 0, 12⟩)) 2 false none (convert 1 10 ⟨13, -1, 0, 13⟩) δ' := by
  refine C124_volume_errors_violated polyfit _ _ one_pos (by norm_num) (by norm_num) _ _
    (δ := ![-0.5, 1, -0.5]) ?_ ?_ δ'
  · refine ⟨(line_admissible _ _ _ _ _).2 ⟨⟨by norm_num, by norm_num⟩, rfl, rfl⟩, by simp [fitSetup, check], ?_⟩
    intro p' d h _
    obtain ⟨⟨hK, hV⟩, hp, -⟩ := (line_admissible _ _ _ _ _).1 h
    simp only [odrMisfit, murnaghan_line hp, weight]
    rw [Fin.sum_univ_three, Fin.sum_univ_three, murnaghan_line rfl, murnaghan_line rfl, murnaghan_line rfl]
    simp
    set b := p'.K0 / p'.V0
    have q1 := (line_distance (g := 1) (w := 1) (b := b) (e := p'.K0 - b * 8.5 - 5.5) one_pos one_pos (d 0)).1
    have q2 := (line_distance (g := 1) (w := 1) (b := b) (e := p'.K0 - b * 10 - 1) one_pos one_pos (d 1)).1
    have q3 := (line_distance (g := 1) (w := 1) (b := b) (e := p'.K0 - b * 14.5 + 0.5) one_pos one_pos (d 2)).1
    simp only [one_mul, div_le_iff₀ (by positivity : (0:ℝ) < 1 + b ^ 2)] at q1 q2 q3
    have key : 3 * (1 + b ^ 2) ≤ (p'.K0 - b * 8.5 - 5.5) ^ 2 + (p'.K0 - b * 10 - 1) ^ 2 +
        (p'.K0 - b * 14.5 + 0.5) ^ 2 := by
      nlinarith [sq_nonneg (p'.K0 - 13 - 11 * (b - 1)), sq_nonneg (b - 1)]
    have hD : 0 < 1 + b ^ 2 := by positivity
    refine le_of_mul_le_mul_right (le_trans (le_of_eq ?_) (key.trans ((add_le_add (add_le_add q1 q2) q3).trans
      (le_of_eq ?_)))) hD
    · norm_num
    · ring
  · intro h
    have := h 1
    rw [murnaghan_line rfl] at this
    norm_num at this

/-! ### Energies -/

/-- C124, energies: with volumes, energies and the zero of energy in other units, or for a cell of another size, an
E(V) curve with the converted parameters is the same curve, and so is the pressure derived from it. -/
theorem C124_energy (f : EForm) {l a : ℝ} (hl : 0 < l) (ha : 0 < a) (c : ℝ) (q : EPars) (V : ℝ) :
    energy f (a * q.E0 + c) (a / l * q.K0) q.Kp (l * q.V0) (l * V) = a * energy f q.E0 q.K0 q.Kp q.V0 V + c ∧
      pressure f (a / l * q.K0) q.Kp (l * q.V0) (l * V) = a / l * pressure f q.K0 q.Kp q.V0 V := by
  have e1 : l * q.V0 / (l * V) = q.V0 / V := mul_div_mul_left _ _ hl.ne'
  have e2 : l * V / (l * q.V0) = V / q.V0 := mul_div_mul_left _ _ hl.ne'
  have e3 : a / l * q.K0 * (l * q.V0) = a * (q.K0 * q.V0) := by field_simp
  have e4 : a / l * q.K0 * (l * V) = a * (q.K0 * V) := by field_simp
  constructor
  · cases f <;> simp only [energy, e1, e2]
    · rw [e4, mul_comm (l * q.V0), e3]
      ring
    · rw [mul_assoc 9 (a / l * q.K0), e3]
      ring
    · rw [e3]
      ring
    · rw [mul_assoc 2 (a / l * q.K0), e3]
      ring
  · have := C124_curve (pvType f) hl (div_pos ha hl) ⟨q.K0, q.Kp, 0, q.V0⟩ V 3 false false
    have h2 := congrArg Prod.fst this
    simp only [Spec.Pars.convert, zero_div] at h2
    exact h2

/-- C124, fits of energies: the best fit of the converted data has the converted parameters. -/
theorem C124_energy_fit (f : EForm) {l a : ℝ} (hl : 0 < l) (ha : 0 < a) (c : ℝ) {n : ℕ} (V E : Fin n → ℝ)
    (q : EPars) :
    Best f (fun i => l * V i) (fun i => a * E i + c) (Spec.EPars.convert l a c q) ↔ Best f V E q := by
  have hmis : ∀ q, misfit f (fun i => l * V i) (fun i => a * E i + c) (Spec.EPars.convert l a c q) =
      a ^ 2 * misfit f V E q := fun q => by
    simp only [misfit, Spec.EPars.convert, Finset.mul_sum, (C124_energy f hl ha c q _).1]
    exact Finset.sum_congr rfl fun i _ => by ring
  have hsol : ∀ q, Solid f (Spec.EPars.convert l a c q) ↔ Solid f q := fun q => by
    simp only [Solid, Spec.EPars.convert, mul_pos_iff_of_pos_left hl, mul_pos_iff_of_pos_left (div_pos ha hl)]
  have ha2 : 0 < a ^ 2 := by positivity
  unfold Best
  rw [hsol, hmis]
  refine and_congr_right fun _ => ⟨fun h q' hq' => ?_, fun h q' hq' => ?_⟩
  · have := h _ ((hsol q').2 hq')
    rw [hmis] at this
    exact le_of_mul_le_mul_left this ha2
  · have e : Spec.EPars.convert l a c ⟨(q'.E0 - c) / a, q'.K0 * l / a, q'.Kp, q'.V0 / l⟩ = q' := by
      apply EPars.ext <;> simp only [Spec.EPars.convert] <;> field_simp
      ring
    have := h ⟨(q'.E0 - c) / a, q'.K0 * l / a, q'.Kp, q'.V0 / l⟩ ((hsol _).1 (by rw [e]; exact hq'))
    rw [← e, hmis]
    exact mul_le_mul_of_nonneg_left this ha2.le

end Verif.EoS
