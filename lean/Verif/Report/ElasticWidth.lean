/-
C111: the lines of the tables of the elastic log are as long as the rules between them.
-/
import Verif.Report.ElasticProps
import Verif.Export.TableWidth

noncomputable section

namespace Verif.Report
open Verif.Py Verif.IO Verif.Phonon Verif.Export

/-- Every number of the extremes is at most `b` in absolute value. -/
structure Spec.Within (b : ℚ) (e : Extremes) : Prop where
  minimum : |e.minimum| ≤ b
  maximum : |e.maximum| ≤ b
  anisotropy : ∀ q, e.anisotropy = .val q → |q| ≤ b
  minAxis1 : ∀ i, |e.minAxis1 i| ≤ b
  maxAxis1 : ∀ i, |e.maxAxis1 i| ≤ b
  minAxis2 : ∀ i, |e.minAxis2 i| ≤ b
  maxAxis2 : ∀ i, |e.maxAxis2 i| ≤ b

open Spec (Within)

theorem alignLeft_length {w : ℕ} {s : Str} (h : s.length ≤ w) : (alignLeft w s).length = w := by
  simp [alignLeft]; omega

theorem double_length {label a b : Str} (h : label.length ≤ 10) (ha : a.length ≤ 32) (hb : b.length ≤ 32) :
    (double label a b).length = 84 := by
  simp [double, alignLeft_length h, center_length 32 a ha, center_length 32 b hb]

theorem quad_length {label a b c d : Str} (h : label.length ≤ 10) (ha : a.length ≤ 15) (hb : b.length ≤ 15)
    (hc : c.length ≤ 15) (hd : d.length ≤ 15) : (quad label a b c d).length = 84 := by
  simp [quad, alignLeft_length h, center_length 15 a ha, center_length 15 b hb, center_length 15 c hc, center_length 15 d hd]

theorem triple_length {label a b c : Str} (h : label.length ≤ 10) (ha : a.length ≤ 22) (hb : b.length ≤ 22)
    (hc : c.length ≤ 22) : (triple label a b c).length = 89 := by
  simp [triple, alignLeft_length h, center_length 22 a ha, center_length 22 b hb, center_length 22 c hc]

theorem hexa_length {label a b c d e f : Str} (h : label.length ≤ 10) (ha : a.length ≤ 10) (hb : b.length ≤ 10)
    (hc : c.length ≤ 10) (hd : d.length ≤ 10) (he : e.length ≤ 10) (hf : f.length ≤ 10) :
    (hexa label a b c d e f).length = 89 := by
  simp [hexa, alignLeft_length h, center_length 10 a ha, center_length 10 b hb, center_length 10 c hc,
    center_length 10 d hd, center_length 10 e he, center_length 10 f hf]

theorem doubleRule_length {s : Str} (h : s.length = 3) : (doubleRule s).length = 84 := by
  simp [doubleRule, dashes, h]

theorem tripleRule_length {s : Str} (h : s.length = 3) : (tripleRule s).length = 89 := by
  simp [tripleRule, dashes, h]

theorem four_length {k : ℕ} (hk : 0 < k) {q : ℚ} (h : |q| ≤ 10 ^ k - 1) : (four q).length ≤ k + 6 := by
  have := formatFixed_length (d := 4) hk h
  unfold four
  omega

theorem fixedNum_length {k : ℕ} (hk : 0 < k) {x : Num} (h : ∀ q, x = .val q → |q| ≤ 10 ^ k - 1) :
    (fixedNum 4 x).length ≤ k + 6 := by
  cases x with
  | val q => exact four_length hk (h q rfl)
  | inf => simp [fixedNum]
  | nan => simp [fixedNum]

theorem axisLabel_length {label : Str} (h : label.length ≤ 10) (i : Fin 3) : (axisLabel label i).length ≤ 10 := by
  unfold axisLabel
  split_ifs <;> simp [h]

/-- C111: the table of Young's modulus and the compressibility and the table of the shear modulus and Poisson's ratio have lines
of 84 characters, the rules included, when the numbers are below 10^9; the table of the velocities has lines of 89 characters when
they are below 10^4. -/
theorem C111_aligned (E LC G Nu Vp Vs1 Vs2 : Extremes) (hE : Within 999999999 E) (hL : Within 999999999 LC)
    (hG : Within 999999999 G) (hN : Within 999999999 Nu) (hp : Within 9999 Vp) (h1 : Within 9999 Vs1) (h2 : Within 9999 Vs2) :
    (∃ t, reportSingle E LC = [c!"Variations of the elastic moduli:", []] ++ t ++
        [c!"Notes: E min/max values in GPa, beta min/max values in TPa^-1", []] ∧ ∀ l ∈ t, l.length = 84) ∧
    (∃ t, reportDual G Nu = t ++ [c!"Notes: G min/max values in GPa", []] ∧ ∀ l ∈ t, l.length = 84) ∧
    (∃ t, reportSeismic Vp Vs1 Vs2 = [[], c!"Variations of the seismic velocities:", []] ++ t ++
        [c!"Notes: min/max values in km s^-1", []] ∧ ∀ l ∈ t, l.length = 89) := by
  have n9 : ∀ {q : ℚ}, |q| ≤ 999999999 → (four q).length ≤ 15 := fun h => four_length (k := 9) (by norm_num) (by norm_num; exact h)
  have a9 : ∀ {x : Num}, (∀ q, x = .val q → |q| ≤ 999999999) → (fixedNum 4 x).length ≤ 32 := fun h =>
    (fixedNum_length (k := 9) (by norm_num) (fun q hq => by norm_num; exact h q hq)).trans (by norm_num)
  have n4 : ∀ {q : ℚ}, |q| ≤ 9999 → (four q).length ≤ 10 := fun h => four_length (k := 4) (by norm_num) (by norm_num; exact h)
  have a4 : ∀ {x : Num}, (∀ q, x = .val q → |q| ≤ 9999) → (fixedNum 4 x).length ≤ 22 := fun h =>
    (fixedNum_length (k := 4) (by norm_num) (fun q hq => by norm_num; exact h q hq)).trans (by norm_num)
  refine ⟨⟨[doubleRule c!"---", double [] c!"Young's modulus" c!"Linear compressibility",
    doubleRule c!"-|-", quad [] c!"E_min" c!"E_max" c!"beta_min" c!"beta_max",
    quad c!"Values" (four E.minimum) (four E.maximum) (four LC.minimum) (four LC.maximum), doubleRule c!"-|-",
    double c!"Anisotropy" (fixedNum 4 E.anisotropy) (fixedNum 4 LC.anisotropy), doubleRule c!"-|-"] ++
    (List.ofFn fun i => quad (axisLabel c!"Axis" i) (four (E.minAxis1 i)) (four (E.maxAxis1 i)) (four (LC.minAxis1 i))
    (four (LC.maxAxis1 i))) ++ [doubleRule c!"---"], by simp [reportSingle], ?_⟩,
    ⟨[doubleRule c!"---", double [] c!"Shear modulus" c!"Poisson's ratio",
    doubleRule c!"-|-", quad [] c!"G_min" c!"G_max" c!"nu_min" c!"nu_max",
    quad c!"Values" (four G.minimum) (four G.maximum) (four Nu.minimum) (four Nu.maximum), doubleRule c!"-|-",
    double c!"Anisotropy" (fixedNum 4 G.anisotropy) (fixedNum 4 Nu.anisotropy), doubleRule c!"-|-"] ++
    (List.ofFn fun i => quad (axisLabel c!"1st Axis" i) (four (G.minAxis1 i)) (four (G.maxAxis1 i)) (four (Nu.minAxis1 i))
    (four (Nu.maxAxis1 i))) ++ [doubleRule c!"-|-"] ++
    (List.ofFn fun i => quad (axisLabel c!"2nd Axis" i) (four (G.minAxis2 i)) (four (G.maxAxis2 i)) (four (Nu.minAxis2 i))
    (four (Nu.maxAxis2 i))) ++ [doubleRule c!"---"], by simp [reportDual], ?_⟩,
    ⟨[tripleRule c!"---", triple [] c!"V_s1" c!"V_s2" c!"V_p",
    tripleRule c!"-|-", hexa [] c!"min" c!"max" c!"min" c!"max" c!"min" c!"max",
    hexa c!"Values" (four Vs1.minimum) (four Vs1.maximum) (four Vs2.minimum) (four Vs2.maximum) (four Vp.minimum)
      (four Vp.maximum), tripleRule c!"-|-",
    triple c!"Anisotropy" (fixedNum 4 Vs1.anisotropy) (fixedNum 4 Vs2.anisotropy) (fixedNum 4 Vp.anisotropy),
    tripleRule c!"-|-"] ++
    (List.ofFn fun i => hexa (axisLabel c!"Axis" i) (four (Vs1.minAxis1 i)) (four (Vs1.maxAxis1 i)) (four (Vs2.minAxis1 i))
    (four (Vs2.maxAxis1 i)) (four (Vp.minAxis1 i)) (four (Vp.maxAxis1 i))) ++ [tripleRule c!"---"], by simp [reportSeismic], ?_⟩⟩
  · intro l hl
    simp only [List.mem_append, List.mem_cons, List.not_mem_nil, or_false, List.mem_ofFn] at hl
    rcases hl with ((rfl | rfl | rfl | rfl | rfl | rfl | rfl | rfl) | ⟨i, rfl⟩) | rfl
    · exact doubleRule_length rfl
    · exact double_length (by decide) (by decide) (by decide)
    · exact doubleRule_length rfl
    · exact quad_length (by decide) (by decide) (by decide) (by decide) (by decide)
    · exact quad_length (by decide) (n9 hE.minimum) (n9 hE.maximum) (n9 hL.minimum) (n9 hL.maximum)
    · exact doubleRule_length rfl
    · exact double_length (by decide) (a9 hE.anisotropy) (a9 hL.anisotropy)
    · exact doubleRule_length rfl
    · exact quad_length (axisLabel_length (by decide) i) (n9 (hE.minAxis1 i)) (n9 (hE.maxAxis1 i)) (n9 (hL.minAxis1 i))
        (n9 (hL.maxAxis1 i))
    · exact doubleRule_length rfl
  · intro l hl
    simp only [List.mem_append, List.mem_cons, List.not_mem_nil, or_false, List.mem_ofFn] at hl
    rcases hl with ((((rfl | rfl | rfl | rfl | rfl | rfl | rfl | rfl) | ⟨i, rfl⟩) | rfl) | ⟨i, rfl⟩) | rfl
    · exact doubleRule_length rfl
    · exact double_length (by decide) (by decide) (by decide)
    · exact doubleRule_length rfl
    · exact quad_length (by decide) (by decide) (by decide) (by decide) (by decide)
    · exact quad_length (by decide) (n9 hG.minimum) (n9 hG.maximum) (n9 hN.minimum) (n9 hN.maximum)
    · exact doubleRule_length rfl
    · exact double_length (by decide) (a9 hG.anisotropy) (a9 hN.anisotropy)
    · exact doubleRule_length rfl
    · exact quad_length (axisLabel_length (by decide) i) (n9 (hG.minAxis1 i)) (n9 (hG.maxAxis1 i)) (n9 (hN.minAxis1 i))
        (n9 (hN.maxAxis1 i))
    · exact doubleRule_length rfl
    · exact quad_length (axisLabel_length (by decide) i) (n9 (hG.minAxis2 i)) (n9 (hG.maxAxis2 i)) (n9 (hN.minAxis2 i))
        (n9 (hN.maxAxis2 i))
    · exact doubleRule_length rfl
  · intro l hl
    simp only [List.mem_append, List.mem_cons, List.not_mem_nil, or_false, List.mem_ofFn] at hl
    rcases hl with ((rfl | rfl | rfl | rfl | rfl | rfl | rfl | rfl) | ⟨i, rfl⟩) | rfl
    · exact tripleRule_length rfl
    · exact triple_length (by decide) (by decide) (by decide) (by decide)
    · exact tripleRule_length rfl
    · exact hexa_length (by decide) (by decide) (by decide) (by decide) (by decide) (by decide) (by decide)
    · exact hexa_length (by decide) (n4 h1.minimum) (n4 h1.maximum) (n4 h2.minimum) (n4 h2.maximum) (n4 hp.minimum)
        (n4 hp.maximum)
    · exact tripleRule_length rfl
    · exact triple_length (by decide) (a4 h1.anisotropy) (a4 h2.anisotropy) (a4 hp.anisotropy)
    · exact tripleRule_length rfl
    · exact hexa_length (axisLabel_length (by decide) i) (n4 (h1.minAxis1 i)) (n4 (h1.maxAxis1 i)) (n4 (h2.minAxis1 i))
        (n4 (h2.maxAxis1 i)) (n4 (hp.minAxis1 i)) (n4 (hp.maxAxis1 i))
    · exact tripleRule_length rfl

/-- The extremes of a crystal whose modulus vanishes somewhere: an infinite anisotropy. -/
example : Within 9999 ⟨0, 8.5, .inf, fun _ => 0.5773, fun _ => -0.7071, fun _ => 0, fun _ => 1⟩ := by
  constructor <;> intros <;> first | (norm_num [abs_le]; done) | simp_all

end Verif.Report
