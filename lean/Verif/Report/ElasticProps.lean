/-
C111 and C112: the log of the elastic calculator.
-/
import Verif.Report.EosFitProps
import Verif.Report.ElasticSpec

noncomputable section

namespace Verif.Report
open Verif.Py Verif.IO Verif.IO.Spec Verif.Phonon Verif.Export Spec

theorem blank_four : Blank c!"    " := blank_replicate 4

/-- Right-aligned cells followed by blanks. -/
theorem tokens_cells_after {ts ss : List Str} (g : Str) (hg : Blank g) (h : List.Forall₂ Cell ts ss) :
    Tokens ts (ss.map (· ++ ' ' :: g)).flatten := by
  induction h with
  | nil => exact .nil blank_nil
  | cons a _ ih =>
    have := tokens_next a (tokens_pad hg ih)
    simpa using this

theorem row_of {d : ℕ} {xs : List ℚ} {ss : List Str} {l : Str} (g : Str) (hg : Blank g)
    (h : List.Forall₂ Cell (xs.map (formatFixed d)) ss) (hl : l = c!"  " ++ (ss.map (· ++ ' ' :: g)).flatten) :
    IsRow d xs l := by
  refine ⟨xs.map (printed d), ?_, xs.map (formatFixed d), ?_, ?_⟩
  · rw [List.forall₂_map_right_iff]; exact List.forall₂_same.2 fun x _ => printed_rounded d x
  · rw [hl]; exact tokens_pad blank_two (tokens_cells_after g hg h)
  · rw [List.forall₂_map_left_iff, List.forall₂_map_right_iff]
    exact List.forall₂_same.2 fun x _ => formatFixed_numeral d x

theorem blank_three : Blank c!"   " := blank_replicate 3

theorem stiffnessLine_spec (row : Fin 6 → ℚ) : IsRow 4 (List.ofFn row) (stiffnessLine row) := by
  refine row_of (ss := (List.ofFn row).map fun x => alignRight 10 (formatSpaced 4 x)) c!"   " blank_three ?_ ?_
  · rw [List.forall₂_map_left_iff, List.forall₂_map_right_iff]
    exact List.forall₂_same.2 fun x _ => cell_right (cell_spaced 4 x) 10
  · simp [stiffnessLine, List.map_ofFn, Function.comp_def]

theorem complianceLine_spec (row : Fin 6 → ℚ) :
    IsRow 6 (List.ofFn fun j => row j * 1000) (complianceLine row) := by
  refine row_of (ss := (List.ofFn fun j => row j * 1000).map fun x => alignRight 9 (formatFixed 6 x)) c!"   "
    blank_three ?_ ?_
  · rw [List.forall₂_map_left_iff, List.forall₂_map_right_iff]
    exact List.forall₂_same.2 fun x _ => cell_right (cell_self _) 9
  · simp [complianceLine, List.map_ofFn, Function.comp_def]

theorem isDecimal_of (d : ℕ) (x : ℚ) : IsDecimal d x (formatFixed d x) :=
  ⟨_, printed_rounded d x, formatFixed_numeral d x⟩

theorem isNum_of (d : ℕ) (x : Num) : IsNum d x (fixedNum d x) := by
  cases x
  · exact isDecimal_of d _
  · rfl
  · rfl

theorem cell_spacedNum (d : ℕ) (x : Num) : Cell (fixedNum d x) (spacedNum d x) := by
  cases x
  · exact cell_spaced d _
  · exact cell_before (g := c!" ") blank_space_one (cell_self _)
  · exact cell_before (g := c!" ") blank_space_one (cell_self _)

theorem averageLine_spec (name : Str) (a : Fin 4 → ℚ) : IsAverage name a (averageLine name a) := by
  refine ⟨(List.ofFn a).map (formatFixed 5), ?_, ?_⟩
  · rw [List.forall₂_map_right_iff]; exact List.forall₂_same.2 fun x _ => isDecimal_of 5 x
  · have := tokens_next (cell_left name 5) (tokens_next (cell_before blank_space_one (cell_center 10 (formatFixed 5 (a 0))))
      (tokens_next (cell_before blank_space_one (cell_center 10 (formatFixed 5 (a 1))))
      (tokens_next (cell_before blank_space_one (cell_center 10 (formatFixed 5 (a 2))))
      (tokens_last (cell_before blank_space_one (cell_center 10 (formatFixed 5 (a 3))))))))
    simpa [averageLine, List.ofFn_succ] using this

/-- The label at the beginning of a line of a table. -/
theorem tokens_label {label rest : Str} {ts : List Str} (h : Tokens ts rest) :
    Tokens ((if label = [] then [] else [label]) ++ ts) (c!"    " ++ (alignLeft 10 label ++ ' ' :: rest)) := by
  refine tokens_pad blank_four ?_
  split
  · next h' =>
    subst h'
    rw [List.nil_append, show alignLeft 10 [] ++ ' ' :: rest = List.replicate 11 ' ' ++ rest by simp [alignLeft, List.replicate]]
    exact tokens_pad (blank_replicate 11) h
  · exact tokens_next (cell_left label 10) h

theorem double_spec (label a b : Str) :
    Tokens ((if label = [] then [] else [label]) ++ [c!"|", a, c!"|", b]) (double label a b) := by
  have := tokens_label (label := label) (tokens_next (cell_self c!"|") (tokens_next (cell_center 32 a)
    (tokens_next (cell_self c!"|") (tokens_last (cell_center 32 b)))))
  simpa [double] using this

theorem quad_spec (label a b c d : Str) :
    Tokens ((if label = [] then [] else [label]) ++ [c!"|", a, b, c!"|", c, d]) (quad label a b c d) := by
  have := tokens_label (label := label) (tokens_next (cell_self c!"|") (tokens_next (cell_center 15 a)
    (tokens_next (cell_before blank_space_one (cell_center 15 b)) (tokens_next (cell_self c!"|")
      (tokens_next (cell_center 15 c) (tokens_last (cell_before blank_space_one (cell_center 15 d))))))))
  simpa [quad] using this

theorem triple_spec (label a b c : Str) :
    Tokens ((if label = [] then [] else [label]) ++ [c!"|", a, c!"|", b, c!"|", c]) (triple label a b c) := by
  have := tokens_label (label := label) (tokens_next (cell_self c!"|") (tokens_next (cell_center 22 a)
    (tokens_next (cell_self c!"|") (tokens_next (cell_center 22 b)
      (tokens_next (cell_self c!"|") (tokens_last (cell_center 22 c)))))))
  simpa [triple] using this

theorem hexa_spec (label a b c d e f : Str) :
    Tokens ((if label = [] then [] else [label]) ++ [c!"|", a, b, c!"|", c, d, c!"|", e, f]) (hexa label a b c d e f) := by
  have := tokens_label (label := label) (tokens_next (cell_self c!"|") (tokens_next (cell_center 10 a)
    (tokens_next (cell_before blank_space_one (cell_center 10 b)) (tokens_next (cell_self c!"|")
      (tokens_next (cell_center 10 c) (tokens_next (cell_before blank_space_one (cell_center 10 d))
        (tokens_next (cell_self c!"|") (tokens_next (cell_center 10 e)
          (tokens_last (cell_before blank_space_one (cell_center 10 f)))))))))))
  simpa [hexa] using this

theorem quad_row (label : Str) (a b c d : ℚ) :
    IsTableRow label [[.val a, .val b], [.val c, .val d]] (quad label (four a) (four b) (four c) (four d)) := by
  refine ⟨[[four a, four b], [four c, four d]], ?_, by simpa using quad_spec label (four a) (four b) (four c) (four d)⟩
  simp only [List.forall₂_cons, List.Forall₂.nil, and_true]
  exact ⟨⟨isDecimal_of 4 a, isDecimal_of 4 b⟩, isDecimal_of 4 c, isDecimal_of 4 d⟩

theorem hexa_row (label : Str) (a b c d e f : ℚ) :
    IsTableRow label [[.val a, .val b], [.val c, .val d], [.val e, .val f]]
      (hexa label (four a) (four b) (four c) (four d) (four e) (four f)) := by
  refine ⟨[[four a, four b], [four c, four d], [four e, four f]], ?_,
    by simpa using hexa_spec label (four a) (four b) (four c) (four d) (four e) (four f)⟩
  simp only [List.forall₂_cons, List.Forall₂.nil, and_true]
  exact ⟨⟨isDecimal_of 4 a, isDecimal_of 4 b⟩, ⟨isDecimal_of 4 c, isDecimal_of 4 d⟩, isDecimal_of 4 e, isDecimal_of 4 f⟩

theorem double_row (label : Str) (a b : Num) : IsTableRow label [[a], [b]] (double label (fixedNum 4 a) (fixedNum 4 b)) := by
  refine ⟨[[fixedNum 4 a], [fixedNum 4 b]], ?_, by simpa using double_spec label (fixedNum 4 a) (fixedNum 4 b)⟩
  simp only [List.forall₂_cons, List.Forall₂.nil, and_true]
  exact ⟨isNum_of 4 a, isNum_of 4 b⟩

theorem triple_row (label : Str) (a b c : Num) :
    IsTableRow label [[a], [b], [c]] (triple label (fixedNum 4 a) (fixedNum 4 b) (fixedNum 4 c)) := by
  refine ⟨[[fixedNum 4 a], [fixedNum 4 b], [fixedNum 4 c]], ?_,
    by simpa using triple_spec label (fixedNum 4 a) (fixedNum 4 b) (fixedNum 4 c)⟩
  simp only [List.forall₂_cons, List.Forall₂.nil, and_true]
  exact ⟨isNum_of 4 a, isNum_of 4 b, isNum_of 4 c⟩

theorem axis_of {label : Str} {axes : List ((Fin 3 → ℚ) × (Fin 3 → ℚ))} {f : Fin 3 → Str}
    (h : ∀ i, IsTableRow (if i = 1 then label else []) (axes.map fun a => [.val (a.1 i), .val (a.2 i)]) (f i)) :
    IsAxis label axes (List.ofFn f) := by
  refine ⟨by simp, fun i l hl => ?_⟩
  rw [List.getElem?_ofFn, dif_pos i.2, Option.some.injEq] at hl
  exact hl ▸ h i

theorem titles_four (a b c d : Str) : Tokens [a, b, c, d] (alignLeft 5 [] ++ c!"  " ++ center 10 a ++ c!"  " ++ center 10 b ++
    c!"  " ++ center 10 c ++ c!"  " ++ center 10 d) := by
  have := tokens_pad (g := c!"       ") (blank_replicate 7) (tokens_next (cell_center 10 a) (tokens_next
    (cell_before blank_space_one (cell_center 10 b)) (tokens_next (cell_before blank_space_one (cell_center 10 c))
      (tokens_last (cell_before blank_space_one (cell_center 10 d))))))
  simpa [alignLeft] using this

/-- C111: the report of the input names the job, the crystal system and the density, which is missing exactly when it is
zero, and lists the stiffness with four decimals and the compliance in 1/TPa with six. -/
theorem C111_input (job system repr : Str) (density : ℚ) (C S : Fin 6 → Fin 6 → ℚ) :
    ∃ line stiffness compliance,
      reportElasticInput job system repr density C S = [c!"\nElastic analysis of " ++ job, [], c!"System is " ++ system,
        line, [], c!"Stiffness matrix (values in GPa)"] ++ stiffness ++ [[], c!"Compliance tensor (values in TPa^-1)"] ++
        compliance ++ [[]] ∧
      (density = 0 → line = c!"Density: not provided") ∧
      (density ≠ 0 → line = c!"Density: " ++ repr ++ c!" kg m^-3") ∧
      stiffness.length = 6 ∧ compliance.length = 6 ∧
      (∀ (i : Fin 6) l, stiffness[i.1]? = some l → IsRow 4 (List.ofFn (C i)) l) ∧
      ∀ (i : Fin 6) l, compliance[i.1]? = some l → IsRow 6 (List.ofFn fun j => S i j * 1000) l := by
  refine ⟨_, _, _, rfl, fun h => by rw [if_pos h], fun h => by rw [if_neg h], by simp, by simp, ?_, ?_⟩
  · intro i l hl
    rw [List.getElem?_ofFn, dif_pos i.2, Option.some.injEq] at hl
    exact hl ▸ stiffnessLine_spec _
  · intro i l hl
    rw [List.getElem?_ofFn, dif_pos i.2, Option.some.injEq] at hl
    exact hl ▸ complianceLine_spec _

/-- C111, in part: the log of a run gives the three averages, the velocities, the six eigenvalues in their order, and the
tables of the extremes, that of the velocities when the density is known.  Missing: without a density the lines of the
velocities should not be there, see C111_velocities_violated. -/
theorem C111_run_partial (density : ℚ) (avg : Fin 3 → Fin 4 → ℚ) (eigenval : Fin 6 → ℚ) (iso : Fin 3 → ℚ)
    (E LC G Nu Vp Vs1 Vs2 : Extremes) (he : ∃ i, eigenval i ≠ 0) :
    ∃ titles averages velocities eigenvalues moduli seismic,
      runLog density avg eigenval iso E LC G Nu Vp Vs1 Vs2 = [c!"Average properties", titles] ++ averages ++ [[]] ++
        velocities ++ [c!"Eigenvalues of the stiffness matrix:"] ++ eigenvalues ++ [[]] ++ moduli ++ seismic ∧
      (∃ t1 t2 t3, titles = t1 ++ ['\n'] ++ t2 ++ ['\n'] ++ t3 ∧
        Tokens [c!"Bulk", c!"Young's", c!"Shear", c!"Poisson's"] t1 ∧
        Tokens [c!"modulus", c!"modulus", c!"modulus", c!"ratio"] t2 ∧ Tokens [c!"(GPa)", c!"(GPa)", c!"(GPa)"] t3) ∧
      averages.length = 3 ∧
      (∀ l, averages[0]? = some l → IsAverage c!"Voigt" (avg 0) l) ∧
      (∀ l, averages[1]? = some l → IsAverage c!"Reuss" (avg 1) l) ∧
      (∀ l, averages[2]? = some l → IsAverage c!"Hill" (avg 2) l) ∧
      (0 < density → ∃ ts tp, IsDecimal 5 (iso 0) ts ∧ IsDecimal 5 (iso 2) tp ∧ ∃ s p,
        velocities = [c!"Average (VRH) wave velocities", s, p, []] ∧
        Tokens [c!"-", c!"Transversal", c!"(Vs):", ts, c!"km/s"] s ∧
        Tokens [c!"-", c!"Longitudinal", c!"(Vp):", tp, c!"km/s"] p) ∧
      eigenvalues.length = 6 ∧
      (∀ (i : Fin 6) l, eigenvalues[i.1]? = some l → ∃ n t, Digits n ∧ natOf n = i + 1 ∧ IsDecimal 5 (eigenval i) t ∧
        Tokens [c!"lambda_" ++ n ++ c!":", t] l) ∧
      (∃ r1 r2 t1 t2 v a axes r3 r4 u1 u2 w b first second,
        moduli = [c!"Variations of the elastic moduli:", [], r1, t1, r2, t2, v, r2, a, r2] ++ axes ++
          [r1, c!"Notes: E min/max values in GPa, beta min/max values in TPa^-1", []] ++
          [r3, u1, r4, u2, w, r4, b, r4] ++ first ++ [r4] ++ second ++ [r3, c!"Notes: G min/max values in GPa", []] ∧
        IsTitles [[c!"Young's modulus"], [c!"Linear compressibility"]] t1 ∧
        IsTitles [[c!"E_min", c!"E_max"], [c!"beta_min", c!"beta_max"]] t2 ∧
        IsExtremes c!"Axis" [E, LC] v a axes ∧
        IsTitles [[c!"Shear modulus"], [c!"Poisson's ratio"]] u1 ∧
        IsTitles [[c!"G_min", c!"G_max"], [c!"nu_min", c!"nu_max"]] u2 ∧
        IsExtremes c!"1st Axis" [G, Nu] w b first ∧
        IsAxis c!"2nd Axis" [(G.minAxis2, G.maxAxis2), (Nu.minAxis2, Nu.maxAxis2)] second) ∧
      (¬ 0 < density → seismic = []) ∧
      (0 < density → ∃ r1 r2 t1 t2 v a axes,
        seismic = [[], c!"Variations of the seismic velocities:", [], r1, t1, r2, t2, v, r2, a, r2] ++ axes ++
          [r1, c!"Notes: min/max values in km s^-1", []] ∧
        IsTitles [[c!"V_s1"], [c!"V_s2"], [c!"V_p"]] t1 ∧
        IsTitles [[c!"min", c!"max"], [c!"min", c!"max"], [c!"min", c!"max"]] t2 ∧
        IsExtremes c!"Axis" [Vs1, Vs2, Vp] v a axes) := by
  refine ⟨averageTitles, List.ofFn fun i => averageLine (averageName i) (avg i),
    velocityLines (averageVelocities density iso), List.ofFn fun i : Fin 6 => eigenvalueLine i (eigenval i),
    reportSingle E LC ++ reportDual G Nu, if 0 < density then reportSeismic Vp Vs1 Vs2 else [], ?_, ?_, by simp, ?_, ?_, ?_, ?_,
    by simp, ?_, ?_, fun h => by rw [if_neg h], ?_⟩
  · have : refused eigenval = false := by simpa [refused] using he
    simp only [runLog, reportInitial, this, List.append_assoc]
    rfl
  · refine ⟨_, _, _, rfl, ?_, ?_, ?_⟩
    · exact titles_four _ _ _ _
    · exact titles_four _ _ _ _
    · have := tokens_pad (g := c!"       ") (blank_replicate 7) (tokens_next (cell_center 10 c!"(GPa)") (tokens_next
        (cell_before blank_space_one (cell_center 10 c!"(GPa)")) (tokens_next (cell_before blank_space_one
          (cell_center 10 c!"(GPa)")) (Tokens.nil (g := c!" " ++ center 10 []) (blank_replicate 11)))))
      simpa [alignLeft] using this
  · intro l hl; simp [List.ofFn_succ] at hl; exact hl ▸ averageLine_spec _ _
  · intro l hl; simp [List.ofFn_succ] at hl; exact hl ▸ averageLine_spec _ _
  · intro l hl; simp [List.ofFn_succ] at hl; exact hl ▸ averageLine_spec _ _
  · intro hd
    refine ⟨_, _, isDecimal_of 5 (iso 0), isDecimal_of 5 (iso 2), _, _, by simp only [velocityLines, neNan, if_true]; rfl, ?_, ?_⟩
    · have := tokens_next (cell_before (g := c!"  ") blank_two (cell_self c!"-")) (tokens_next (cell_self c!"Transversal")
        (tokens_next (cell_before blank_space_one (cell_self c!"(Vs):")) (tokens_next
          (cell_right (cell_spaced 5 (iso 0)) 10) (tokens_last (cell_self c!"km/s")))))
      simpa [averageVelocities, hd, spacedNum] using this
    · have := tokens_next (cell_before (g := c!"  ") blank_two (cell_self c!"-")) (tokens_next (cell_self c!"Longitudinal")
        (tokens_next (cell_self c!"(Vp):") (tokens_next
          (cell_right (cell_spaced 5 (iso 2)) 10) (tokens_last (cell_self c!"km/s")))))
      simpa [averageVelocities, hd, spacedNum] using this
  · intro i l hl
    rw [List.getElem?_ofFn, dif_pos i.2, Option.some.injEq] at hl
    subst hl
    refine ⟨showNat (i + 1), _, (showNat_spec _).1, by rw [natOf_eq (showNat_spec _).1, (showNat_spec _).2.2],
      isDecimal_of 5 _, ?_⟩
    have := tokens_next (cell_before (g := c!"    ") blank_four (cell_self (c!"lambda_" ++ showNat (i + 1) ++ c!":")))
      (tokens_last (cell_center 7 (formatFixed 5 (eigenval i))))
    simpa [eigenvalueLine] using this
  · refine ⟨_, _, _, _, _, _, _, _, _, _, _, _, _, _, _, by
      simp only [reportSingle, reportDual, List.append_assoc]; rfl, ?_, ?_, ⟨?_, ?_, ?_⟩, ?_, ?_, ⟨?_, ?_, ?_⟩, ?_⟩
    · simpa [IsTitles] using double_spec [] c!"Young's modulus" c!"Linear compressibility"
    · simpa [IsTitles] using quad_spec [] c!"E_min" c!"E_max" c!"beta_min" c!"beta_max"
    · exact quad_row _ _ _ _ _
    · exact double_row _ _ _
    · exact axis_of fun i => quad_row _ _ _ _ _
    · simpa [IsTitles] using double_spec [] c!"Shear modulus" c!"Poisson's ratio"
    · simpa [IsTitles] using quad_spec [] c!"G_min" c!"G_max" c!"nu_min" c!"nu_max"
    · exact quad_row _ _ _ _ _
    · exact double_row _ _ _
    · exact axis_of fun i => quad_row _ _ _ _ _
    · exact axis_of fun i => quad_row _ _ _ _ _
  · intro hd
    refine ⟨_, _, _, _, _, _, _, by rw [if_pos hd]; rfl, ?_, ?_, ?_, ?_, ?_⟩
    · simpa [IsTitles] using triple_spec [] c!"V_s1" c!"V_s2" c!"V_p"
    · simpa [IsTitles] using hexa_spec [] c!"min" c!"max" c!"min" c!"max" c!"min" c!"max"
    · exact hexa_row _ _ _ _ _ _ _
    · exact triple_row _ _ _ _
    · exact axis_of fun i => hexa_row _ _ _ _ _ _ _

/-- C111, violated: the test that should suppress the velocities when the density is not known always succeeds, so that the
log of every such run reports velocities that are not numbers. -/
theorem C111_velocities_violated {density : ℚ} (hd : ¬ 0 < density) (avg : Fin 3 → Fin 4 → ℚ) (eigenval : Fin 6 → ℚ)
    (iso : Fin 3 → ℚ) (E LC G Nu Vp Vs1 Vs2 : Extremes) :
    c!"Average (VRH) wave velocities" ∈ runLog density avg eigenval iso E LC G Nu Vp Vs1 Vs2 ∧
    ∃ l ∈ runLog density avg eigenval iso E LC G Nu Vp Vs1 Vs2,
      Tokens [c!"-", c!"Longitudinal", c!"(Vp):", c!"nan", c!"km/s"] l := by
  have h : velocityLines (averageVelocities density iso) = [c!"Average (VRH) wave velocities",
      c!"  - Transversal  (Vs):        nan km/s", c!"  - Longitudinal (Vp):        nan km/s", []] := by
    simp [velocityLines, neNan, averageVelocities, hd, spacedNum, alignRight]
  refine ⟨?_, c!"  - Longitudinal (Vp):        nan km/s", ?_, ?_⟩
  · simp [runLog, reportInitial, h]
  · simp [runLog, reportInitial, h]
  · have := tokens_next (cell_before (g := c!"  ") blank_two (cell_self c!"-")) (tokens_next (cell_self c!"Longitudinal")
      (tokens_next (cell_self c!"(Vp):") (tokens_next
        (cell_before (g := c!"       ") (blank_replicate 7) (cell_self c!"nan")) (tokens_last (cell_self c!"km/s")))))
    simpa using this

/-- A run without density, and one with the density of quartz. -/
example : ∃ density' density : ℚ, ¬ 0 < density' ∧ 0 < density ∧ ∃ i : Fin 6, (fun i : Fin 6 => (i.1 + 30 : ℚ)) i ≠ 0 :=
  ⟨0, 2650, by norm_num, by norm_num, 0, by norm_num⟩

end Verif.Report
