/-
Property C142: from the output of an ab initio program to the reported elastic properties.
-/
import Verif.Chain.Accuracy
import Verif.Chain.Model
import Verif.Elastic.Near
import Verif.Interfaces.SoecProps

namespace Verif.Chain
open Verif.Py Verif.IO Verif.Interfaces Verif.Elastic Verif.Elastic.Spec Spec

/-- A modulus after writing and reading differs by at most the write error. -/
theorem rounded_close {m M : Mat} {t : ℝ} (ht : WriteError m t)
    (h : ∀ i j, IO.Spec.Rounded 4 (m i j) (M i j) ∧ ((∃ n : ℤ, m i j = n / 10 ^ 4) → M i j = m i j)) :
    Close (real m) (real M) t := by
  intro i j
  obtain ⟨⟨-, a⟩, b⟩ := h i j
  show |((M i j : ℚ) : ℝ) - ((m i j : ℚ) : ℝ)| ≤ t
  rcases ht with rfl | ⟨rfl, hn⟩
  · have : ((|M i j - m i j| : ℚ) : ℝ) ≤ ((1 / (2 * 10 ^ 4) : ℚ) : ℝ) := by exact_mod_cast a
    push_cast at this
    norm_num at this ⊢
    exact this
  · rw [b (hn i j)]
    simp

theorem writeError_nonneg {m : Mat} {t : ℝ} (ht : WriteError m t) : 0 ≤ t := by
  rcases ht with rfl | ⟨rfl, -⟩ <;> norm_num

theorem real_symm {m : Mat} (h : IO.Spec.Symmetric m) : (real m).IsSymm := by
  ext i j
  show ((m j i : ℚ) : ℝ) = m i j
  rw [h j i]

/-- A matrix read back from the file is not mistaken for an orthorhombic one. -/
theorem clear_orthorhombic {m M : Mat} (hc : Clear m) (hs : IO.Spec.Symmetric M)
    (h : ∀ i j, IO.Spec.Rounded 4 (m i j) (M i j)) (hk : checkSymmetry (real M) = .ok .orthorhombic) :
    OrthorhombicForm (real M) := by
  refine ⟨real_symm hs, fun i j hij h3 => ?_⟩
  rcases hc with hc | ⟨a, b, hab, hab3, hv⟩
  · obtain ⟨⟨n, e⟩, c⟩ := h i j
    have b := hc i j hij h3
    have : |M i j| < 1 / 10000 := by
      have := abs_sub_abs_le_abs_sub (M i j) (m i j)
      norm_num at c
      linarith
    have hn : n = 0 := by
      rw [e, abs_div, abs_of_pos (show (0 : ℚ) < 10 ^ 4 by norm_num)] at this
      norm_num at this
      rw [div_lt_div_iff_of_pos_right (by norm_num)] at this
      have h1 : |n| < 1 := by exact_mod_cast this
      exact Int.abs_lt_one_iff.1 h1
    show ((M i j : ℚ) : ℝ) = 0
    rw [e, hn]
    simp
  · exfalso
    have hr := (check_ok hk).1
    have hz : cijMap .orthorhombic (a, b) = 0 := by
      clear hv
      revert a b
      decide
    have := ((runCheck_iff _ _).1 hr).1 (a, b) hz
    have h1 : |M a b| ≤ 1 / 1000 := by
      have h2 : |((M a b : ℚ) : ℝ)| ≤ 1 / 1000 := this
      have h3 : ((|M a b| : ℚ) : ℝ) ≤ ((1 / 1000 : ℚ) : ℝ) := by push_cast; exact h2
      exact_mod_cast h3
    obtain ⟨-, c⟩ := h a b
    have := abs_sub_abs_le_abs_sub (m a b) (M a b)
    rw [abs_sub_comm] at this
    norm_num at c
    linarith

/-- Entries taken for zeros by the classifier stay close to the exact ones when their sign is changed. -/
theorem flipped_close {C M : M6} {t : ℝ} (h : Close C M t) {u : ℝ} (u0 : 0 ≤ u)
    (hz : ∀ i j, i ≠ j → (3 ≤ i.val ∨ 3 ≤ j.val) → |M i j| ≤ u) (k : Fin 4) : Close C (flipped k M) (t + 2 * u) := by
  intro i j
  have hc := h i j
  by_cases hij : i ≠ j ∧ (3 ≤ i.val ∨ 3 ≤ j.val)
  · have hu := hz i j hij.1 hij.2
    have hs : flipped k M i j = M i j ∨ flipped k M i j = -M i j := by
      show axisSigns k i * M i j * axisSigns k j = _ ∨ axisSigns k i * M i j * axisSigns k j = _
      have : ∀ i, axisSigns k i = 1 ∨ axisSigns k i = -1 := fun i => mul_self_eq_one_iff.1 (axisSigns_sq k i)
      rcases this i with a | a <;> rcases this j with b | b <;> rw [a, b] <;> simp
    rcases hs with e | e <;> rw [e]
    · linarith
    · rw [abs_le] at hc hu ⊢
      constructor <;> linarith [hc.1, hc.2, hu.1, hu.2]
  · have hs : axisSigns k i * axisSigns k j = 1 := by
      by_cases e : i = j
      · rw [e]; exact axisSigns_sq k j
      · have : i.val < 3 ∧ j.val < 3 := by
          by_contra hn
          exact hij ⟨e, by omega⟩
        revert this
        fin_cases k <;> fin_cases i <;> fin_cases j <;> simp [axisSigns]
    have e : flipped k M i j = M i j := by
      show axisSigns k i * M i j * axisSigns k j = M i j
      rw [mul_right_comm, hs, one_mul]
    rw [e]
    linarith

/-- What the classifier calls orthorhombic. -/
theorem orthorhombic_small {M : M6} (h : checkSymmetry M = .ok .orthorhombic) (a b : Fin 6) (hab : a ≠ b)
    (h3 : 3 ≤ a.val ∨ 3 ≤ b.val) : |M a b| ≤ 1 / 1000 := by
  have hz : cijMap .orthorhombic (a, b) = 0 := by
    revert a b
    decide
  exact ((runCheck_iff _ _).1 (check_ok h).1).1 (a, b) hz

/-- A run on moduli with an error. -/
theorem run_accurate {C M : M6} (hs : C.IsSymm) (hM : M.IsSymm) {l t : ℝ} (ht : 0 ≤ t) (hl : 6 * t < l) (hr : Resists C l)
    (hc : Close C M t) {density : ℝ} {sys : System} {o : Solid} (h : load M density = .ok (sys, o))
    (ho : sys = .orthorhombic → ∀ k, Close C (flipped k M) t) {eigvals : M6 → List ℝ} (he : EigenSolver eigvals)
    {min2 : Search (ℝ × ℝ)} (h2 : Finds min2) {min3 : Search (ℝ × ℝ × ℝ)} (h3 : Finds min3) :
    Accurate C l t (run eigvals min2 min3 o) := by
  obtain ⟨p, p', -, -, -⟩ := close_crystals hs hM ht hl hr hc
  obtain ⟨s, es⟩ := soec_of_det (posDef_det p') density
  have hsC : s.C = M := by obtain ⟨-, rfl⟩ := soec_ok es; rfl
  have avg : ∀ s0 d0, soec C d0 = .ok s0 → ∀ f, f = Averages.voigt ∨ f = Averages.reuss ∨ f = Averages.hill →
      Within (6 * t / l) (f s0.averages).K (f s.averages).K ∧ Within (6 * t / l) (f s0.averages).G (f s.averages).G ∧
      Within (6 * t / l) (f s0.averages).E (f s.averages).E := by
    intro s0 d0 e0
    obtain ⟨s1, e1⟩ := soec_of_det (posDef_det p) 1
    obtain ⟨s2, e2⟩ := soec_of_det (posDef_det p') 1
    have := (C141_averages hs hM ht hl hr hc one_pos one_pos e1 e2).1
    obtain ⟨-, rfl⟩ := soec_ok e0
    obtain ⟨-, rfl⟩ := soec_ok es
    obtain ⟨-, rfl⟩ := soec_ok e1
    obtain ⟨-, rfl⟩ := soec_ok e2
    exact this
  by_cases hb : sys = .orthorhombic
  · obtain ⟨D, pD, eD, ha, hbb⟩ := closed_between hs hM ht hl hr (ho hb)
    obtain ⟨s', es'⟩ := soec_of_det (posDef_det pD) density
    obtain ⟨g1, g2, g3, g4⟩ := closed_forms hM eD es es'
    obtain ⟨a1, a2⟩ := C46_extremes D pD density s' es' min2 h2
    obtain ⟨a3, a4⟩ := C46_pair_extremes_partial D pD density s' es' min3 h3
    subst hb
    have hq : o = { soec := s, ortho := true } := by
      unfold load at h
      simp only [bind, Except.bind, es] at h
      split at h
      · cases h
      · simp only [pure, Except.pure, Except.ok.injEq, Prod.mk.injEq] at h
        obtain ⟨e, rfl⟩ := h
        simp [e]
    subst hq
    obtain ⟨x, hx⟩ := exists_eigenvalue p'
    have hn : ¬ refusal (eigvals s.C) := by
      rw [hsC]
      unfold refusal pyAny
      rw [not_not]
      refine ⟨x, (he M hM x).2 hx, ?_⟩
      rintro rfl
      obtain ⟨v, hv, hm⟩ := hx
      rw [zero_smul] at hm
      exact hv (Matrix.eq_zero_of_mulVec_eq_zero (posDef_det p') hm)
    have k1 : Solid.youngModulus { soec := s, ortho := true } = s'.youngModulus := funext g1
    have k2 : Solid.linearCompressibility { soec := s, ortho := true } = s'.linearCompressibility := funext g2
    have k3 : Solid.shearModulus { soec := s, ortho := true } = s'.shearModulus := funext g3
    have k4 : Solid.poissonRatio { soec := s, ortho := true } = s'.poissonRatio := funext g4
    simp only [run, if_neg hn, k1, k2, k3, k4]
    exact ⟨⟨rfl, avg⟩, _, _, _, _, rfl, reports_between hs ht hl hr pD ha hbb es' a1 a2 a3 a4⟩
  · obtain ⟨s', es', rc, ra, -, E, LC, G, Nu, rv, hE, hL, hG, hN⟩ :=
      C46_run_partial _ p' _ _ _ h (fun e => absurd e hb) eigvals he min2 h2 min3 h3
    rw [es] at es'
    cases es'
    refine ⟨⟨rc, ?_⟩, E, LC, G, Nu, rv, reports_close hs hM ht hl hr hc es hE hL hG hN⟩
    rw [ra]
    exact avg

/-- C46 without any condition on the classifier: for a crystal that resists every strain with more than 0.012 GPa, the extremes a
run reports are those over all directions; they are exact unless the classifier takes a crystal with small moduli for an
orthorhombic one, and then they are off by no more than an error of 0.002 GPa of the moduli can cause.  Missing from the full
property: the axes reported, see `C46_two_axes_violated`. -/
theorem C46_tolerance_partial {C : M6} (hs : C.IsSymm) {l : ℝ} (hr : Resists C l) {density : ℝ} {sys : System} {o : Solid}
    (h : load C density = .ok (sys, o)) {eigvals : M6 → List ℝ} (he : EigenSolver eigvals) {min2 : Search (ℝ × ℝ)}
    (h2 : Finds min2) {min3 : Search (ℝ × ℝ × ℝ)} (h3 : Finds min3) :
    (0 < l → (sys = .orthorhombic → OrthorhombicForm C) → Accurate C l 0 (run eigvals min2 min3 o)) ∧
    (12 / 1000 < l → Accurate C l (2 / 1000) (run eigvals min2 min3 o)) := by
  have hcl : ∀ t, 0 ≤ t → Close C C t := fun t ht i j => by simpa using ht
  have hk : ∀ {sys'}, sys = sys' → checkSymmetry C = .ok sys' := by
    rintro _ rfl
    unfold load at h
    simp only [bind, Except.bind] at h
    split at h
    · cases h
    · rename_i s es
      obtain ⟨-, rfl⟩ := soec_ok es
      simp only at h
      split at h
      · cases h
      · rename_i y hy
        simp only [pure, Except.pure, Except.ok.injEq, Prod.mk.injEq] at h
        rw [hy, h.1]
  refine ⟨fun l0 hf => run_accurate hs hs le_rfl (by linarith) hr (hcl 0 le_rfl) h (fun e k => ?_) he h2 h3,
    fun l0 => run_accurate hs hs (by norm_num) (by linarith) hr (hcl _ (by norm_num)) h (fun e k => ?_) he h2 h3⟩
  · have := flipped_close (hcl 0 le_rfl) le_rfl (fun i j hij h3 => by rw [(hf e).2 i j hij h3]; simp) k
    simpa using this
  · have := flipped_close (hcl 0 le_rfl) (u := 1 / 1000) (by norm_num) (orthorhombic_small (hk e)) k
    norm_num at this ⊢
    exact this

/-- The second command on a file written by the first one. -/
theorem read_written {m : Mat} (hm : IO.Spec.Symmetric m) {rho : ℚ} {title : Str} (ht : GoodTitle title) {l t : ℝ}
    (hw : ChainError m t) (hl : 6 * t < l) (hr : Resists (real m) l) {eigvals : M6 → List ℝ}
    (he : EigenSolver eigvals) {min2 : Search (ℝ × ℝ)} (h2 : Finds min2) {min3 : Search (ℝ × ℝ × ℝ)} (h3 : Finds min3) :
    ∃ i, readInput (writeSoec m rho title) = .ok (.ok i) ∧ i.job = title ∧ |i.solid.soec.density - rho| ≤ 1 / 20 ∧
      Close (real m) i.solid.soec.C t ∧ Accurate (real m) l t (run eigvals min2 min3 i.solid) := by
  obtain ⟨M, ρ, e, hM, ⟨-, hρ⟩, -⟩ := C49_roundtrip_partial hm rho ht.1 ht.2.1 ht.2.2 .initial
  have hMs : IO.Spec.Symmetric M := by
    have hp : IO.Spec.Symmetric fun i j => printed 4 (m i j) := fun i j => by
      show printed 4 (m i j) = printed 4 (m j i)
      rw [hm i j]
    obtain ⟨d', e', k, -⟩ := C47_matrix_partial (y := .full) (by simp) hp (writeSoec_lines m rho ht.1)
      (writeSoec_file m rho ht.2.1) .initial
    rw [e] at e'
    cases e'
    cases k
    exact hp
  have h20 : Close (real m) (real M) (1 / 20000) := rounded_close (.inl rfl) hM
  have hcl : Close (real m) (real M) t := by
    rcases hw with rfl | ⟨-, hw⟩
    · intro i j
      exact (h20 i j).trans (by norm_num)
    · exact rounded_close hw hM
  have t0 : 0 ≤ t := by
    rcases hw with rfl | ⟨-, hw⟩
    · norm_num
    · exact writeError_nonneg hw
  obtain ⟨p, p', r1, -, -⟩ := close_crystals (real_symm hm) (real_symm hMs) t0 hl hr hcl
  obtain ⟨s, es⟩ := soec_of_det (posDef_det p') (ρ : ℝ)
  have hsC : s.C = real M := by obtain ⟨-, rfl⟩ := soec_ok es; rfl
  obtain ⟨sys, hk⟩ := (C44_total_first (real M)).1 fun i j => by
    rw [(real_symm hMs).apply]
    simp
  have hload : load (real M) ρ = .ok (sys, { soec := s, ortho := decide (sys = .orthorhombic) }) := by
    simp [load, bind, Except.bind, es, hsC, hk, pure, Except.pure]
  have horth : sys = .orthorhombic → ∀ k, Close (real m) (flipped k (real M)) t := by
    rintro rfl k
    rcases hw with rfl | ⟨hc, hw⟩
    · intro i j
      refine (flipped_close h20 (u := 1 / 1000) (by norm_num) (orthorhombic_small hk) k i j).trans (by norm_num)
    · have := flipped_close hcl le_rfl (fun i j hij h3 => by
        rw [(clear_orthorhombic hc hMs (fun i j => (hM i j).1) hk).2 i j hij h3]; simp) k
      simpa using this
  refine ⟨{ job := title, system := sys, solid := { soec := s, ortho := decide (sys = .orthorhombic) } }, ?_, rfl, ?_, ?_,
    run_accurate (real_symm hm) (real_symm hMs) t0 hl hr hcl hload horth he h2 h3⟩
  · unfold readInput
    rw [e]
    simp [hload, bind, Except.bind, pure, Except.pure]
  · have : s.density = ρ := by obtain ⟨-, rfl⟩ := soec_ok es; rfl
    show |s.density - rho| ≤ 1 / 20
    rw [this]
    have h1 : ((|ρ - rho| : ℚ) : ℝ) ≤ ((1 / (2 * 10 ^ 1) : ℚ) : ℝ) := by exact_mod_cast hρ
    push_cast at h1
    norm_num at h1 ⊢
    exact h1
  · show Close (real m) s.C t
    rw [hsC]
    exact hcl

theorem resists_of_quad {C : M6} {l : ℝ} (h : ∀ e : Fin 6 → ℝ, l * ∑ I, e I ^ 2 ≤ quad C e e) : Resists C l := by
  intro ε σ hk
  have w := work hk
  have : 2 * energy ε σ = quad C (voigtStrain ε) (voigtStrain ε) := by
    unfold energy
    rw [w]
    ring
  rw [this]
  exact h _

/-- The title written is usable. -/
theorem goodTitle_job {answer : Str} (ha : answer = [] ∨ GoodTitle answer) : GoodTitle (jobName answer) := by
  rcases ha with rfl | ha
  · exact ⟨⟨[], 'U', c!"nknown", by simp [IO.Spec.Blank], by decide, by decide, rfl⟩, by decide, by
      intro c hc
      have : c = 'n' := by
        have h : (jobName []).getLast? = some 'n' := by decide
        rw [h] at hc
        cases hc
        rfl
      subst this
      decide⟩
  · unfold jobName
    split
    · rename_i h
      subst h
      obtain ⟨⟨g, c, t, -, -, -, k⟩, -⟩ := ha
      simp at k
    · exact ha

/-- C142, CRYSTAL: the moduli printed by CRYSTAL, turned into an input file with a usable title and analysed by the elastic
command, give a completed report under that title with the averages and the extremes over all directions of the crystal with
these moduli: exactly when the moduli have at most four decimals, as CRYSTAL prints them, and otherwise up to the error of writing
them and of taking small moduli for zeros (`ChainError`).  Missing from the full property: titles that start with a digit
(`C142_title_violated`). -/
theorem C142_crystal_partial {ls : List Str} {output : Str} {m : Mat} {rho : ℚ} (hf : IsText ls output)
    (ho : Interfaces.Spec.CrystalOutput ls m) (hm : IO.Spec.Symmetric m) (hd : Interfaces.Spec.Density ls rho) {answer : Str}
    (ha : answer = [] ∨ GoodTitle answer) {l t : ℝ} (hw : ChainError m t) (hl : 6 * t < l) (hr : Resists (real m) l)
    {eigvals : M6 → List ℝ} (he : EigenSolver eigvals) {min2 : Search (ℝ × ℝ)} (h2 : Finds min2)
    {min3 : Search (ℝ × ℝ × ℝ)} (h3 : Finds min3) :
    ∃ file i, generate .crystal output answer = .ok (.ok file) ∧ readInput file = .ok (.ok i) ∧
      (answer = [] → i.job = c!"Unknown") ∧ (answer ≠ [] → i.job = answer) ∧ |i.solid.soec.density - rho| ≤ 1 / 20 ∧
      Accurate (real m) l t (run eigvals min2 min3 i.solid) := by
  obtain ⟨d, e, hu, hs⟩ := C58_symmetric_partial hf ho hd
  have hdn := C76_density hf ho hd .initial
  rw [e] at hdn
  have hdm : d.stiffness = m := by
    funext i j
    rcases le_total i j with h | h
    · exact hu i j h
    · rw [hs i j, hu j i h, hm j i]
  have ht := goodTitle_job ha
  obtain ⟨i, e1, e2, e3, -, e5⟩ := read_written (rho := rho) hm ht hw hl hr he h2 h3
  refine ⟨writeSoec m rho (jobName answer), i, ?_, e1, fun h => ?_, fun h => ?_, e3, e5⟩
  · simp only at hdn
    simp [generate, readOutput, e, hdm, hdn]
  · rw [e2, h]; rfl
  · rw [e2, jobName, if_neg h]

/-- C142 fails for a title of one word that starts with a digit and is not a number, such as `2H-MoS2`: the first command accepts
it and writes a file that the second command refuses. -/
theorem C142_title_violated {ls : List Str} {output : Str} {m : Mat} {rho : ℚ} (hf : IsText ls output)
    (ho : Interfaces.Spec.CrystalOutput ls m) (hd : Interfaces.Spec.Density ls rho) {c : Char} {t : Str}
    (hc : c ∈ IO.Spec.digits) (ht : ∀ x ∈ t, x ∉ [' ', '\t', '\n', '\r', '\x0b', '\x0c'])
    (hn : ¬ ∃ q, IO.Spec.Numeral (c :: t) q) :
    ∃ file e, generate .crystal output (c :: t) = .ok (.ok file) ∧ readInput file = .ok (.error e) := by
  obtain ⟨d, e, -⟩ := C58_symmetric_partial hf ho hd
  refine ⟨writeSoec d.stiffness d.density (c :: t), some .notFloat, ?_, ?_⟩
  · simp [generate, readOutput, e, jobName]
  · unfold readInput
    rw [C49_title_violated d.stiffness d.density hc ht hn .initial]
    simp

end Verif.Chain
