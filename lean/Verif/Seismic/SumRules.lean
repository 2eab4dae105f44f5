/-
Property C130: the three waves in order, the sum of the squares of their speeds, and the reported ranges.
-/
import Verif.Elastic.Extremes
import Verif.Elastic.Relations
import Verif.Elastic.Run
import Verif.Seismic.Projector
import Verif.Seismic.Waves
import Verif.Tac

namespace Verif.Seismic
open Verif.Py Verif.Elastic Verif.Elastic.Spec Spec

/-! ### Model -/

/-- `SOEC.longitudinal_wave` (soec_obj.py:402-408). -/
noncomputable def Soec.longitudinalWave (num : Numerics) (s : Soec) (x : ℝ × ℝ) : ℝ :=
  Soec.phaseVelocity num s x.1 x.2 2

/-- `SOEC.shear_wave_1` (soec_obj.py:410-416). -/
noncomputable def Soec.shearWave1 (num : Numerics) (s : Soec) (x : ℝ × ℝ) : ℝ :=
  Soec.phaseVelocity num s x.1 x.2 0

/-- `SOEC.shear_wave_2` (soec_obj.py:418-424). -/
noncomputable def Soec.shearWave2 (num : Numerics) (s : Soec) (x : ℝ × ℝ) : ℝ :=
  Soec.phaseVelocity num s x.1 x.2 1

/-- What `SOECCalculator.phase_velocity_variation` returns (soec.py:449-455), unpacked in soec.py:266. -/
structure WaveVariation where
  Vp : Variation
  Vs1 : Variation
  Vs2 : Variation

/-- `SOECCalculator.phase_velocity_variation` (soec.py:449-455). -/
noncomputable def phaseVelocityVariation (min2 : Search (ℝ × ℝ)) (num : Numerics) (s : Soec) : WaveVariation :=
  { Vp := variation2 min2 (Soec.longitudinalWave num s)
    Vs1 := variation2 min2 (Soec.shearWave1 num s)
    Vs2 := variation2 min2 (Soec.shearWave2 num s) }

/-! ### Lemmas -/

theorem acoustic_trace_triad (C : M6) (density : ℝ) {a b c : V3} (h : Triad a b c) :
    (∑ q : Fin 3, Matrix.trace (acoustic (fun i j k l => 10 ^ 9 * cTensor C i j k l) density (![a, b, c] q))) =
      10 ^ 9 * (C 0 0 + C 1 1 + C 2 2 + 2 * (C 3 3 + C 4 4 + C 5 5)) / density := by
  have hc := triad_complete h
  have e : ∀ q : V3, Matrix.trace (acoustic (fun i j k l => 10 ^ 9 * cTensor C i j k l) density q) =
      ∑ i, ∑ j, ∑ l, 10 ^ 9 / density * cTensor C i j i l * (q j * q l) := by
    intro q
    simp only [Matrix.trace, Matrix.diag, acoustic, Matrix.of_apply, Finset.sum_div]
    refine Finset.sum_congr rfl fun i _ => Finset.sum_congr rfl fun j _ => Finset.sum_congr rfl fun l _ => by ring
  rw [Fin.sum_univ_three]
  simp only [Matrix.cons_val, e, ← Finset.sum_add_distrib, ← mul_add, hc]
  simp only [mul_ite, mul_one, mul_zero, Finset.sum_ite_eq, Finset.mem_univ, if_true]
  simp only [Fin.sum_univ_three, cTensor, vm, Matrix.cons_val]
  ring

theorem phase_sum {C : M6} {density : ℝ} {n V : V3} (h : PhaseVelocities C density n V) :
    (1000 * V 0) ^ 2 + (1000 * V 1) ^ 2 + (1000 * V 2) ^ 2 =
      Matrix.trace (acoustic (fun i j k l => 10 ^ 9 * cTensor C i j k l) density n) := by
  obtain ⟨-, -, -, e, hf, he⟩ := h
  have := trace_spectrum hf he
  rw [Matrix.trace_fin_three, this]

theorem phase_unique {C : M6} {density : ℝ} {n V W : V3} (h : PhaseVelocities C density n V)
    (h' : PhaseVelocities C density n W) : V = W := by
  have := spectrum_unique h.2 h'.2
  funext i
  have e : (1000 * V i) ^ 2 = (1000 * W i) ^ 2 := congrFun this i
  have h1 := h.1 i
  have h2 := h'.1 i
  have := abs_eq_abs.2 ((sq_eq_sq_iff_eq_or_eq_neg).1 e)
  rw [abs_of_nonneg (by linarith), abs_of_nonneg (by linarith)] at this
  linarith

theorem phase_sorted {C : M6} {density : ℝ} {n V : V3} (h : PhaseVelocities C density n V) : V 0 ≤ V 1 ∧ V 1 ≤ V 2 := by
  obtain ⟨h0, h1, h2, -⟩ := h
  have key : ∀ {x y : ℝ}, 0 ≤ y → (1000 * x) ^ 2 ≤ (1000 * y) ^ 2 → x ≤ y := by
    intro x y hy h
    have := (le_abs_self _).trans (abs_le_of_sq_le_sq h (by linarith))
    linarith
  exact ⟨key (h0 1) h1, key (h0 2) h2⟩

/-! ### C130 -/

/-- C130: in every direction the two waves called shear and the one called longitudinal are the slowest, the middle and the
fastest of the three waves of the crystal there. -/
theorem C130_order (num : Numerics) (hn : EighCorrect num) (C : M6) (hC : C.PosDef) (density : ℝ) (hr : 0 < density)
    (s : Soec) (hs : soec C density = .ok s) (x : ℝ × ℝ) :
    PhaseVelocities C density (vector x.1 x.2)
      ![Soec.shearWave1 num s x, Soec.shearWave2 num s x, Soec.longitudinalWave num s x] ∧
    0 < Soec.shearWave1 num s x ∧ Soec.shearWave1 num s x ≤ Soec.shearWave2 num s x ∧
    Soec.shearWave2 num s x ≤ Soec.longitudinalWave num s x := by
  obtain ⟨o, ho⟩ : ∃ o, seismic C density = .ok o := by
    unfold seismic
    rw [if_neg (posDef_det hC)]
    exact ⟨_, rfl⟩
  obtain ⟨p, pos, -⟩ := C37_velocities num hn C hC density hr s hs o ho x.1 x.2
  have e : ![Soec.shearWave1 num s x, Soec.shearWave2 num s x, Soec.longitudinalWave num s x] =
      Soec.phaseVelocity num s x.1 x.2 := by
    funext i
    fin_cases i <;> rfl
  rw [e]
  exact ⟨p, pos 0, phase_sorted p⟩

/-- C130: summed over the three waves and over any three perpendicular directions, density times the square of the speed is
`3 K + 10 G` of the Voigt average, whatever the orientation of the three directions. -/
theorem C130_sum (num : Numerics) (hn : EighCorrect num) (C : M6) (hC : C.PosDef) (density : ℝ) (hr : 0 < density)
    (s : Soec) (hs : soec C density = .ok s) (x y z : ℝ × ℝ)
    (ht : Triad (vector x.1 x.2) (vector y.1 y.2) (vector z.1 z.2)) :
    let squares := fun d => (1000 * Soec.shearWave1 num s d) ^ 2 + (1000 * Soec.shearWave2 num s d) ^ 2 +
      (1000 * Soec.longitudinalWave num s d) ^ 2
    density * (squares x + squares y + squares z) = 10 ^ 9 * (3 * s.averages.voigt.K + 10 * s.averages.voigt.G) := by
  intro squares
  have q : ∀ d, squares d = Matrix.trace (acoustic (fun i j k l => 10 ^ 9 * cTensor C i j k l) density (vector d.1 d.2)) :=
    fun d => by
      have := phase_sum (C130_order num hn C hC density hr s hs d).1
      simpa using this
  have t := acoustic_trace_triad C density ht
  rw [Fin.sum_univ_three] at t
  simp only [Matrix.cons_val] at t
  rw [q, q, q, t, mul_div_cancel₀ _ hr.ne']
  have hsy := posDef_entries hC
  obtain ⟨-, rfl⟩ := soec_ok hs
  show _ = (10 : ℝ) ^ 9 * (3 * (einsum_iijj (cTensor C) / 9) + 10 * voigtG C)
  simp only [einsum_iijj, cTensor, vm, voigtG, Fin.sum_univ_three, Matrix.cons_val, hsy 1 0, hsy 2 0, hsy 2 1]
  ring

/-- Every direction belongs to a triad. -/
theorem exists_triad (theta phi : ℝ) : ∃ y z : ℝ × ℝ, Triad (vector theta phi) (vector y.1 y.2) (vector z.1 z.2) := by
  have h := vectorChi_triad theta phi 0
  obtain ⟨t1, p1, -, -, e1⟩ := exists_vector (vectorChi_unit theta phi 0)
  obtain ⟨t2, p2, -, -, e2⟩ := exists_vector (vectorChi_unit theta phi (0 + Real.pi / 2))
  rw [e1, e2] at h
  exact ⟨(t1, p1), (t2, p2), h⟩

/-- C130: so in every direction the fastest wave obeys `density v² ≤ 3 K + 10 G`. -/
theorem C130_bound (num : Numerics) (hn : EighCorrect num) (C : M6) (hC : C.PosDef) (density : ℝ) (hr : 0 < density)
    (s : Soec) (hs : soec C density = .ok s) (x : ℝ × ℝ) :
    density * (1000 * Soec.longitudinalWave num s x) ^ 2 ≤ 10 ^ 9 * (3 * s.averages.voigt.K + 10 * s.averages.voigt.G) := by
  obtain ⟨y, z, ht⟩ := exists_triad x.1 x.2
  have h := C130_sum num hn C hC density hr s hs x y z ht
  simp only at h
  rw [← h]
  refine mul_le_mul_of_nonneg_left ?_ hr.le
  have n := fun r : ℝ => sq_nonneg r
  have a1 := n (1000 * Soec.shearWave1 num s x)
  have a2 := n (1000 * Soec.shearWave2 num s x)
  have b1 := n (1000 * Soec.shearWave1 num s y)
  have b2 := n (1000 * Soec.shearWave2 num s y)
  have b3 := n (1000 * Soec.longitudinalWave num s y)
  have c1 := n (1000 * Soec.shearWave1 num s z)
  have c2 := n (1000 * Soec.shearWave2 num s z)
  have c3 := n (1000 * Soec.longitudinalWave num s z)
  linarith

/-- The three eigenvalues depend continuously on the matrix. -/
theorem eigh_continuous {num : Numerics} (hn : EighCorrect num) {A : V3 → M3} (hA : ∀ i j, Continuous fun n => A n i j)
    (hs : ∀ n i j, A n i j = A n j i) (rank : Fin 3) : Continuous fun n => (num.eigh (A n)).1 rank := by
  rw [continuous_iff_continuousAt]
  intro n
  have hb : ∀ m, |(num.eigh (A m)).1 rank - (num.eigh (A n)).1 rank| ≤ 3 * size (A m - A n) := by
    intro m
    obtain ⟨a1, a2, a3, a4⟩ := hn (A n) (hs n)
    obtain ⟨b1, b2, b3, b4⟩ := hn (A m) (hs m)
    exact eigenvalue_near ⟨a1, a2⟩ a3 a4 ⟨b1, b2⟩ b3 b4 rank
  have hz : Continuous fun m => 3 * size (A m - A n) := by
    unfold size
    simp only [Matrix.sub_apply]
    have := hA
    fun_prop
  have h0 : Filter.Tendsto (fun m => 3 * size (A m - A n)) (nhds n) (nhds 0) := by
    have := hz.tendsto n
    simpa [size] using this
  rw [ContinuousAt, tendsto_iff_dist_tendsto_zero]
  exact squeeze_zero (fun m => dist_nonneg) (fun m => by rw [Real.dist_eq]; exact hb m) h0

/-- The wave of given rank in the order of increasing speed has the reported extremes: they bound it in every direction and it
has them along the reported axes; the anisotropy is their ratio. -/
def Spec.Extremes (C : M6) (density : ℝ) (rank : Fin 3) (r : Variation) : Prop :=
  (∀ n V, UnitVector n → PhaseVelocities C density n V → r.minimum ≤ V rank ∧ V rank ≤ r.maximum) ∧
  (UnitVector r.minAxis1 ∧ ∃ V, PhaseVelocities C density r.minAxis1 V ∧ V rank = r.minimum) ∧
  (UnitVector r.maxAxis1 ∧ ∃ V, PhaseVelocities C density r.maxAxis1 V ∧ V rank = r.maximum) ∧
  0 < r.minimum ∧ r.anisotropy = some (r.maximum / r.minimum)

theorem extremes_of {num : Numerics} (hn : EighCorrect num) {C : M6} (hC : C.PosDef) {density : ℝ} (hr : 0 < density)
    {s : Soec} (hs : soec C density = .ok s) {minimize : Search (ℝ × ℝ)} (hm : Finds minimize) (rank : Fin 3) :
    Extremes C density rank (variation2 minimize fun x => Soec.phaseVelocity num s x.1 x.2 rank) := by
  have hp : ∀ x : ℝ × ℝ, PhaseVelocities C density (vector x.1 x.2) (Soec.phaseVelocity num s x.1 x.2) ∧
      0 < Soec.phaseVelocity num s x.1 x.2 0 := by
    intro x
    obtain ⟨p, q, -⟩ := C130_order num hn C hC density hr s hs x
    have e : ![Soec.shearWave1 num s x, Soec.shearWave2 num s x, Soec.longitudinalWave num s x] =
        Soec.phaseVelocity num s x.1 x.2 := by
      funext i
      fin_cases i <;> rfl
    rw [e] at p
    exact ⟨p, q⟩
  have hlow : ∀ x : ℝ × ℝ, 0 < Soec.phaseVelocity num s x.1 x.2 rank := by
    intro x
    obtain ⟨p, q⟩ := hp x
    have := phase_sorted p
    fin_cases rank
    · exact q
    · exact q.trans_le this.1
    · exact q.trans_le (this.1.trans this.2)
  have hsC : s.C = C ∧ s.density = density := by
    obtain ⟨-, rfl⟩ := soec_ok hs
    exact ⟨rfl, rfl⟩
  set h : V3 → V3 := fun n i => Real.sqrt ((num.eigh (elasticChristoffel C n)).1 i / density) / 1000 with hh
  have hv : ∀ x : ℝ × ℝ, Soec.phaseVelocity num s x.1 x.2 = h (vector x.1 x.2) := by
    intro x
    funext i
    simp only [Soec.phaseVelocity, hsC.1, hsC.2, hh]
  have hcont : Continuous fun n => h n rank := by
    have hA : ∀ i j, Continuous fun n => elasticChristoffel C n i j := by
      intro i j
      simp only [elasticChristoffel, divop, Matrix.mul_apply, Matrix.transpose_apply, Matrix.of_apply, Fin.sum_univ_six]
      fin_cases i <;> fin_cases j <;> simp only [Matrix.cons_val, Fin.zero_eta, Fin.mk_one, Fin.reduceFinMk] <;> fun_prop
    have hS : ∀ n i j, elasticChristoffel C n i j = elasticChristoffel C n j i := by
      intro n i j
      rw [elastic_eq C n 1 one_ne_zero, one_smul]
      exact acoustic_symm (posDef_entries hC) 1 n i j
    have := eigh_continuous hn hA hS rank
    exact (Real.continuous_sqrt.comp (this.div_const _)).div_const _
  obtain ⟨h1, ⟨h2, h3⟩, ⟨h4, h5⟩, h6, -⟩ := variation_extremes hm (f := fun x => Soec.phaseVelocity num s x.1 x.2 rank)
    (h := fun n => h n rank) (fun x => by rw [hv]) hcont.continuousOn
  have at' : ∀ n, UnitVector n → PhaseVelocities C density n (h n) ∧ 0 < h n rank := by
    intro n hn'
    obtain ⟨t, p, -, -, rfl⟩ := exists_vector hn'
    have := hv (t, p)
    simp only at this
    rw [← this]
    exact ⟨(hp (t, p)).1, hlow (t, p)⟩
  have hpos : 0 < (variation2 minimize fun x => Soec.phaseVelocity num s x.1 x.2 rank).minimum := by
    rw [← h3]
    exact (at' _ h2).2
  refine ⟨?_, ⟨h2, _, (at' _ h2).1, h3⟩, ⟨h4, _, (at' _ h4).1, h5⟩, hpos, h6 hpos⟩
  intro n V hn' hV
  rw [phase_unique hV (at' n hn').1]
  exact h1 n hn'

/-- C130: with a search that finds minima, the reported ranges of the three waves are those of the slowest, the middle and the
fastest wave over all directions, reached along the reported axes. -/
theorem C130_ranges (num : Numerics) (hn : EighCorrect num) (C : M6) (hC : C.PosDef) (density : ℝ) (hr : 0 < density)
    (s : Soec) (hs : soec C density = .ok s) (minimize : Search (ℝ × ℝ)) (hm : Finds minimize) :
    Extremes C density 0 (phaseVelocityVariation minimize num s).Vs1 ∧
    Extremes C density 1 (phaseVelocityVariation minimize num s).Vs2 ∧
    Extremes C density 2 (phaseVelocityVariation minimize num s).Vp :=
  ⟨extremes_of hn hC hr hs hm 0, extremes_of hn hC hr hs hm 1, extremes_of hn hC hr hs hm 2⟩

/-- The hypotheses of C130 are met, by the coordinate axes among others. -/
example : ∃ s, ∃ minimize : Search (ℝ × ℝ), ∃ num : Numerics, EighCorrect num ∧ soec sampleIso 3000 = .ok s ∧
    sampleIso.PosDef ∧ Finds minimize ∧
    Triad (vector 0 0) (vector (Real.pi / 2) 0) (vector (Real.pi / 2) (Real.pi / 2)) := by
  obtain ⟨minimize, hm⟩ := exists_finds (X := ℝ × ℝ)
  obtain ⟨num, -, hnum⟩ := exists_eighCorrect id
  have hp : sampleIso.PosDef := isotropic_posDef (by norm_num) (by norm_num)
  obtain ⟨s, hs⟩ := soec_of_det (posDef_det hp) 3000
  refine ⟨s, minimize, num, hnum, hs, hp, hm, ?_⟩
  refine ⟨⟨vector_unit _ _, vector_unit _ _, ?_⟩, ⟨vector_unit _ _, vector_unit _ _, ?_⟩, ⟨vector_unit _ _, vector_unit _ _, ?_⟩⟩ <;>
    simp [dot, vector, Fin.sum_univ_three]

end Verif.Seismic
