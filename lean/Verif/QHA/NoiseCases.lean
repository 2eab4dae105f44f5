/-
The hypotheses of the theorems of C167 are met: the crystal that expands, known through energies off by 0.01 and frequencies off
by one percent.
-/
import Verif.QHA.Noise
import Verif.QHA.CurvesCases

namespace Verif.QHA.NoiseCases
open Verif.Py Verif.Units Verif.HA Verif.QHA Verif.QHA.Spec Verif.StatMech Verif.StatMech.Spec Verif.Poly.Spec Verif.QHA.Cases
  Verif.QHA.CurvesCases

/-- The energies and frequencies found by an inaccurate program. -/
noncomputable def bent : Crystal 1 1 :=
  { energy := fun V => (V - 2) ^ 2 + 0.01 * (V - 2), frequency := fun _ _ V => 1.01 * (400 - 100 * V), weights := fun _ => 1 }

theorem bent_energy : IsPolynomial 2 bent.energy :=
  ⟨![3.98, -3.99, 1], fun V => by simp [bent, Fin.sum_univ_three]; ring⟩

theorem bent_freq (q b : Fin 1) : IsPolynomial 2 (bent.frequency q b) :=
  ⟨![404, -101, 0], fun V => by simp [bent, Fin.sum_univ_three]; ring⟩

theorem three_range (n : Fin 3) : 1 ≤ three n ∧ three n ≤ 3 := by
  have h1 : (n.val : ℝ) ≤ 2 := by exact_mod_cast Nat.le_of_lt_succ n.2
  have h0 : (0 : ℝ) ≤ n.val := by positivity
  simp only [three]
  constructor <;> linarith

theorem bent_describes : Describes (bent.sample three) (soft 1) 0.01 0.01 where
  energy n := by
    obtain ⟨h1, h2⟩ := three_range n
    simp only [Crystal.sample, bent, soft, one_mul, add_sub_cancel_left]
    rw [abs_le]
    constructor <;> linarith
  frequency q b n := by
    obtain ⟨h1, h2⟩ := three_range n
    simp only [Crystal.sample, bent, soft]
    refine ⟨?_, ?_, ?_, ?_⟩ <;> linarith
  weights := rfl

variable (k : Consts) (sc : Scheme)

/-- Free energies at 7 K. -/
noncomputable def ha7 : HA.Results 60 3 := Classical.choose (harmonic_exists k (exAt_of sc grid) (bent.sample three))

example := C167_free_energy (exAt_of sc grid) bent_describes (by simp [soft]) (by simp [soft])
  (Classical.choose_spec (harmonic_exists k (exAt_of sc grid) (bent.sample three))) 7
  (by simp [exUnits, TemperatureUnit.kelvin, exAt, grid])

theorem bent_deriv : deriv (bent.groundEnergy k exUnits) =
    fun V => (2 * (V - 2) + 0.01) * exUnits.e.joule k - 50.5 * k.h * exUnits.f.hertz k := by
  funext V
  have e : bent.groundEnergy k exUnits = fun V => ((V - 2) ^ 2 + 0.01 * (V - 2)) * exUnits.e.joule k +
      k.h * (1.01 * (400 - 100 * V) * exUnits.f.hertz k) / 2 := by funext V; simp [Crystal.groundEnergy, bent]
  rw [e]
  have h1 : HasDerivAt (fun V : ℝ => ((V - 2) ^ 2 + 0.01 * (V - 2)) * exUnits.e.joule k)
      ((2 * (V - 2) ^ 1 * 1 + 0.01 * 1) * exUnits.e.joule k) V :=
    ((((hasDerivAt_id V).sub_const 2).pow 2).add (((hasDerivAt_id V).sub_const 2).const_mul 0.01)).mul_const _
  have h2 : HasDerivAt (fun V : ℝ => k.h * (1.01 * (400 - 100 * V) * exUnits.f.hertz k) / 2)
      (k.h * (1.01 * -(100 * 1) * exUnits.f.hertz k) / 2) V :=
    ((((((hasDerivAt_id V).const_mul 100).const_sub 400).const_mul 1.01).mul_const _).const_mul _).div_const _
  refine (h1.add h2).deriv.trans ?_
  ring

theorem bent_run : ∃ r, run k ext (exAt sc cold) (bent.sample three) = .ok r := by
  have hj := joule_pos k exUnits.e
  refine (C164_found num (exAt_of sc cold) rfl rfl bent three_inj bent_energy bent_freq (fun q b n => ?_) (le_refl 3) one_pos
    (fun _ => rfl)).1 fun j => ⟨2 - 0.005 + 50.5 * k.h * exUnits.f.hertz k / (2 * exUnits.e.joule k), ?_, ?_⟩
  · obtain ⟨h1, h2⟩ := three_range n
    simp only [bent]; linarith
  · rw [bent_deriv]
    simp only [exAt, exSettings, zero_mul, neg_zero]
    rw [div_eq_zero_iff]
    left
    field_simp
    ring
  · rw [bent_deriv]
    have h : HasDerivAt (fun V : ℝ => (2 * (V - 2) + 0.01) * exUnits.e.joule k - 50.5 * k.h * exUnits.f.hertz k)
        (2 * 1 * exUnits.e.joule k) (2 - 0.005 + 50.5 * k.h * exUnits.f.hertz k / (2 * exUnits.e.joule k)) :=
      (((((hasDerivAt_id _).sub_const 2).const_mul 2).add_const 0.01).mul_const _).sub_const _
    rw [h.deriv]
    linarith

theorem soft_free (A V : ℝ) : (soft A).freeEnergy k exUnits 0 V = (soft A).groundEnergy k exUnits V := by
  simp [Crystal.freeEnergy, Crystal.groundEnergy, oscillatorEnergy]

/-- At absolute zero the volume found from the inaccurate input is off by at most half the factor times the error of the energy
and one percent of the zero-point energy. -/
example : ∃ K, 0 ≤ K ∧ ∃ r U, run k ext (exAt sc cold) (bent.sample three) = .ok r ∧
    |r.VT 0 0 - (2 + 50 * k.h * exUnits.f.hertz k / (2 * exUnits.e.joule k))| ≤ K * (0.01 + 0.01 * U) / 2 := by
  have hj := joule_pos k exUnits.e
  obtain ⟨r, hr⟩ := bent_run k sc
  obtain ⟨ha, hha⟩ := harmonic_exists k (exAt_of sc cold) (bent.sample three)
  set w := 2 + 50 * k.h * exUnits.f.hertz k / (2 * exUnits.e.joule k) with hw
  obtain ⟨K, hK, h⟩ := C167_volume three_inj (le_refl 3) (min (r.VT 0 0) w) (max (r.VT 0 0) w)
  obtain ⟨U, hU⟩ : ∃ U, ∀ n, ha.Uzp 0 n + ha.Uth 0 n ≤ U :=
    ⟨_, fun n => Finset.le_sup' (fun n => ha.Uzp 0 n + ha.Uth 0 n) (Finset.mem_univ n)⟩
  have dF : deriv (fun V => (soft 1).groundEnergy k exUnits V / exUnits.e.joule k) =
      fun V => 2 * (V - 2) - 50 * k.h * exUnits.f.hertz k / exUnits.e.joule k := funext fun V => by
    rw [deriv_div_const, soft_deriv]
    field_simp
  refine ⟨K, hK, r, U, hr, ?_⟩
  have := h num (exAt_of sc cold) rfl rfl rfl (by norm_num) bent_describes (by simp [soft]) (by simp [soft]) hr hha 0 0 le_rfl hU
    (F := fun V => (soft 1).groundEnergy k exUnits V / exUnits.e.joule k) (p := fun V => (soft 1).groundEnergy k exUnits V / exUnits.e.joule k)
    (fun v => by rw [← soft_free]; rfl) (ground_polynomial (soft 1) (soft_energy 1) (soft_freq 1)) (η := 0) (η' := 0) (κ := 2) (w := w)
    (fun n => by simp) (fun v _ _ => by simp) two_pos (fun v v' _ _ _ => by rw [dF]; linarith)
    (min_le_left _ _) (le_max_left _ _) (min_le_right _ _) (le_max_right _ _) (by
      rw [dF]
      simp only [exAt, exSettings, zero_mul, neg_zero, hw]
      rw [div_eq_zero_iff]
      left
      field_simp
      ring)
  simpa using this

/-- The slope of the energy of the ground state at the volume found from the inaccurate input. -/
example : ∃ K, 0 ≤ K ∧ ∃ r U, run k ext (exAt sc cold) (bent.sample three) = .ok r ∧
    |deriv (fun V => (soft 1).freeEnergy k exUnits 0 V / exUnits.e.joule k) (r.VT 0 0) * exUnits.e.joule k / exUnits.v.m3 k +
      0 * exUnits.p.pascal| ≤ (K * (√(3 : ℕ) * (0.01 + 0.01 * U + 0)) + 0) * exUnits.e.joule k / exUnits.v.m3 k := by
  obtain ⟨r, hr⟩ := bent_run k sc
  obtain ⟨ha, hha⟩ := harmonic_exists k (exAt_of sc cold) (bent.sample three)
  obtain ⟨U, hU⟩ : ∃ U, ∀ n, ha.Uzp 0 n + ha.Uth 0 n ≤ U :=
    ⟨_, fun n => Finset.le_sup' (fun n => ha.Uzp 0 n + ha.Uth 0 n) (Finset.mem_univ n)⟩
  obtain ⟨K, hK, h⟩ := Poly.slopeFactor_exists (nc := 3) three_inj (le_refl 3) (r.VT 0 0) (r.VT 0 0)
  have e : (fun V => (soft 1).freeEnergy k exUnits 0 V / exUnits.e.joule k) = fun V => (soft 1).groundEnergy k exUnits V / exUnits.e.joule k :=
    funext fun V => by rw [soft_free]
  exact ⟨K, hK, r, U, hr, C167_slope num (exAt_of sc cold) rfl (by norm_num) bent_describes (by simp [soft]) (by simp [soft]) hr hha 0 0
    le_rfl hU h ⟨le_rfl, le_rfl⟩ (p := fun V => (soft 1).freeEnergy k exUnits 0 V / exUnits.e.joule k)
    (by rw [e]; exact ground_polynomial (soft 1) (soft_energy 1) (soft_freq 1)) (η := 0) (η' := 0)
    (fun n => (abs_eq_zero.2 (sub_self _)).le) (fun v _ _ => (abs_eq_zero.2 (sub_self _)).le)⟩

end Verif.QHA.NoiseCases
