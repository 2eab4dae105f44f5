/-
The hypotheses of the theorems of C164 are met: the crystal that expands, whose energy is a parabola and whose frequency falls
linearly, sampled at three and at four volumes.
-/
import Verif.QHA.Curves
import Verif.QHA.Tilt
import Verif.QHA.Cases

namespace Verif.QHA.CurvesCases
open Verif.Py Verif.Units Verif.HA Verif.QHA Verif.QHA.Spec Verif.StatMech Verif.Poly.Spec Verif.QHA.Cases

/-- A parabola and a mode that softens. -/
noncomputable def soft (A : ℝ) : Crystal 1 1 :=
  { energy := fun V => A * (V - 2) ^ 2, frequency := fun _ _ V => 400 - 100 * V, weights := fun _ => 1 }

noncomputable def three : Fin 3 → ℝ := fun n => n.val + 1
noncomputable def four : Fin 4 → ℝ := fun n => 3 / 2 + n.val / 2

theorem three_inj : Function.Injective three := exInput_injective

theorem four_inj : Function.Injective four := fun a b h => by
  simp only [four, add_right_inj] at h
  exact Fin.ext (by exact_mod_cast (div_left_inj' (two_ne_zero)).1 h)

theorem soft_energy (A : ℝ) : IsPolynomial 2 (soft A).energy :=
  ⟨![4 * A, -4 * A, A], fun V => by simp [soft, Fin.sum_univ_three]; ring⟩

theorem soft_freq (A : ℝ) (q b : Fin 1) : IsPolynomial 2 ((soft A).frequency q b) :=
  ⟨![400, -100, 0], fun V => by simp [soft, Fin.sum_univ_three]; ring⟩

theorem soft_sample (A : ℝ) : (soft A).sample three = exSoft A := by
  simp only [Crystal.sample, soft, three, exSoft]
  congr 2
  · funext n; ring
  · funext _ _ n; ring

theorem soft_pos (A : ℝ) (q b : Fin 1) (n : Fin 3) : 0 ≤ (soft A).frequency q b (three n) := by
  simp only [soft, three]
  have : (n.val : ℝ) ≤ 2 := by exact_mod_cast Nat.le_of_lt_succ n.2
  linarith

theorem soft_pos4 (A : ℝ) (q b : Fin 1) (n : Fin 4) : 0 ≤ (soft A).frequency q b (four n) := by
  simp only [soft, four]
  have : (n.val : ℝ) ≤ 3 := by exact_mod_cast Nat.le_of_lt_succ n.2
  linarith

variable (k : Consts) (sc : Scheme)

/-- The harmonic calculation at the equilibrium volume of 7 K. -/
noncomputable def ha7 : HA.Results 60 1 := Classical.choose (harmonic_exists k (exAt_of .freq grid)
  ((soft (A k .freq)).sample fun _ : Fin 1 => (r k .freq).VT 7 0))

example := C164_columns num (exAt_of .freq grid) rfl (soft (A k .freq)) three_inj (soft_energy _) (soft_freq _) (le_refl 3) (le_refl 3)
  (by rw [soft_sample]; exact hr k .freq) 7 0
  (ha := ha7 k) (Classical.choose_spec (harmonic_exists k (exAt_of .freq grid) ((soft (A k .freq)).sample fun _ : Fin 1 => (r k .freq).VT 7 0)))

example := C164_equilibrium num (exAt_of sc grid) rfl (soft (A k sc)) three_inj (soft_energy _) (soft_freq _) (soft_pos _) (le_refl 3)
  (by rw [soft_sample]; exact hr k sc) 0 0 (by simp [exAt, exUnits, TemperatureUnit.kelvin, grid])

/-- Absolute zero only. -/
noncomputable def cold (_ : Fin 1) : ℝ := 0

theorem soft_ground (A : ℝ) : (soft A).groundEnergy k exUnits =
    fun V => A * (V - 2) ^ 2 * exUnits.e.joule k + k.h * ((400 - 100 * V) * exUnits.f.hertz k) / 2 := by
  funext V
  simp [Crystal.groundEnergy, soft]

theorem soft_deriv (A : ℝ) : deriv ((soft A).groundEnergy k exUnits) =
    fun V => 2 * A * exUnits.e.joule k * (V - 2) - 50 * k.h * exUnits.f.hertz k := by
  funext V
  rw [soft_ground]
  have h1 : HasDerivAt (fun V : ℝ => A * (V - 2) ^ 2 * exUnits.e.joule k) (A * (2 * (V - 2) ^ 1 * 1) * exUnits.e.joule k) V :=
    ((((hasDerivAt_id V).sub_const 2).pow 2).const_mul A).mul_const _
  have h2 : HasDerivAt (fun V : ℝ => k.h * ((400 - 100 * V) * exUnits.f.hertz k) / 2)
      (k.h * (-(100 * 1) * exUnits.f.hertz k) / 2) V :=
    (((((hasDerivAt_id V).const_mul 100).const_sub 400).mul_const _).const_mul _).div_const _
  refine (h1.add h2).deriv.trans ?_
  ring

theorem soft_deriv2 (A V : ℝ) : deriv (deriv ((soft A).groundEnergy k exUnits)) V = 2 * A * exUnits.e.joule k := by
  rw [soft_deriv]
  have h : HasDerivAt (fun V : ℝ => 2 * A * exUnits.e.joule k * (V - 2) - 50 * k.h * exUnits.f.hertz k)
      (2 * A * exUnits.e.joule k * 1) V := (((hasDerivAt_id V).sub_const 2).const_mul _).sub_const _
  rw [h.deriv, mul_one]

theorem soft_ok (j : Fin 1) : ∃ v, deriv ((soft 1).groundEnergy k exUnits) v / exUnits.v.m3 k =
    -((exAt sc cold).pressure j * exUnits.p.pascal) ∧ 0 < deriv (deriv ((soft 1).groundEnergy k exUnits)) v := by
  have hj := joule_pos k exUnits.e
  refine ⟨2 + 50 * k.h * exUnits.f.hertz k / (2 * exUnits.e.joule k), ?_, ?_⟩
  · rw [soft_deriv]
    simp only [exAt, exSettings, zero_mul, neg_zero]
    rw [div_eq_zero_iff]
    left
    field_simp
    ring
  · rw [soft_deriv2]
    linarith

theorem run3 : ∃ r, run k ext (exAt sc cold) ((soft 1).sample three) = .ok r :=
  (C164_found num (exAt_of sc cold) rfl rfl (soft 1) three_inj (soft_energy 1) (soft_freq 1) (soft_pos 1) (le_refl 3) one_pos
    (fun _ => rfl)).1 (soft_ok k sc)

theorem run4 : ∃ r, run k ext (exAt sc cold) ((soft 1).sample four) = .ok r :=
  (C164_found num (exAt_of sc cold) rfl rfl (soft 1) four_inj (soft_energy 1) (soft_freq 1) (soft_pos4 1)
    (by decide : 3 ≤ 4) one_pos (fun _ => rfl)).1 (soft_ok k sc)

/-- Three and four volumes give the same answer, in both schemes. -/
example : ∃ r r', run k ext (exAt sc cold) ((soft 1).sample three) = .ok r ∧ run k ext (exAt sc cold) ((soft 1).sample four) = .ok r' ∧
    r.VT 0 0 = r'.VT 0 0 ∧ r.KT 0 0 = r'.KT 0 0 ∧ r.G 0 0 = r'.G 0 0 := by
  obtain ⟨r, hr⟩ := run3 k sc
  obtain ⟨r', hr'⟩ := run4 k sc
  obtain ⟨h1, h2, -, -, -, -, h3, -⟩ := C164_resampled num (exAt_of sc cold) rfl (soft 1) three_inj four_inj (soft_energy 1)
    (soft_freq 1) (fun _ => ⟨soft_freq 1, le_refl 3, (by decide : 3 ≤ 4)⟩) (soft_pos 1) (soft_pos4 1) (le_refl 3)
    (by decide : 3 ≤ 4) hr hr' 0 0 rfl
  exact ⟨r, r', hr, hr', h1, h2, h3⟩

/-- C187: the crystal with the energy of any pressure `q` added and the pressures lowered by `q`, in both schemes. -/
example (q : ℝ) : ∃ r r', run k ext (exAt sc cold) ((soft 1).sample three) = .ok r ∧
    run k ext (lowered (exAt sc cold) q) (tilted k exUnits ((soft 1).sample three) q) = .ok r' ∧
    r'.VT 0 0 = r.VT 0 0 ∧ r'.S 0 0 = r.S 0 0 ∧ r'.G 0 0 = r.G 0 0 := by
  obtain ⟨r, hr⟩ := run3 k sc
  obtain ⟨r', hr'⟩ := (C187_success num (exAt_of sc cold) rfl three_inj (by decide : 1 ≤ 2) (le_refl 3) q).2 ⟨r, hr⟩
  obtain ⟨h1, -, -, -, h2, -, -, -, h3, -⟩ := C187_results num (exAt_of sc cold) rfl three_inj (by decide : 1 ≤ 2) (le_refl 3) q hr hr' 0 0
  exact ⟨r, r', hr, hr', h1, h2, h3⟩

end Verif.QHA.CurvesCases
