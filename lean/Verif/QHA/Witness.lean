/-
The hypotheses of the quasi-harmonic theorems are met: one atom-like mode, three volumes, energies
on a parabola, any number of temperatures.
-/
import Verif.QHA.Props

namespace Verif.QHA
open Verif.Py Verif.Units Verif.HA Verif.QHA.Spec Verif.StatMech Verif.Poly.Spec

/-- Correct external routines exist. -/
theorem numerics_exists : ∃ ext : Ext, Numerics ext := by
  classical
  obtain ⟨roots, hr⟩ := Poly.rootFinder_exists
  choose fit hfit using fun (n : ℕ) (X Y : Fin n → ℝ) (deg : ℕ) =>
    Poly.leastSquares_exists (nc := deg + 1) X Y
  exact ⟨⟨fun X Y deg => fit _ X Y deg, roots, fun _ _ _ => ![0, 1, 4, 1]⟩,
    ⟨fun X Y deg => hfit _ X Y deg, hr⟩⟩

/-- The units of the example. -/
def exUnits : Choice := ⟨.Ha, .A, .GPa, .K, .cm⟩

/-- Temperatures 1, 2, ... K at zero pressure. -/
noncomputable def exSettings (nt : ℕ) : Settings nt 1 :=
  { scheme := .td, minimization := .poly, eos := c!"BM", edeg := 2, fdeg := 2,
    eunit := c!"Ha", vunit := c!"A", funit := c!"cm^-1", tunit := c!"K", punit := c!"GPa",
    kieffer := false, temperature := fun i => i.val + 1, pressure := fun _ => 0 }

/-- Three volumes, a parabola, one mode. -/
noncomputable def exInput : Input 1 1 3 :=
  { U0 := fun n => ((n.val : ℝ) + 1 - 2) ^ 2, freq := fun _ _ _ => 100, weights := fun _ => 1,
    volume := fun n => n.val + 1 }

theorem exUnits_of (nt : ℕ) : exUnits.Of (exSettings nt) := ⟨rfl, rfl, rfl, rfl, rfl⟩

theorem exInput_injective : Function.Injective exInput.volume := by
  intro a b h
  simp only [exInput, add_left_inj, Nat.cast_inj] at h
  exact Fin.ext h

/-- A run meeting all hypotheses at once, with any number of temperatures. -/
theorem witness (k : Consts) (nt : ℕ) : ∃ (ext : Ext) (ha : HA.Results nt 3) (r : Results nt 1),
    Numerics ext ∧ HA.run k (harmonicSettings (exSettings nt)) exInput.toInput = .ok ha ∧
    run k ext (exSettings nt) exInput = .ok r ∧
    ∀ i j, r.VT i j = 2 ∧ r.Kp i j = -1 ∧ 0 < r.KT i j ∧ 0 < r.Cv i j := by
  obtain ⟨ext, hext⟩ := numerics_exists
  have hu := exUnits_of nt
  obtain ⟨ha, hha, hF, -, -, -, -, hC, -⟩ := harmonic_run hu exInput (k := k)
  have hfit : ∀ i, ∃ a : ℝ,
      value (ext.polyfit exInput.volume (ha.F i) 2) = fun V => (V - 2) ^ 2 + a := by
    intro i
    refine ⟨ha.F i 1, ?_⟩
    have hval : ∀ V, value ![4 + ha.F i 1, -4, 1] V = (V - 2) ^ 2 + ha.F i 1 := by
      intro V
      simp [value, Fin.sum_univ_three]
      ring
    have hd : ∀ n, ha.F i n = value ![4 + ha.F i 1, -4, 1] (exInput.volume n) := by
      intro n
      rw [hval, hF]
      simp only [freeEnergy, vibrationalFreeEnergy, kernel_eq, exInput]
      fin_cases n <;> simp <;> norm_num
    have : ext.polyfit exInput.volume (ha.F i) 2 = ![4 + ha.F i 1, -4, 1] :=
      Poly.value_injective exInput_injective (le_refl 3) fun n => by
        rw [Poly.leastSquares_exact (hext.fit _ _ _) hd n, hd n]
    rw [this]
    exact funext hval
  have hd1 : ∀ a : ℝ, deriv (fun V : ℝ => (V - 2) ^ 2 + a) = fun V => 2 * (V - 2) := by
    intro a
    funext V
    have h : HasDerivAt (fun V : ℝ => (V - 2) ^ 2 + a) (2 * (V - 2) ^ 1 * 1) V :=
      (((hasDerivAt_id V).sub_const 2).pow 2).add_const a
    rw [h.deriv]; ring
  have hd2 : deriv (fun V : ℝ => 2 * (V - 2)) = fun _ => 2 := by
    funext V
    have h : HasDerivAt (fun V : ℝ => 2 * (V - 2)) (2 * 1) V :=
      ((hasDerivAt_id V).sub_const 2).const_mul 2
    rw [h.deriv]; ring
  have hok := (C20_run_succeeds_iff (x := exInput) hext hu rfl rfl hha).1 (by
    intro i j
    obtain ⟨a, ha⟩ := hfit i
    refine ⟨2, ?_, ?_⟩
    · show deriv (value (ext.polyfit exInput.volume _ 2)) 2 * _ / _ = -(0 * _)
      rw [ha, hd1]
      ring
    · show 0 < deriv (deriv (value (ext.polyfit exInput.volume _ 2))) 2
      rw [ha, hd1, hd2]
      norm_num)
  obtain ⟨r, hr⟩ := hok
  refine ⟨ext, ha, r, hext, hha, hr, fun i j => ?_⟩
  have hV : r.VT i j = 2 := by
    obtain ⟨a, ha'⟩ := hfit i
    have h := (C20_equilibrium_volume hext hu rfl hr hha i j).2.1
    change deriv (value (ext.polyfit exInput.volume _ 2)) _ * _ / _ = -(0 * _) at h
    rw [ha', hd1, zero_mul, neg_zero] at h
    have hj := (joule_pos k exUnits.e).ne'
    have hv := (m3_pos k exUnits.v).ne'
    rw [div_eq_zero_iff, mul_eq_zero, mul_eq_zero] at h
    have : r.VT i j - 2 = 0 := by
      rcases h with ((h | h) | h) | h
      · norm_num at h
      · exact h
      · exact absurd h hj
      · exact absurd h hv
    linarith
  have hKp : r.Kp i j = -1 := by
    obtain ⟨a, ha'⟩ := hfit i
    have hj := joule_pos k exUnits.e
    have hv := m3_pos k exUnits.v
    have hp := pascal_pos exUnits.p
    obtain ⟨κ, hκ, hκ0⟩ : ∃ κ : ℝ, κ * exUnits.p.pascal = exUnits.e.joule k / exUnits.v.m3 k ∧
        0 < κ :=
      ⟨exUnits.e.joule k / exUnits.v.m3 k / exUnits.p.pascal, by field_simp, by positivity⟩
    have hq : ∀ t, value ![4 * κ, -1, 0] t = 4 * κ - t := fun t => by
      simp [value, Fin.sum_univ_three]; ring
    have h := C69_bulk_derivative (P := fun v => -(2 * (v - 2)) * κ) (K := fun v => v * 2 * κ)
      (q := ![4 * κ, -1, 0]) hext hu rfl rfl (by decide : 2 ≤ 4) hr hha i j
      (by rw [hV]; norm_num) rfl ?_ ?_ ?_ ?_
    · rw [h, funext hq]
      exact ((hasDerivAt_id _).const_sub _).deriv
    · intro v
      show _ = -(deriv (value (ext.polyfit exInput.volume _ 2)) v * _ / _)
      rw [ha', hd1, mul_assoc, hκ]
      ring
    · intro v
      show _ = v * deriv (deriv (value (ext.polyfit exInput.volume _ 2))) v * _ / _
      rw [ha', hd1, hd2, mul_assoc, hκ]
      ring
    · intro a b hab
      rw [hV] at hab
      have : grid5 a = grid5 b := by
        have := mul_right_cancel₀ hκ0.ne' hab
        linarith
      exact grid5_injective this
    · intro d
      have h0 : ssres (fun g : Fin 5 => -(2 * (r.VT i j + r.VT i j * grid5 g - 2)) * κ)
          (fun g => (r.VT i j + r.VT i j * grid5 g) * 2 * κ) ![4 * κ, -1, 0] = 0 :=
        Finset.sum_eq_zero fun g _ => by rw [hq]; ring
      rw [h0]
      exact Finset.sum_nonneg fun _ _ => sq_nonneg _
  refine ⟨hV, hKp, (C69_bulk_modulus hext hu rfl rfl (by decide : 2 ≤ 4) hr hha i j
    (by rw [hV]; norm_num)).2, ?_⟩
  have hCv := (C68_td_interpolates hu hr rfl hha i j).2.2.2.2.1
  rw [hCv]
  have hconst : ∀ n, ha.Cv i n = value ![ha.Cv i 0, 0, 0] (exInput.volume n) := by
    intro n
    rw [hC]
    simp [isochoricHeatCapacity, kernel_eq, exInput, value, Fin.sum_univ_three]
  have hp : ext.polyfit exInput.volume (ha.Cv i) 2 = ![ha.Cv i 0, 0, 0] :=
    Poly.value_injective exInput_injective (le_refl 3) fun n => by
      rw [Poly.leastSquares_exact (hext.fit _ _ _) hconst n, hconst n]
  have hN := k.N_pos
  have hc := k.c_pos
  have hkB := k.kB_pos
  have hh := k.h_pos
  have hj := joule_pos k exUnits.e
  have hpos : 0 < ha.Cv i 0 := by
    have hT : (0:ℝ) < (i.val : ℝ) + 1 := by positivity
    have hω : (0:ℝ) < 100 * (100 * k.c) := by positivity
    have hcv : 0 < hoCv k ((i.val : ℝ) + 1) (100 * (100 * k.c)) := by
      rw [hoCv_pos k hT.ne' hω]
      have : 0 < einstein k (100 * (100 * k.c)) / ((i.val : ℝ) + 1) :=
        div_pos (einstein_pos k hω) hT
      have h1 : 0 < Real.exp (einstein k (100 * (100 * k.c)) / ((i.val : ℝ) + 1)) - 1 := by
        have := Real.add_one_lt_exp this.ne'
        linarith
      positivity
    rw [hC]
    simp only [isochoricHeatCapacity, kernel_eq, exInput, exSettings, exUnits, usedWeights,
      totalQPoints, TemperatureUnit.kelvin, FrequencyUnit.hertz, EnergyUnit.joule,
      Finset.univ_unique, Finset.sum_const, Finset.card_singleton, one_smul]
    have := k.Ha_pos
    positivity
  show 0 < value (ext.polyfit exInput.volume (ha.Cv i) 2) _
  rw [hp]
  simpa [value, Fin.sum_univ_three] using hpos

/-- The statements are not vacuous, on a grid with 60 temperatures and on one with 3. -/
example (k : Consts) : ∃ (ext : Ext) (r : Results 60 1),
    run k ext (exSettings 60) exInput = .ok r ∧
    (∀ i j, r.KS i j * r.Cv i j = r.KT i j * r.Cp i j) ∧ ∀ i j, r.alphaV i j = 0 := by
  obtain ⟨ext, ha, r, hext, hha, hr, h⟩ := witness k 60
  refine ⟨ext, r, hr, fun i j => (C16_relations_partial (exUnits_of 60) hr (by norm_num) i j
    (h i j).2.2.2.ne').1, fun i j => ?_⟩
  rw [C19_affine_exact (exUnits_of 60) hr (by norm_num) j 2 0 (fun i => by rw [(h i j).1]; ring)
    (fun a b hab => by
      simp only [exUnits, TemperatureUnit.kelvin, exSettings, add_left_inj, Nat.cast_inj] at hab
      exact Fin.ext hab) i, zero_div]

example (k : Consts) : ∃ (ext : Ext) (r : Results 3 1),
    run k ext (exSettings 3) exInput = .ok r ∧
    ∀ i j, r.KS i j * r.Cv i j ≠ r.KT i j * r.Cp i j := by
  obtain ⟨ext, ha, r, hext, hha, hr, h⟩ := witness k 3
  exact ⟨ext, r, hr, fun i j => (C16_short_grid_violated (exUnits_of 3) hr (by norm_num) i j
    (h i j).2.2.2 (h i j).2.2.1.ne').2.2.1⟩

example (k : Consts) : ∃ (ext : Ext) (r : Results 3 1),
    run k ext (exSettings 3) exInput = .ok r ∧
    ∀ i j, r.H i j - r.G i j = ((i.val : ℝ) + 1) * r.S i j / 1000 := by
  obtain ⟨ext, ha, r, hext, hha, hr, h⟩ := witness k 3
  exact ⟨ext, r, hr, fun i j => C68_H_minus_G hext (exUnits_of 3) hr
    (fun _ => ⟨exInput_injective, le_refl 3⟩) i j⟩

/-- The curve of the free energies has a minimum, so that the run is accepted. -/
example (k : Consts) (nt : ℕ) : ∃ (ext : Ext) (ha : HA.Results nt 3), HA.run k (harmonicSettings (exSettings nt)) exInput.toInput = .ok ha ∧
    ∀ i j, ∃ V : ℝ,
      deriv (value (ext.polyfit exInput.volume (ha.F i) 2)) V * exUnits.e.joule k / exUnits.v.m3 k =
        -((exSettings nt).pressure j * exUnits.p.pascal) ∧
      0 < deriv (deriv (value (ext.polyfit exInput.volume (ha.F i) 2))) V := by
  obtain ⟨ext, ha, r, hext, hha, hr, h⟩ := witness k nt
  refine ⟨ext, ha, hha, ?_⟩
  by_contra hno
  have := (C20_run_succeeds_iff hext (exUnits_of nt) rfl rfl hha).2 hno
  rw [hr] at this
  cases this

end Verif.QHA
