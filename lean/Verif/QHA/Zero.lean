/-
Property C134: the quasi-harmonic results at absolute zero.  Property C135: signs and bounds of the quasi-harmonic results.
-/
import Verif.QHA.Temperature
import Verif.QHA.Rigid
import Verif.StatMech.Frequency

namespace Verif.QHA
open Verif.Py Verif.Units Verif.HA Verif.QHA.Spec Verif.StatMech Verif.Poly.Spec

variable {nt np nb nf nv : ℕ} {k : Consts} {ext : Ext} {s : Settings nt np} {x : Input nb nf nv}
  {u : Choice} {r : Results nt np}

theorem hoF_at_zero (k : Consts) (ω : ℝ) : hoF k 0 ω = hoZpe k 0 ω := by
  rcases le_or_gt ω 0 with h | h
  · simp [hoF, hoZpe, h]
  · rw [hoF_zero k h]

/-! ### C134 -/

/-- C134: at absolute zero, at every pressure, thermal energy, entropy and heat capacity vanish, the vibrational free energy is
the zero-point energy, free energy and internal energy coincide, so do Gibbs energy and enthalpy and the two bulk moduli; the
isobaric heat capacity and the Grüneisen parameter are printed as 0. -/
theorem C134_ground_state (hext : Numerics ext) (hu : u.Of s) (hrun : run k ext s x = .ok r)
    (htd : s.scheme = .td → Function.Injective x.volume ∧ s.edeg + 1 ≤ nv) (i : Fin nt) (j : Fin np)
    (h0 : u.t.kelvin (s.temperature i) = 0) :
    r.Uth i j = 0 ∧ r.S i j = 0 ∧ r.Cv i j = 0 ∧ r.Fvib i j = r.Uzp i j ∧ r.F i j = r.Utot i j ∧ r.G i j = r.H i j ∧
    r.KS i j = r.KT i j ∧ r.CpmCv i j = 0 ∧ r.Cp i j = 0 ∧ r.gruneisen i j = 0 := by
  have hj := (joule_pos k u.e).ne'
  obtain ⟨ha, hha, hF, hU, hZ, hT, hS, hC, hV⟩ := harmonic_run hu x (k := k)
  obtain ⟨-, -, g3⟩ := C68_energies_add_up hext hu hrun htd i j
  have g4 := C68_H_minus_G hext hu hrun htd i j
  have base : r.Uth i j = 0 ∧ r.S i j = 0 ∧ r.Cv i j = 0 ∧ r.Fvib i j = r.Uzp i j := by
    cases hs : s.scheme with
    | td =>
      obtain ⟨hinj, hdeg⟩ := htd hs
      obtain ⟨h1, h2, -, h4, h5, h6, -⟩ := C68_td_interpolates hu hrun hs hha i j
      have z : ∀ Y : Fin nv → ℝ, (∀ n, Y n = 0) → value (ext.polyfit x.volume Y s.edeg) (r.VT i j) = 0 := by
        intro Y hY
        rw [fit_linear hext hinj hdeg]
        exact Finset.sum_eq_zero fun n _ => by rw [hY, zero_mul]
      refine ⟨?_, ?_, ?_, ?_⟩
      · rw [h2]
        exact z _ fun n => by rw [hT]; simp [thermalEnergy, kernel_eq, hoEth, h0]
      · rw [h4]
        exact z _ fun n => by rw [hS]; simp [entropy, kernel_eq, hoS, h0]
      · rw [h5]
        exact z _ fun n => by rw [hC]; simp [isochoricHeatCapacity, kernel_eq, hoCv, h0]
      · rw [h6, h1]
        have : ha.Fvib i = ha.Uzp 0 := by
          funext n
          rw [hV, hZ]
          simp only [vibrationalFreeEnergy, zeroPointEnergy, kernel_eq, h0, hoF_at_zero]
        rw [this]
    | freq =>
      obtain ⟨h1, h2, h3, h4, h5⟩ := C68_freq_interpolates hu hrun hs i j
      have z : ∀ {a b : ℝ}, a * u.e.joule k = b * (1000 / k.N) → b = 0 → a = 0 := by
        intro a b h hb
        rw [hb, zero_mul] at h
        exact (mul_eq_zero.1 h).resolve_right hj
      refine ⟨z h2 (by simp [thermalEnergy, kernel_eq, hoEth, h0]), z h3 (by simp [entropy, kernel_eq, hoS, h0]),
        z h4 (by simp [isochoricHeatCapacity, kernel_eq, hoCv, h0]), ?_⟩
      refine mul_right_cancel₀ hj ?_
      rw [h5, h1]
      simp only [vibrationalFreeEnergy, zeroPointEnergy, kernel_eq, h0, hoF_at_zero]
  obtain ⟨b1, b2, b3, b4⟩ := base
  rw [h0, zero_mul, zero_div] at g4
  rw [h0, zero_mul, zero_div, sub_zero] at g3
  refine ⟨b1, b2, b3, b4, g3, by linarith, C16_degenerate hu hrun i j (.inl h0), ?_⟩
  by_cases hn : nt < 50
  · obtain ⟨m, r0, hm, hf, hK, -⟩ := run_data hu hrun hha
    obtain ⟨-, c1, c2, c3, -⟩ := finalize_short hu hn hf
    rw [c1, c2, c3]
    exact ⟨rfl, rfl, rfl⟩
  · obtain ⟨m, r0, hm, hf, hK, -⟩ := run_data hu hrun hha
    obtain ⟨-, c1, c2, -, -, c3, -⟩ := finalize_long hu (by omega) hf
    have d1 : r.CpmCv i j = 0 := by
      have := c1 i j
      simp only [h0, mul_zero, zero_mul] at this
      exact (mul_eq_zero.1 this).resolve_right hj
    rw [hK.Cv] at b3
    exact ⟨d1, by rw [c2, b3, d1, add_zero], c3 i j b3⟩

/-! ### C135 -/

theorem usedWeights_nonneg {w : Fin nb → ℝ} (hw : ∀ q, 0 ≤ w q) (q : Fin nb) : 0 ≤ usedWeights w q :=
  div_nonneg (hw q) (Finset.sum_nonneg fun q _ => hw q)

theorem usedWeights_sum {w : Fin nb → ℝ} (hw : 0 < ∑ q, w q) : ∑ q, usedWeights w q = 1 := by
  simp only [usedWeights, totalQPoints, ← Finset.sum_div]
  exact div_self hw.ne'

/-- C135 (frequency interpolation): at every temperature and pressure, whatever the volume found, zero-point and thermal
energy, entropy and heat capacity are not negative; the thermal energy is at most that of `nf` classical oscillators per cell
and the heat capacity (exported in thousandths of the unit of energy) at most the value of Dulong and Petit; the vibrational
free energy does not exceed the zero-point energy and the free energy does not exceed the internal energy. -/
theorem C135_bounds_partial (hext : Numerics ext) (hu : u.Of s) (hrun : run k ext s x = .ok r) (hs : s.scheme = .freq)
    (hw : ∀ q, 0 ≤ x.weights q) (hsum : 0 < ∑ q, x.weights q) (i : Fin nt) (j : Fin np)
    (hT : 0 ≤ u.t.kelvin (s.temperature i)) :
    0 ≤ r.Uzp i j ∧ 0 ≤ r.Uth i j ∧ 0 ≤ r.S i j ∧ 0 ≤ r.Cv i j ∧
    r.Uth i j * u.e.joule k ≤ nf * k.kB * u.t.kelvin (s.temperature i) ∧
    r.Cv i j / 1000 * u.e.joule k ≤ nf * k.kB ∧
    r.Fvib i j ≤ r.Uzp i j ∧ r.F i j ≤ r.Utot i j ∧ r.G i j ≤ r.H i j := by
  have hj := joule_pos k u.e
  have hN := k.N_pos
  obtain ⟨h1, h2, h3, h4, h5⟩ := C68_freq_interpolates hu hrun hs i j
  have hb := C09_bounds k (fun _ : Fin 1 => u.t.kelvin (s.temperature i))
    (fun q b (_ : Fin 1) => value (ext.polyfit x.volume (fun n => x.freq q b n * u.f.hertz k) s.fdeg) (r.VT i j))
    (usedWeights x.weights) (usedWeights_nonneg hw) 0 hT 0
  simp only [usedWeights_sum hsum, mul_one] at hb
  obtain ⟨b1, b2, b3, b4, b5, b6, b7⟩ := hb
  obtain ⟨-, -, g3⟩ := C68_energies_add_up hext hu hrun (fun h => by simp [hs] at h) i j
  have g4 := C68_H_minus_G hext hu hrun (fun h => by simp [hs] at h) i j
  have pos : ∀ {a b : ℝ}, a * u.e.joule k = b * (1000 / k.N) → 0 ≤ b → 0 ≤ a := by
    intro a b h hb
    have : 0 ≤ a * u.e.joule k := by rw [h]; positivity
    exact nonneg_of_mul_nonneg_left this hj
  have hS := pos h3 b4
  refine ⟨pos h1 b1, pos h2 b2, hS, pos h4 b5, ?_, ?_, ?_, ?_, ?_⟩
  · rw [h2]
    calc _ ≤ (nf * (k.N * k.kB * u.t.kelvin (s.temperature i) / 1000)) * (1000 / k.N) :=
          mul_le_mul_of_nonneg_right b3 (by positivity)
      _ = _ := by field_simp
  · rw [div_mul_eq_mul_div, h4]
    calc _ ≤ (nf * (k.N * k.kB)) * (1000 / k.N) / 1000 :=
          div_le_div_of_nonneg_right (mul_le_mul_of_nonneg_right b6 (by positivity)) (by norm_num)
      _ = _ := by field_simp
  · refine le_of_mul_le_mul_right ?_ hj
    rw [h5, h1]
    exact mul_le_mul_of_nonneg_right b7 (by positivity)
  · rw [g3]
    have : 0 ≤ u.t.kelvin (s.temperature i) * r.S i j / 1000 := by positivity
    linarith
  · have : 0 ≤ u.t.kelvin (s.temperature i) * r.S i j / 1000 := by positivity
    linarith

/-- Two volumes are separated from a third by a jump of the frequency: `100` and `W` cm⁻¹; the static energies make the free
energies at 300 K a parabola with its minimum at 2.5. -/
noncomputable def jumpFreq (W : ℝ) : Fin 1 → Fin 1 → Fin 3 → ℝ := fun _ _ n => if n = 0 then 100 else W

/-- The input of `C135_interpolation_violated`. -/
noncomputable def jumpInput (k : Consts) (W : ℝ) : Input 1 1 3 :=
  { U0 := fun n => ((n.val : ℝ) + 1 - 5 / 2) ^ 2 - vibrationalFreeEnergy k (fun _ : Fin 1 => 300)
      (fun q b n => jumpFreq W q b n * (100 * k.c)) (usedWeights fun _ => 1) 0 n * (1000 / k.N) / k.Ha,
    freq := jumpFreq W, weights := fun _ => 1, volume := fun n => n.val + 1 }

/-- The settings of `C135_interpolation_violated`: one temperature, 300 K, zero pressure. -/
noncomputable def jumpSettings : Settings 1 1 := { exSettings 1 with temperature := fun _ => 300 }

/-- A parabola through three points. -/
theorem parabola_at {c Y : Fin 3 → ℝ} (h : ∀ m : Fin 3, value c ((m.val : ℝ) + 1) = Y m) :
    value c (5 / 2) = -(1 / 8) * Y 0 + 3 / 4 * Y 1 + 3 / 8 * Y 2 := by
  rw [← h 0, ← h 1, ← h 2]
  simp [value, Fin.sum_univ_three]
  ring

theorem jump_exists (k : Consts) : ∃ W, 0 < W ∧ hoS k 300 (W * (100 * k.c)) < hoS k 300 (100 * (100 * k.c)) / 9 ∧
    hoCv k 300 (W * (100 * k.c)) < hoCv k 300 (100 * (100 * k.c)) / 9 := by
  have hc := k.c_pos
  have hω : (0 : ℝ) < 100 * (100 * k.c) := by positivity
  have hx : 0 < einstein k (100 * (100 * k.c)) / 300 := div_pos (einstein_pos k hω) (by norm_num)
  have hN := k.N_pos
  have hkB := k.kB_pos
  have he : 0 < Real.exp (einstein k (100 * (100 * k.c)) / 300) - 1 := by
    have := Real.add_one_lt_exp hx.ne'
    linarith
  have hS : 0 < hoS k 300 (100 * (100 * k.c)) := by
    rw [hoS_pos k (by norm_num) hω]
    have hl : Real.log (1 - Real.exp (-(einstein k (100 * (100 * k.c)) / 300))) < 0 := by
      refine Real.log_neg (one_sub_exp_neg_pos hx) ?_
      have := Real.exp_pos (-(einstein k (100 * (100 * k.c)) / 300))
      linarith
    have h1 : 0 < 1 / (Real.exp (einstein k (100 * (100 * k.c)) / 300) - 1) * (einstein k (100 * (100 * k.c)) / 300) := by
      positivity
    refine mul_pos (mul_pos hN hkB) ?_
    first
      | linarith
      | (have : 0 < einstein k (100 * (100 * k.c)) / 300 / (Real.exp (einstein k (100 * (100 * k.c)) / 300) - 1) := by positivity
         linarith)
  have hC : 0 < hoCv k 300 (100 * (100 * k.c)) := by
    rw [hoCv_pos k (by norm_num) hω]
    positivity
  obtain ⟨t, ⟨h1, h2⟩, ht⟩ := (((hoS_tendsto_zero k (100 * (100 * k.c))).eventually_lt_const (div_pos hS (by norm_num : (0 : ℝ) < 9))).and
    ((hoCv_tendsto_zero k (100 * (100 * k.c))).eventually_lt_const (div_pos hC (by norm_num : (0 : ℝ) < 9)))).and
    self_mem_nhdsWithin |>.exists
  replace ht : 0 < t := ht
  have hl : 0 < 300 / t := by positivity
  have e : 300 / t * t = 300 := by field_simp
  refine ⟨300 / t * 100, by positivity, ?_, ?_⟩
  · have := hoS_smul k hl t (100 * (100 * k.c))
    rw [e] at this
    rw [mul_assoc (300 / t), this]
    exact h1
  · have := hoCv_smul k hl t (100 * (100 * k.c))
    rw [e] at this
    rw [mul_assoc (300 / t), this]
    exact h2

/-- C135 fails for the interpolation of the thermodynamic functions (the default scheme): there is an input with positive
frequencies at all its volumes for which, with every correct fitting routine, the run succeeds and exports a negative entropy, a
negative heat capacity and a free energy above the internal energy at 300 K. -/
theorem C135_interpolation_violated (k : Consts) : ∃ (x : Input 1 1 3) (s : Settings 1 1), s.scheme = .td ∧
    (∀ q b n, 0 < x.freq q b n) ∧ x.weights = (fun _ => 1) ∧ exUnits.Of s ∧ (∀ i, s.temperature i = 300) ∧
    ∀ ext, Numerics ext → ∃ r, run k ext s x = .ok r ∧ r.VT 0 0 = 5 / 2 ∧ r.S 0 0 < 0 ∧ r.Cv 0 0 < 0 ∧
      r.Utot 0 0 < r.F 0 0 := by
  obtain ⟨W, hW, hWS, hWC⟩ := jump_exists k
  have hc := k.c_pos
  refine ⟨jumpInput k W, jumpSettings, rfl, fun q b n => ?_, rfl, ⟨rfl, rfl, rfl, rfl, rfl⟩, fun _ => rfl, fun ext hext => ?_⟩
  · show 0 < if n = 0 then (100 : ℝ) else W
    split <;> [norm_num; exact hW]
  have hu : exUnits.Of jumpSettings := ⟨rfl, rfl, rfl, rfl, rfl⟩
  obtain ⟨ha, hha, hF, -, -, -, hS, hC, -⟩ := harmonic_run hu (jumpInput k W) (k := k)
  have hinj : Function.Injective (jumpInput k W).volume := exInput_injective
  have hdeg : jumpSettings.edeg + 1 = 3 := rfl
  have hFn : ∀ n, ha.F 0 n = ((n.val : ℝ) + 1 - 5 / 2) ^ 2 := by
    intro n
    rw [hF]
    simp only [freeEnergy, jumpInput, jumpSettings, exUnits, TemperatureUnit.kelvin, FrequencyUnit.hertz, EnergyUnit.joule]
    ring
  have hval : ∀ V, value ![25 / 4, -5, 1] V = (V - 5 / 2) ^ 2 := by
    intro V
    simp [value, Fin.sum_univ_three]
    ring
  have hfit : value (ext.polyfit (jumpInput k W).volume (ha.F 0) 2) = fun V => (V - 5 / 2) ^ 2 := by
    have hd : ∀ n, ha.F 0 n = value ![25 / 4, -5, 1] ((jumpInput k W).volume n) := by
      intro n
      rw [hval, hFn]
      rfl
    have : ext.polyfit (jumpInput k W).volume (ha.F 0) 2 = ![25 / 4, -5, 1] :=
      Poly.value_injective hinj (le_refl 3) fun n => by
        rw [Poly.leastSquares_exact (hext.fit _ _ _) hd n, hd n]
    rw [this]
    exact funext hval
  have hd1 : deriv (fun V : ℝ => (V - 5 / 2) ^ 2) = fun V => 2 * (V - 5 / 2) := by
    funext V
    have h : HasDerivAt (fun V : ℝ => (V - 5 / 2) ^ 2) (2 * (V - 5 / 2) ^ 1 * 1) V :=
      ((hasDerivAt_id V).sub_const (5 / 2)).pow 2
    rw [h.deriv]; ring
  have hd2 : deriv (fun V : ℝ => 2 * (V - 5 / 2)) = fun _ => 2 := by
    funext V
    have h : HasDerivAt (fun V : ℝ => 2 * (V - 5 / 2)) (2 * 1) V := ((hasDerivAt_id V).sub_const (5 / 2)).const_mul 2
    rw [h.deriv]; ring
  have z : ∀ i : Fin 1, i = 0 := fun i => Subsingleton.elim _ _
  obtain ⟨r, hr⟩ := (C20_run_succeeds_iff hext hu rfl rfl hha).1 (by
    intro i j
    rw [z i]
    refine ⟨5 / 2, ?_, ?_⟩
    · show deriv (value (ext.polyfit (jumpInput k W).volume _ 2)) (5 / 2) * _ / _ = -(0 * _)
      rw [hfit, hd1]
      ring
    · show 0 < deriv (deriv (value (ext.polyfit (jumpInput k W).volume _ 2))) (5 / 2)
      rw [hfit, hd1, hd2]
      norm_num)
  have hV : r.VT 0 0 = 5 / 2 := by
    have h := (C20_equilibrium_volume hext hu rfl hr hha 0 0).2.1
    change deriv (value (ext.polyfit (jumpInput k W).volume _ 2)) _ * _ / _ = -(0 * _) at h
    rw [hfit, hd1, zero_mul, neg_zero] at h
    have hj := (joule_pos k exUnits.e).ne'
    have hv := (m3_pos k exUnits.v).ne'
    rw [div_eq_zero_iff, mul_eq_zero, mul_eq_zero] at h
    have : r.VT 0 0 - 5 / 2 = 0 := by
      rcases h with ((h | h) | h) | h
      · norm_num at h
      · exact h
      · exact absurd h hj
      · exact absurd h hv
    linarith
  have half : ∀ Y : Fin 3 → ℝ, value (ext.polyfit (jumpInput k W).volume Y 2) (5 / 2) = -(1 / 8) * Y 0 + 3 / 4 * Y 1 + 3 / 8 * Y 2 := by
    intro Y
    have h : ∀ m : Fin 3, value (ext.polyfit (jumpInput k W).volume Y 2) ((m.val : ℝ) + 1) = Y m := fit_through hext hinj rfl Y
    exact parabola_at h
  have conv : (0 : ℝ) < 1000 / k.N / k.Ha := by
    have := k.N_pos
    have := k.Ha_pos
    positivity
  obtain ⟨-, -, -, h4, h5, -⟩ := C68_td_interpolates hu hr rfl hha 0 0
  have w1 : usedWeights (fun _ : Fin 1 => (1 : ℝ)) 0 = 1 := by simp [usedWeights, totalQPoints]
  have hSn : ∀ n, ha.S 0 n = hoS k 300 (jumpFreq W 0 0 n * (100 * k.c)) * (1000 / k.N / k.Ha) := by
    intro n
    rw [hS]
    simp only [entropy, kernel_eq, Fin.sum_univ_one, jumpInput, w1, mul_one, jumpSettings, exUnits, TemperatureUnit.kelvin,
      FrequencyUnit.hertz, EnergyUnit.joule]
    ring
  have hCn : ∀ n, ha.Cv 0 n = hoCv k 300 (jumpFreq W 0 0 n * (100 * k.c)) * (1000 / k.N / k.Ha) := by
    intro n
    rw [hC]
    simp only [isochoricHeatCapacity, kernel_eq, Fin.sum_univ_one, jumpInput, w1, mul_one, jumpSettings, exUnits,
      TemperatureUnit.kelvin, FrequencyUnit.hertz, EnergyUnit.joule]
    ring
  have nS : r.S 0 0 < 0 := by
    rw [h4, hV]
    show value (ext.polyfit (jumpInput k W).volume (ha.S 0) 2) (5 / 2) < 0
    rw [half, hSn, hSn, hSn]
    have := mul_lt_mul_of_pos_right hWS conv
    rw [show jumpFreq W 0 0 0 = 100 from rfl, show jumpFreq W 0 0 1 = W from rfl, show jumpFreq W 0 0 2 = W from rfl]
    linarith
  have nC : r.Cv 0 0 < 0 := by
    rw [h5, hV]
    show value (ext.polyfit (jumpInput k W).volume (ha.Cv 0) 2) (5 / 2) < 0
    rw [half, hCn, hCn, hCn]
    have := mul_lt_mul_of_pos_right hWC conv
    rw [show jumpFreq W 0 0 0 = 100 from rfl, show jumpFreq W 0 0 1 = W from rfl, show jumpFreq W 0 0 2 = W from rfl]
    linarith
  refine ⟨r, hr, hV, nS, nC, ?_⟩
  have g3 := (C68_energies_add_up hext hu hr (fun _ => ⟨hinj, hdeg.le⟩) 0 0).2.2
  have e : exUnits.t.kelvin (jumpSettings.temperature 0) = 300 := rfl
  rw [g3, e]
  linarith

/-- What remains for the default scheme: the same bounds at the volumes of the input, for fits through all the data. -/
theorem C135_input_volume_partial (hext : Numerics ext) (hu : u.Of s) (hinj : Function.Injective x.volume)
    (hdeg : s.edeg + 1 = nv) (hfd : s.scheme = .freq → s.fdeg + 1 = nv) (hrun : run k ext s x = .ok r)
    (hw : ∀ q, 0 ≤ x.weights q) (hsum : 0 < ∑ q, x.weights q) (i : Fin nt) (j : Fin np) (n : Fin nv)
    (hn : r.VT i j = x.volume n) (hT : 0 ≤ u.t.kelvin (s.temperature i)) :
    0 ≤ r.Uzp i j ∧ 0 ≤ r.Uth i j ∧ 0 ≤ r.S i j ∧ 0 ≤ r.Cv i j ∧ r.Cv i j / 1000 * u.e.joule k ≤ nf * k.kB := by
  have hj := joule_pos k u.e
  have hN := k.N_pos
  obtain ⟨ha, hha, hF, hU, hZ, hTh, hS, hC, hV⟩ := harmonic_run hu x (k := k)
  obtain ⟨e1, e2, -, e4, e5, -⟩ := C128_input_volume hext hu hinj hdeg hfd hrun hha i j n hn
  have hb := C09_bounds k (fun i => u.t.kelvin (s.temperature i)) (fun q b n => x.freq q b n * u.f.hertz k)
    (usedWeights x.weights) (usedWeights_nonneg hw) i hT n
  have hb0 := C09_bounds k (fun _ : Fin 1 => (0 : ℝ)) (fun q b n => x.freq q b n * u.f.hertz k)
    (usedWeights x.weights) (usedWeights_nonneg hw) 0 le_rfl n
  simp only [usedWeights_sum hsum, mul_one] at hb
  obtain ⟨-, b2, -, b4, b5, b6, -⟩ := hb
  rw [e1, e2, e4, e5, hZ, hTh, hS, hC]
  have := hb0.1
  refine ⟨by positivity, by positivity, by positivity, by positivity, ?_⟩
  have e : ∀ a : ℝ, a * (1000 / k.N) / u.e.joule k / 1000 * u.e.joule k = a / k.N := fun a => by field_simp
  rw [e, div_le_iff₀ hN]
  refine b6.trans (le_of_eq (by ring))

/-! ### Witnesses -/

/-- The settings of the other examples with any scheme and any temperatures. -/
noncomputable def exAt (sc : Scheme) (T : Fin nt → ℝ) : Settings nt 1 := { exSettings nt with scheme := sc, temperature := T }

theorem exAt_of (sc : Scheme) (T : Fin nt → ℝ) : exUnits.Of (exAt sc T) := ⟨rfl, rfl, rfl, rfl, rfl⟩

theorem exAt_run (k : Consts) (hext : Numerics ext) (sc : Scheme) (T : Fin nt → ℝ) : ∃ r, run k ext (exAt sc T) exInput = .ok r := by
  obtain ⟨ha, hha, hF, -⟩ := harmonic_run (exAt_of sc T) exInput (k := k)
  refine (C20_run_succeeds_iff hext (exAt_of sc T) rfl rfl hha).1 fun i j => ?_
  have hval : ∀ V, value ![4 + ha.F i 1, -4, 1] V = (V - 2) ^ 2 + ha.F i 1 := by
    intro V
    simp [value, Fin.sum_univ_three]
    ring
  have hd : ∀ n, ha.F i n = value ![4 + ha.F i 1, -4, 1] (exInput.volume n) := by
    intro n
    rw [hval, hF]
    simp only [freeEnergy, vibrationalFreeEnergy, kernel_eq, exInput]
    fin_cases n <;> simp <;> norm_num
  have hfit : value (ext.polyfit exInput.volume (ha.F i) 2) = fun V => (V - 2) ^ 2 + ha.F i 1 := by
    have : ext.polyfit exInput.volume (ha.F i) 2 = ![4 + ha.F i 1, -4, 1] :=
      Poly.value_injective exInput_injective (le_refl 3) fun n => by
        rw [Poly.leastSquares_exact (hext.fit _ _ _) hd n, hd n]
    rw [this]
    exact funext hval
  have hd1 : deriv (fun V : ℝ => (V - 2) ^ 2 + ha.F i 1) = fun V => 2 * (V - 2) := by
    funext V
    have h : HasDerivAt (fun V : ℝ => (V - 2) ^ 2 + ha.F i 1) (2 * (V - 2) ^ 1 * 1) V :=
      (((hasDerivAt_id V).sub_const 2).pow 2).add_const _
    rw [h.deriv]; ring
  have hd2 : deriv (fun V : ℝ => 2 * (V - 2)) = fun _ => 2 := by
    funext V
    have h : HasDerivAt (fun V : ℝ => 2 * (V - 2)) (2 * 1) V := ((hasDerivAt_id V).sub_const 2).const_mul 2
    rw [h.deriv]; ring
  refine ⟨2, ?_, ?_⟩
  · show deriv (value (ext.polyfit exInput.volume _ 2)) 2 * _ / _ = -(0 * _)
    rw [hfit, hd1]
    ring
  · show 0 < deriv (deriv (value (ext.polyfit exInput.volume _ 2))) 2
    rw [hfit, hd1, hd2]
    norm_num

/-- The hypotheses of C134 are met at the first of 60 temperatures 0, 1, ... K, in both schemes. -/
example (k : Consts) (sc : Scheme) : ∃ (ext : Ext) (r : Results 60 1), Numerics ext ∧
    run k ext (exAt sc fun i => i.val) exInput = .ok r ∧ r.S 0 0 = 0 ∧ r.Cp 0 0 = 0 ∧ r.KS 0 0 = r.KT 0 0 := by
  obtain ⟨ext, hext⟩ := numerics_exists
  obtain ⟨r, hr⟩ := exAt_run (nt := 60) k hext sc fun i => i.val
  have h := C134_ground_state hext (exAt_of sc _) hr (fun _ => ⟨exInput_injective, le_refl 3⟩) 0 0
    (by simp [exAt, exUnits, TemperatureUnit.kelvin])
  exact ⟨ext, r, hext, hr, h.2.1, h.2.2.2.2.2.2.2.2.1, h.2.2.2.2.2.2.1⟩

/-- The hypotheses of the bounds are met at 1, 2, ... K with interpolated frequencies. -/
example (k : Consts) : ∃ (ext : Ext) (r : Results 60 1), Numerics ext ∧
    run k ext (exAt .freq fun i => (i.val : ℝ) + 1) exInput = .ok r ∧ ∀ i, 0 ≤ r.S i 0 ∧ r.G i 0 ≤ r.H i 0 := by
  obtain ⟨ext, hext⟩ := numerics_exists
  obtain ⟨r, hr⟩ := exAt_run (nt := 60) k hext .freq fun i => (i.val : ℝ) + 1
  refine ⟨ext, r, hext, hr, fun i => ?_⟩
  have h := C135_bounds_partial hext (exAt_of .freq _) hr rfl (fun _ => zero_le_one) (by simp [exInput]) i 0
    (by simp only [exAt, exUnits, TemperatureUnit.kelvin]; positivity)
  exact ⟨h.2.2.1, h.2.2.2.2.2.2.2.2⟩

end Verif.QHA
