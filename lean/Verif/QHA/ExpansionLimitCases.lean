/-
A case of C168: the crystal that expands, at 300 K.
-/
import Verif.QHA.ExpansionLimit

namespace Verif.QHA
open Verif.Py Verif.Units Verif.HA Verif.QHA.Spec Verif.StatMech Verif.Poly.Spec

/-- For every tolerance there is a run with 60 temperatures from 300 K on, whose first row holds the thermal expansion of
thermodynamics and the quantities derived from it within the tolerance.  The crystal expands. -/
example (k : Consts) {ε : ℝ} (hε : 0 < ε) : ∃ (ext : Ext) (A d : ℝ) (h : ℝ → HA.Results 1 3) (r : Results 60 1), Numerics ext ∧
    0 < d ∧ (∀ t, HA.run k (atKelvin (exAt .td fun _ : Fin 1 => 300) t) (exSoft A).toInput = .ok (h t)) ∧
    run k ext (onGrid (exAt .td fun _ : Fin 1 => 300) (fun a : Fin 60 => 300 + d * a.val) fun _ : Fin 1 => 0) (exSoft A) = .ok r ∧
    3 / 2 ≤ r.VT 0 0 ∧ r.VT 0 0 < r.VT 1 0 ∧
    |r.alphaV 0 0 - expansion (value (ext.polyfit (exSoft A).volume ((h 300).F 0) 2))
      (value (ext.polyfit (exSoft A).volume ((h 300).S 0) 2)) (r.VT 0 0)| < ε := by
  obtain ⟨ext, hext⟩ := numerics_exists
  obtain ⟨A, r₀, hr, hV⟩ := exSoft_run (nt := 1) k hext .td fun _ => 300
  have hu := exAt_of (nt := 1) .td fun _ => 300
  choose h hh using at_exists (k := k) hu (exSoft A)
  obtain ⟨δ, hδ, hl⟩ := C168_limit hext hu rfl (exSoft_injective A) (le_refl 3) (by decide) hr hh
    (F := fun t => value (ext.polyfit (exSoft A).volume ((h t).F 0) 2))
    (S := fun t => value (ext.polyfit (exSoft A).volume ((h t).S 0) 2)) (fun _ => rfl) (fun _ => rfl) 0 0
    (T₀ := 300) rfl (by norm_num) hε
  obtain ⟨δ', hδ', hp⟩ := C168_persists hext hu rfl (exSoft_injective A) (le_refl 3) (by decide) hr 0 0
    (show (0 : ℝ) ≤ 300 by norm_num)
  set d : ℝ := min δ δ' / 60 with hd
  have hd0 : 0 < d := by have := lt_min hδ hδ'; positivity
  have h60 : d * 60 = min δ δ' := by rw [hd]; ring
  have kel : ∀ y : ℝ, exUnits.t.kelvin y = y := fun y => by simp [exUnits, TemperatureUnit.kelvin]
  have hrange : ∀ a : Fin 60, (0 : ℝ) ≤ d * a.val ∧ d * a.val < min δ δ' := fun a => by
    have : (a.val : ℝ) < 60 := by exact_mod_cast a.2
    refine ⟨by positivity, ?_⟩
    nlinarith
  obtain ⟨r, hr'⟩ := hp (T := fun a : Fin 60 => 300 + d * a.val) (p := fun _ : Fin 1 => 0) (fun _ => rfl) fun a => by
    have := hrange a
    refine ⟨by rw [kel]; linarith, ?_⟩
    show |exUnits.t.kelvin (300 + d * a.val) - exUnits.t.kelvin 300| < δ'
    rw [kel, kel, add_sub_cancel_left, abs_of_nonneg this.1]
    exact this.2.trans_le (min_le_right _ _)
  obtain ⟨e1, e2⟩ := hl (by norm_num) hr' 0 1 0 (by simp [exAt]) rfl (.inl rfl) (by rw [kel]; simp; exact hd0.ne')
    (by rw [kel]; simp; linarith) (by
      rw [kel, add_sub_cancel_left, abs_of_nonneg (hrange 1).1]
      exact (hrange 1).2.trans_le (min_le_left _ _))
  refine ⟨ext, A, d, h, r, hext, hd0, hh, hr', by rw [e1]; exact (hV 0 0).1, ?_, by rw [e1]; exact e2⟩
  have hu' : exUnits.Of (onGrid (exAt .td fun _ : Fin 1 => 300) (fun a : Fin 60 => 300 + d * a.val) fun _ : Fin 1 => 0) :=
    ⟨rfl, rfl, rfl, rfl, rfl⟩
  refine C140_softening hext hu' rfl rfl ?_ one_pos one_pos (fun q => ?_) (fun q b => ?_) hr' 0 1 0 ?_ ?_ ?_
  · simp [exSoft]
  · simp [exSoft]
  · simp [exSoft]; norm_num
  · have := hV 0 0
    rw [e1]
    simp [exSoft]
    constructor <;> linarith
  · show (0 : ℝ) ≤ exUnits.t.kelvin (300 + d * ((0 : Fin 60).val : ℝ))
    rw [kel]; simp
  · show exUnits.t.kelvin (300 + d * ((0 : Fin 60).val : ℝ)) < exUnits.t.kelvin (300 + d * ((1 : Fin 60).val : ℝ))
    rw [kel, kel]; simp; exact hd0

/-- `C168_derived` for the rigid crystal at 1 K. -/
example (k : Consts) {ε : ℝ} (hε : 0 < ε) : ∃ (ext : Ext) (r : Results 1 1), Numerics ext ∧ 0 < r.Cv 0 0 ∧
    ∃ δ > 0, ∀ {nt np : ℕ} {T : Fin nt → ℝ} {p : Fin np → ℝ} {r' : Results nt np}, 50 ≤ nt →
      run k ext (onGrid (exSettings 1) T p) exInput = .ok r' → ∀ (a b : Fin nt) (c : Fin np), T a = 1 → p c = 0 →
      b.val = a.val + 1 → 1 < T b → T b < 1 + δ → ∃ γ, |r'.gruneisen a c - γ| < ε := by
  obtain ⟨ext, ha, r, hext, hha, hr, hw⟩ := witness k 1
  choose h hh using at_exists (k := k) (exUnits_of 1) exInput
  have kel : ∀ y : ℝ, exUnits.t.kelvin y = y := fun y => by simp [exUnits, TemperatureUnit.kelvin]
  obtain ⟨hVT, -, -, hC⟩ := hw 0 0
  obtain ⟨δ, hδ, hl⟩ := C168_derived hext (exUnits_of 1) rfl rfl exInput_injective (le_refl 3) (by decide) hr hh
    (F := fun t => value (ext.polyfit exInput.volume ((h t).F 0) 2))
    (S := fun t => value (ext.polyfit exInput.volume ((h t).S 0) 2)) (fun _ => rfl) (fun _ => rfl) 0 0
    (T₀ := 1) (by rw [kel]; simp [exSettings]) (by norm_num) (by rw [hVT]; norm_num) hC.ne' hε
  refine ⟨ext, r, hext, hC, δ, hδ, fun hn hr' a b c hTa hpc hb h1 h2 => ⟨_, (hl hn hr' a b c ?_ ?_ (.inl hb) ?_ ?_ ?_).1⟩⟩
  · rw [hTa]; simp [exSettings]
  · exact hpc
  · rw [kel]; exact h1.ne'
  · rw [kel]; linarith
  · rw [kel, abs_of_pos (by linarith)]; linarith

/-- `C168_definition` for the crystal that expands: its equilibrium volumes near 300 K. -/
example (k : Consts) : ∃ (ext : Ext) (A : ℝ) (h : ℝ → HA.Results 1 3) (W : ℝ → ℝ), Numerics ext ∧ W 300 ≠ 0 ∧
    HasDerivAt W (W 300 * expansion (value (ext.polyfit (exSoft A).volume ((h 300).F 0) 2))
      (value (ext.polyfit (exSoft A).volume ((h 300).S 0) 2)) (W 300)) 300 := by
  obtain ⟨ext, hext⟩ := numerics_exists
  obtain ⟨A, r₀, hr, hV⟩ := exSoft_run (nt := 1) k hext .td fun _ => 300
  have hu := exAt_of (nt := 1) .td fun _ => 300
  choose h hh using at_exists (k := k) hu (exSoft A)
  obtain ⟨δ, hδ, hp⟩ := C168_persists hext hu rfl (exSoft_injective A) (le_refl 3) (by decide) hr 0 0
    (show (0 : ℝ) ≤ 300 by norm_num)
  have kel : ∀ y : ℝ, exUnits.t.kelvin y = y := fun y => by simp [exUnits, TemperatureUnit.kelvin]
  have hj := (joule_pos k exUnits.e).ne'
  have hv := (m3_pos k exUnits.v).ne'
  have eq : ∀ {n : ℕ} {T : Fin n → ℝ} {r : Results n 1},
      run k ext (onGrid (exAt .td fun _ : Fin 1 => 300) T fun _ : Fin 1 => 0) (exSoft A) = .ok r → ∀ i,
      deriv (value (ext.polyfit (exSoft A).volume ((h (T i)).F 0) 2)) (r.VT i 0) = -0 ∧
      0 < deriv (deriv (value (ext.polyfit (exSoft A).volume ((h (T i)).F 0) 2))) (r.VT i 0) := by
    intro n T r hr i
    have hu' : exUnits.Of (onGrid (exAt .td fun _ : Fin 1 => 300) T fun _ : Fin 1 => 0) := ⟨rfl, rfl, rfl, rfl, rfl⟩
    obtain ⟨ha, hha, -⟩ := harmonic_run hu' (exSoft A) (k := k)
    have hE := C20_equilibrium_volume hext hu' rfl hr hha i 0
    have row := (harmonic_row hu' hha i (h := h (T i)) (by
      have := hh (T i)
      have e : exUnits.t.kelvin ((onGrid (exAt .td fun _ : Fin 1 => 300) T fun _ : Fin 1 => (0 : ℝ)).temperature i) = T i := kel _
      rw [e]; exact this)).1
    rw [row] at hE
    obtain ⟨-, h1, h2, -⟩ := hE
    refine ⟨?_, h2⟩
    change deriv (value (ext.polyfit (exSoft A).volume ((h (T i)).F 0) 2)) (r.VT i 0) * _ / _ = -(0 * _) at h1
    rw [zero_mul, neg_zero, div_eq_zero_iff, mul_eq_zero] at h1
    rw [neg_zero]
    exact (h1.resolve_right hv).resolve_right hj
  have ex : ∀ t : ℝ, 0 ≤ t → |t - 300| < δ → ∃ w, (t = 300 → w = r₀.VT 0 0) ∧
      deriv (value (ext.polyfit (exSoft A).volume ((h t).F 0) 2)) w = -0 ∧
      0 < deriv (deriv (value (ext.polyfit (exSoft A).volume ((h t).F 0) 2))) w := by
    intro t ht hd
    by_cases h3 : t = 300
    · subst h3
      exact ⟨_, fun _ => rfl, eq (T := fun _ : Fin 1 => 300) hr 0⟩
    · obtain ⟨r, hr'⟩ := hp (T := fun _ : Fin 1 => t) (p := fun _ : Fin 1 => 0) (fun _ => rfl) fun a =>
        ⟨by rw [kel]; exact ht, by rw [kel, kel]; exact hd⟩
      exact ⟨_, fun h => absurd h h3, eq hr' 0⟩
  choose! W hW1 hW2 using ex
  have h300 : W 300 = r₀.VT 0 0 := hW1 300 (by norm_num) (by simpa using hδ) rfl
  have hpos : W 300 ≠ 0 := by rw [h300]; have := (hV 0 0).1; linarith
  refine ⟨ext, A, h, W, hext, hpos, C168_definition hext hu (exSoft_injective A) (le_refl 3) (by decide) hh
    (F := fun t => value (ext.polyfit (exSoft A).volume ((h t).F 0) 2))
    (S := fun t => value (ext.polyfit (exSoft A).volume ((h t).S 0) 2)) (fun _ => rfl) (fun _ => rfl) (P := 0) (by norm_num) ?_ hpos⟩
  filter_upwards [Metric.ball_mem_nhds (300 : ℝ) hδ, lt_mem_nhds (show (0 : ℝ) < 300 by norm_num)] with t h1 h2
  rw [Metric.mem_ball, Real.dist_eq] at h1
  exact hW2 t h2.le h1

end Verif.QHA
