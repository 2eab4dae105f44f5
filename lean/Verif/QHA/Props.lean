/-
Property theorems of the quasi-harmonic calculator: C15, C16, C19, C20 (whole run), C68, C69, C70.
-/
import Mathlib.Analysis.Calculus.Deriv.MeanValue
import Verif.QHA.Schemes

namespace Verif.QHA
open Verif.Py Verif.Units Verif.HA Verif.QHA.Spec Verif.StatMech Verif.Poly.Spec
open Topology
open Filter (Eventually)

variable {nt np nb nf nv : ℕ} {k : Consts} {ext : Ext} {s : Settings nt np} {x : Input nb nf nv}
  {u : Choice} {r : Results nt np}

/-- With `--acoustic` no run succeeds; so a successful run had the option off. -/
theorem kieffer_off (hu : u.Of s) (hrun : run k ext s x = .ok r) : s.kieffer = false := by
  by_contra hk
  simp only [run, hu.t, hu.f, temperatureMap_to, frequencyMap_to, bind, Except.bind,
    Bool.not_eq_false _ |>.mp hk, if_true] at hrun
  exact absurd hrun (by simp)

/-- Everything a successful run is known to satisfy. -/
theorem run_data (hu : u.Of s) (hrun : run k ext s x = .ok r) {ha : HA.Results nt nv}
    (hha : HA.run k (harmonicSettings s) x.toInput = .ok ha) :
    ∃ m r0, minimizeAll k ext s x ha.F = .ok m ∧ finalizeRun k s r0 = .ok r ∧ Kept r0 r ∧
      (∀ i j, r.VT i j = (m i j).1) ∧
      (s.minimization = .eos → ∀ i j, r.KT i j = (m i j).2.1 ∧ r.Kp i j = (m i j).2.2) ∧
      (s.scheme = .td → runTd k ext s x (fun i => u.t.kelvin (s.temperature i))
        (fun q b n => x.freq q b n * u.f.hertz k) = .ok r0) ∧
      (s.scheme = .freq → runFreq k ext s x (fun i => u.t.kelvin (s.temperature i))
        (fun q b n => x.freq q b n * u.f.hertz k) = .ok r0) := by
  obtain ⟨h1, h2⟩ := run_cases (ext := ext) hu (kieffer_off hu hrun) hha
  cases hm : minimizeAll k ext s x ha.F with
  | error e => rw [h1 e hm] at hrun; exact absurd hrun (by simp)
  | ok m =>
    obtain ⟨r0, r', hr', hf, hV, hE, ht, hq⟩ := h2 m hm
    rw [hrun] at hr'
    obtain rfl := Except.ok.inj hr'
    obtain ⟨r'', hr'', hK, -⟩ := finalize_kept hu r0 (k := k)
    rw [hf] at hr''
    obtain rfl := Except.ok.inj hr''
    exact ⟨m, r0, rfl, hf, hK, fun i j => by rw [hK.VT, hV], fun he i j => by
      rw [hK.KT, hK.Kp]; exact hE he i j, ht, hq⟩

/-- A run on some settings has a harmonic counterpart. -/
theorem harmonic_exists (k : Consts) (hu : u.Of s) (x : Input nb nf nv) :
    ∃ ha, HA.run k (harmonicSettings s) x.toInput = .ok ha := by
  obtain ⟨ha, h, -⟩ := harmonic_run hu x (k := k)
  exact ⟨ha, h⟩

/-! ### C15  enthalpy and Gibbs energy -/

/-- In joule per cell, `H = U + p V` and `G = F + p V` at each grid point: `p` in pascal, `V` in
cubic metre. -/
theorem C15_legendre (hu : u.Of s) (hrun : run k ext s x = .ok r) (i : Fin nt) (j : Fin np) :
    r.H i j * u.e.joule k = r.Utot i j * u.e.joule k +
      (s.pressure j * u.p.pascal) * (r.VT i j * u.v.m3 k) ∧
    r.G i j * u.e.joule k = r.F i j * u.e.joule k +
      (s.pressure j * u.p.pascal) * (r.VT i j * u.v.m3 k) := by
  obtain ⟨ha, hha⟩ := harmonic_exists k hu x
  obtain ⟨m, r0, hm, hf, hK, -⟩ := run_data hu hrun hha
  obtain ⟨r', hr', -, hH, hG⟩ := finalize_kept hu r0 (k := k)
  rw [hf] at hr'
  obtain rfl := Except.ok.inj hr'
  rw [hK.Utot, hK.F, hK.VT]
  exact ⟨hH i j, hG i j⟩

/-- `H - G = U - F`. -/
theorem C15_differences (hu : u.Of s) (hrun : run k ext s x = .ok r) (i : Fin nt) (j : Fin np) :
    r.H i j - r.G i j = r.Utot i j - r.F i j := by
  obtain ⟨h1, h2⟩ := C15_legendre hu hrun i j
  have := joule_pos k u.e
  have : (r.H i j - r.G i j) * u.e.joule k = (r.Utot i j - r.F i j) * u.e.joule k := by
    linarith
  exact mul_right_cancel₀ (joule_pos k u.e).ne' this

/-- The kernels themselves: both add the same molar `p V`, affinely in `p`. -/
theorem C15_kernels (k : Consts) (V U F : Fin nt → Fin np → ℝ) (p q : Fin np → ℝ) (a b : ℝ)
    (hab : a + b = 1) (i : Fin nt) (j : Fin np) :
    enthalpy k V p U i j - U i j = p j * V i j * k.N / 1000 ∧
    gibbs k V p F i j - F i j = p j * V i j * k.N / 1000 ∧
    enthalpy k V (fun j => a * p j + b * q j) U i j =
      a * enthalpy k V p U i j + b * enthalpy k V q U i j ∧
    gibbs k V (fun j => a * p j + b * q j) F i j =
      a * gibbs k V p F i j + b * gibbs k V q F i j := by
  obtain rfl : b = 1 - a := by linarith
  refine ⟨?_, ?_, ?_, ?_⟩ <;> simp only [enthalpy, gibbs] <;> ring

/-! ### C19  thermal expansion -/

/-- Difference quotients divided by the volume; the last row uses the last interval. -/
theorem C19_quotients (hu : u.Of s) (hrun : run k ext s x = .ok r) (hn : 50 ≤ nt)
    (i : Fin nt) (j : Fin np) :
    let T := fun i => u.t.kelvin (s.temperature i)
    (∀ i' : Fin nt, i'.val = i.val + 1 →
      r.alphaV i j = (r.VT i' j - r.VT i j) / (T i' - T i) / r.VT i j) ∧
    (∀ i' : Fin nt, i.val + 1 = nt → i'.val + 1 = i.val →
      r.alphaV i j = (r.VT i j - r.VT i' j) / (T i - T i') / r.VT i j) := by
  obtain ⟨ha, hha⟩ := harmonic_exists k hu x
  obtain ⟨m, r0, hm, hf, hK, -⟩ := run_data hu hrun hha
  obtain ⟨hα, -⟩ := finalize_long hu hn hf
  intro T
  rw [hK.VT, hα i j]
  constructor
  · intro i' hi'
    have h : i.val + 1 < nt := hi' ▸ i'.isLt
    have e : (⟨i.val + 1, h⟩ : Fin nt) = i' := Fin.ext hi'.symm
    simp only [alphaColumn, dif_pos h, e]
    rfl
  · intro i' h1 h2
    have h : ¬ i.val + 1 < nt := by omega
    have e : (⟨i.val - 1, by omega⟩ : Fin nt) = i' := Fin.ext (by simp only; omega)
    simp only [alphaColumn, dif_neg h, e]
    rfl

/-- Exact for volumes affine in the temperature: `alphaV = (dV/dT) / V` in every row. -/
theorem C19_affine_exact (hu : u.Of s) (hrun : run k ext s x = .ok r) (hn : 50 ≤ nt) (j : Fin np)
    (a b : ℝ) (hV : ∀ i, r.VT i j = a + b * u.t.kelvin (s.temperature i))
    (hT : Function.Injective fun i => u.t.kelvin (s.temperature i)) (i : Fin nt) :
    r.alphaV i j = b / r.VT i j := by
  by_cases h : i.val + 1 < nt
  · have h1 := (C19_quotients hu hrun hn i j).1 ⟨i.val + 1, h⟩ rfl
    simp only at h1
    rw [h1]
    congr 1
    have hne : u.t.kelvin (s.temperature ⟨i.val + 1, h⟩) - u.t.kelvin (s.temperature i) ≠ 0 :=
      sub_ne_zero.2 fun e => by
        have := congrArg Fin.val (hT e)
        simp at this
    rw [hV, hV]
    field_simp
    ring
  · have hl : i.val + 1 = nt := by omega
    have h1 := (C19_quotients hu hrun hn i j).2 ⟨i.val - 1, by omega⟩ hl (by simp only; omega)
    simp only at h1
    rw [h1]
    congr 1
    have hne : u.t.kelvin (s.temperature i) -
        u.t.kelvin (s.temperature ⟨i.val - 1, by omega⟩) ≠ 0 :=
      sub_ne_zero.2 fun e => by
        have := congrArg Fin.val (hT e)
        simp at this
        omega
    rw [hV, hV]
    field_simp
    ring

/-- For volumes that follow a differentiable curve the quotient is the slope of that curve
somewhere inside the temperature interval. -/
theorem C19_mean_value (hu : u.Of s) (hrun : run k ext s x = .ok r) (hn : 50 ≤ nt) (j : Fin np)
    {f : ℝ → ℝ} (hf : Differentiable ℝ f)
    (hV : ∀ i, r.VT i j = f (u.t.kelvin (s.temperature i)))
    {i i' : Fin nt} (hi : i'.val = i.val + 1)
    (hT : u.t.kelvin (s.temperature i) < u.t.kelvin (s.temperature i')) :
    ∃ ξ, u.t.kelvin (s.temperature i) < ξ ∧ ξ < u.t.kelvin (s.temperature i') ∧
      r.alphaV i j = deriv f ξ / r.VT i j := by
  obtain ⟨ξ, hξ, h⟩ := exists_deriv_eq_slope f hT hf.continuous.continuousOn hf.differentiableOn
  refine ⟨ξ, hξ.1, hξ.2, ?_⟩
  rw [(C19_quotients hu hrun hn i j).1 i' hi, hV i', hV i, h]

/-- Fewer than 50 temperatures: the derived columns are zero and `KS = KT`. -/
theorem C19_short_grid (hu : u.Of s) (hrun : run k ext s x = .ok r) (hn : nt < 50) (i : Fin nt)
    (j : Fin np) :
    r.alphaV i j = 0 ∧ r.CpmCv i j = 0 ∧ r.gruneisen i j = 0 ∧ r.KS i j = r.KT i j := by
  obtain ⟨ha, hha⟩ := harmonic_exists k hu x
  obtain ⟨m, r0, hm, hf, hK, -⟩ := run_data hu hrun hha
  obtain ⟨h1, h2, h3, h4, h5⟩ := finalize_short hu hn hf
  rw [h1, h2, h4, h5, hK.KT]
  exact ⟨rfl, rfl, rfl, rfl⟩

/-! ### C16  KS, Cp and the Gruneisen parameter -/

/-- `KS Cv = KT Cp`, `KS = KT (1 + alpha gamma T)` and `Cp = Cv (1 + alpha gamma T)`. -/
theorem C16_relations_partial (hu : u.Of s) (hrun : run k ext s x = .ok r) (hn : 50 ≤ nt) (i : Fin nt)
    (j : Fin np) (hC : r.Cv i j ≠ 0) :
    r.KS i j * r.Cv i j = r.KT i j * r.Cp i j ∧
    r.KS i j = r.KT i j *
      (1 + r.alphaV i j * r.gruneisen i j * u.t.kelvin (s.temperature i)) ∧
    r.Cp i j = r.Cv i j *
      (1 + r.alphaV i j * r.gruneisen i j * u.t.kelvin (s.temperature i)) := by
  obtain ⟨ha, hha⟩ := harmonic_exists k hu x
  obtain ⟨m, r0, hm, hf, hK, -⟩ := run_data hu hrun hha
  obtain ⟨-, h2, h3, h4, h5, h6, h7⟩ := finalize_long hu hn hf
  have hj := (joule_pos k u.e).ne'
  have hp := (pascal_pos u.p).ne'
  rw [hK.Cv] at hC
  have g := h7 i j hC
  have hcp := h2 i j
  have hc3 := h3 i j
  set T := u.t.kelvin (s.temperature i) with hT
  have e3 : r.Cp i j = r0.Cv i j * (1 + r.alphaV i j * r.gruneisen i j * T) := by
    have : (r.Cp i j - r0.Cv i j * (1 + r.alphaV i j * r.gruneisen i j * T)) * u.e.joule k = 0 := by
      rw [g, hc3]
      have : (r0.Cv i j + r.CpmCv i j) * u.e.joule k =
          r0.Cv i j * u.e.joule k + r.CpmCv i j * u.e.joule k := by ring
      rw [sub_mul, this, hcp]
      field_simp
      ring
    have := (mul_eq_zero.1 this).resolve_right hj
    linarith
  have e2 : r.KS i j = r0.KT i j * (1 + r.alphaV i j * r.gruneisen i j * T) := by
    by_cases h0 : T = 0
    · rw [h4 i j (Or.inl h0), h0]; ring
    · have := h5 i j h0 hC
      rw [g]
      have h8 : (r.KS i j - r0.KT i j) = r.alphaV i j ^ 2 * (r0.KT i j * u.p.pascal) ^ 2 *
          (r0.VT i j * u.v.m3 k) * T * 1000 / (r0.Cv i j * u.e.joule k) / u.p.pascal := by
        rw [← this]; field_simp
      have h9 : r.KS i j = r0.KT i j + r.alphaV i j ^ 2 * (r0.KT i j * u.p.pascal) ^ 2 *
          (r0.VT i j * u.v.m3 k) * T * 1000 / (r0.Cv i j * u.e.joule k) / u.p.pascal := by
        rw [← h8]; ring
      rw [h9]
      field_simp
  rw [hK.Cv, hK.KT]
  exact ⟨by rw [e2, e3]; ring, e2, e3⟩

/-- The adiabatic correction in any unit of pressure: with `KT` in units of `factor` pascal the
result is in the same unit, and in pascal it is `KT + alpha² KT² V T / (Cv per formula unit)`. -/
theorem C16_units_of_KS {T : Fin nt → ℝ} {V KT alpha Cv : Fin nt → Fin np → ℝ} {factor : ℝ}
    (hf : factor ≠ 0) {i : Fin nt} {j : Fin np} (hT : T i ≠ 0) (hC : Cv i j ≠ 0) :
    adiabaticBulkModulus k T V KT alpha Cv factor i j * factor =
      KT i j * factor + alpha i j ^ 2 * (KT i j * factor) ^ 2 * V i j * T i / (Cv i j / k.N) := by
  rw [adiabaticBulkModulus, if_neg (not_or.2 ⟨hT, hC⟩), add_mul, div_mul_cancel₀ _ hf]
  ring

/-- At absolute zero or with vanishing heat capacity `KS = KT`. -/
theorem C16_degenerate (hu : u.Of s) (hrun : run k ext s x = .ok r) (i : Fin nt) (j : Fin np)
    (h0 : u.t.kelvin (s.temperature i) = 0 ∨ r.Cv i j = 0) : r.KS i j = r.KT i j := by
  by_cases hn : nt < 50
  · exact (C19_short_grid hu hrun hn i j).2.2.2
  obtain ⟨ha, hha⟩ := harmonic_exists k hu x
  obtain ⟨m, r0, hm, hf, hK, -⟩ := run_data hu hrun hha
  obtain ⟨-, h2, h3, h4, h5, h6, h7⟩ := finalize_long hu (by omega) hf
  rw [hK.KT]
  exact h4 i j (by rwa [hK.Cv] at h0)

/-- `KS ≥ KT` for every run, and `Cp ≥ Cv` from 50 temperatures on, for physical values. -/
theorem C16_inequalities_partial (hu : u.Of s) (hrun : run k ext s x = .ok r) (i : Fin nt)
    (j : Fin np) (hT : 0 ≤ u.t.kelvin (s.temperature i)) (hV : 0 ≤ r.VT i j)
    (hC : 0 ≤ r.Cv i j) (hKT : 0 ≤ r.KT i j) :
    r.KT i j ≤ r.KS i j ∧ (50 ≤ nt → r.Cv i j ≤ r.Cp i j) := by
  have hj := (joule_pos k u.e)
  have hp := (pascal_pos u.p)
  have hm3 := (m3_pos k u.v)
  by_cases hn : nt < 50
  · exact ⟨(C19_short_grid hu hrun hn i j).2.2.2.ge, fun h => by omega⟩
  obtain ⟨ha, hha⟩ := harmonic_exists k hu x
  obtain ⟨m, r0, hm, hf, hK, -⟩ := run_data hu hrun hha
  obtain ⟨-, h2, h3, h4, h5, h6, h7⟩ := finalize_long hu (by omega) hf
  rw [hK.VT] at hV
  rw [hK.KT] at hKT ⊢
  rw [hK.Cv] at hC ⊢
  constructor
  · by_cases h0 : u.t.kelvin (s.temperature i) = 0 ∨ r0.Cv i j = 0
    · exact (h4 i j h0).ge
    · rw [not_or] at h0
      have := h5 i j h0.1 h0.2
      have h8 : 0 ≤ (r.KS i j - r0.KT i j) * u.p.pascal := by
        rw [this]; positivity
      have := nonneg_of_mul_nonneg_left h8 hp
      linarith
  · intro _
    have h8 : 0 ≤ r.CpmCv i j * u.e.joule k := by rw [h2 i j]; positivity
    have := nonneg_of_mul_nonneg_left h8 hj
    rw [h3 i j]
    linarith

/-- With fewer than 50 temperatures the exported `Cp` is zero instead of `Cv + (Cp - Cv)`, so
`KS Cv = KT Cp` and `Cp ≥ Cv` fail at every point with a non-zero bulk modulus and a positive
heat capacity. -/
theorem C16_short_grid_violated (hu : u.Of s) (hrun : run k ext s x = .ok r) (hn : nt < 50)
    (i : Fin nt) (j : Fin np) (hC : 0 < r.Cv i j) (hKT : r.KT i j ≠ 0) :
    r.Cp i j = 0 ∧ r.Cp i j ≠ r.Cv i j + r.CpmCv i j ∧
    r.KS i j * r.Cv i j ≠ r.KT i j * r.Cp i j ∧ ¬ r.Cv i j ≤ r.Cp i j := by
  obtain ⟨ha, hha⟩ := harmonic_exists k hu x
  obtain ⟨m, r0, hm, hf, hK, -⟩ := run_data hu hrun hha
  obtain ⟨h1, h2, h3, h4, h5⟩ := finalize_short hu hn hf
  have hz : r.Cp i j = 0 := by rw [h3]
  have hz2 : r.CpmCv i j = 0 := by rw [h2]
  refine ⟨hz, ?_, ?_, ?_⟩
  · rw [hz, hz2]; intro h; linarith
  · rw [hz, mul_zero, h5, ← hK.KT]; exact mul_ne_zero hKT hC.ne'
  · rw [hz]; exact not_le.2 hC

/-! ### C20  equilibrium volumes of a whole run -/

theorem hasDerivAt_value {d : ℕ} (c : Fin d → ℝ) (t : ℝ) :
    HasDerivAt (value c) (deriv (value c) t) t := by
  rw [← polyval_ofFn_fun]
  exact (Poly.hasDerivAt_polyval _ t).differentiableAt.hasDerivAt

theorem minimizeAll_poly (hu : u.Of s) (hmin : s.minimization = .poly)
    (F : Fin nt → Fin nv → ℝ) (m : Fin nt → Fin np → ℝ × ℝ × ℝ)
    (h : minimizeAll k ext s x F = .ok m) (i : Fin nt) (j : Fin np) :
    (m i j).1 ∈ Poly.findPolynomialMinimum ext.roots
      (List.ofFn (ext.polyfit x.volume (F i) s.edeg))
      (some (s.pressure j * u.p.pascal * u.v.m3 k / u.e.joule k)) := by
  have h1 := (seqFin_ok _ _).1 h i
  have h2 := (seqFin_ok _ _).1 h1 j
  rw [minimize_poly hu hmin] at h2
  simp only [Option.getD_none] at h2
  split at h2
  · exact absurd h2 (by simp)
  · rename_i v l heq
    rw [heq, ← Except.ok.inj h2]
    simp

/-- Every reported volume is a strict local minimum of `F(V) + p V` in joule, where `F` is the
polynomial fitted to the harmonic free energies of that temperature: there the slope is `-p` in
pascal and the curvature is positive. -/
theorem C20_equilibrium_volume (hext : Numerics ext) (hu : u.Of s) (hmin : s.minimization = .poly)
    (hrun : run k ext s x = .ok r) {ha : HA.Results nt nv}
    (hha : HA.run k (harmonicSettings s) x.toInput = .ok ha) (i : Fin nt) (j : Fin np) :
    let c := ext.polyfit x.volume (ha.F i) s.edeg
    IsLeastSquares x.volume (ha.F i) c ∧
    deriv (value c) (r.VT i j) * u.e.joule k / u.v.m3 k = -(s.pressure j * u.p.pascal) ∧
    0 < deriv (deriv (value c)) (r.VT i j) ∧
    ∀ᶠ V in 𝓝[≠] (r.VT i j),
      value c (r.VT i j) * u.e.joule k + (s.pressure j * u.p.pascal) * (r.VT i j * u.v.m3 k) <
        value c V * u.e.joule k + (s.pressure j * u.p.pascal) * (V * u.v.m3 k) := by
  intro c
  obtain ⟨m, r0, hm, hf, hK, hV, -⟩ := run_data hu hrun hha
  have hmem := minimizeAll_poly hu hmin _ _ hm i j
  rw [← hV] at hmem
  have hj := joule_pos k u.e
  have hv := m3_pos k u.v
  have h1 := (Poly.C20_candidates hext.roots _ _ _).1 hmem
  have h2 := Poly.C20_strict_local_minimum hext.roots _ _ _ hmem
  simp only [polyval_ofFn_fun] at h1 h2
  refine ⟨hext.fit _ _ _, ?_, h1.2, ?_⟩
  · rw [h1.1]; field_simp
  · filter_upwards [h2] with V hVlt
    have := mul_lt_mul_of_pos_right hVlt hj
    have e : ∀ W : ℝ, (value c W + s.pressure j * u.p.pascal * u.v.m3 k / u.e.joule k * W) *
        u.e.joule k = value c W * u.e.joule k + (s.pressure j * u.p.pascal) * (W * u.v.m3 k) := by
      intro W; field_simp
    rw [e, e] at this
    exact this

/-- The run fails, with `IndexError`, exactly when some grid point has no such volume. -/
theorem C20_run_succeeds_iff (hext : Numerics ext) (hu : u.Of s) (hmin : s.minimization = .poly)
    (hk : s.kieffer = false) {ha : HA.Results nt nv}
    (hha : HA.run k (harmonicSettings s) x.toInput = .ok ha) :
    let ok := ∀ i j, ∃ V : ℝ,
      deriv (value (ext.polyfit x.volume (ha.F i) s.edeg)) V * u.e.joule k / u.v.m3 k =
        -(s.pressure j * u.p.pascal) ∧
      0 < deriv (deriv (value (ext.polyfit x.volume (ha.F i) s.edeg))) V
    (ok → ∃ r, run k ext s x = .ok r) ∧ (¬ ok → run k ext s x = .error .indexError) := by
  have hj := (joule_pos k u.e).ne'
  have hv := (m3_pos k u.v).ne'
  obtain ⟨h1, h2⟩ := run_cases (ext := ext) hu hk hha
  have cell : ∀ i j, (∃ V : ℝ,
      deriv (value (ext.polyfit x.volume (ha.F i) s.edeg)) V * u.e.joule k / u.v.m3 k =
        -(s.pressure j * u.p.pascal) ∧
      0 < deriv (deriv (value (ext.polyfit x.volume (ha.F i) s.edeg))) V) ↔
      ∃ v, minimizeVolume k ext s x.volume (ha.F i) (s.pressure j) none = .ok v := by
    intro i j
    have hcand := Poly.C20_candidates hext.roots
      (List.ofFn (ext.polyfit x.volume (ha.F i) s.edeg))
      (s.pressure j * u.p.pascal * u.v.m3 k / u.e.joule k)
    rw [minimize_poly hu hmin]
    simp only [Option.getD_none]
    simp only [polyval_ofFn_fun] at hcand
    have e : ∀ y : ℝ, y * u.e.joule k / u.v.m3 k = -(s.pressure j * u.p.pascal) ↔
        y = -(s.pressure j * u.p.pascal * u.v.m3 k / u.e.joule k) := by
      intro y
      constructor
      · intro h
        have : y = y * u.e.joule k / u.v.m3 k * u.v.m3 k / u.e.joule k := by field_simp
        rw [this, h]; ring
      · rintro rfl; field_simp
    simp only [e, ← hcand]
    split
    · rename_i heq; simp only [heq, List.not_mem_nil, exists_false, reduceCtorEq]
    · rename_i v l heq
      exact ⟨fun _ => ⟨_, rfl⟩, fun _ => ⟨v, by rw [heq]; simp⟩⟩
  have err : ∀ i j e, minimizeVolume k ext s x.volume (ha.F i) (s.pressure j) none = .error e →
      e = .indexError := by
    intro i j e h
    rw [minimize_poly hu hmin] at h
    simp only [Option.getD_none] at h
    split at h
    · exact (Except.error.inj h).symm
    · exact absurd h (by simp)
  have seqErr : ∀ {α : Type} {n : ℕ} (f : Fin n → Except PyErr α) e, seqFin f = .error e →
      ∃ i, f i = .error e := by
    intro α n
    induction n with
    | zero => intro f e h; simp [seqFin] at h
    | succ n ih =>
      intro f e h
      simp only [seqFin, bind, Except.bind] at h
      cases h0 : f 0 with
      | error e' =>
        simp only [h0, Except.error.injEq] at h
        exact ⟨0, by rw [h0, h]⟩
      | ok a =>
        rw [h0] at h
        cases h1 : seqFin (fun i => f i.succ) with
        | error e' =>
          obtain ⟨i, hi⟩ := ih _ _ h1
          simp only [h1, Except.error.injEq] at h
          exact ⟨i.succ, by rw [hi, h]⟩
        | ok as => simp [h1, pure, Except.pure] at h
  refine ⟨fun hok => ?_, fun hno => ?_⟩
  · choose v hv using fun i j => (cell i j).1 (hok i j)
    have : minimizeAll k ext s x ha.F = .ok v :=
      (seqFin_ok _ _).2 fun i => (seqFin_ok _ _).2 fun j => hv i j
    obtain ⟨r0, r, hr, -⟩ := h2 v this
    exact ⟨r, hr⟩
  · cases hm : minimizeAll k ext s x ha.F with
    | ok m =>
      exfalso
      apply hno
      intro i j
      have h1 := (seqFin_ok _ _).1 hm i
      have h2 := (seqFin_ok _ _).1 h1 j
      exact (cell i j).2 ⟨_, h2⟩
    | error e =>
      rw [h1 e hm]
      obtain ⟨i, hi⟩ := seqErr _ _ hm
      obtain ⟨j, hj⟩ := seqErr _ _ hi
      rw [err i j e hj]

/-! ### C68  the quasi-harmonic energies add up -/

/-- At each grid point the exported energies are the static energy interpolated at the equilibrium
volume plus the vibrational parts, and `F = U - T S`, in both interpolation schemes. -/
theorem C68_energies_add_up (hext : Numerics ext) (hu : u.Of s) (hrun : run k ext s x = .ok r)
    (htd : s.scheme = .td → Function.Injective x.volume ∧ s.edeg + 1 ≤ nv)
    (i : Fin nt) (j : Fin np) :
    let U0 := value (ext.polyfit x.volume x.U0 s.edeg) (r.VT i j)
    r.Utot i j = U0 + r.Uzp i j + r.Uth i j ∧
    r.F i j = U0 + r.Fvib i j ∧
    r.F i j = r.Utot i j - u.t.kelvin (s.temperature i) * r.S i j / 1000 := by
  intro U0
  obtain ⟨ha, hha, hF, hU, hZ, hT, hS, hC, hV⟩ := harmonic_run hu x (k := k)
  obtain ⟨m, r0, hm, hf, hK, hVT, hE, h1, h2⟩ := run_data hu hrun hha
  have hj := (joule_pos k u.e).ne'
  have hN := k.N_pos.ne'
  simp only [U0]
  rw [hK.Utot, hK.Uzp, hK.Uth, hK.F, hK.Fvib, hK.S, hK.VT]
  cases hs : s.scheme with
  | td =>
    obtain ⟨hinj, hdeg⟩ := htd hs
    have h0 := h1 hs
    have hm' := hm
    rw [hF] at hm'
    simp only [minimizeAll] at hm'
    simp only [runTd, hu.e, hu.v, hu.p, energyMap_from, bind, Except.bind, minimize_some] at h0
    rw [hm'] at h0
    simp only [e2pMap_eq, pure, Except.pure, Except.ok.injEq] at h0
    subst h0
    simp only [evalFit_eq]
    set T := fun i => u.t.kelvin (s.temperature i) with hTdef
    set ω := fun q b n => x.freq q b n * u.f.hertz k with hω
    set w := usedWeights x.weights with hw
    set ce := fun y : ℝ => y * (1000 / k.N) / u.e.joule k with hce
    set Z : Fin nv → ℝ := fun n => ce (zeroPointEnergy k (fun _ : Fin 1 => 0) ω w 0 n) with hZ'
    set H : Fin nv → ℝ := fun n => ce (thermalEnergy k T ω w i n) with hH'
    set A : Fin nv → ℝ := fun n => ce (vibrationalFreeEnergy k T ω w i n) with hA'
    set E : Fin nv → ℝ := fun n => ce (entropy k T ω w i n) with hE'
    have lin : ∀ (Y Z W : Fin nv → ℝ) (t : ℝ), (∀ n, W n = Y n + t * Z n) → ∀ v,
        value (ext.polyfit x.volume W s.edeg) v = value (ext.polyfit x.volume Y s.edeg) v +
          t * value (ext.polyfit x.volume Z s.edeg) v := by
      intro Y Z W t hW v
      obtain rfl : W = fun n => Y n + t * Z n := funext hW
      rw [Poly.leastSquares_linear hinj hdeg t (hext.fit x.volume Y s.edeg)
        (hext.fit x.volume Z s.edeg) (hext.fit x.volume _ s.edeg), Poly.value_add]
    have e1 := lin (fun n => x.U0 n + Z n) H
      (internalEnergy x.U0 Z (fun i n => ce (thermalEnergy k T ω w i n)) i) 1
      (fun n => by simp [internalEnergy, hH'])
    have e2 := lin x.U0 Z (fun n => x.U0 n + Z n) 1 (fun n => by simp)
    have e3 := lin x.U0 A (freeEnergy x.U0 (fun i n => ce (vibrationalFreeEnergy k T ω w i n)) i) 1
      (fun n => by simp [freeEnergy, hA'])
    have hz : ∀ n, zeroPointEnergy k T ω w i n = zeroPointEnergy k (fun _ : Fin 1 => 0) ω w 0 n := by
      intro n; simp only [zeroPointEnergy, kernel_eq, hoZpe]
    have e4 := lin (fun n => Z n + H n) E A (-(T i / 1000)) (fun n => by
      simp only [hZ', hH', hE', hA', hce]
      rw [C07_F_eq_U_minus_TS, hz]
      field_simp
      ring)
    have e5 := lin Z H (fun n => Z n + H n) 1 (fun n => by simp)
    refine ⟨?_, ?_, ?_⟩
    · rw [e1, e2]; ring
    · rw [e3]; ring
    · rw [e3, e1, e2, e4, e5]
      simp only [hTdef]
      ring
  | freq =>
    have h0 := h2 hs
    have hm' := hm
    rw [hF] at hm'
    simp only [minimizeAll] at hm'
    simp only [runFreq, hu.e, hu.v, hu.p, energyMap_from, bind, Except.bind] at h0
    rw [hm'] at h0
    simp only [e2pMap_eq, pure, Except.pure, Except.ok.injEq] at h0
    subst h0
    simp only [evalFit_eq, grid5_idx, mul_zero, add_zero]
    refine ⟨trivial, trivial, ?_⟩
    have hz : ∀ (ω : Fin nb → Fin nf → Fin 5 → ℝ) (t : ℝ) w n,
        zeroPointEnergy k (fun _ : Fin 1 => t) ω w 0 n =
          zeroPointEnergy k (fun _ : Fin 1 => 0) ω w 0 n := by
      intro ω t w n; simp only [zeroPointEnergy, kernel_eq, hoZpe]
    have key : ∀ (ω : Fin nb → Fin nf → Fin 5 → ℝ) (t : ℝ) w n,
        vibrationalFreeEnergy k (fun _ : Fin 1 => t) ω w 0 n * (1000 / k.N) / u.e.joule k =
          zeroPointEnergy k (fun _ : Fin 1 => 0) ω w 0 n * (1000 / k.N) / u.e.joule k +
          thermalEnergy k (fun _ : Fin 1 => t) ω w 0 n * (1000 / k.N) / u.e.joule k -
          t * (entropy k (fun _ : Fin 1 => t) ω w 0 n * (1000 / k.N) / u.e.joule k) / 1000 := by
      intro ω t w n
      rw [C07_F_eq_U_minus_TS, hz]
      field_simp
    rw [key]
    ring

/-- Thermodynamic interpolation: each exported column is the polynomial fitted to the harmonic
column of the same name, evaluated at the equilibrium volume. -/
theorem C68_td_interpolates (hu : u.Of s) (hrun : run k ext s x = .ok r) (hs : s.scheme = .td)
    {ha : HA.Results nt nv} (hha : HA.run k (harmonicSettings s) x.toInput = .ok ha)
    (i : Fin nt) (j : Fin np) :
    let at_V := fun Y : Fin nv → ℝ => value (ext.polyfit x.volume Y s.edeg) (r.VT i j)
    r.Uzp i j = at_V (ha.Uzp 0) ∧ r.Uth i j = at_V (ha.Uth i) ∧ r.Utot i j = at_V (ha.Utot i) ∧
    r.S i j = at_V (ha.S i) ∧ r.Cv i j = at_V (ha.Cv i) ∧ r.Fvib i j = at_V (ha.Fvib i) ∧
    r.F i j = at_V (ha.F i) := by
  intro at_V
  obtain ⟨ha', hha', hF, hU, hZ, hT, hS, hC, hV⟩ := harmonic_run hu x (k := k)
  rw [hha] at hha'
  obtain rfl := Except.ok.inj hha'
  obtain ⟨m, r0, hm, hf, hK, hVT, hE, h1, h2⟩ := run_data hu hrun hha
  have h0 := h1 hs
  have hm' := hm
  rw [hF] at hm'
  simp only [minimizeAll] at hm'
  simp only [runTd, hu.e, hu.v, hu.p, energyMap_from, bind, Except.bind, minimize_some] at h0
  rw [hm'] at h0
  simp only [e2pMap_eq, pure, Except.pure, Except.ok.injEq] at h0
  simp only [at_V]
  rw [hK.Utot, hK.Uzp, hK.Uth, hK.F, hK.Fvib, hK.S, hK.VT, hK.Cv, hF, hU, hZ, hT, hS, hC, hV]
  subst h0
  simp only [evalFit_eq]
  exact ⟨trivial, trivial, trivial, trivial, trivial, trivial, trivial⟩

/-- Frequency interpolation: each exported vibrational column is the harmonic quantity of the
frequencies interpolated at the equilibrium volume (one volume, one temperature). -/
theorem C68_freq_interpolates (hu : u.Of s) (hrun : run k ext s x = .ok r) (hs : s.scheme = .freq)
    (i : Fin nt) (j : Fin np) :
    let T : Fin 1 → ℝ := fun _ => u.t.kelvin (s.temperature i)
    let ω : Fin nb → Fin nf → Fin 1 → ℝ := fun q b _ =>
      value (ext.polyfit x.volume (fun n => x.freq q b n * u.f.hertz k) s.fdeg) (r.VT i j)
    let w := usedWeights x.weights
    r.Uzp i j * u.e.joule k = zeroPointEnergy k T ω w 0 0 * (1000 / k.N) ∧
    r.Uth i j * u.e.joule k = thermalEnergy k T ω w 0 0 * (1000 / k.N) ∧
    r.S i j * u.e.joule k = entropy k T ω w 0 0 * (1000 / k.N) ∧
    r.Cv i j * u.e.joule k = isochoricHeatCapacity k T ω w 0 0 * (1000 / k.N) ∧
    r.Fvib i j * u.e.joule k = vibrationalFreeEnergy k T ω w 0 0 * (1000 / k.N) := by
  intro T ω w
  obtain ⟨ha, hha, hF, -⟩ := harmonic_run hu x (k := k)
  obtain ⟨m, r0, hm, hf, hK, hVT, hE, h1, h2⟩ := run_data hu hrun hha
  have hj := (joule_pos k u.e).ne'
  have h0 := h2 hs
  have hm' := hm
  rw [hF] at hm'
  simp only [minimizeAll] at hm'
  simp only [runFreq, hu.e, hu.v, hu.p, energyMap_from, bind, Except.bind] at h0
  rw [hm'] at h0
  simp only [e2pMap_eq, pure, Except.pure, Except.ok.injEq] at h0
  simp only [T, ω, w]
  rw [hK.Uzp, hK.Uth, hK.Fvib, hK.S, hK.VT, hK.Cv]
  subst h0
  simp only [zeroPointEnergy, thermalEnergy, entropy, isochoricHeatCapacity, vibrationalFreeEnergy,
    kernel_eq, Poly.multiInterpolateArray_eq, grid5_idx, mul_zero, add_zero, hoZpe]
  refine ⟨?_, ?_, ?_, ?_, ?_⟩ <;> rw [div_mul_cancel₀ _ hj]

/-- Combined with C15: `H - G = T S`. -/
theorem C68_H_minus_G (hext : Numerics ext) (hu : u.Of s) (hrun : run k ext s x = .ok r)
    (htd : s.scheme = .td → Function.Injective x.volume ∧ s.edeg + 1 ≤ nv)
    (i : Fin nt) (j : Fin np) :
    r.H i j - r.G i j = u.t.kelvin (s.temperature i) * r.S i j / 1000 := by
  rw [C15_differences hu hrun, (C68_energies_add_up hext hu hrun htd i j).2.2]
  ring

/-! ### C69  isothermal bulk modulus -/

/-- Polynomial minimisation, thermodynamic interpolation: with polynomials of degree at most 4 the
five-point scheme is exact, `KT = V F''(V)` in pascal at the equilibrium volume, and it is
positive for a positive volume. -/
theorem C69_bulk_modulus (hext : Numerics ext) (hu : u.Of s) (hmin : s.minimization = .poly)
    (hs : s.scheme = .td) (hdeg : s.edeg ≤ 4)
    (hrun : run k ext s x = .ok r) {ha : HA.Results nt nv}
    (hha : HA.run k (harmonicSettings s) x.toInput = .ok ha) (i : Fin nt) (j : Fin np)
    (hV : 0 < r.VT i j) :
    let c := ext.polyfit x.volume (ha.F i) s.edeg
    r.KT i j * u.p.pascal =
      r.VT i j * deriv (deriv (value c)) (r.VT i j) * u.e.joule k / u.v.m3 k ∧
    0 < r.KT i j := by
  intro c
  have hpos := (C20_equilibrium_volume hext hu hmin hrun hha i j).2.2.1
  obtain ⟨ha', hha', hF, -⟩ := harmonic_run hu x (k := k)
  rw [hha] at hha'
  obtain rfl := Except.ok.inj hha'
  obtain ⟨m, r0, hm, hf, hK, hVT, hE, h1, h2⟩ := run_data hu hrun hha
  have hj := joule_pos k u.e
  have hv := m3_pos k u.v
  have hp := pascal_pos u.p
  have key : r.KT i j * u.p.pascal =
      r.VT i j * deriv (deriv (value c)) (r.VT i j) * u.e.joule k / u.v.m3 k := by
    have h0 := h1 hs
    have hm' := hm
    rw [hF] at hm'
    simp only [minimizeAll] at hm'
    simp only [runTd, hu.e, hu.v, hu.p, energyMap_from, bind, Except.bind, minimize_some] at h0
    rw [hm'] at h0
    simp only [e2pMap_eq, pure, Except.pure, Except.ok.injEq] at h0
    have hKT : r.KT i j = (numericalBulkModulus ext s.edeg
        (fun y => y * u.e.joule k / u.v.m3 k / u.p.pascal)
        (fun g => r.VT i j + r.VT i j * grid5 g)
        (fun g => value c (r.VT i j + r.VT i j * grid5 g)) idx5).1 := by
      rw [hK.KT, hVT]
      simp only [c]
      rw [hF, ← h0]
      simp only [hmin, evalFit_eq]
    have hinj : Function.Injective fun g : Fin 5 => r.VT i j + r.VT i j * grid5 g := by
      intro a b hab
      simp only [add_right_inj] at hab
      exact grid5_injective (mul_left_cancel₀ hV.ne' hab)
    have hfit : ext.polyfit (fun g : Fin 5 => r.VT i j + r.VT i j * grid5 g)
        (fun g => value c (r.VT i j + r.VT i j * grid5 g)) s.edeg = c :=
      Poly.value_injective hinj (by omega) fun g =>
        Poly.leastSquares_exact (hext.fit _ _ _) (d := c) (fun _ => rfl) g
    rw [hKT]
    simp only [numericalBulkModulus, hfit, grid5_idx, mul_zero, add_zero]
    rw [← Poly.deriv_polyval, ← Poly.deriv_polyval, polyval_ofFn_fun]
    field_simp
  refine ⟨key, ?_⟩
  have : 0 < r.KT i j * u.p.pascal := by rw [key]; positivity
  exact pos_of_mul_pos_left this hp.le

/-- Polynomial minimisation, thermodynamic interpolation: `K'` is the slope, at the equilibrium
pressure `-F'(V)`, of the least-squares parabola of `V F''(V)` against `-F'(V)` through the five
volumes within 0.1 % of the equilibrium volume. -/
theorem C69_bulk_derivative (hext : Numerics ext) (hu : u.Of s) (hmin : s.minimization = .poly)
    (hs : s.scheme = .td) (hdeg : s.edeg ≤ 4)
    (hrun : run k ext s x = .ok r) {ha : HA.Results nt nv}
    (hha : HA.run k (harmonicSettings s) x.toInput = .ok ha) (i : Fin nt) (j : Fin np)
    (hV : 0 < r.VT i j) {F : ℝ → ℝ} (hF : F = value (ext.polyfit x.volume (ha.F i) s.edeg))
    {P K : ℝ → ℝ} (hP : ∀ v, P v * u.p.pascal = -(deriv F v * u.e.joule k / u.v.m3 k))
    (hK : ∀ v, K v * u.p.pascal = v * deriv (deriv F) v * u.e.joule k / u.v.m3 k)
    (hinj : Function.Injective fun g : Fin 5 => P (r.VT i j + r.VT i j * grid5 g))
    {q : Fin 3 → ℝ} (hq : Poly.Spec.IsLeastSquares (fun g => P (r.VT i j + r.VT i j * grid5 g))
      (fun g => K (r.VT i j + r.VT i j * grid5 g)) q) :
    r.Kp i j = deriv (value q) (P (r.VT i j)) := by
  obtain ⟨ha', hha', hFa, -⟩ := harmonic_run hu x (k := k)
  rw [hha] at hha'
  obtain rfl := Except.ok.inj hha'
  obtain ⟨m, r0, hm, hf, hKr, hVT, hE, h1, h2⟩ := run_data hu hrun hha
  have hp := (pascal_pos u.p).ne'
  set c := ext.polyfit x.volume (ha.F i) s.edeg with hc
  have h0 := h1 hs
  have hm' := hm
  rw [hFa] at hm'
  simp only [minimizeAll] at hm'
  simp only [runTd, hu.e, hu.v, hu.p, energyMap_from, bind, Except.bind, minimize_some] at h0
  rw [hm'] at h0
  simp only [e2pMap_eq, pure, Except.pure, Except.ok.injEq] at h0
  have hKp : r.Kp i j = (numericalBulkModulus ext s.edeg
      (fun y => y * u.e.joule k / u.v.m3 k / u.p.pascal)
      (fun g => r.VT i j + r.VT i j * grid5 g)
      (fun g => value c (r.VT i j + r.VT i j * grid5 g)) idx5).2 := by
    rw [hKr.Kp, hVT]
    simp only [c]
    rw [hFa, ← h0]
    simp only [hmin, evalFit_eq]
  have hVinj : Function.Injective fun g : Fin 5 => r.VT i j + r.VT i j * grid5 g := by
    intro a b hab
    simp only [add_right_inj] at hab
    exact grid5_injective (mul_left_cancel₀ hV.ne' hab)
  have hfit : ext.polyfit (fun g : Fin 5 => r.VT i j + r.VT i j * grid5 g)
      (fun g => value c (r.VT i j + r.VT i j * grid5 g)) s.edeg = c :=
    Poly.value_injective hVinj (by omega) fun g =>
      Poly.leastSquares_exact (hext.fit _ _ _) (d := c) (fun _ => rfl) g
  have eP : ∀ v, -(deriv F v * u.e.joule k / u.v.m3 k / u.p.pascal) = P v := fun v => by
    rw [eq_comm, ← mul_right_cancel_iff_of_pos (pascal_pos u.p), hP]; field_simp
  have eK : ∀ v, v * deriv (deriv F) v * u.e.joule k / u.v.m3 k / u.p.pascal = K v := fun v => by
    rw [eq_comm, ← mul_right_cancel_iff_of_pos (pascal_pos u.p), hK]; field_simp
  have eF : ∀ v, Poly.polyval (Poly.polyder (List.ofFn c)) v = deriv F v := fun v => by
    rw [← Poly.deriv_polyval, polyval_ofFn_fun, hF]
  have eF2 : ∀ v, Poly.polyval (Poly.polyder (Poly.polyder (List.ofFn c))) v =
      deriv (deriv F) v := fun v => by
    rw [← Poly.deriv_polyval, ← funext eF]
  rw [hKp]
  simp only [numericalBulkModulus, hfit, grid5_idx, mul_zero, add_zero, eF, eF2, eP, eK]
  have hu' : ext.polyfit (fun g => P (r.VT i j + r.VT i j * grid5 g))
      (fun g => K (r.VT i j + r.VT i j * grid5 g)) 2 = q := by
    have := Poly.leastSquares_linear hinj (by norm_num) 0 hq hq
      (e := ext.polyfit (fun g => P (r.VT i j + r.VT i j * grid5 g))
        (fun g => K (r.VT i j + r.VT i j * grid5 g)) 2) (by simpa using hext.fit _ _ 2)
    simpa using this
  rw [hu', ← Poly.deriv_polyval, polyval_ofFn_fun]

/-- EoS minimisation: the reported volume, bulk modulus and pressure derivative are the parameters
of the equation of state fitted to `F + p V`, the bulk modulus converted to the pressure unit. -/
theorem C69_eos_parameters (hu : u.Of s) (hmin : s.minimization = .eos)
    (hrun : run k ext s x = .ok r) {ha : HA.Results nt nv}
    (hha : HA.run k (harmonicSettings s) x.toInput = .ok ha) (i : Fin nt) (j : Fin np) :
    ∃ G : Fin nv → ℝ,
      (∀ n, G n * u.e.joule k = ha.F i n * u.e.joule k +
        (s.pressure j * u.p.pascal) * (x.volume n * u.v.m3 k)) ∧
      r.VT i j = ext.eosFit s.eos x.volume G 3 ∧
      r.KT i j * u.p.pascal * u.v.m3 k = ext.eosFit s.eos x.volume G 1 * u.e.joule k ∧
      r.Kp i j = ext.eosFit s.eos x.volume G 2 := by
  obtain ⟨m, r0, hm, hf, hK, hVT, hE, h1, h2⟩ := run_data hu hrun hha
  have hj := (joule_pos k u.e).ne'
  have hv := (m3_pos k u.v).ne'
  have hp := (pascal_pos u.p).ne'
  have a1 := (seqFin_ok _ _).1 hm i
  have a2 := (seqFin_ok _ _).1 a1 j
  rw [minimize_eos hu hmin] at a2
  have a3 := Except.ok.inj a2
  refine ⟨fun n => ha.F i n + s.pressure j * u.p.pascal * u.v.m3 k / u.e.joule k * x.volume n,
    fun n => ?_, ?_, ?_, ?_⟩
  · field_simp
  · rw [hVT, ← a3]
  · have e : ∀ y : ℝ, y * u.e.joule k / u.v.m3 k / u.p.pascal * u.p.pascal * u.v.m3 k =
        y * u.e.joule k := fun y => by field_simp
    rw [(hE hmin i j).1, ← a3, e]
  · rw [(hE hmin i j).2, ← a3]

/-! ### C70  Kieffer's correction -/

/-- Asking for Kieffer's acoustic correction makes every run fail with `AttributeError`. -/
theorem C70_acoustic_violated (hu : u.Of s) (hk : s.kieffer = true) :
    run k ext s x = .error .attributeError := by
  simp only [run, hu.t, hu.f, temperatureMap_to, frequencyMap_to, bind, Except.bind, hk, if_true]

end Verif.QHA
