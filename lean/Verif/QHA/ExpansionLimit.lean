/-
Property C168: the reported thermal expansion tends to the one of thermodynamics when the steps of temperature shrink.
-/
import Verif.QHA.Expansion
import Verif.QHA.GridProps

namespace Verif.QHA
open Verif.Py Verif.Units Verif.HA Verif.QHA.Spec Verif.StatMech Verif.Poly.Spec
open Filter Topology

/-! ### Specification -/

/-- The thermal expansion at a volume, from the free energy and the entropy as functions of volume at one temperature:
`(∂S/∂V) / (V ∂²F/∂V²)`.  Entropies are exported in thousandths of the unit of energy. -/
noncomputable def Spec.expansion (F S : ℝ → ℝ) (V : ℝ) : ℝ := deriv S V / 1000 / (V * deriv (deriv F) V)

/-! ### Lemmas -/

/-- Slopes and curvatures of a polynomial with four coefficients or fewer. -/
theorem cubic_slopes {n : ℕ} (hn : n ≤ 4) (c : Fin n → ℝ) (v w : ℝ) :
    deriv (deriv (value c)) w = deriv (deriv (value c)) v +
      (deriv (deriv (value c)) (v + 1) - deriv (deriv (value c)) v) * (w - v) ∧
    deriv (value c) w - deriv (value c) v = (w - v) * (deriv (deriv (value c)) v + deriv (deriv (value c)) w) / 2 := by
  have key : ∃ a b d e : ℝ, ∀ v, value c v = a + b * v + d * v ^ 2 + e * v ^ 3 := by
    rw [value_polyval]
    generalize hl : List.ofFn c = l
    have hlen : l.length ≤ 4 := by rw [← hl, List.length_ofFn]; exact hn
    match l, hlen with
    | [], _ => exact ⟨0, 0, 0, 0, fun v => by simp⟩
    | [a], _ => exact ⟨a, 0, 0, 0, fun v => by simp⟩
    | [a, b], _ => exact ⟨a, b, 0, 0, fun v => by simp [mul_comm]⟩
    | [a, b, d], _ => exact ⟨a, b, d, 0, fun v => by simp; ring⟩
    | [a, b, d, e], _ => exact ⟨a, b, d, e, fun v => by simp; ring⟩
  obtain ⟨a, b, d, e, h⟩ := key
  have h1 : deriv (value c) = fun v => b + 2 * d * v + 3 * e * v ^ 2 := by
    funext v
    rw [funext h]
    have : HasDerivAt (fun v : ℝ => a + b * v + d * v ^ 2 + e * v ^ 3) (b + 2 * d * v + 3 * e * v ^ 2) v := by
      refine (((((hasDerivAt_id v).const_mul b).const_add a).add (((hasDerivAt_id v).pow 2).const_mul d)).add
        (((hasDerivAt_id v).pow 3).const_mul e)).congr_deriv ?_
      simp
      ring
    exact this.deriv
  have h2 : deriv (deriv (value c)) = fun v => 2 * d + 6 * e * v := by
    funext v
    rw [h1]
    have : HasDerivAt (fun v : ℝ => b + 2 * d * v + 3 * e * v ^ 2) (2 * d + 6 * e * v) v := by
      refine ((((hasDerivAt_id v).const_mul (2 * d)).const_add b).add (((hasDerivAt_id v).pow 2).const_mul (3 * e))).congr_deriv ?_
      simp
      ring
    exact this.deriv
  rw [h2, h1]
  constructor <;> ring

/-- Difference quotients of the solution of an equation that depends on a parameter. -/
theorem quotient_limit {A : Set ℝ} {T₀ V₀ : ℝ} {D E g ξ : ℝ → ℝ} (hD : ContinuousWithinAt D A T₀)
    (hE : ContinuousWithinAt E A T₀) (hg : ContinuousWithinAt g A T₀) (h0 : 0 < D T₀)
    (hξ : ∀ t ∈ A, t ≠ T₀ → ξ t ∈ A ∧ |ξ t - T₀| ≤ |t - T₀|) {Z : Set (ℝ × ℝ)}
    (hZ : ∀ z ∈ Z, z.1 ∈ A ∧ z.1 ≠ T₀ ∧ 0 < D z.1 + (E z.1 - D z.1) * (z.2 - V₀) ∧
      (z.2 - V₀) * (D z.1 + (E z.1 - D z.1) * (z.2 - V₀) / 2) = g (ξ z.1) * (z.1 - T₀)) :
    Tendsto (fun z : ℝ × ℝ => (z.2 - V₀) / (z.1 - T₀)) (comap Prod.fst (𝓝 T₀) ⊓ 𝓟 Z) (𝓝 (g T₀ / D T₀)) := by
  set l : Filter (ℝ × ℝ) := comap Prod.fst (𝓝 T₀) ⊓ 𝓟 Z with hl
  have ev : ∀ᶠ z in l, z ∈ Z := mem_inf_of_right (mem_principal_self Z)
  have hT : Tendsto (fun z : ℝ × ℝ => z.1) l (𝓝 T₀) := tendsto_comap.mono_left inf_le_left
  have hTA : Tendsto (fun z : ℝ × ℝ => z.1) l (𝓝[A] T₀) :=
    tendsto_nhdsWithin_iff.2 ⟨hT, ev.mono fun z hz => (hZ z hz).1⟩
  have hx : Tendsto (fun z : ℝ × ℝ => ξ z.1) l (𝓝 T₀) := by
    rw [tendsto_iff_dist_tendsto_zero] at hT ⊢
    refine squeeze_zero' (Eventually.of_forall fun _ => dist_nonneg) (ev.mono fun z hz => ?_) hT
    rw [Real.dist_eq, Real.dist_eq]
    exact (hξ _ (hZ z hz).1 (hZ z hz).2.1).2
  have hxA : Tendsto (fun z : ℝ × ℝ => ξ z.1) l (𝓝[A] T₀) :=
    tendsto_nhdsWithin_iff.2 ⟨hx, ev.mono fun z hz => (hξ _ (hZ z hz).1 (hZ z hz).2.1).1⟩
  have hD' : Tendsto (fun z : ℝ × ℝ => D z.1) l (𝓝 (D T₀)) := hD.tendsto.comp hTA
  have hE' : Tendsto (fun z : ℝ × ℝ => E z.1) l (𝓝 (E T₀)) := hE.tendsto.comp hTA
  have hg' : Tendsto (fun z : ℝ × ℝ => g (ξ z.1)) l (𝓝 (g T₀)) := hg.tendsto.comp hxA
  have evD : ∀ᶠ z in l, 0 < D z.1 := hD'.eventually_const_lt h0
  have hV : Tendsto (fun z : ℝ × ℝ => z.2 - V₀) l (𝓝 0) := by
    have hb : Tendsto (fun z : ℝ × ℝ => 2 * |g (ξ z.1)| * |z.1 - T₀| / D z.1) l (𝓝 (2 * |g T₀| * |T₀ - T₀| / D T₀)) :=
      ((hg'.abs.const_mul 2).mul (hT.sub_const T₀).abs).div hD' h0.ne'
    rw [sub_self, abs_zero, mul_zero, zero_div] at hb
    refine squeeze_zero_norm' ?_ hb
    filter_upwards [ev, evD] with z hz hd
    obtain ⟨-, -, h1, h2⟩ := hZ z hz
    rw [Real.norm_eq_abs, le_div_iff₀ hd]
    have h3 := congrArg abs h2
    rw [abs_mul, abs_mul, abs_of_pos (show 0 < D z.1 + (E z.1 - D z.1) * (z.2 - V₀) / 2 by linarith)] at h3
    have h4 := mul_le_mul_of_nonneg_left (show D z.1 / 2 ≤ D z.1 + (E z.1 - D z.1) * (z.2 - V₀) / 2 by linarith)
      (abs_nonneg (z.2 - V₀))
    linarith
  have hm : Tendsto (fun z : ℝ × ℝ => D z.1 + (E z.1 - D z.1) * (z.2 - V₀) / 2) l (𝓝 (D T₀ + (E T₀ - D T₀) * 0 / 2)) :=
    hD'.add (((hE'.sub hD').mul hV).div_const 2)
  rw [mul_zero, zero_div, add_zero] at hm
  refine (hg'.div hm h0.ne').congr' ?_
  filter_upwards [ev, evD] with z hz hd
  obtain ⟨-, h1, h2, h3⟩ := hZ z hz
  have h4 : (0 : ℝ) < D z.1 + (E z.1 - D z.1) * (z.2 - V₀) / 2 := by linarith
  show g (ξ z.1) / (D z.1 + (E z.1 - D z.1) * (z.2 - V₀) / 2) = _
  rw [div_eq_div_iff h4.ne' (sub_ne_zero.2 h1), h3]

variable {nt np nb nf nv : ℕ} {k : Consts} {ext : Ext} {s : Settings nt np} {x : Input nb nf nv}
  {u : Choice} {r : Results nt np}

/-- The curvature at `V` of the fit is a linear function of the data. -/
theorem fit_curvature_linear (hext : Numerics ext) {X : Fin nv → ℝ} (hinj : Function.Injective X) {d : ℕ} (hdeg : d + 1 ≤ nv)
    (V : ℝ) (Y : Fin nv → ℝ) :
    deriv (deriv (value (ext.polyfit X Y d))) V =
      ∑ n, Y n * deriv (deriv (value (ext.polyfit X (Pi.single n 1) d))) V := by
  have e : deriv (value (ext.polyfit X Y d)) = fun v => ∑ n, Y n * deriv (value (ext.polyfit X (Pi.single n 1) d)) v :=
    funext fun v => fit_slope_linear hext hinj hdeg v Y
  have h : HasDerivAt (fun v => ∑ n, Y n * deriv (value (ext.polyfit X (Pi.single n 1) d)) v)
      (∑ n, Y n * deriv (deriv (value (ext.polyfit X (Pi.single n 1) d))) V) V :=
    HasDerivAt.fun_sum fun n _ => ((value_differentiable _).2.1 V).hasDerivAt.const_mul _
  rw [e, h.deriv]

/-- Free energies and entropies at a volume of the input are continuous, down to absolute zero. -/
theorem harmonic_continuous (hu : u.Of s) {h : ℝ → HA.Results 1 nv}
    (hh : ∀ t, HA.run k (atKelvin s t) x.toInput = .ok (h t)) (n : Fin nv) {T : ℝ} (hT : 0 ≤ T) :
    ContinuousWithinAt (fun t => (h t).F 0 n) (Set.Ici 0) T ∧ ContinuousWithinAt (fun t => (h t).S 0 n) (Set.Ici 0) T := by
  set band := fun q b n => x.freq q b n * u.f.hertz k with hband
  have eS : (fun t => (h t).S 0 n) = fun t => atTemp (entropy k) band (usedWeights x.weights) n t * (1000 / k.N) / u.e.joule k :=
    funext fun t => (harmonic_at hu (hh t)).2.1 n
  rcases hT.eq_or_lt with rfl | hT
  · refine ⟨free_continuous_zero hu hh n, ?_⟩
    obtain ⟨-, ⟨hd, h0⟩, -⟩ := C10_low_temperature k band (usedWeights x.weights) n
    rw [eS, ← Set.Ioi_union_left, continuousWithinAt_union]
    refine ⟨?_, continuousWithinAt_singleton⟩
    rw [ContinuousWithinAt, h0]
    exact (hd.mul_const (1000 / k.N)).div_const (u.e.joule k)
  · refine ⟨(free_hasDerivAt hu hh hT n).continuousAt.continuousWithinAt, ?_⟩
    rw [eS]
    have hd := C08_heat_capacity_is_T_dS k band (usedWeights x.weights) n hT
    exact ((hd.continuousAt.mul_const (1000 / k.N)).div_const (u.e.joule k)).continuousWithinAt

/-- The equilibrium volumes of fits of degree 3 or less, near a temperature: difference quotients tend to `V α`. -/
theorem volume_quotients (hext : Numerics ext) (hu : u.Of s) (hinj : Function.Injective x.volume) (hdeg : s.edeg + 1 ≤ nv)
    (h3 : s.edeg ≤ 3) {h : ℝ → HA.Results 1 nv} (hh : ∀ t, HA.run k (atKelvin s t) x.toInput = .ok (h t))
    {F S : ℝ → ℝ → ℝ} (hF : ∀ t, F t = value (ext.polyfit x.volume ((h t).F 0) s.edeg))
    (hS : ∀ t, S t = value (ext.polyfit x.volume ((h t).S 0) s.edeg)) {T₀ V₀ : ℝ} (hT₀ : 0 ≤ T₀)
    (hc : 0 < deriv (deriv (F T₀)) V₀) :
    Tendsto (fun z : ℝ × ℝ => (z.2 - V₀) / (z.1 - T₀)) (comap Prod.fst (𝓝 T₀) ⊓
      𝓟 {z | 0 ≤ z.1 ∧ z.1 ≠ T₀ ∧ deriv (F z.1) z.2 = deriv (F T₀) V₀ ∧ 0 < deriv (deriv (F z.1)) z.2})
      (𝓝 (deriv (S T₀) V₀ / 1000 / deriv (deriv (F T₀)) V₀)) := by
  have cont : ∀ (Y : ℝ → Fin nv → ℝ) (a : Fin nv → ℝ), (∀ n, ContinuousWithinAt (fun t => Y t n) (Set.Ici 0) T₀) →
      ContinuousWithinAt (fun t => ∑ n, Y t n * a n) (Set.Ici 0) T₀ := fun Y a hY =>
    tendsto_finset_sum _ fun n _ => (hY n).mul_const _
  have cF := fun n => (harmonic_continuous hu hh n hT₀).1
  have cS := fun n => (harmonic_continuous hu hh n hT₀).2
  have eD : ∀ t V, deriv (deriv (F t)) V =
      ∑ n, (h t).F 0 n * deriv (deriv (value (ext.polyfit x.volume (Pi.single n 1) s.edeg))) V := fun t V => by
    rw [hF, fit_curvature_linear hext hinj hdeg V]
  have eF : ∀ t, deriv (F t) V₀ = ∑ n, (h t).F 0 n * deriv (value (ext.polyfit x.volume (Pi.single n 1) s.edeg)) V₀ :=
    fun t => by rw [hF, fit_slope_linear hext hinj hdeg V₀]
  have eS : ∀ t, deriv (S t) V₀ = ∑ n, (h t).S 0 n * deriv (value (ext.polyfit x.volume (Pi.single n 1) s.edeg)) V₀ :=
    fun t => by rw [hS, fit_slope_linear hext hinj hdeg V₀]
  have cD : ∀ V, ContinuousWithinAt (fun t => deriv (deriv (F t)) V) (Set.Ici 0) T₀ := by
    intro V
    simp only [eD]
    exact cont _ _ cF
  have cg : ContinuousWithinAt (fun t => deriv (S t) V₀ / 1000) (Set.Ici 0) T₀ := by
    simp only [eS]
    exact (cont _ _ cS).div_const 1000
  have mv : ∀ t, 0 ≤ t → t ≠ T₀ → ∃ ξ, 0 ≤ ξ ∧ |ξ - T₀| ≤ |t - T₀| ∧
      deriv (F T₀) V₀ - deriv (F t) V₀ = deriv (S ξ) V₀ / 1000 * (t - T₀) := by
    intro t ht hne
    simp only [eF, eS]
    rcases lt_or_gt_of_ne hne with hlt | hlt
    · obtain ⟨ξ, hξ, e⟩ := free_mean_value hu hh
        (fun n => deriv (value (ext.polyfit x.volume (Pi.single n 1) s.edeg)) V₀) ht hlt
      refine ⟨ξ, ht.trans hξ.1.le, ?_, by linear_combination -e⟩
      rw [abs_of_neg (by linarith [hξ.2]), abs_of_neg (by linarith)]
      linarith [hξ.1]
    · obtain ⟨ξ, hξ, e⟩ := free_mean_value hu hh
        (fun n => deriv (value (ext.polyfit x.volume (Pi.single n 1) s.edeg)) V₀) hT₀ hlt
      refine ⟨ξ, hT₀.trans hξ.1.le, ?_, by linear_combination e⟩
      rw [abs_of_pos (by linarith [hξ.1]), abs_of_pos (by linarith)]
      linarith [hξ.2]
  choose! ξ hξ1 hξ2 hξ3 using mv
  refine quotient_limit (A := Set.Ici 0) (D := fun t => deriv (deriv (F t)) V₀) (E := fun t => deriv (deriv (F t)) (V₀ + 1))
    (g := fun t => deriv (S t) V₀ / 1000) (ξ := ξ) (cD V₀) (cD (V₀ + 1)) cg hc
    (fun t ht hne => ⟨hξ1 t ht hne, hξ2 t ht hne⟩) ?_
  rintro ⟨t, w⟩ ⟨ht, hne, hs, hw⟩
  obtain ⟨h1, h2⟩ := cubic_slopes (n := s.edeg + 1) (by omega) (ext.polyfit x.volume ((h t).F 0) s.edeg) V₀ w
  rw [← hF t] at h1 h2
  simp only at hs hw ht hne ⊢
  refine ⟨ht, hne, by rw [← h1]; exact hw, ?_⟩
  have h4 := hξ3 t ht hne
  rw [h1] at h2
  linear_combination h4 - h2 + hs

/-- Least curvature and slope tell the volume of a fit of degree 3 or less. -/
theorem equilibrium_unique {n : ℕ} (hn : n ≤ 4) (c : Fin n → ℝ) {v w : ℝ} (h : deriv (value c) v = deriv (value c) w)
    (hv : 0 < deriv (deriv (value c)) v) (hw : 0 < deriv (deriv (value c)) w) : v = w := by
  have h2 := (cubic_slopes hn c v w).2
  rw [h, sub_self] at h2
  have : (w - v) * (deriv (deriv (value c)) v + deriv (deriv (value c)) w) = 0 := by linarith
  rcases mul_eq_zero.1 this with h | h <;> linarith

/-! ### C168 -/

/-- C168: with fits of degree 3 (as by default) or less, any equilibrium volumes `W` around a temperature, at one pressure,
have the derivative `V α` with the thermal expansion `α` of thermodynamics. -/
theorem C168_definition (hext : Numerics ext) (hu : u.Of s) (hinj : Function.Injective x.volume) (hdeg : s.edeg + 1 ≤ nv)
    (h3 : s.edeg ≤ 3) {h : ℝ → HA.Results 1 nv} (hh : ∀ t, HA.run k (atKelvin s t) x.toInput = .ok (h t))
    {F S : ℝ → ℝ → ℝ} (hF : ∀ t, F t = value (ext.polyfit x.volume ((h t).F 0) s.edeg))
    (hS : ∀ t, S t = value (ext.polyfit x.volume ((h t).S 0) s.edeg)) {T₀ P : ℝ} (hT₀ : 0 < T₀) {W : ℝ → ℝ}
    (hW : ∀ᶠ t in 𝓝 T₀, deriv (F t) (W t) = -P ∧ 0 < deriv (deriv (F t)) (W t)) (hpos : W T₀ ≠ 0) :
    HasDerivAt W (W T₀ * expansion (F T₀) (S T₀) (W T₀)) T₀ := by
  obtain ⟨hs, hc⟩ := hW.self_of_nhds
  have key := volume_quotients hext hu hinj hdeg h3 hh hF hS hT₀.le hc
  have e : W T₀ * expansion (F T₀) (S T₀) (W T₀) = deriv (S T₀) (W T₀) / 1000 / deriv (deriv (F T₀)) (W T₀) := by
    rw [expansion]
    field_simp
  rw [e, hasDerivAt_iff_tendsto_slope]
  have hlim : Tendsto (fun t => (t, W t)) (𝓝[≠] T₀) (comap Prod.fst (𝓝 T₀) ⊓
      𝓟 {z | 0 ≤ z.1 ∧ z.1 ≠ T₀ ∧ deriv (F z.1) z.2 = deriv (F T₀) (W T₀) ∧ 0 < deriv (deriv (F z.1)) z.2}) := by
    refine tendsto_inf.2 ⟨tendsto_comap_iff.2 (tendsto_id'.2 nhdsWithin_le_nhds), tendsto_principal.2 ?_⟩
    filter_upwards [nhdsWithin_le_nhds hW, nhdsWithin_le_nhds (lt_mem_nhds hT₀), self_mem_nhdsWithin] with t h1 h2 h4
    exact ⟨h2.le, h4, by rw [hs]; exact h1.1, h1.2⟩
  refine (key.comp hlim).congr fun t => ?_
  rw [Function.comp_apply, slope_def_field]

/-- C168: the reported thermal expansion tends to the one of thermodynamics.  For any run with fits of degree 3 or less and
any of its temperatures, from absolute zero on, and pressures: to any tolerance there is a step such that every run of the
same crystal with 50 temperatures or more, at any temperatures and pressures that contain this one, reports the same volume
and the expansion of thermodynamics within the tolerance, if the next temperature (for the last one, the one before) is
nearer than the step. -/
theorem C168_limit (hext : Numerics ext) (hu : u.Of s) (hmin : s.minimization = .poly)
    (hinj : Function.Injective x.volume) (hdeg : s.edeg + 1 ≤ nv) (h3 : s.edeg ≤ 3) (hrun : run k ext s x = .ok r)
    {h : ℝ → HA.Results 1 nv} (hh : ∀ t, HA.run k (atKelvin s t) x.toInput = .ok (h t))
    {F S : ℝ → ℝ → ℝ} (hF : ∀ t, F t = value (ext.polyfit x.volume ((h t).F 0) s.edeg))
    (hS : ∀ t, S t = value (ext.polyfit x.volume ((h t).S 0) s.edeg)) (i : Fin nt) (j : Fin np) {T₀ : ℝ}
    (hT : T₀ = u.t.kelvin (s.temperature i)) (h0 : 0 ≤ T₀) {ε : ℝ} (hε : 0 < ε) :
    ∃ δ > 0, ∀ {nt' np' : ℕ} {T : Fin nt' → ℝ} {p : Fin np' → ℝ} {r' : Results nt' np'}, 50 ≤ nt' →
      run k ext (onGrid s T p) x = .ok r' → ∀ (a b : Fin nt') (c : Fin np'), T a = s.temperature i → p c = s.pressure j →
      (b.val = a.val + 1 ∨ a.val + 1 = nt' ∧ b.val + 1 = a.val) → u.t.kelvin (T b) ≠ T₀ → 0 ≤ u.t.kelvin (T b) →
      |u.t.kelvin (T b) - T₀| < δ →
      r'.VT a c = r.VT i j ∧ |r'.alphaV a c - expansion (F T₀) (S T₀) (r.VT i j)| < ε := by
  obtain ⟨ha, hha, -⟩ := harmonic_run hu x (k := k)
  have hj := joule_pos k u.e
  have hv := m3_pos k u.v
  have row := (harmonic_row hu hha i (by rw [← hT]; exact hh T₀)).1
  have hE := C20_equilibrium_volume hext hu hmin hrun hha i j
  simp only [row, ← hF] at hE
  obtain ⟨-, hE1, hE2, -⟩ := hE
  have key := volume_quotients hext hu hinj hdeg h3 hh hF hS h0 hE2
  have key' := key.div_const (r.VT i j)
  have e : deriv (S T₀) (r.VT i j) / 1000 / deriv (deriv (F T₀)) (r.VT i j) / r.VT i j =
      expansion (F T₀) (S T₀) (r.VT i j) := by
    rw [expansion, div_div, mul_comm]
  rw [e] at key'
  have hev := (Metric.tendsto_nhds.1 key') ε hε
  rw [eventually_inf_principal, eventually_comap] at hev
  obtain ⟨δ, hδ, hev⟩ := Metric.eventually_nhds_iff.1 hev
  refine ⟨δ, hδ, fun {nt' np' T p r'} hn hrun' a b c hTa hpc hb hne hb0 hd => ?_⟩
  have hsame := C159_node hu hrun hrun' hTa.symm hpc.symm
  have hu' : u.Of (onGrid s T p) := ⟨hu.e, hu.v, hu.p, hu.t, hu.f⟩
  have hq : r'.alphaV a c = (r'.VT b c - r'.VT a c) / (u.t.kelvin (T b) - T₀) / r'.VT a c := by
    obtain ⟨q1, q2⟩ := C19_quotients hu' hrun' hn a c
    have eT : u.t.kelvin ((onGrid s T p).temperature a) = T₀ := by rw [hT]; exact congrArg _ hTa
    simp only [eT] at q1 q2
    rcases hb with hb | ⟨hb1, hb2⟩
    · exact q1 b hb
    · rw [q2 b hb1 hb2, ← neg_sub (r'.VT b c), ← neg_sub (u.t.kelvin _) T₀, neg_div_neg_eq]
      rfl
  rw [← hsame.VT] at hq
  refine ⟨hsame.VT.symm, ?_⟩
  rw [hq, ← Real.dist_eq]
  refine hev (y := u.t.kelvin (T b)) (by rw [Real.dist_eq]; exact hd) (u.t.kelvin (T b), r'.VT b c) rfl ⟨hb0, hne, ?_, ?_⟩
  all_goals
    obtain ⟨ha', hha', -⟩ := harmonic_run hu' x (k := k)
    have hE' := C20_equilibrium_volume hext hu' hmin hrun' hha' b c
    have row' := (harmonic_row hu' hha' b (hh _)).1
    simp only [row'] at hE'
    obtain ⟨-, hE1', hE2', -⟩ := hE'
  · have hE1'' : deriv (F (u.t.kelvin (T b))) (r'.VT b c) * u.e.joule k / u.v.m3 k = -(s.pressure j * u.p.pascal) := by
      rw [← hpc, hF]; exact hE1'
    rw [← hE1] at hE1''
    have := (div_left_inj' hv.ne').1 hE1''
    exact mul_right_cancel₀ hj.ne' this
  · show 0 < deriv (deriv (F (u.t.kelvin (T b)))) (r'.VT b c)
    rw [hF]
    exact hE2'

/-- C168: so do the quantities that are derived from it, with thermodynamic interpolation: the Grüneisen parameter tends to
`V (∂S/∂V) / Cv` and the difference of the heat capacities to `T (∂S/∂V)² / (∂²F/∂V²)`. -/
theorem C168_derived (hext : Numerics ext) (hu : u.Of s) (hmin : s.minimization = .poly) (hs : s.scheme = .td)
    (hinj : Function.Injective x.volume) (hdeg : s.edeg + 1 ≤ nv) (h3 : s.edeg ≤ 3) (hrun : run k ext s x = .ok r)
    {h : ℝ → HA.Results 1 nv} (hh : ∀ t, HA.run k (atKelvin s t) x.toInput = .ok (h t))
    {F S : ℝ → ℝ → ℝ} (hF : ∀ t, F t = value (ext.polyfit x.volume ((h t).F 0) s.edeg))
    (hS : ∀ t, S t = value (ext.polyfit x.volume ((h t).S 0) s.edeg)) (i : Fin nt) (j : Fin np) {T₀ : ℝ}
    (hT : T₀ = u.t.kelvin (s.temperature i)) (h0 : 0 ≤ T₀) (hV : 0 < r.VT i j) (hC : r.Cv i j ≠ 0) {ε : ℝ} (hε : 0 < ε) :
    ∃ δ > 0, ∀ {nt' np' : ℕ} {T : Fin nt' → ℝ} {p : Fin np' → ℝ} {r' : Results nt' np'}, 50 ≤ nt' →
      run k ext (onGrid s T p) x = .ok r' → ∀ (a b : Fin nt') (c : Fin np'), T a = s.temperature i → p c = s.pressure j →
      (b.val = a.val + 1 ∨ a.val + 1 = nt' ∧ b.val + 1 = a.val) → u.t.kelvin (T b) ≠ T₀ → 0 ≤ u.t.kelvin (T b) →
      |u.t.kelvin (T b) - T₀| < δ →
      |r'.gruneisen a c - r.VT i j * deriv (S T₀) (r.VT i j) / r.Cv i j| < ε ∧
      |(r'.Cp a c - r'.Cv a c) - T₀ * deriv (S T₀) (r.VT i j) ^ 2 / (1000 * deriv (deriv (F T₀)) (r.VT i j))| < ε := by
  obtain ⟨ha, hha, -⟩ := harmonic_run hu x (k := k)
  have hj := joule_pos k u.e
  have hv := m3_pos k u.v
  have row := (harmonic_row hu hha i (by rw [← hT]; exact hh T₀)).1
  have hE := C20_equilibrium_volume hext hu hmin hrun hha i j
  simp only [row, ← hF] at hE
  obtain ⟨-, hE1, hE2, -⟩ := hE
  have hK := (C69_bulk_modulus hext hu hmin hs (by omega) hrun hha i j hV).1
  simp only [row, ← hF] at hK
  set V := r.VT i j with hVdef
  set D := deriv (deriv (F T₀)) V with hD
  set α := expansion (F T₀) (S T₀) V with hα
  have eα : α * (V * D) = deriv (S T₀) V / 1000 := by
    rw [hα, expansion, ← hD]
    field_simp
  set A := V ^ 2 * D * 1000 / r.Cv i j with hA
  set B := V ^ 2 * D * 1000 * T₀ with hB
  have cont : ContinuousAt (fun y : ℝ => B * y ^ 2) α := by fun_prop
  obtain ⟨η, hη, hcont⟩ := Metric.continuousAt_iff.1 cont ε hε
  have hA1 : 0 < |A| + 1 := by positivity
  obtain ⟨δ, hδ, key⟩ := C168_limit hext hu hmin hinj hdeg h3 hrun hh hF hS i j hT h0 (ε := min η (ε / (|A| + 1)))
    (lt_min hη (by positivity))
  refine ⟨δ, hδ, fun {nt' np' T p r'} hn hrun' a b c hTa hpc hb hne hb0 hd => ?_⟩
  obtain ⟨hVT, hlt⟩ := key hn hrun' a b c hTa hpc hb hne hb0 hd
  have hsame := C159_node hu hrun hrun' hTa.symm hpc.symm
  have hu' : u.Of (onGrid s T p) := ⟨hu.e, hu.v, hu.p, hu.t, hu.f⟩
  obtain ⟨ha', hha', -⟩ := harmonic_run hu' x (k := k)
  obtain ⟨m, r0, hm, hf, hkeep, -⟩ := run_data hu' hrun' hha'
  obtain ⟨-, f2, f3, -, -, -, f7⟩ := finalize_long hu' hn hf
  have eC : r0.Cv a c = r.Cv i j := by rw [← hkeep.Cv, ← hsame.Cv]
  have eK : r0.KT a c = r.KT i j := by rw [← hkeep.KT, ← hsame.KT]
  have eV : r0.VT a c = V := by rw [← hkeep.VT, hVT]
  have eT : u.t.kelvin ((onGrid s T p).temperature a) = T₀ := by rw [hT]; exact congrArg _ hTa
  have hcv : r'.Cv a c = r0.Cv a c := hkeep.Cv ▸ rfl
  have g7 := f7 a c (by rw [eC]; exact hC)
  have g2 := f2 a c
  have g3 := f3 a c
  simp only [eC, eK, eV, hK, eT] at g7 g2 g3
  have e7 : r'.gruneisen a c = A * r'.alphaV a c := by
    rw [g7, hA]
    field_simp
  have e2 : r'.Cp a c - r'.Cv a c = B * r'.alphaV a c ^ 2 := by
    rw [g3, hcv, eC, add_sub_cancel_left]
    have : r'.CpmCv a c * u.e.joule k = B * r'.alphaV a c ^ 2 * u.e.joule k := by
      rw [g2, hB]
      field_simp
    exact mul_right_cancel₀ hj.ne' this
  have l7 : V * deriv (S T₀) V / r.Cv i j = A * α := by
    have : deriv (S T₀) V = α * (V * D) * 1000 := by rw [eα]; ring
    rw [this, hA]
    ring
  have l2 : T₀ * deriv (S T₀) V ^ 2 / (1000 * D) = B * α ^ 2 := by
    have : deriv (S T₀) V = α * (V * D) * 1000 := by rw [eα]; ring
    rw [this, hB]
    field_simp
  constructor
  · rw [e7, l7, ← mul_sub, abs_mul]
    have h1 := lt_of_lt_of_le hlt (min_le_right _ _)
    rw [lt_div_iff₀ hA1] at h1
    have := mul_le_mul_of_nonneg_left (show |A| ≤ |A| + 1 by linarith) (abs_nonneg (r'.alphaV a c - α))
    linarith
  · rw [e2, l2, ← Real.dist_eq]
    exact hcont (by rw [Real.dist_eq]; exact lt_of_lt_of_le hlt (min_le_left _ _))

/-- Equilibrium volumes of fits of degree 3 or less persist near a temperature. -/
theorem equilibrium_persists (hext : Numerics ext) (hu : u.Of s) (hinj : Function.Injective x.volume) (hdeg : s.edeg + 1 ≤ nv)
    (h3 : s.edeg ≤ 3) {h : ℝ → HA.Results 1 nv} (hh : ∀ t, HA.run k (atKelvin s t) x.toInput = .ok (h t))
    {T₀ V : ℝ} (h0 : 0 ≤ T₀) {F : ℝ → ℝ → ℝ} (hF : F = fun t => value (ext.polyfit x.volume ((h t).F 0) s.edeg))
    (hE2 : 0 < deriv (deriv (F T₀)) V) :
    ∃ δ > 0, ∀ t, 0 ≤ t → |t - T₀| < δ → ∃ W, deriv (F t) W = deriv (F T₀) V ∧ 0 < deriv (deriv (F t)) W := by
  subst hF
  set F : ℝ → ℝ → ℝ := fun t => value (ext.polyfit x.volume ((h t).F 0) s.edeg) with hF
  have cF := fun n => (harmonic_continuous hu hh n h0).1
  have cD : ∀ W, ContinuousWithinAt (fun t => deriv (deriv (F t)) W) (Set.Ici 0) T₀ := by
    intro W
    have e : (fun t => deriv (deriv (F t)) W) = fun t =>
        ∑ n, (h t).F 0 n * deriv (deriv (value (ext.polyfit x.volume (Pi.single n 1) s.edeg))) W :=
      funext fun t => fit_curvature_linear hext hinj hdeg W _
    rw [e]
    exact tendsto_finset_sum _ fun n _ => (cF n).mul_const _
  have c1 : ∀ W, ContinuousWithinAt (fun t => deriv (F t) W) (Set.Ici 0) T₀ := by
    intro W
    have e : (fun t => deriv (F t) W) = fun t =>
        ∑ n, (h t).F 0 n * deriv (value (ext.polyfit x.volume (Pi.single n 1) s.edeg)) W :=
      funext fun t => fit_slope_linear hext hinj hdeg W _
    rw [e]
    exact tendsto_finset_sum _ fun n _ => (cF n).mul_const _
  -- an interval on which the curvature at `T₀` is positive
  obtain ⟨η, hη, hpos⟩ : ∃ η > 0, ∀ w, |w - V| ≤ η → 0 < deriv (deriv (F T₀)) w := by
    have hc : ContinuousAt (deriv (deriv (F T₀))) V := (value_differentiable _).2.2.continuousAt
    obtain ⟨η, hη, hb⟩ := Metric.eventually_nhds_iff.1 (hc.eventually_const_lt hE2)
    exact ⟨η / 2, by linarith, fun w hw => hb (by rw [Real.dist_eq]; linarith)⟩
  have up : deriv (F T₀) V < deriv (F T₀) (V + η) ∧ deriv (F T₀) (V - η) < deriv (F T₀) V := by
    have h1 := (cubic_slopes (n := s.edeg + 1) (by omega) (ext.polyfit x.volume ((h T₀).F 0) s.edeg) V (V + η)).2
    have h2 := (cubic_slopes (n := s.edeg + 1) (by omega) (ext.polyfit x.volume ((h T₀).F 0) s.edeg) V (V - η)).2
    change deriv (F T₀) _ - deriv (F T₀) _ = _ * (deriv (deriv (F T₀)) _ + deriv (deriv (F T₀)) _) / 2 at h1 h2
    have p1 := hpos (V + η) (by rw [add_sub_cancel_left, abs_of_pos hη])
    have p2 := hpos (V - η) (by rw [sub_sub_cancel_left, abs_neg, abs_of_pos hη])
    constructor
    · have : 0 < (V + η - V) * (deriv (deriv (F T₀)) V + deriv (deriv (F T₀)) (V + η)) / 2 := by
        rw [add_sub_cancel_left]; positivity
      linarith
    · have : 0 < η * (deriv (deriv (F T₀)) V + deriv (deriv (F T₀)) (V - η)) / 2 := by positivity
      have e : (V - η - V) * (deriv (deriv (F T₀)) V + deriv (deriv (F T₀)) (V - η)) / 2 =
        -(η * (deriv (deriv (F T₀)) V + deriv (deriv (F T₀)) (V - η)) / 2) := by ring
      linarith
  have ev : ∀ᶠ t in 𝓝[Set.Ici 0] T₀, deriv (F T₀) V < deriv (F t) (V + η) ∧ deriv (F t) (V - η) < deriv (F T₀) V ∧
      0 < deriv (deriv (F t)) (V - η) ∧ 0 < deriv (deriv (F t)) (V + η) := by
    filter_upwards [(c1 (V + η)).eventually_const_lt up.1, (c1 (V - η)).eventually_lt_const up.2,
      (cD (V - η)).eventually_const_lt (hpos (V - η) (by rw [sub_sub_cancel_left, abs_neg, abs_of_pos hη])),
      (cD (V + η)).eventually_const_lt (hpos (V + η) (by rw [add_sub_cancel_left, abs_of_pos hη]))] with t a b c d
    exact ⟨a, b, c, d⟩
  obtain ⟨δ, hδ, hb⟩ := Metric.mem_nhdsWithin_iff.1 ev
  refine ⟨δ, hδ, fun t ht0 htd => ?_⟩
  obtain ⟨t1, t2, t3, t4⟩ := hb (show t ∈ Metric.ball T₀ δ ∩ Set.Ici 0 from
    ⟨by rw [Metric.mem_ball, Real.dist_eq]; exact htd, ht0⟩)
  have hcont : Continuous (deriv (F t)) := (value_differentiable _).2.1.continuous
  obtain ⟨W, hW, eW⟩ := intermediate_value_Icc (show V - η ≤ V + η by linarith) hcont.continuousOn ⟨t2.le, t1.le⟩
  refine ⟨W, ?_, ?_⟩
  · exact eW
  · show 0 < deriv (deriv (F t)) W
    have h1 := (cubic_slopes (n := s.edeg + 1) (by omega) (ext.polyfit x.volume ((h t).F 0) s.edeg) (V - η) W).1
    have h2 := (cubic_slopes (n := s.edeg + 1) (by omega) (ext.polyfit x.volume ((h t).F 0) s.edeg) (V - η) (V + η)).1
    change deriv (deriv (F t)) _ = deriv (deriv (F t)) _ + (deriv (deriv (F t)) _ - deriv (deriv (F t)) _) * _ at h1 h2
    rw [h1]
    rw [h2] at t4
    set m := deriv (deriv (F t)) (V - η + 1) - deriv (deriv (F t)) (V - η)
    rcases le_total 0 m with hm | hm
    · have := mul_nonneg hm (show 0 ≤ W - (V - η) by linarith [hW.1])
      linarith
    · have := mul_le_mul_of_nonpos_left (show W - (V - η) ≤ V + η - (V - η) by linarith [hW.2]) hm
      linarith

/-- C168: such runs exist.  With fits of degree 3 or less, if a run succeeds, the runs at the same pressure and at any
temperatures near one of its own succeed. -/
theorem C168_persists (hext : Numerics ext) (hu : u.Of s) (hmin : s.minimization = .poly)
    (hinj : Function.Injective x.volume) (hdeg : s.edeg + 1 ≤ nv) (h3 : s.edeg ≤ 3) (hrun : run k ext s x = .ok r)
    (i : Fin nt) (j : Fin np) (h0 : 0 ≤ u.t.kelvin (s.temperature i)) :
    ∃ δ > 0, ∀ {nt' np' : ℕ} {T : Fin nt' → ℝ} {p : Fin np' → ℝ}, (∀ c, p c = s.pressure j) →
      (∀ a, 0 ≤ u.t.kelvin (T a) ∧ |u.t.kelvin (T a) - u.t.kelvin (s.temperature i)| < δ) →
      ∃ r', run k ext (onGrid s T p) x = .ok r' := by
  obtain ⟨ha, hha, -⟩ := harmonic_run hu x (k := k)
  choose h hh using at_exists (k := k) hu x
  set T₀ := u.t.kelvin (s.temperature i) with hT
  set V := r.VT i j with hV
  set F : ℝ → ℝ → ℝ := fun t => value (ext.polyfit x.volume ((h t).F 0) s.edeg) with hF
  have hj := joule_pos k u.e
  have hv := m3_pos k u.v
  have row := (harmonic_row hu hha i (hh T₀)).1
  have hE := C20_equilibrium_volume hext hu hmin hrun hha i j
  rw [row] at hE
  obtain ⟨-, hE1, hE2, -⟩ := hE
  change deriv (F T₀) V * u.e.joule k / u.v.m3 k = -(s.pressure j * u.p.pascal) at hE1
  change 0 < deriv (deriv (F T₀)) V at hE2
  obtain ⟨δ, hδ, hb⟩ := equilibrium_persists hext hu hinj hdeg h3 hh h0 hF hE2
  have hk : s.kieffer = false := kieffer_off hu hrun
  refine ⟨δ, hδ, fun {nt' np' T p} hp hTa => ?_⟩
  have hu' : u.Of (onGrid s T p) := ⟨hu.e, hu.v, hu.p, hu.t, hu.f⟩
  obtain ⟨ha', hha', -⟩ := harmonic_run hu' x (k := k)
  refine (C20_run_succeeds_iff hext hu' hmin hk hha').1 fun a c => ?_
  have row' := (harmonic_row hu' hha' a (hh _)).1
  rw [row']
  obtain ⟨W, eW, hW⟩ := hb (u.t.kelvin (T a)) (hTa a).1 (hTa a).2
  refine ⟨W, ?_, hW⟩
  show deriv (F (u.t.kelvin (T a))) W * _ / _ = -(p c * _)
  rw [eW, hp c, hE1]

end Verif.QHA
