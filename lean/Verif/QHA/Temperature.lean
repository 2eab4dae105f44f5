/-
Property C121: free energies, entropies and Gibbs energies along the temperature grid.
-/
import Verif.QHA.Pressure

namespace Verif.QHA
open Verif.Py Verif.Units Verif.HA Verif.QHA.Spec Verif.StatMech Verif.Poly.Spec

variable {nt np nb nf nv : ℕ} {k : Consts} {ext : Ext} {s : Settings nt np} {x : Input nb nf nv}
  {u : Choice} {r : Results nt np}

/-- What `quantas ha` would be asked for at the single absolute temperature `t`, in the units of the settings. -/
def Spec.atKelvin (s : Settings nt np) (t : ℝ) : HA.Settings 1 := ⟨s.eunit, s.funit, c!"K", fun _ => t⟩

/-! ### Lemmas -/

/-- A point of slope `-P` of a curve that is convex between two points is not above the other. -/
theorem convex_min {f : ℝ → ℝ} (hf : Differentiable ℝ f) (hf' : Differentiable ℝ (deriv f)) {V W P : ℝ}
    (hV : deriv f V = -P) (hc : ∀ v ∈ Set.uIcc V W, 0 ≤ deriv (deriv f) v) : f V + P * V ≤ f W + P * W := by
  have hmono : MonotoneOn (deriv f) (Set.uIcc V W) :=
    monotoneOn_of_deriv_nonneg (convex_uIcc V W) hf'.continuous.continuousOn hf'.differentiableOn
      fun v hv => hc v (interior_subset hv)
  rcases lt_trichotomy V W with h | rfl | h
  · obtain ⟨η, hη, h2⟩ := exists_deriv_eq_slope f h hf.continuous.continuousOn hf.differentiableOn
    have h3 := hmono Set.left_mem_uIcc (by rw [Set.uIcc_of_le h.le]; exact ⟨hη.1.le, hη.2.le⟩) hη.1.le
    rw [hV, h2, le_div_iff₀ (by linarith)] at h3
    linarith
  · exact le_rfl
  · obtain ⟨η, hη, h2⟩ := exists_deriv_eq_slope f h hf.continuous.continuousOn hf.differentiableOn
    have h3 := hmono (by rw [Set.uIcc_of_ge h.le]; exact ⟨hη.1.le, hη.2.le⟩) Set.left_mem_uIcc hη.2.le
    rw [hV, h2, div_le_iff₀ (by linarith)] at h3
    linarith

/-- The value at `V` of the fit is a linear function of the data. -/
theorem fit_linear (hext : Numerics ext) {X : Fin nv → ℝ} (hinj : Function.Injective X) {d : ℕ} (hdeg : d + 1 ≤ nv) (V : ℝ)
    (Y : Fin nv → ℝ) :
    value (ext.polyfit X Y d) V = ∑ n, Y n * value (ext.polyfit X (Pi.single n 1) d) V := by
  have lin : ∀ (Y Z : Fin nv → ℝ) (t : ℝ), value (ext.polyfit X (fun n => Y n + t * Z n) d) V =
      value (ext.polyfit X Y d) V + t * value (ext.polyfit X Z d) V := by
    intro Y Z t
    rw [Poly.leastSquares_linear hinj hdeg t (hext.fit X Y d) (hext.fit X Z d) (hext.fit X _ d), Poly.value_add]
  have h0 : value (ext.polyfit X (fun _ => 0) d) V = 0 := by
    have := lin (fun _ => 0) (fun _ => 0) 1
    simp only [mul_zero, add_zero, one_mul] at this
    linarith
  have key : ∀ S : Finset (Fin nv), value (ext.polyfit X (fun m => ∑ n ∈ S, Y n * (Pi.single n 1 : Fin nv → ℝ) m) d) V =
      ∑ n ∈ S, Y n * value (ext.polyfit X (Pi.single n 1) d) V := by
    intro S
    classical
    induction S using Finset.induction_on with
    | empty => simpa using h0
    | insert a S ha ih =>
      have h1 := lin (fun m => ∑ n ∈ S, Y n * (Pi.single n 1 : Fin nv → ℝ) m) (Pi.single a 1) (Y a)
      have h2 : (fun m => ∑ n ∈ insert a S, Y n * (Pi.single n 1 : Fin nv → ℝ) m) =
          fun m => ∑ n ∈ S, Y n * (Pi.single n 1 : Fin nv → ℝ) m + Y a * (Pi.single a 1 : Fin nv → ℝ) m := by
        funext m
        rw [Finset.sum_insert ha]
        ring
      rw [h2, h1, Finset.sum_insert ha, ← ih]
      ring
  rw [← key Finset.univ]
  congr 2
  funext m
  simp [Pi.single_apply]

/-- The harmonic results at a single temperature. -/
theorem harmonic_at (hu : u.Of s) {t : ℝ} {h : HA.Results 1 nv} (hh : HA.run k (atKelvin s t) x.toInput = .ok h) :
    let ω := fun q b n => x.freq q b n * u.f.hertz k
    let w := usedWeights x.weights
    let ce := fun y : ℝ => y * (1000 / k.N) / u.e.joule k
    (∀ n, h.F 0 n = x.U0 n + ce (atTemp (vibrationalFreeEnergy k) ω w n t)) ∧
    (∀ n, h.S 0 n = ce (atTemp (entropy k) ω w n t)) ∧
    (∀ n, h.Cv 0 n = ce (atTemp (isochoricHeatCapacity k) ω w n t)) := by
  have e := temperatureMap_to TemperatureUnit.K
  simp only [TemperatureUnit.name] at e
  simp only [HA.run, atKelvin, e, hu.f, hu.e, frequencyMap_to, energyMap_from, bind, Except.bind, pure, Except.pure,
    Except.ok.injEq] at hh
  subst hh
  simp [atTemp, freeEnergy, TemperatureUnit.kelvin]

/-- The rows of a harmonic run on a grid are the results at the single temperatures. -/
theorem harmonic_row (hu : u.Of s) {ha : HA.Results nt nv} (hha : HA.run k (harmonicSettings s) x.toInput = .ok ha)
    (i : Fin nt) {h : HA.Results 1 nv} (hh : HA.run k (atKelvin s (u.t.kelvin (s.temperature i))) x.toInput = .ok h) :
    ha.F i = h.F 0 ∧ ha.S i = h.S 0 ∧ ha.Cv i = h.Cv 0 := by
  obtain ⟨ha', hha', hF, -, -, -, hS, hC, -⟩ := harmonic_run hu x (k := k)
  rw [hha] at hha'
  obtain rfl := Except.ok.inj hha'
  obtain ⟨h1, h2, h3⟩ := harmonic_at hu hh
  refine ⟨funext fun n => ?_, funext fun n => ?_, funext fun n => ?_⟩
  · rw [hF, h1]
    simp only [freeEnergy, vibrationalFreeEnergy, kernel_eq, atTemp]
    rw [zero_add]
  · rw [hS, h2]
    simp only [entropy, kernel_eq, atTemp]
  · rw [hC, h3]
    simp only [isochoricHeatCapacity, kernel_eq, atTemp]

/-- The free energy at a volume of the input falls with temperature at the rate of the entropy. -/
theorem free_hasDerivAt (hu : u.Of s) {h : ℝ → HA.Results 1 nv} (hh : ∀ t, HA.run k (atKelvin s t) x.toInput = .ok (h t))
    {t : ℝ} (ht : 0 < t) (n : Fin nv) : HasDerivAt (fun t => (h t).F 0 n) (-((h t).S 0 n) / 1000) t := by
  have hd := C08_entropy_is_minus_dF k (fun q b n => x.freq q b n * u.f.hertz k) (usedWeights x.weights) n ht
  have := ((hd.mul_const (1000 / k.N)).div_const (u.e.joule k)).const_add (x.U0 n)
  have e : (fun t => (h t).F 0 n) = fun t => x.U0 n +
      atTemp (vibrationalFreeEnergy k) (fun q b n => x.freq q b n * u.f.hertz k) (usedWeights x.weights) n t *
        (1000 / k.N) / u.e.joule k := funext fun t => (harmonic_at hu (hh t)).1 n
  rw [e]
  refine this.congr_deriv ?_
  rw [(harmonic_at hu (hh t)).2.1 n]
  ring

/-- The free energy at a volume of the input is continuous at absolute zero. -/
theorem free_continuous_zero (hu : u.Of s) {h : ℝ → HA.Results 1 nv}
    (hh : ∀ t, HA.run k (atKelvin s t) x.toInput = .ok (h t)) (n : Fin nv) :
    ContinuousWithinAt (fun t => (h t).F 0 n) (Set.Ici 0) 0 := by
  obtain ⟨-, -, -, hd, h0⟩ :=
    C10_low_temperature k (fun q b n => x.freq q b n * u.f.hertz k) (usedWeights x.weights) n
  have e : (fun t => (h t).F 0 n) = fun t => x.U0 n +
      atTemp (vibrationalFreeEnergy k) (fun q b n => x.freq q b n * u.f.hertz k) (usedWeights x.weights) n t *
        (1000 / k.N) / u.e.joule k := funext fun t => (harmonic_at hu (hh t)).1 n
  rw [e, ← Set.Ioi_union_left, continuousWithinAt_union]
  refine ⟨?_, continuousWithinAt_singleton⟩
  rw [ContinuousWithinAt, h0]
  exact ((hd.mul_const (1000 / k.N)).div_const (u.e.joule k)).const_add (x.U0 n)

/-- The mean value theorem for any combination of the free energies of the volumes, from absolute zero upwards. -/
theorem free_mean_value (hu : u.Of s) {h : ℝ → HA.Results 1 nv} (hh : ∀ t, HA.run k (atKelvin s t) x.toInput = .ok (h t))
    (a : Fin nv → ℝ) {T T' : ℝ} (h0 : 0 ≤ T) (hlt : T < T') :
    ∃ ξ ∈ Set.Ioo T T', ∑ n, (h T).F 0 n * a n - ∑ n, (h T').F 0 n * a n = (∑ n, (h ξ).S 0 n * a n) * (T' - T) / 1000 := by
  have hd : ∀ t, 0 < t → HasDerivAt (fun t => ∑ n, (h t).F 0 n * a n) (∑ n, -((h t).S 0 n) / 1000 * a n) t :=
    fun t ht => HasDerivAt.fun_sum fun n _ => (free_hasDerivAt hu hh ht n).mul_const _
  obtain ⟨ξ, hξ, e⟩ := exists_hasDerivAt_eq_slope (fun t => ∑ n, (h t).F 0 n * a n) _ hlt (fun t ht => by
    rcases (h0.trans ht.1).eq_or_lt with h | h
    · subst h
      have : ContinuousWithinAt (fun t => ∑ n, (h t).F 0 n * a n) (Set.Ici 0) 0 :=
        tendsto_finset_sum _ fun n _ => (free_continuous_zero hu hh n).mul_const _
      exact this.mono fun y hy => h0.trans hy.1
    · exact (hd t h).continuousAt.continuousWithinAt) (fun t ht => hd t (h0.trans_lt ht.1))
  refine ⟨ξ, hξ, ?_⟩
  have hp : T' - T ≠ 0 := by linarith
  have e2 : ∑ n, -((h ξ).S 0 n) / 1000 * a n = -(∑ n, (h ξ).S 0 n * a n) / 1000 := by
    rw [← Finset.sum_neg_distrib, Finset.sum_div]
    exact Finset.sum_congr rfl fun n _ => by ring
  rw [e2, eq_div_iff hp] at e
  linarith

/-! ### C121 -/

/-- C121: at a fixed volume, the fitted free energy, entropy and heat capacity are thermodynamically consistent: the
derivative of the free energy with respect to the temperature is minus the entropy, and that of the entropy is the heat
capacity over the temperature (entropies and heat capacities are exported in thousandths of the unit of energy). -/
theorem C121_fixed_volume (hext : Numerics ext) (hu : u.Of s) (hinj : Function.Injective x.volume) (hdeg : s.edeg + 1 ≤ nv)
    {h : ℝ → HA.Results 1 nv} (hh : ∀ t, HA.run k (atKelvin s t) x.toInput = .ok (h t)) {t : ℝ} (ht : 0 < t) (V : ℝ) :
    HasDerivAt (fun t => value (ext.polyfit x.volume ((h t).F 0) s.edeg) V)
      (-(value (ext.polyfit x.volume ((h t).S 0) s.edeg) V) / 1000) t ∧
    HasDerivAt (fun t => value (ext.polyfit x.volume ((h t).S 0) s.edeg) V)
      (value (ext.polyfit x.volume ((h t).Cv 0) s.edeg) V / t) t := by
  have e : ∀ Y : ℝ → Fin nv → ℝ, (fun t => value (ext.polyfit x.volume (Y t) s.edeg) V) =
      fun t => ∑ n, Y t n * value (ext.polyfit x.volume (Pi.single n 1) s.edeg) V :=
    fun Y => funext fun t => fit_linear hext hinj hdeg V (Y t)
  rw [e, e, fit_linear hext hinj hdeg V ((h t).S 0), fit_linear hext hinj hdeg V ((h t).Cv 0)]
  clear e
  constructor
  · have : HasDerivAt (fun t => ∑ n, (h t).F 0 n * value (ext.polyfit x.volume (Pi.single n 1) s.edeg) V)
        (∑ n, (-((h t).S 0 n) / 1000) * value (ext.polyfit x.volume (Pi.single n 1) s.edeg) V) t := by
      refine HasDerivAt.fun_sum fun n _ => HasDerivAt.mul_const ?_ _
      exact free_hasDerivAt hu hh ht n
    refine this.congr_deriv ?_
    rw [← Finset.sum_neg_distrib, Finset.sum_div]
    refine Finset.sum_congr rfl fun n _ => by ring
  · have : HasDerivAt (fun t => ∑ n, (h t).S 0 n * value (ext.polyfit x.volume (Pi.single n 1) s.edeg) V)
        (∑ n, ((h t).Cv 0 n / t) * value (ext.polyfit x.volume (Pi.single n 1) s.edeg) V) t := by
      refine HasDerivAt.fun_sum fun n _ => HasDerivAt.mul_const ?_ _
      have hd := C08_heat_capacity_is_T_dS k (fun q b n => x.freq q b n * u.f.hertz k) (usedWeights x.weights) n ht
      have := (hd.mul_const (1000 / k.N)).div_const (u.e.joule k)
      have e : (fun t => (h t).S 0 n) = fun t =>
          atTemp (entropy k) (fun q b n => x.freq q b n * u.f.hertz k) (usedWeights x.weights) n t *
            (1000 / k.N) / u.e.joule k := funext fun t => (harmonic_at hu (hh t)).2.1 n
      rw [e]
      refine this.congr_deriv ?_
      rw [(harmonic_at hu (hh t)).2.2 n]
      ring
    refine this.congr_deriv ?_
    rw [Finset.sum_div]
    refine Finset.sum_congr rfl fun n _ => by ring

/-- C121: at each pressure the Gibbs energy falls with temperature at the rate of the entropy.  Between two temperatures of
the grid there are `ξ` and `η` such that the fall of the Gibbs energy is at least the entropy at `ξ` and the volume of the
lower temperature, and at most the entropy at `η` and the volume of the higher temperature, times the temperature
difference; for free energies that are convex between the two volumes.  The lower temperature may be absolute zero. -/
theorem C121_gibbs (hext : Numerics ext) (hu : u.Of s) (hmin : s.minimization = .poly) (hs : s.scheme = .td)
    (hinj : Function.Injective x.volume) (hdeg : s.edeg + 1 ≤ nv) (hrun : run k ext s x = .ok r)
    {h : ℝ → HA.Results 1 nv} (hh : ∀ t, HA.run k (atKelvin s t) x.toInput = .ok (h t)) (i l : Fin nt) (j : Fin np)
    {T : Fin nt → ℝ} (hT : ∀ i, T i = u.t.kelvin (s.temperature i)) (h0 : 0 ≤ T i) (hil : T i < T l)
    (hc : ∀ t, t = T i ∨ t = T l → ∀ V ∈ Set.uIcc (r.VT i j) (r.VT l j),
      0 ≤ deriv (deriv (value (ext.polyfit x.volume ((h t).F 0) s.edeg))) V) :
    ∃ ξ ∈ Set.Ioo (T i) (T l), ∃ η ∈ Set.Ioo (T i) (T l),
      value (ext.polyfit x.volume ((h ξ).S 0) s.edeg) (r.VT i j) * (T l - T i) / 1000 ≤ r.G i j - r.G l j ∧
      r.G i j - r.G l j ≤ value (ext.polyfit x.volume ((h η).S 0) s.edeg) (r.VT l j) * (T l - T i) / 1000 := by
  obtain ⟨ha, hha, -⟩ := harmonic_run hu x (k := k)
  set F : ℝ → ℝ → ℝ := fun t => value (ext.polyfit x.volume ((h t).F 0) s.edeg) with hF
  have row : ∀ m, ha.F m = (h (T m)).F 0 := fun m => (harmonic_row hu hha m (by rw [← hT]; exact hh _)).1
  have hj := joule_pos k u.e
  have hv := m3_pos k u.v
  have slope : ∀ m, deriv (F (T m)) (r.VT m j) = -(s.pressure j * u.p.pascal * u.v.m3 k / u.e.joule k) := by
    intro m
    have h1 := (C20_equilibrium_volume hext hu hmin hrun hha m j).2.1
    rw [row] at h1
    have : deriv (F (T m)) (r.VT m j) = deriv (F (T m)) (r.VT m j) * u.e.joule k / u.v.m3 k * u.v.m3 k / u.e.joule k := by
      field_simp
    rw [this, h1]
    ring
  have hG : ∀ m, r.G m j = F (T m) (r.VT m j) + s.pressure j * u.p.pascal * u.v.m3 k / u.e.joule k * r.VT m j := by
    intro m
    have e1 := (C68_td_interpolates hu hrun hs hha m j).2.2.2.2.2.2
    have g1 := (C15_legendre hu hrun m j).2
    simp only [row] at e1
    rw [e1] at g1
    have : r.G m j = r.G m j * u.e.joule k / u.e.joule k := by field_simp
    rw [this, g1]
    simp only [hF]
    field_simp
  have mv : ∀ V, ∃ ξ ∈ Set.Ioo (T i) (T l), F (T i) V - F (T l) V =
      value (ext.polyfit x.volume ((h ξ).S 0) s.edeg) V * (T l - T i) / 1000 := by
    intro V
    obtain ⟨ξ, hξ, e⟩ := free_mean_value hu hh (fun n => value (ext.polyfit x.volume (Pi.single n 1) s.edeg) V) h0 hil
    exact ⟨ξ, hξ, by simp only [hF]; rw [fit_linear hext hinj hdeg V, fit_linear hext hinj hdeg V ((h (T l)).F 0), e,
      fit_linear hext hinj hdeg V]⟩
  obtain ⟨ξ, hξ, e1⟩ := mv (r.VT i j)
  obtain ⟨η, hη, e2⟩ := mv (r.VT l j)
  have d : ∀ t, Differentiable ℝ (F t) ∧ Differentiable ℝ (deriv (F t)) := fun t =>
    ⟨(value_differentiable _).1, (value_differentiable _).2.1⟩
  refine ⟨ξ, hξ, η, hη, ?_, ?_⟩
  · have := convex_min (d (T l)).1 (d (T l)).2 (W := r.VT i j) (slope l) (by
      rw [Set.uIcc_comm]
      exact hc _ (Or.inr rfl))
    rw [← e1, hG i, hG l]
    linarith
  · have := convex_min (d (T i)).1 (d (T i)).2 (W := r.VT l j) (slope i) (hc _ (Or.inl rfl))
    rw [← e2, hG i, hG l]
    linarith

theorem at_exists (hu : u.Of s) (x : Input nb nf nv) (t : ℝ) : ∃ h, HA.run k (atKelvin s t) x.toInput = .ok h := by
  have e := temperatureMap_to TemperatureUnit.K
  simp only [TemperatureUnit.name] at e
  simp only [HA.run, atKelvin, e, hu.f, hu.e, frequencyMap_to, energyMap_from, bind, Except.bind, pure, Except.pure]
  exact ⟨_, rfl⟩

/-- The hypotheses of `C121_fixed_volume` and `C121_gibbs` are met by the run of the other examples, at 1 and 2 kelvin. -/
example (k : Consts) : ∃ (ext : Ext) (r : Results 3 1) (h : ℝ → HA.Results 1 3),
    Numerics ext ∧ exUnits.Of (exSettings 3) ∧ Function.Injective exInput.volume ∧ (exSettings 3).edeg + 1 ≤ 3 ∧
    run k ext (exSettings 3) exInput = .ok r ∧ (∀ t, HA.run k (atKelvin (exSettings 3) t) exInput.toInput = .ok (h t)) ∧
    0 < exUnits.t.kelvin ((exSettings 3).temperature 0) ∧
    exUnits.t.kelvin ((exSettings 3).temperature 0) < exUnits.t.kelvin ((exSettings 3).temperature 1) ∧
    ∀ m : Fin 3, ∀ V ∈ Set.uIcc (r.VT 0 0) (r.VT 1 0),
      0 ≤ deriv (deriv (value (ext.polyfit exInput.volume ((h (exUnits.t.kelvin ((exSettings 3).temperature m))).F 0)
        (exSettings 3).edeg))) V := by
  obtain ⟨ext, ha, r, hext, hha, hr, hV⟩ := witness k 3
  have hu := exUnits_of 3
  choose h hh using at_exists (k := k) hu exInput
  refine ⟨ext, r, h, hext, hu, exInput_injective, le_refl 3, hr, hh, by simp [exUnits, exSettings, TemperatureUnit.kelvin],
    by simp [exUnits, exSettings, TemperatureUnit.kelvin], fun m V hm => ?_⟩
  rw [(hV 0 0).1, (hV 1 0).1, Set.uIcc_self, Set.mem_singleton_iff] at hm
  have h1 := (C20_equilibrium_volume hext hu rfl hr hha m 0).2.2.1
  rw [(harmonic_row hu hha m (hh _)).1, (hV m 0).1] at h1
  rw [hm]
  exact h1.le

end Verif.QHA
