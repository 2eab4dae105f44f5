/-
Property C123: the results do not depend on the units, on the zero of energy or on the size of the cell.
-/
import Verif.QHA.Pressure

namespace Verif.QHA
open Verif.Py Verif.Units Verif.HA Verif.QHA.Spec Verif.StatMech Verif.Poly.Spec

variable {nt np nb nf nb' nf' nv : ℕ} {k : Consts} {ext : Ext} {s s' : Settings nt np} {x : Input nb nf nv}
  {x' : Input nb' nf' nv} {u u' : Choice} {r r' : Results nt np} {N c : ℝ}

/-- The second input describes a cell that holds `N` cells of the first, perhaps in other units and with energies counted
from another zero (which adds `c` joule), and the same is asked of it.  Its table of frequencies may be arranged in another
way (for example a larger cell with fewer q-points), but summed over bands and averaged over q-points it lists each dependence
of a frequency on the volume `N` times as often. -/
structure Spec.Copies (k : Consts) (u u' : Choice) (s s' : Settings nt np) (x : Input nb nf nv) (x' : Input nb' nf' nv)
    (N c : ℝ) : Prop where
  volume : ∀ n, x'.volume n * u'.v.m3 k = N * (x.volume n * u.v.m3 k)
  energy : ∀ n, x'.U0 n * u'.e.joule k = N * (x.U0 n * u.e.joule k) + c
  modes : ∀ g : (Fin nv → ℝ) → ℝ,
    (∑ q, (∑ b, g fun n => x'.freq q b n * u'.f.hertz k) * x'.weights q) / ∑ q, x'.weights q =
      N * ((∑ q, (∑ b, g fun n => x.freq q b n * u.f.hertz k) * x.weights q) / ∑ q, x.weights q)
  temperature : ∀ i, u'.t.kelvin (s'.temperature i) = u.t.kelvin (s.temperature i)
  pressure : ∀ j, s'.pressure j * u'.p.pascal = s.pressure j * u.p.pascal
  scheme : s'.scheme = s.scheme
  minimization : s'.minimization = s.minimization
  edeg : s'.edeg = s.edeg
  fdeg : s'.fdeg = s.fdeg
  kieffer : s'.kieffer = s.kieffer

/-! ### Lemmas -/

/-- A fit of rescaled data is the rescaled fit. -/
theorem fit_scaled (hext : Numerics ext) {n : ℕ} {X X' Y Y' : Fin n → ℝ} (hinj : Function.Injective X) {d : ℕ}
    (hdeg : d + 1 ≤ n) {a b c : ℝ} (ha : a ≠ 0) (hb : b ≠ 0) (hX : ∀ i, X' i = b * X i) (hY : ∀ i, Y' i = a * Y i + c)
    (V : ℝ) : value (ext.polyfit X' Y' d) (b * V) = a * value (ext.polyfit X Y d) V + c := by
  -- the rescaled polynomial and the way back
  let up : (Fin (d + 1) → ℝ) → Fin (d + 1) → ℝ := fun p i => a * p i / b ^ (i : ℕ) + if i = 0 then c else 0
  let down : (Fin (d + 1) → ℝ) → Fin (d + 1) → ℝ := fun p i => (p i * b ^ (i : ℕ) - if i = 0 then c else 0) / a
  have hup : ∀ p V, value (up p) (b * V) = a * value p V + c := by
    intro p V
    simp only [value, up, add_mul, Finset.sum_add_distrib, Finset.mul_sum]
    congr 1
    · refine Finset.sum_congr rfl fun i _ => ?_
      rw [mul_pow]
      field_simp
    · simp [ite_mul]
  have hdown : ∀ p V, value (down p) V = (value p (b * V) - c) / a := by
    intro p V
    simp only [value, down, div_mul_eq_mul_div, sub_mul]
    rw [← Finset.sum_div, Finset.sum_sub_distrib]
    congr 2
    · exact Finset.sum_congr rfl fun i _ => by rw [mul_pow]; ring
    · simp [ite_mul]
  have hls : IsLeastSquares X' Y' (up (ext.polyfit X Y d)) := by
    intro p
    have h1 := hext.fit X Y d (down p)
    have e1 : ssres X' Y' (up (ext.polyfit X Y d)) = a ^ 2 * ssres X Y (ext.polyfit X Y d) := by
      simp only [ssres, Finset.mul_sum, hX, hY, hup]
      exact Finset.sum_congr rfl fun i _ => by ring
    have e2 : ssres X' Y' p = a ^ 2 * ssres X Y (down p) := by
      simp only [ssres, Finset.mul_sum, hX, hY, hdown]
      refine Finset.sum_congr rfl fun i _ => ?_
      rw [← mul_pow]
      congr 1
      field_simp
      ring
    rw [e1, e2]
    exact mul_le_mul_of_nonneg_left h1 (sq_nonneg a)
  have hinj' : Function.Injective X' := fun i j h => hinj (mul_left_cancel₀ hb (by rw [← hX, ← hX]; exact h))
  have := Poly.leastSquares_linear hinj' hdeg 0 hls hls (e := ext.polyfit X' Y' d) (by simpa using hext.fit X' Y' d)
  rw [show ext.polyfit X' Y' d = up (ext.polyfit X Y d) by simpa using this]
  exact hup _ _

/-- Derivatives of a rescaled function. -/
theorem deriv_scaled {f f' : ℝ → ℝ} (hf' : Differentiable ℝ f') (hf : Differentiable ℝ f) {a b c : ℝ}
    (h : ∀ V, f' (b * V) = a * f V + c) (V : ℝ) : deriv f' (b * V) * b = a * deriv f V := by
  have h1 : HasDerivAt (fun V => f' (b * V)) (deriv f' (b * V) * b) V := by
    have h0 : HasDerivAt (fun V => b * V) b V := by simpa using (hasDerivAt_id V).const_mul b
    exact (hf' (b * V)).hasDerivAt.comp V h0
  have h2 : HasDerivAt (fun V => a * f V + c) (a * deriv f V) V := ((hf V).hasDerivAt.const_mul a).add_const c
  rw [← funext h] at h2
  exact h1.unique h2

/-- A polynomial of degree at most three has at most one minimum at a given slope. -/
theorem minimum_unique {n : ℕ} (hn : n ≤ 4) (p : Fin n → ℝ) {V W : ℝ} (h : deriv (value p) V = deriv (value p) W)
    (hV : 0 < deriv (deriv (value p)) V) (hW : 0 < deriv (deriv (value p)) W) : V = W := by
  have hb := cubic_between hn p hV hW
  have hd := value_differentiable p
  have hmono : StrictMonoOn (deriv (value p)) (Set.uIcc V W) :=
    strictMonoOn_of_deriv_pos (convex_uIcc V W) hd.2.1.continuous.continuousOn fun v hv => hb v (interior_subset hv)
  exact hmono.injOn Set.left_mem_uIcc Set.right_mem_uIcc h

theorem kernel_copies (h : Copies k u u' s s' x x' N c) {m : ℕ} (f : ℝ → ℝ → ℝ) (T : Fin m → ℝ) {nv' : ℕ}
    (φ : Fin nv' → (Fin nv → ℝ) → ℝ) (i : Fin m) (n : Fin nv') :
    kernel f T (fun q b n => φ n fun l => x'.freq q b l * u'.f.hertz k) (usedWeights x'.weights) i n =
      N * kernel f T (fun q b n => φ n fun l => x.freq q b l * u.f.hertz k) (usedWeights x.weights) i n := by
  have e : ∀ {nb nf : ℕ} (ω : Fin nb → Fin nf → Fin nv → ℝ) (w : Fin nb → ℝ),
      kernel f T (fun q b n => φ n (ω q b)) (usedWeights w) i n =
        (∑ q, (∑ b, f (T i) (φ n (ω q b))) * w q) / ∑ q, w q := by
    intro nb nf ω w
    rw [kernel_eq, Finset.sum_div]
    refine Finset.sum_congr rfl fun q _ => ?_
    rw [← Finset.sum_mul, usedWeights, totalQPoints, mul_div_assoc]
  rw [e, e]
  exact h.modes fun row => f (T i) (φ n row)

/-- The factor between the numbers for the volumes. -/
theorem Spec.Copies.volumes (h : Copies k u u' s s' x x' N c) (n : Fin nv) :
    x'.volume n = N * u.v.m3 k / u'.v.m3 k * x.volume n := by
  have hv := (m3_pos k u'.v).ne'
  have := h.volume n
  field_simp
  linarith

theorem Spec.Copies.energies (h : Copies k u u' s s' x x' N c) (n : Fin nv) :
    x'.U0 n = N * u.e.joule k / u'.e.joule k * x.U0 n + c / u'.e.joule k := by
  have hj := (joule_pos k u'.e).ne'
  have := h.energy n
  field_simp
  linarith

theorem kernel_row (h : Copies k u u' s s' x x' N c) {m : ℕ} (f : ℝ → ℝ → ℝ) (T : Fin m → ℝ) (i : Fin m) (n : Fin nv) :
    kernel f T (fun q b n => x'.freq q b n * u'.f.hertz k) (usedWeights x'.weights) i n =
      N * kernel f T (fun q b n => x.freq q b n * u.f.hertz k) (usedWeights x.weights) i n :=
  kernel_copies h f T (fun n row => row n) i n

/-! ### C123 -/

/-- C123: the harmonic properties of a cell that holds `N` cells are `N` times those of the cell, and an energy added to all
static energies is added to the total energies and nothing else; the units chosen do not matter. -/
theorem C123_harmonic (h : Copies k u u' s s' x x' N c) (hu : u.Of s) (hu' : u'.Of s')
    {ha ha' : HA.Results nt nv} (hha : HA.run k (harmonicSettings s) x.toInput = .ok ha)
    (hha' : HA.run k (harmonicSettings s') x'.toInput = .ok ha') (i : Fin nt) (n : Fin nv) :
    ha'.Uzp 0 n * u'.e.joule k = N * (ha.Uzp 0 n * u.e.joule k) ∧
    ha'.Uth i n * u'.e.joule k = N * (ha.Uth i n * u.e.joule k) ∧
    ha'.S i n * u'.e.joule k = N * (ha.S i n * u.e.joule k) ∧
    ha'.Cv i n * u'.e.joule k = N * (ha.Cv i n * u.e.joule k) ∧
    ha'.Fvib i n * u'.e.joule k = N * (ha.Fvib i n * u.e.joule k) ∧
    ha'.Utot i n * u'.e.joule k = N * (ha.Utot i n * u.e.joule k) + c ∧
    ha'.F i n * u'.e.joule k = N * (ha.F i n * u.e.joule k) + c := by
  obtain ⟨a, hra, hF, hU, hZ, hT, hS, hC, hV⟩ := harmonic_run hu x (k := k)
  obtain ⟨a', hra', hF', hU', hZ', hT', hS', hC', hV'⟩ := harmonic_run hu' x' (k := k)
  rw [hha] at hra
  rw [hha'] at hra'
  obtain rfl := Except.ok.inj hra
  obtain rfl := Except.ok.inj hra'
  have hj := (joule_pos k u.e).ne'
  have hj' := (joule_pos k u'.e).ne'
  have hTT : (fun i => u'.t.kelvin (s'.temperature i)) = fun i => u.t.kelvin (s.temperature i) := funext h.temperature
  have hen := h.energy n
  rw [hF, hU, hZ, hT, hS, hC, hV, hF', hU', hZ', hT', hS', hC', hV', hTT]
  simp only [internalEnergy, freeEnergy, zeroPointEnergy, thermalEnergy, entropy, isochoricHeatCapacity,
    vibrationalFreeEnergy, kernel_row h, add_mul, div_mul_cancel₀ _ hj, div_mul_cancel₀ _ hj', hen]
  refine ⟨?_, ?_, ?_, ?_, ?_, ?_, ?_⟩ <;> ring

/-- The fit of a harmonic column scales as the column does. -/
theorem column_fit (hext : Numerics ext) (h : Copies k u u' s s' x x' N c) (hN : 0 < N)
    (hinj : Function.Injective x.volume) {d d' : ℕ} (hdd : d' = d) (hdeg : d + 1 ≤ nv) {Y Y' : Fin nv → ℝ} {e : ℝ}
    (hY : ∀ n, Y' n * u'.e.joule k = N * (Y n * u.e.joule k) + e) (V : ℝ) :
    value (ext.polyfit x'.volume Y' d') (N * u.v.m3 k / u'.v.m3 k * V) =
      N * u.e.joule k / u'.e.joule k * value (ext.polyfit x.volume Y d) V + e / u'.e.joule k := by
  subst hdd
  have hj := joule_pos k u.e
  have hj' := joule_pos k u'.e
  have hv := m3_pos k u.v
  have hv' := m3_pos k u'.v
  refine fit_scaled hext hinj hdeg (by positivity) (by positivity) h.volumes (fun n => ?_) V
  have := hY n
  field_simp
  linarith

/-- The equilibrium volumes of the two inputs correspond. -/
theorem equilibrium_iff (hext : Numerics ext) (h : Copies k u u' s s' x x' N c) (hN : 0 < N)
    (hinj : Function.Injective x.volume) (hdeg : s.edeg + 1 ≤ nv) {Y Y' : Fin nv → ℝ} {e : ℝ}
    (hY : ∀ n, Y' n * u'.e.joule k = N * (Y n * u.e.joule k) + e) (j : Fin np) (V : ℝ) :
    let f := value (ext.polyfit x.volume Y s.edeg)
    let f' := value (ext.polyfit x'.volume Y' s'.edeg)
    let V' := N * u.v.m3 k / u'.v.m3 k * V
    (deriv f' V' * u'.e.joule k / u'.v.m3 k = -(s'.pressure j * u'.p.pascal) ∧ 0 < deriv (deriv f') V') ↔
      (deriv f V * u.e.joule k / u.v.m3 k = -(s.pressure j * u.p.pascal) ∧ 0 < deriv (deriv f) V) := by
  intro f f' V'
  have hj := joule_pos k u.e
  have hj' := joule_pos k u'.e
  have hv := m3_pos k u.v
  have hv' := m3_pos k u'.v
  have hd := value_differentiable (ext.polyfit x.volume Y s.edeg)
  have hd' := value_differentiable (ext.polyfit x'.volume Y' s'.edeg)
  have h0 := column_fit hext h hN hinj h.edeg hdeg hY
  have h1 := deriv_scaled hd'.1 hd.1 h0
  have h2 : ∀ V, deriv f' (N * u.v.m3 k / u'.v.m3 k * V) = u.e.joule k * u'.v.m3 k / (u'.e.joule k * u.v.m3 k) * deriv f V + 0 := by
    intro V
    have := h1 V
    have hb : N * u.v.m3 k / u'.v.m3 k ≠ 0 := by positivity
    rw [← eq_div_iff hb] at this
    rw [this]
    field_simp
    ring
  have h3 := deriv_scaled hd'.2.1 hd.2.1 h2 V
  have hb : 0 < N * u.v.m3 k / u'.v.m3 k := by positivity
  rw [← eq_div_iff hb.ne'] at h3
  have e1 : deriv f' V' * u'.e.joule k / u'.v.m3 k = deriv f V * u.e.joule k / u.v.m3 k := by
    rw [h2 V]
    field_simp
    ring
  have e2 : 0 < deriv (deriv f') V' ↔ 0 < deriv (deriv f) V := by
    show 0 < deriv (deriv f') (N * u.v.m3 k / u'.v.m3 k * V) ↔ _
    rw [h3, div_pos_iff_of_pos_right hb]
    exact mul_pos_iff_of_pos_left (by positivity)
  rw [e1, e2, h.pressure]

/-- C123: the run of the larger cell succeeds exactly when that of the smaller one does. -/
theorem C123_succeeds (hext : Numerics ext) (h : Copies k u u' s s' x x' N c) (hN : 0 < N) (hu : u.Of s)
    (hu' : u'.Of s') (hmin : s.minimization = .poly) (hk : s.kieffer = false) (hinj : Function.Injective x.volume)
    (hdeg : s.edeg + 1 ≤ nv) : (∃ r', run k ext s' x' = .ok r') ↔ ∃ r, run k ext s x = .ok r := by
  obtain ⟨ha, hha⟩ := harmonic_exists k hu x
  obtain ⟨ha', hha'⟩ := harmonic_exists k hu' x'
  have h1 := C20_run_succeeds_iff hext hu hmin hk hha
  have h2 := C20_run_succeeds_iff hext hu' (h.minimization.trans hmin) (h.kieffer.trans hk) hha'
  have hv := m3_pos k u.v
  have hv' := m3_pos k u'.v
  have hb : N * u.v.m3 k / u'.v.m3 k ≠ 0 := by positivity
  have key := fun i j => equilibrium_iff hext h hN hinj hdeg
    (fun n => (C123_harmonic h hu hu' hha hha' i n).2.2.2.2.2.2) j
  have hiff : (∃ r, run k ext s x = .ok r) ↔ _ := ⟨fun ⟨r, hr⟩ => by_contra fun hn => by
    rw [h1.2 hn] at hr
    exact absurd hr (by simp), h1.1⟩
  have hiff' : (∃ r', run k ext s' x' = .ok r') ↔ _ := ⟨fun ⟨r, hr⟩ => by_contra fun hn => by
    rw [h2.2 hn] at hr
    exact absurd hr (by simp), h2.1⟩
  rw [hiff, hiff']
  refine forall_congr' fun i => forall_congr' fun j => ⟨fun ⟨V, hV⟩ => ?_, fun ⟨V, hV⟩ => ⟨_, (key i j V).2 hV⟩⟩
  refine ⟨V / (N * u.v.m3 k / u'.v.m3 k), (key i j _).1 ?_⟩
  rwa [mul_div_cancel₀ _ hb]

/-- C123: the equilibrium volumes of the larger cell are `N` times those of the smaller one. -/
theorem C123_volume (hext : Numerics ext) (h : Copies k u u' s s' x x' N c) (hN : 0 < N) (hu : u.Of s)
    (hu' : u'.Of s') (hmin : s.minimization = .poly) (hinj : Function.Injective x.volume) (hdeg : s.edeg + 1 ≤ nv)
    (h3 : s.edeg ≤ 3) (hrun : run k ext s x = .ok r) (hrun' : run k ext s' x' = .ok r') (i : Fin nt) (j : Fin np) :
    r'.VT i j * u'.v.m3 k = N * (r.VT i j * u.v.m3 k) := by
  obtain ⟨ha, hha⟩ := harmonic_exists k hu x
  obtain ⟨ha', hha'⟩ := harmonic_exists k hu' x'
  have hv := m3_pos k u.v
  have hv' := m3_pos k u'.v
  have hj := joule_pos k u'.e
  obtain ⟨-, e1, e2, -⟩ := C20_equilibrium_volume hext hu hmin hrun hha i j
  obtain ⟨-, e1', e2', -⟩ := C20_equilibrium_volume hext hu' (h.minimization.trans hmin) hrun' hha' i j
  obtain ⟨f1, f2⟩ := (equilibrium_iff hext h hN hinj hdeg
    (fun n => (C123_harmonic h hu hu' hha hha' i n).2.2.2.2.2.2) j (r.VT i j)).2 ⟨e1, e2⟩
  have hs := h.edeg
  have := minimum_unique (by omega) _ (V := r'.VT i j) (W := N * u.v.m3 k / u'.v.m3 k * r.VT i j) ?_ e2' f2
  · rw [this]
    field_simp
  · exact mul_right_cancel₀ hj.ne' ((div_left_inj' hv'.ne').1 (e1'.trans f1.symm))

/-- What a run in the frequency scheme computes at a volume: frequencies from their fits, then the mode sums. -/
theorem freq_kernel (hext : Numerics ext) (h : Copies k u u' s s' x x' N c) (hN : 0 < N)
    (hinj : Function.Injective x.volume) (hfdeg : s.fdeg + 1 ≤ nv) {m nv' : ℕ} (f : ℝ → ℝ → ℝ) (T : Fin m → ℝ)
    (V V' : Fin nv' → ℝ) (hV : ∀ g, V' g = N * u.v.m3 k / u'.v.m3 k * V g) (i : Fin m) (n : Fin nv') :
    kernel f T (fun q b n => value (ext.polyfit x'.volume (fun l => x'.freq q b l * u'.f.hertz k) s'.fdeg) (V' n))
        (usedWeights x'.weights) i n =
      N * kernel f T (fun q b n => value (ext.polyfit x.volume (fun l => x.freq q b l * u.f.hertz k) s.fdeg) (V n))
        (usedWeights x.weights) i n := by
  have hv := m3_pos k u.v
  have hv' := m3_pos k u'.v
  rw [← kernel_copies h f T (fun n row => value (ext.polyfit x.volume row s.fdeg) (V n)) i n]
  congr 1
  funext q b n
  rw [hV, h.fdeg, fit_scaled hext hinj hfdeg one_ne_zero (b := N * u.v.m3 k / u'.v.m3 k) (c := 0) (by positivity) h.volumes
    (Y := fun l => x'.freq q b l * u'.f.hertz k) (fun l => by ring)]
  ring

/-- C123: energies, entropies and heat capacities of the larger cell are `N` times those of the smaller one; the added
energy appears in the total energies, the enthalpies and the Gibbs energies and nowhere else; the thermal expansion is the
same. -/
theorem C123_columns (hext : Numerics ext) (h : Copies k u u' s s' x x' N c) (hN : 0 < N) (hu : u.Of s)
    (hu' : u'.Of s') (hmin : s.minimization = .poly) (hinj : Function.Injective x.volume) (hdeg : s.edeg + 1 ≤ nv)
    (hfdeg : s.scheme = .freq → s.fdeg + 1 ≤ nv) (h3 : s.edeg ≤ 3) (hrun : run k ext s x = .ok r)
    (hrun' : run k ext s' x' = .ok r') (i : Fin nt) (j : Fin np) :
    r'.Uzp i j * u'.e.joule k = N * (r.Uzp i j * u.e.joule k) ∧
    r'.Uth i j * u'.e.joule k = N * (r.Uth i j * u.e.joule k) ∧
    r'.S i j * u'.e.joule k = N * (r.S i j * u.e.joule k) ∧
    r'.Cv i j * u'.e.joule k = N * (r.Cv i j * u.e.joule k) ∧
    r'.Fvib i j * u'.e.joule k = N * (r.Fvib i j * u.e.joule k) ∧
    r'.Utot i j * u'.e.joule k = N * (r.Utot i j * u.e.joule k) + c ∧
    r'.F i j * u'.e.joule k = N * (r.F i j * u.e.joule k) + c ∧
    r'.H i j * u'.e.joule k = N * (r.H i j * u.e.joule k) + c ∧
    r'.G i j * u'.e.joule k = N * (r.G i j * u.e.joule k) + c ∧
    r'.alphaV i j = r.alphaV i j := by
  obtain ⟨ha, hha⟩ := harmonic_exists k hu x
  obtain ⟨ha', hha'⟩ := harmonic_exists k hu' x'
  have hv := m3_pos k u.v
  have hv' := m3_pos k u'.v
  have hj := joule_pos k u.e
  have hj' := joule_pos k u'.e
  have hvol := C123_volume hext h hN hu hu' hmin hinj hdeg h3 hrun hrun'
  have hV : ∀ i j, r'.VT i j = N * u.v.m3 k / u'.v.m3 k * r.VT i j := by
    intro i j
    have := hvol i j
    field_simp
    linarith
  have hh := C123_harmonic h hu hu' hha hha'
  -- fits of columns, in joule
  have fits : ∀ {Y Y' : Fin nv → ℝ} {e : ℝ}, (∀ n, Y' n * u'.e.joule k = N * (Y n * u.e.joule k) + e) →
      value (ext.polyfit x'.volume Y' s'.edeg) (r'.VT i j) * u'.e.joule k =
        N * (value (ext.polyfit x.volume Y s.edeg) (r.VT i j) * u.e.joule k) + e := by
    intro Y Y' e hY
    rw [hV, column_fit hext h hN hinj h.edeg hdeg hY]
    field_simp
  have vib : r'.Uzp i j * u'.e.joule k = N * (r.Uzp i j * u.e.joule k) ∧
      r'.Uth i j * u'.e.joule k = N * (r.Uth i j * u.e.joule k) ∧
      r'.S i j * u'.e.joule k = N * (r.S i j * u.e.joule k) ∧
      r'.Cv i j * u'.e.joule k = N * (r.Cv i j * u.e.joule k) ∧
      r'.Fvib i j * u'.e.joule k = N * (r.Fvib i j * u.e.joule k) := by
    cases hs : s.scheme with
    | td =>
      obtain ⟨a1, a2, -, a3, a4, a5, -⟩ := C68_td_interpolates hu hrun hs hha i j
      obtain ⟨b1, b2, -, b3, b4, b5, -⟩ := C68_td_interpolates hu' hrun' (h.scheme.trans hs) hha' i j
      rw [a1, a2, a3, a4, a5, b1, b2, b3, b4, b5]
      refine ⟨?_, ?_, ?_, ?_, ?_⟩ <;> rw [fits (e := 0) fun n => ?_, add_zero] <;> rw [add_zero]
      · exact (hh i n).1
      · exact (hh i n).2.1
      · exact (hh i n).2.2.1
      · exact (hh i n).2.2.2.1
      · exact (hh i n).2.2.2.2.1
    | freq =>
      obtain ⟨a1, a2, a3, a4, a5⟩ := C68_freq_interpolates hu hrun hs i j
      obtain ⟨b1, b2, b3, b4, b5⟩ := C68_freq_interpolates hu' hrun' (h.scheme.trans hs) i j
      rw [a1, a2, a3, a4, a5, b1, b2, b3, b4, b5]
      have e := fun f => freq_kernel hext h hN hinj (hfdeg hs) f (fun _ : Fin 1 => u.t.kelvin (s.temperature i))
        (fun _ : Fin 1 => r.VT i j) (fun _ => r'.VT i j) (fun _ => hV i j) 0 0
      simp only [zeroPointEnergy, thermalEnergy, entropy, isochoricHeatCapacity, vibrationalFreeEnergy, h.temperature, e]
      refine ⟨?_, ?_, ?_, ?_, ?_⟩ <;> ring
  obtain ⟨v1, v2, v3, v4, v5⟩ := vib
  have hinj' : Function.Injective x'.volume := fun a b hab => hinj (by
    have hb : N * u.v.m3 k / u'.v.m3 k ≠ 0 := by positivity
    rw [h.volumes, h.volumes] at hab
    exact mul_left_cancel₀ hb hab)
  obtain ⟨a1, a2, -⟩ := C68_energies_add_up hext hu hrun (fun _ => ⟨hinj, hdeg⟩) i j
  obtain ⟨b1, b2, -⟩ := C68_energies_add_up hext hu' hrun' (fun _ => ⟨hinj', by rw [h.edeg]; exact hdeg⟩) i j
  have hU0 := fits h.energy
  have t1 : r'.Utot i j * u'.e.joule k = N * (r.Utot i j * u.e.joule k) + c := by
    rw [a1, b1, add_mul, add_mul, hU0, v1, v2]
    ring
  have t2 : r'.F i j * u'.e.joule k = N * (r.F i j * u.e.joule k) + c := by
    rw [a2, b2, add_mul, hU0, v5]
    ring
  obtain ⟨l1, l2⟩ := C15_legendre hu hrun i j
  obtain ⟨m1, m2⟩ := C15_legendre hu' hrun' i j
  refine ⟨v1, v2, v3, v4, v5, t1, t2, ?_, ?_, ?_⟩
  · rw [m1, l1, t1, h.pressure, hvol]
    ring
  · rw [m2, l2, t2, h.pressure, hvol]
    ring
  · obtain ⟨m, r0, -, hf, hK, -⟩ := run_data hu hrun hha
    obtain ⟨m', r0', -, hf', hK', -⟩ := run_data hu' hrun' hha'
    by_cases hn : nt < 50
    · rw [(finalize_short hu hn hf).1, (finalize_short hu' hn hf').1]
    · rw [(finalize_long hu (by omega) hf).1, (finalize_long hu' (by omega) hf').1, ← hK.VT, ← hK'.VT]
      simp only [alphaColumn, hV, h.temperature]
      have hb : N * u.v.m3 k / u'.v.m3 k ≠ 0 := by positivity
      split_ifs <;> rw [← mul_sub, mul_div_assoc, mul_div_mul_left _ _ hb]

/-- The numerical bulk modulus does not depend on the size of the cell. -/
theorem bulk_scaled (hext : Numerics ext) (k : Consts) (u u' : Choice) (hN : 0 < N) {d d' : ℕ} (hdd : d' = d) (hd : d + 1 ≤ 5)
    {V V' F F' : Fin 5 → ℝ} (hinj : Function.Injective V) (hV : ∀ g, V' g = N * u.v.m3 k / u'.v.m3 k * V g)
    (hF : ∀ g, F' g * u'.e.joule k = N * (F g * u.e.joule k) + c) (g : Fin 5) :
    (numericalBulkModulus ext d' (fun y => y * u'.e.joule k / u'.v.m3 k / u'.p.pascal) V' F' g).1 * u'.p.pascal =
      (numericalBulkModulus ext d (fun y => y * u.e.joule k / u.v.m3 k / u.p.pascal) V F g).1 * u.p.pascal := by
  subst hdd
  have hj := joule_pos k u.e
  have hj' := joule_pos k u'.e
  have hv := m3_pos k u.v
  have hv' := m3_pos k u'.v
  have hp := (pascal_pos u.p).ne'
  have hp' := (pascal_pos u'.p).ne'
  have h0 := fit_scaled hext hinj hd (a := N * u.e.joule k / u'.e.joule k) (b := N * u.v.m3 k / u'.v.m3 k)
    (c := c / u'.e.joule k) (Y := F) (Y' := F') (by positivity) (by positivity) hV (fun n => by
      have := hF n
      field_simp
      linarith)
  have e := value_differentiable (ext.polyfit V F d')
  have e' := value_differentiable (ext.polyfit V' F' d')
  have hb : N * u.v.m3 k / u'.v.m3 k ≠ 0 := by positivity
  have h1 : ∀ W, deriv (value (ext.polyfit V' F' d')) (N * u.v.m3 k / u'.v.m3 k * W) =
      u.e.joule k * u'.v.m3 k / (u'.e.joule k * u.v.m3 k) * deriv (value (ext.polyfit V F d')) W + 0 := by
    intro W
    have := deriv_scaled e'.1 e.1 h0 W
    rw [← eq_div_iff hb] at this
    rw [this]
    field_simp
    ring
  have h2 := deriv_scaled e'.2.1 e.2.1 h1 (V g)
  rw [← eq_div_iff hb] at h2
  simp only [numericalBulkModulus]
  rw [← Poly.deriv_polyval, ← Poly.deriv_polyval, ← Poly.deriv_polyval, ← Poly.deriv_polyval, polyval_ofFn_fun,
    polyval_ofFn_fun, hV, h2]
  field_simp

/-- The five free energies from which a run takes the bulk modulus. -/
theorem grid_free_energy (hu : u.Of s) (hmin : s.minimization = .poly) (hrun : run k ext s x = .ok r)
    {ha : HA.Results nt nv} (hha : HA.run k (harmonicSettings s) x.toInput = .ok ha) (i : Fin nt) (j : Fin np) :
    ∃ F : Fin 5 → ℝ, r.KT i j = (numericalBulkModulus ext s.edeg (fun y => y * u.e.joule k / u.v.m3 k / u.p.pascal)
        (fun g => r.VT i j + r.VT i j * grid5 g) F idx5).1 ∧
      (s.scheme = .td → ∀ g, F g = value (ext.polyfit x.volume (ha.F i) s.edeg) (r.VT i j + r.VT i j * grid5 g)) ∧
      (s.scheme = .freq → ∀ g, F g * u.e.joule k =
        value (ext.polyfit x.volume x.U0 s.edeg) (r.VT i j + r.VT i j * grid5 g) * u.e.joule k +
          kernel (hoF k) (fun _ : Fin 1 => u.t.kelvin (s.temperature i))
            (fun q b (g : Fin 5) => value (ext.polyfit x.volume (fun l => x.freq q b l * u.f.hertz k) s.fdeg)
              (r.VT i j + r.VT i j * grid5 g)) (usedWeights x.weights) 0 g * (1000 / k.N)) := by
  obtain ⟨ha', hha', hF, -⟩ := harmonic_run hu x (k := k)
  rw [hha] at hha'
  obtain rfl := Except.ok.inj hha'
  obtain ⟨m, r0, hm, hf, hK, hVT, hE, h1, h2⟩ := run_data hu hrun hha
  have hj := (joule_pos k u.e).ne'
  have hm' := hm
  rw [hF] at hm'
  simp only [minimizeAll] at hm'
  cases hs : s.scheme with
  | td =>
    have h0 := h1 hs
    simp only [runTd, hu.e, hu.v, hu.p, energyMap_from, bind, Except.bind, minimize_some] at h0
    rw [hm'] at h0
    simp only [e2pMap_eq, pure, Except.pure, Except.ok.injEq] at h0
    refine ⟨_, ?_, fun _ g => rfl, fun h => by simp at h⟩
    rw [hK.KT, hVT, hF, ← h0]
    simp only [hmin, evalFit_eq]
  | freq =>
    have h0 := h2 hs
    simp only [runFreq, hu.e, hu.v, hu.p, energyMap_from, bind, Except.bind] at h0
    rw [hm'] at h0
    simp only [e2pMap_eq, pure, Except.pure, Except.ok.injEq] at h0
    refine ⟨fun g => value (ext.polyfit x.volume x.U0 s.edeg) (r.VT i j + r.VT i j * grid5 g) +
      kernel (hoF k) (fun _ : Fin 1 => u.t.kelvin (s.temperature i))
            (fun q b (g : Fin 5) => value (ext.polyfit x.volume (fun l => x.freq q b l * u.f.hertz k) s.fdeg)
              (r.VT i j + r.VT i j * grid5 g)) (usedWeights x.weights) 0 g * (1000 / k.N) / u.e.joule k,
      ?_, fun h => by simp at h, fun _ g => ?_⟩
    · rw [hK.KT, hVT, ← h0]
      simp only [hmin, evalFit_eq, vibrationalFreeEnergy, kernel_eq, Poly.multiInterpolateArray_eq]
    · rw [add_mul, div_mul_cancel₀ _ hj]

/-- C123: the bulk moduli in pascal and the Grüneisen parameter are the same for both cells, and the isobaric heat capacity
scales as the isochoric one. -/
theorem C123_moduli (hext : Numerics ext) (h : Copies k u u' s s' x x' N c) (hN : 0 < N) (hu : u.Of s)
    (hu' : u'.Of s') (hmin : s.minimization = .poly) (hinj : Function.Injective x.volume) (hdeg : s.edeg + 1 ≤ nv)
    (hfdeg : s.scheme = .freq → s.fdeg + 1 ≤ nv) (h3 : s.edeg ≤ 3) (hrun : run k ext s x = .ok r)
    (hrun' : run k ext s' x' = .ok r') (i : Fin nt) (j : Fin np) (hpos : r.VT i j ≠ 0) :
    r'.KT i j * u'.p.pascal = r.KT i j * u.p.pascal ∧
    r'.KS i j * u'.p.pascal = r.KS i j * u.p.pascal ∧
    r'.CpmCv i j * u'.e.joule k = N * (r.CpmCv i j * u.e.joule k) ∧
    r'.Cp i j * u'.e.joule k = N * (r.Cp i j * u.e.joule k) ∧
    r'.gruneisen i j = r.gruneisen i j := by
  obtain ⟨ha, hha⟩ := harmonic_exists k hu x
  obtain ⟨ha', hha'⟩ := harmonic_exists k hu' x'
  have hv := m3_pos k u.v
  have hv' := m3_pos k u'.v
  have hj := joule_pos k u.e
  have hj' := joule_pos k u'.e
  have hp := (pascal_pos u.p).ne'
  have hp' := (pascal_pos u'.p).ne'
  have hvol := C123_volume hext h hN hu hu' hmin hinj hdeg h3 hrun hrun' i j
  have hV : r'.VT i j = N * u.v.m3 k / u'.v.m3 k * r.VT i j := by
    field_simp
    linarith
  obtain ⟨-, -, -, hCv, -, -, -, -, -, hα⟩ := C123_columns hext h hN hu hu' hmin hinj hdeg hfdeg h3 hrun hrun' i j
  have hVg : ∀ g : Fin 5, r'.VT i j + r'.VT i j * grid5 g = N * u.v.m3 k / u'.v.m3 k * (r.VT i j + r.VT i j * grid5 g) := by
    intro g
    rw [hV]
    ring
  have hKT : r'.KT i j * u'.p.pascal = r.KT i j * u.p.pascal := by
    obtain ⟨F, f1, f2, f3⟩ := grid_free_energy hu hmin hrun hha i j
    obtain ⟨F', f1', f2', f3'⟩ := grid_free_energy hu' (h.minimization.trans hmin) hrun' hha' i j
    rw [f1, f1']
    refine bulk_scaled hext k u u' hN h.edeg (by omega) (c := c) ?_ hVg (fun g => ?_) idx5
    · intro a b hab
      simp only [add_right_inj] at hab
      exact grid5_injective (mul_left_cancel₀ hpos hab)
    · cases hs : s.scheme with
      | td =>
        rw [f2 hs, f2' (h.scheme.trans hs), hVg, column_fit hext h hN hinj h.edeg hdeg
          (fun n => (C123_harmonic h hu hu' hha hha' i n).2.2.2.2.2.2)]
        field_simp
      | freq =>
        rw [f3 hs, f3' (h.scheme.trans hs), h.temperature, freq_kernel hext h hN hinj (hfdeg hs) _ _ _ _ hVg,
          hVg, column_fit hext h hN hinj h.edeg hdeg h.energy]
        generalize value _ _ = A
        generalize kernel _ _ _ _ _ _ = B
        rw [add_mul, div_mul_cancel₀ _ hj'.ne', mul_right_comm, div_mul_cancel₀ _ hj'.ne']
        ring
  obtain ⟨m, r0, -, hf, hK, -⟩ := run_data hu hrun hha
  obtain ⟨m', r0', -, hf', hK', -⟩ := run_data hu' hrun' hha'
  rw [hK.Cv, hK'.Cv] at hCv
  rw [hK.VT, hK'.VT] at hvol
  have hKT0 := hKT
  rw [hK.KT, hK'.KT] at hKT0
  have hC0 : r0'.Cv i j = 0 ↔ r0.Cv i j = 0 := by
    constructor <;> intro h0 <;> rw [h0, zero_mul] at hCv
    · simpa [hN.ne', hj.ne'] using hCv.symm
    · simpa [hj'.ne'] using hCv
  refine ⟨hKT, ?_⟩
  by_cases hn : nt < 50
  · obtain ⟨-, a1, a2, a3, a4⟩ := finalize_short hu hn hf
    obtain ⟨-, b1, b2, b3, b4⟩ := finalize_short hu' hn hf'
    rw [a1, a2, a3, a4, b1, b2, b3, b4]
    simp [hKT0]
  · obtain ⟨-, a1, a2, a3, a4, a5, a6⟩ := finalize_long hu (by omega) hf
    obtain ⟨-, b1, b2, b3, b4, b5, b6⟩ := finalize_long hu' (by omega) hf'
    simp only [h.temperature] at b1 b3 b4
    have hCC : r'.CpmCv i j * u'.e.joule k = N * (r.CpmCv i j * u.e.joule k) := by
      rw [a1, b1, hα, hKT0, hvol]
      ring
    have can : ∀ A v B C : ℝ, A * (N * v) * B / (N * C) = A * v * B / C := fun A v B C => by
      rw [show A * (N * v) * B = N * (A * v * B) by ring, mul_div_mul_left _ _ hN.ne']
    refine ⟨?_, hCC, ?_, ?_⟩
    · by_cases h0 : u.t.kelvin (s.temperature i) = 0 ∨ r0.Cv i j = 0
      · rw [a3 i j h0, b3 i j (by rwa [hC0]), hKT0]
      · rw [not_or] at h0
        have e1 := a4 i j h0.1 h0.2
        have e2 := b4 i j h0.1 (by rw [Ne, hC0]; exact h0.2)
        rw [hα, hKT0, hvol, hCv] at e2
        have e3 : (r'.KS i j - r0'.KT i j) * u'.p.pascal = (r.KS i j - r0.KT i j) * u.p.pascal := by
          rw [e1, e2, mul_assoc _ _ (1000 : ℝ), can]
          ring
        linarith [sub_mul (r'.KS i j) (r0'.KT i j) u'.p.pascal, sub_mul (r.KS i j) (r0.KT i j) u.p.pascal]
    · rw [a2, b2, add_mul, hCC, hCv]
      ring
    · by_cases h0 : r0.Cv i j = 0
      · rw [a5 i j h0, b5 i j (hC0.2 h0)]
      · rw [a6 i j h0, b6 i j (by rw [Ne, hC0]; exact h0), hα, hKT0, hvol, hCv]
        exact can _ _ _ _

theorem grid5_range (g : Fin 5) : -0.001 ≤ grid5 g ∧ grid5 g ≤ 0.001 := by
  fin_cases g <;> simp [grid5, Grid.fineGrid_eq, List.range_succ] <;> norm_num

/-- C123: in the thermodynamic scheme the pressure derivative of the bulk modulus is the same as well, if the free energy is
convex within 0.1 per cent of the equilibrium volume (where the code looks at it). -/
theorem C123_derivative (hext : Numerics ext) (h : Copies k u u' s s' x x' N c) (hN : 0 < N) (hu : u.Of s)
    (hu' : u'.Of s') (hmin : s.minimization = .poly) (hs : s.scheme = .td) (hinj : Function.Injective x.volume)
    (hdeg : s.edeg + 1 ≤ nv) (h3 : s.edeg ≤ 3) (hrun : run k ext s x = .ok r) (hrun' : run k ext s' x' = .ok r')
    {ha : HA.Results nt nv} (hha : HA.run k (harmonicSettings s) x.toInput = .ok ha) (i : Fin nt) (j : Fin np)
    (hpos : 0 < r.VT i j) {F : ℝ → ℝ} (hF : F = value (ext.polyfit x.volume (ha.F i) s.edeg))
    (hconv : ∀ V ∈ Set.Icc (0.999 * r.VT i j) (1.001 * r.VT i j), 0 < deriv (deriv F) V) : r'.Kp i j = r.Kp i j := by
  obtain ⟨ha', hha'⟩ := harmonic_exists k hu' x'
  have hv := m3_pos k u.v
  have hv' := m3_pos k u'.v
  have hj := joule_pos k u.e
  have hj' := joule_pos k u'.e
  have hp := pascal_pos u.p
  have hp' := pascal_pos u'.p
  have hvol := C123_volume hext h hN hu hu' hmin hinj hdeg h3 hrun hrun' i j
  have hV : r'.VT i j = N * u.v.m3 k / u'.v.m3 k * r.VT i j := by
    field_simp
    linarith
  have hVg : ∀ g : Fin 5, r'.VT i j + r'.VT i j * grid5 g = N * u.v.m3 k / u'.v.m3 k * (r.VT i j + r.VT i j * grid5 g) := by
    intro g
    rw [hV]
    ring
  have hb : 0 < N * u.v.m3 k / u'.v.m3 k := by positivity
  have hd := value_differentiable (ext.polyfit x.volume (ha.F i) s.edeg)
  have hd' := value_differentiable (ext.polyfit x'.volume (ha'.F i) s'.edeg)
  obtain ⟨F', hF'⟩ : ∃ F', F' = value (ext.polyfit x'.volume (ha'.F i) s'.edeg) := ⟨_, rfl⟩
  rw [← hF] at hd
  rw [← hF'] at hd'
  have h0 := column_fit hext h hN hinj h.edeg hdeg (fun n => (C123_harmonic h hu hu' hha hha' i n).2.2.2.2.2.2)
  rw [← hF, ← hF'] at h0
  have h1 : ∀ W, deriv F' (N * u.v.m3 k / u'.v.m3 k * W) =
      u.e.joule k * u'.v.m3 k / (u'.e.joule k * u.v.m3 k) * deriv F W + 0 := by
    intro W
    have := deriv_scaled hd'.1 hd.1 h0 W
    rw [← eq_div_iff hb.ne'] at this
    rw [this]
    field_simp
    ring
  have h2 : ∀ W, deriv (deriv F') (N * u.v.m3 k / u'.v.m3 k * W) = _ := fun W =>
    (eq_div_iff hb.ne').2 (deriv_scaled hd'.2.1 hd.2.1 h1 W)
  -- pressures and bulk moduli on the grid
  let P : ℝ → ℝ := fun v => -(deriv F v * u.e.joule k / u.v.m3 k) / u.p.pascal
  let K : ℝ → ℝ := fun v => v * deriv (deriv F) v * u.e.joule k / u.v.m3 k / u.p.pascal
  let P' : ℝ → ℝ := fun v => -(deriv F' v * u'.e.joule k / u'.v.m3 k) / u'.p.pascal
  let K' : ℝ → ℝ := fun v => v * deriv (deriv F') v * u'.e.joule k / u'.v.m3 k / u'.p.pascal
  have hPP : ∀ W, P' (N * u.v.m3 k / u'.v.m3 k * W) = u.p.pascal / u'.p.pascal * P W := by
    intro W
    simp only [P, P', h1]
    field_simp
    ring
  have hKK : ∀ W, K' (N * u.v.m3 k / u'.v.m3 k * W) = u.p.pascal / u'.p.pascal * K W := by
    intro W
    simp only [K, K', h2]
    field_simp
  have hPi : Function.Injective fun g : Fin 5 => P (r.VT i j + r.VT i j * grid5 g) := by
    intro a b hab
    have hmono : StrictMonoOn (deriv F) (Set.Icc (0.999 * r.VT i j) (1.001 * r.VT i j)) :=
      strictMonoOn_of_deriv_pos (convex_Icc _ _) hd.2.1.continuous.continuousOn fun v hv => hconv v (interior_subset hv)
    have hmem : ∀ g : Fin 5, r.VT i j + r.VT i j * grid5 g ∈ Set.Icc (0.999 * r.VT i j) (1.001 * r.VT i j) := by
      intro g
      obtain ⟨l, m⟩ := grid5_range g
      constructor <;> nlinarith
    have : deriv F (r.VT i j + r.VT i j * grid5 a) = deriv F (r.VT i j + r.VT i j * grid5 b) := by
      simp only [P, div_left_inj' hp.ne', neg_inj, div_left_inj' hv.ne'] at hab
      exact mul_right_cancel₀ hj.ne' hab
    have := hmono.injOn (hmem a) (hmem b) this
    simp only [add_right_inj] at this
    exact grid5_injective (mul_left_cancel₀ hpos.ne' this)
  have hpp : u.p.pascal / u'.p.pascal ≠ 0 := by positivity
  have hPi' : Function.Injective fun g : Fin 5 => P' (r'.VT i j + r'.VT i j * grid5 g) := by
    intro a b hab
    simp only [hVg, hPP] at hab
    exact hPi (mul_left_cancel₀ hpp hab)
  have hpos' : 0 < r'.VT i j := by rw [hV]; positivity
  have he' : s'.edeg ≤ 4 := by rw [h.edeg]; omega
  rw [C69_bulk_derivative hext hu hmin hs (by omega) hrun hha i j hpos hF (P := P) (K := K)
      (fun v => div_mul_cancel₀ _ hp.ne') (fun v => div_mul_cancel₀ _ hp.ne') hPi (hext.fit _ _ 2),
    C69_bulk_derivative hext hu' (h.minimization.trans hmin) (h.scheme.trans hs) he' hrun' hha' i j hpos' hF' (P := P')
      (K := K') (fun v => div_mul_cancel₀ _ hp'.ne') (fun v => div_mul_cancel₀ _ hp'.ne') hPi' (hext.fit _ _ 2)]
  have h4 := fit_scaled hext hPi (d := 2) (by norm_num) hpp hpp (c := 0)
    (X' := fun g => P' (r'.VT i j + r'.VT i j * grid5 g)) (Y' := fun g => K' (r'.VT i j + r'.VT i j * grid5 g))
    (Y := fun g => K (r.VT i j + r.VT i j * grid5 g)) (fun g => by rw [hVg, hPP])
    (fun g => by rw [hVg, hKK, add_zero])
  have h5 := deriv_scaled (value_differentiable _).1 (value_differentiable _).1 h4 (P (r.VT i j))
  rw [mul_comm] at h5
  rw [← mul_left_cancel₀ hpp h5, ← hPP, ← hV]

/-- A crystal with one mode at each of two q-points, described again by a doubled cell with both modes at one q-point. -/
example (k : Consts) (x : Input 2 1 nv) (hw : ∀ q, x.weights q = 1) (u : Choice) (s : Settings nt np) :
    Copies k u u s s x (x' := (⟨⟨fun n => 2 * x.U0 n, fun _ b n => x.freq b 0 n, fun _ => 1⟩, fun n => 2 * x.volume n⟩ :
      Input 1 2 nv)) 2 0 := by
  refine ⟨fun n => by ring, fun n => by ring, fun g => ?_, fun _ => rfl, fun _ => rfl, rfl, rfl, rfl, rfl, rfl⟩
  simp [Fin.sum_univ_two, hw]
  ring

/-- Two copies of the example of `Witness.lean`, in other units and from another zero of energy. -/
noncomputable def twoCells (k : Consts) (c : ℝ) : Input 1 2 3 :=
  { U0 := fun n => (2 * (exInput.U0 n * k.Ha) + c) / k.eV
    freq := fun _ _ n => exInput.freq 0 0 n * (100 * k.c) / 10 ^ 12
    weights := fun _ => 7
    volume := fun n => 2 * (exInput.volume n * k.Angstrom ^ 3) / k.Bohr ^ 3 }

noncomputable def otherSettings (nt : ℕ) : Settings nt 1 :=
  { exSettings nt with eunit := c!"eV", vunit := c!"bohr", funit := c!"THz", tunit := c!"C", punit := c!"kbar",
                       temperature := fun i => (i.val + 1 : ℝ) - 273.15 }

def otherUnits : Choice := ⟨.eV, .bohr, .kbar, .C, .THz⟩

theorem twoCells_copies (k : Consts) (c : ℝ) (nt : ℕ) :
    Copies k exUnits otherUnits (exSettings nt) (otherSettings nt) exInput (twoCells k c) 2 c := by
  have h1 := (m3_pos k .bohr).ne'
  have h2 := (joule_pos k .eV).ne'
  simp only [LengthUnit.m3, EnergyUnit.joule] at h1 h2
  refine ⟨fun n => ?_, fun n => ?_, fun g => ?_, fun i => ?_, fun j => ?_, rfl, rfl, rfl, rfl, rfl⟩
  · simp only [twoCells, otherUnits, exUnits, LengthUnit.m3]
    exact div_mul_cancel₀ _ h1
  · simp only [twoCells, otherUnits, exUnits, EnergyUnit.joule]
    exact div_mul_cancel₀ _ h2
  · have : ∀ n, exInput.freq 0 0 n * (100 * k.c) / 10 ^ 12 * 10 ^ 12 = exInput.freq 0 0 n * (100 * k.c) :=
      fun n => div_mul_cancel₀ _ (by norm_num)
    simp only [twoCells, otherUnits, exUnits, FrequencyUnit.hertz, this]
    simp [exInput]
  · simp [otherSettings, exSettings, otherUnits, exUnits, TemperatureUnit.kelvin]
  · simp [otherSettings, exSettings]

/-- The hypotheses of C123 are met: both runs of the example succeed. -/
example (k : Consts) (c : ℝ) (nt : ℕ) : ∃ (ext : Ext) (r r' : Results nt 1), Numerics ext ∧
    exUnits.Of (exSettings nt) ∧ otherUnits.Of (otherSettings nt) ∧ Function.Injective exInput.volume ∧
    (exSettings nt).edeg + 1 ≤ 3 ∧ (exSettings nt).edeg ≤ 3 ∧ run k ext (exSettings nt) exInput = .ok r ∧
    run k ext (otherSettings nt) (twoCells k c) = .ok r' ∧ ∀ i j, r.VT i j ≠ 0 := by
  obtain ⟨ext, ha, r, hext, -, hr, hv⟩ := witness k nt
  have hu' : otherUnits.Of (otherSettings nt) := ⟨rfl, rfl, rfl, rfl, rfl⟩
  obtain ⟨r', hr'⟩ := (C123_succeeds hext (twoCells_copies k c nt) two_pos (exUnits_of nt) hu' rfl rfl
    exInput_injective (le_refl 3)).2 ⟨r, hr⟩
  exact ⟨ext, r, r', hext, exUnits_of nt, hu', exInput_injective, le_refl 3, (by decide : 2 ≤ 3), hr, hr',
    fun i j => by rw [(hv i j).1]; norm_num⟩

end Verif.QHA
