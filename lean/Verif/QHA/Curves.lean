/-
Property C164: a crystal whose static energy and frequencies are polynomials of the volume is answered exactly, whatever the
volumes at which it was sampled.
-/
import Verif.QHA.Rigid
import Verif.QHA.Zero
import Verif.QHA.Expansion

namespace Verif.QHA
open Verif.Py Verif.Units Verif.HA Verif.QHA.Spec Verif.StatMech Verif.Poly.Spec

variable {nt np nb nf nv nv' : ℕ} {k : Consts} {ext : Ext} {s : Settings nt np} {u : Choice} {r r' : Results nt np}

/-! ### Specification -/

namespace Spec

/-- A polynomial of degree at most `d`. -/
def IsPolynomial (d : ℕ) (f : ℝ → ℝ) : Prop := ∃ c : Fin (d + 1) → ℝ, ∀ V, f V = ∑ l, c l * V ^ (l : ℕ)

/-- A crystal: static energy and frequencies as functions of the volume, in the units of the user. -/
structure Crystal (nb nf : ℕ) where
  energy : ℝ → ℝ
  frequency : Fin nb → Fin nf → ℝ → ℝ
  weights : Fin nb → ℝ

/-- The input obtained by calculating the crystal at some volumes. -/
def Crystal.sample (c : Crystal nb nf) (V : Fin nv → ℝ) : Input nb nf nv :=
  { U0 := fun n => c.energy (V n), freq := fun q b n => c.frequency q b (V n), weights := c.weights, volume := V }

/-- Energy of the crystal at absolute zero in joule: static energy and half a quantum for each mode, averaged over the
sampled points of the Brillouin zone. -/
noncomputable def Crystal.groundEnergy (c : Crystal nb nf) (k : Consts) (u : Choice) (V : ℝ) : ℝ :=
  c.energy V * u.e.joule k + ∑ q, c.weights q / (∑ q, c.weights q) * ∑ b, k.h * (c.frequency q b V * u.f.hertz k) / 2

end Spec

/-! ### Lemmas -/

theorem value_eq {d : ℕ} (c : Fin (d + 1) → ℝ) (V : ℝ) : value c V = ∑ l, c l * V ^ (l : ℕ) := rfl

/-- The fit of a polynomial of at most the degree of the fit is this polynomial. -/
theorem fit_polynomial (hext : Numerics ext) {n d : ℕ} {X : Fin n → ℝ} (hinj : Function.Injective X) (hdeg : d + 1 ≤ n)
    {f : ℝ → ℝ} (hf : IsPolynomial d f) : value (ext.polyfit X (fun m => f (X m)) d) = f := by
  obtain ⟨c, hc⟩ := hf
  have : ext.polyfit X (fun m => f (X m)) d = c := Poly.value_injective hinj hdeg fun m => by
    rw [Poly.leastSquares_exact (hext.fit X _ d) (d := c) (fun m => hc (X m)) m, hc, value_eq]
  rw [this]
  exact funext fun V => (hc V).symm

/-- The coefficients do not depend on the points. -/
theorem fit_polynomial_same (hext : Numerics ext) {n n' d : ℕ} {X : Fin n → ℝ} {X' : Fin n' → ℝ} (hinj : Function.Injective X)
    (hinj' : Function.Injective X') (hdeg : d + 1 ≤ n) (hdeg' : d + 1 ≤ n')
    {f : ℝ → ℝ} (hf : IsPolynomial d f) :
    ext.polyfit X (fun m => f (X m)) d = ext.polyfit X' (fun m => f (X' m)) d :=
  Poly.value_injective hinj hdeg fun m => by rw [fit_polynomial hext hinj hdeg hf, fit_polynomial hext hinj' hdeg' hf]

theorem poly_add {d : ℕ} {f g : ℝ → ℝ} (hf : IsPolynomial d f) (hg : IsPolynomial d g) (t : ℝ) :
    IsPolynomial d fun V => f V + t * g V := by
  obtain ⟨c, hc⟩ := hf
  obtain ⟨c', hc'⟩ := hg
  exact ⟨fun l => c l + t * c' l, fun V => by simp only [hc, hc']; rw [← value_eq, ← value_eq, ← value_eq, Poly.value_add]⟩

theorem poly_zero {d : ℕ} : IsPolynomial d fun _ => 0 := ⟨fun _ => 0, fun V => by simp⟩

theorem poly_smul {d : ℕ} {f : ℝ → ℝ} (hf : IsPolynomial d f) (t : ℝ) : IsPolynomial d fun V => f V * t := by
  have := poly_add poly_zero hf t
  simpa [mul_comm] using this

theorem poly_sum {d : ℕ} {ι : Type*} (I : Finset ι) {f : ι → ℝ → ℝ} (hf : ∀ i, IsPolynomial d (f i)) :
    IsPolynomial d fun V => ∑ i ∈ I, f i V := by
  classical
  induction I using Finset.induction_on with
  | empty => simpa using poly_zero
  | insert a I ha ih =>
    have := poly_add (hf a) ih 1
    simpa [Finset.sum_insert ha] using this

/-- The zero-point energy in joule per cell. -/
theorem zpe_joule (c : Crystal nb nf) (V : ℝ) (hpos : ∀ q b, 0 ≤ c.frequency q b V) :
    (∑ q, ∑ b, hoZpe k 0 (c.frequency q b V * u.f.hertz k) * usedWeights c.weights q) * (1000 / k.N) =
      ∑ q, c.weights q / (∑ q, c.weights q) * ∑ b, k.h * (c.frequency q b V * u.f.hertz k) / 2 := by
  have hN := k.N_pos.ne'
  rw [Finset.sum_mul]
  refine Finset.sum_congr rfl fun q _ => ?_
  rw [Finset.sum_mul, Finset.mul_sum]
  refine Finset.sum_congr rfl fun b _ => ?_
  have h0 : 0 ≤ c.frequency q b V * u.f.hertz k := mul_nonneg (hpos q b) (hertz_pos k u.f).le
  have : hoZpe k 0 (c.frequency q b V * u.f.hertz k) = (10 : ℝ) ^ (-3 : ℤ) * k.N * k.h * (c.frequency q b V * u.f.hertz k * 0.5) := by
    rcases h0.eq_or_lt with h | h
    · rw [← h]; simp [hoZpe]
    · rw [hoZpe, if_neg (not_le.2 h)]
  rw [this]
  simp only [usedWeights, totalQPoints]
  field_simp
  norm_num
  ring

/-- The harmonic free energies at absolute zero are those of the ground state. -/
theorem ground_free (hu : u.Of s) (c : Crystal nb nf) (V : Fin nv → ℝ) (hpos : ∀ q b n, 0 ≤ c.frequency q b (V n))
    {ha : HA.Results nt nv} (hha : HA.run k (harmonicSettings s) (c.sample V).toInput = .ok ha) (i : Fin nt)
    (h0 : u.t.kelvin (s.temperature i) = 0) : ha.F i = fun n => c.groundEnergy k u (V n) / u.e.joule k := by
  obtain ⟨ha', hha', hF, -⟩ := harmonic_run hu (c.sample V) (k := k)
  rw [hha] at hha'
  obtain rfl := Except.ok.inj hha'
  have hj := (joule_pos k u.e).ne'
  funext n
  rw [hF]
  simp only [freeEnergy, vibrationalFreeEnergy, kernel_eq, h0, hoF_at_zero, Crystal.sample, Crystal.groundEnergy]
  rw [zpe_joule c (V n) fun q b => hpos q b n, add_div, mul_div_cancel_right₀ _ hj]
  ring

theorem ground_polynomial (c : Crystal nb nf) {d : ℕ} (hE : IsPolynomial d c.energy)
    (hW : ∀ q b, IsPolynomial d (c.frequency q b)) : IsPolynomial d fun V => c.groundEnergy k u V / u.e.joule k := by
  have h1 : IsPolynomial d fun V => ∑ q, ∑ b, c.frequency q b V * (c.weights q / (∑ q, c.weights q) * k.h * u.f.hertz k / 2) :=
    poly_sum _ fun q => poly_sum _ fun b => poly_smul (hW q b) _
  have h2 := poly_smul (poly_add (poly_smul hE (u.e.joule k)) h1 1) (1 / u.e.joule k)
  obtain ⟨a, ha⟩ := h2
  refine ⟨a, fun V => ?_⟩
  rw [← ha V]
  simp only [Crystal.groundEnergy, Finset.mul_sum, one_mul, mul_one_div]
  congr 2
  exact Finset.sum_congr rfl fun q _ => Finset.sum_congr rfl fun b _ => by ring

/-! ### C164 -/

/-- C164, frequency scheme: at every temperature and pressure the exported energies, entropy and heat capacity are those of
the harmonic calculation for the crystal at the equilibrium volume itself, although this volume was never sampled. -/
theorem C164_columns (hext : Numerics ext) (hu : u.Of s) (hs : s.scheme = .freq) (c : Crystal nb nf) {V : Fin nv → ℝ}
    (hinj : Function.Injective V) (hE : IsPolynomial s.edeg c.energy) (hW : ∀ q b, IsPolynomial s.fdeg (c.frequency q b))
    (hed : s.edeg + 1 ≤ nv) (hfd : s.fdeg + 1 ≤ nv) (hrun : run k ext s (c.sample V) = .ok r) (i : Fin nt) (j : Fin np)
    {ha : HA.Results nt 1}
    (hha : HA.run k (harmonicSettings s) (c.sample fun _ : Fin 1 => r.VT i j).toInput = .ok ha) :
    r.Uzp i j = ha.Uzp 0 0 ∧ r.Uth i j = ha.Uth i 0 ∧ r.Utot i j = ha.Utot i 0 ∧ r.S i j = ha.S i 0 ∧
    r.Cv i j = ha.Cv i 0 ∧ r.Fvib i j = ha.Fvib i 0 ∧ r.F i j = ha.F i 0 := by
  have hj := (joule_pos k u.e).ne'
  obtain ⟨ha', hha', hF, hU, hZ, hT, hS, hC, hV⟩ := harmonic_run hu (c.sample fun _ : Fin 1 => r.VT i j) (k := k)
  rw [hha] at hha'
  obtain rfl := Except.ok.inj hha'
  obtain ⟨h1, h2, h3, h4, h5⟩ := C68_freq_interpolates hu hrun hs i j
  obtain ⟨g1, g2, -⟩ := C68_energies_add_up hext hu hrun (fun h => by simp [hs] at h) i j
  have fe : value (ext.polyfit (c.sample V).volume (c.sample V).U0 s.edeg) = c.energy := fit_polynomial hext hinj hed hE
  have fw : ∀ q b, value (ext.polyfit (c.sample V).volume (fun n => (c.sample V).freq q b n * u.f.hertz k) s.fdeg) =
      fun v => c.frequency q b v * u.f.hertz k := fun q b => fit_polynomial hext hinj hfd (poly_smul (hW q b) _)
  simp only [fe] at g1 g2
  simp only [fw] at h1 h2 h3 h4 h5
  have e : ∀ a b : ℝ, a * u.e.joule k = b → a = b / u.e.joule k := fun a b h => by rw [← h, mul_div_cancel_right₀ _ hj]
  rw [g1, g2, e _ _ h1, e _ _ h2, e _ _ h3, e _ _ h4, e _ _ h5, hZ, hT, hS, hC, hV, hF, hU]
  simp only [zeroPointEnergy, thermalEnergy, entropy, isochoricHeatCapacity, vibrationalFreeEnergy, kernel_eq, hoZpe,
    internalEnergy, freeEnergy, zero_add, Crystal.sample]
  exact ⟨trivial, trivial, trivial, trivial, trivial, trivial, trivial⟩

/-- C164, equilibrium at absolute zero: in both schemes the reported volume is where the energy of the ground state has the
slope `-p`, with positive curvature. -/
theorem C164_equilibrium (hext : Numerics ext) (hu : u.Of s) (hmin : s.minimization = .poly) (c : Crystal nb nf)
    {V : Fin nv → ℝ} (hinj : Function.Injective V) (hE : IsPolynomial s.edeg c.energy)
    (hW : ∀ q b, IsPolynomial s.edeg (c.frequency q b)) (hpos : ∀ q b n, 0 ≤ c.frequency q b (V n)) (hed : s.edeg + 1 ≤ nv)
    (hrun : run k ext s (c.sample V) = .ok r) (i : Fin nt) (j : Fin np) (h0 : u.t.kelvin (s.temperature i) = 0) :
    deriv (c.groundEnergy k u) (r.VT i j) / u.v.m3 k = -(s.pressure j * u.p.pascal) ∧
    0 < deriv (deriv (c.groundEnergy k u)) (r.VT i j) := by
  have hj := joule_pos k u.e
  obtain ⟨ha, hha⟩ := harmonic_exists k hu (c.sample V)
  obtain ⟨-, h1, h2, -⟩ := C20_equilibrium_volume hext hu hmin hrun hha i j
  rw [ground_free hu c V hpos hha i h0] at h1 h2
  have fe : value (ext.polyfit (c.sample V).volume (fun n => c.groundEnergy k u (V n) / u.e.joule k) s.edeg) =
      fun v => c.groundEnergy k u v / u.e.joule k := fit_polynomial hext hinj hed (ground_polynomial c hE hW)
  have d1 : deriv (fun v => c.groundEnergy k u v / u.e.joule k) = fun v => deriv (c.groundEnergy k u) v / u.e.joule k :=
    funext fun v => deriv_div_const _
  rw [fe, d1] at h1 h2
  refine ⟨?_, ?_⟩
  · rw [← h1, div_mul_cancel₀ _ hj.ne']
  · have : deriv (fun v => deriv (c.groundEnergy k u) v / u.e.joule k) (r.VT i j) =
      deriv (deriv (c.groundEnergy k u)) (r.VT i j) / u.e.joule k := deriv_div_const _
    rw [this] at h2
    exact (div_pos_iff_of_pos_right hj).1 h2

/-- C164, success at absolute zero: the run succeeds exactly when the energy of the ground state has such a volume for each
pressure, otherwise it stops with `IndexError`; the sampled volumes play no part. -/
theorem C164_found (hext : Numerics ext) (hu : u.Of s) (hmin : s.minimization = .poly) (hk : s.kieffer = false)
    (c : Crystal nb nf) {V : Fin nv → ℝ} (hinj : Function.Injective V) (hE : IsPolynomial s.edeg c.energy)
    (hW : ∀ q b, IsPolynomial s.edeg (c.frequency q b)) (hpos : ∀ q b n, 0 ≤ c.frequency q b (V n)) (hed : s.edeg + 1 ≤ nv)
    (hnt : 0 < nt) (h0 : ∀ i, u.t.kelvin (s.temperature i) = 0) :
    let ok := ∀ j, ∃ v, deriv (c.groundEnergy k u) v / u.v.m3 k = -(s.pressure j * u.p.pascal) ∧
      0 < deriv (deriv (c.groundEnergy k u)) v
    (ok → ∃ r, run k ext s (c.sample V) = .ok r) ∧ (¬ ok → run k ext s (c.sample V) = .error .indexError) := by
  intro ok
  have hj := joule_pos k u.e
  obtain ⟨ha, hha⟩ := harmonic_exists k hu (c.sample V)
  have h := C20_run_succeeds_iff hext hu hmin hk hha
  have fe : value (ext.polyfit (c.sample V).volume (fun n => c.groundEnergy k u (V n) / u.e.joule k) s.edeg) =
      fun v => c.groundEnergy k u v / u.e.joule k := fit_polynomial hext hinj hed (ground_polynomial c hE hW)
  have d1 : deriv (fun v => c.groundEnergy k u v / u.e.joule k) = fun v => deriv (c.groundEnergy k u) v / u.e.joule k :=
    funext fun v => deriv_div_const _
  have d2 : deriv (fun v => deriv (c.groundEnergy k u) v / u.e.joule k) =
      fun v => deriv (deriv (c.groundEnergy k u)) v / u.e.joule k := funext fun v => deriv_div_const _
  simp only [ground_free hu c V hpos hha _ (h0 _), fe, d1, d2, div_mul_cancel₀ _ hj.ne', div_pos_iff_of_pos_right hj] at h
  exact ⟨fun g => h.1 fun _ => g, fun g => h.2 fun g' => g (g' ⟨0, hnt⟩)⟩

/-- C164, choice of the volumes: at absolute zero two calculations for the same crystal, sampled at different volumes, report
the same volume, bulk modulus, pressure derivative and energies. -/
theorem C164_resampled (hext : Numerics ext) (hu : u.Of s) (hmin : s.minimization = .poly) (c : Crystal nb nf)
    {V : Fin nv → ℝ} {V' : Fin nv' → ℝ} (hinj : Function.Injective V) (hinj' : Function.Injective V')
    (hE : IsPolynomial s.edeg c.energy) (hW : ∀ q b, IsPolynomial s.edeg (c.frequency q b))
    (hf : s.scheme = .freq → (∀ q b, IsPolynomial s.fdeg (c.frequency q b)) ∧ s.fdeg + 1 ≤ nv ∧ s.fdeg + 1 ≤ nv')
    (hpos : ∀ q b n, 0 ≤ c.frequency q b (V n)) (hpos' : ∀ q b n, 0 ≤ c.frequency q b (V' n)) (hed : s.edeg + 1 ≤ nv)
    (hed' : s.edeg + 1 ≤ nv') (hrun : run k ext s (c.sample V) = .ok r) (hrun' : run k ext s (c.sample V') = .ok r')
    (i : Fin nt) (j : Fin np) (h0 : u.t.kelvin (s.temperature i) = 0) :
    r.VT i j = r'.VT i j ∧ r.KT i j = r'.KT i j ∧ r.Kp i j = r'.Kp i j ∧ r.Uzp i j = r'.Uzp i j ∧ r.F i j = r'.F i j ∧
    r.Utot i j = r'.Utot i j ∧ r.G i j = r'.G i j ∧ r.H i j = r'.H i j := by
  have hj := joule_pos k u.e
  obtain ⟨ha, hha⟩ := harmonic_exists k hu (c.sample V)
  obtain ⟨ha', hha'⟩ := harmonic_exists k hu (c.sample V')
  have hG := ground_polynomial (k := k) (u := u) c hE hW
  have hfit : ext.polyfit (c.sample V).volume (ha.F i) s.edeg = ext.polyfit (c.sample V').volume (ha'.F i) s.edeg := by
    rw [ground_free hu c V hpos hha i h0, ground_free hu c V' hpos' hha' i h0]
    exact fit_polynomial_same hext hinj hinj' hed hed' hG
  have hVT : r.VT i j = r'.VT i j := by
    obtain ⟨m, r0, hm, hf, hK, hVT, -⟩ := run_data hu hrun hha
    obtain ⟨m', r0', hm', hf', hK', hVT', -⟩ := run_data hu hrun' hha'
    have h2 := (seqFin_ok _ _).1 ((seqFin_ok _ _).1 hm i) j
    have h2' := (seqFin_ok _ _).1 ((seqFin_ok _ _).1 hm' i) j
    rw [minimize_poly hu hmin] at h2 h2'
    simp only [Option.getD_none, hfit] at h2
    simp only [Option.getD_none] at h2'
    rw [hVT, hVT', Except.ok.inj (h2.symm.trans h2')]
  have fe : ext.polyfit (c.sample V).volume (c.sample V).U0 s.edeg = ext.polyfit (c.sample V').volume (c.sample V').U0 s.edeg :=
    fit_polynomial_same hext hinj hinj' hed hed' hE
  have fw : s.scheme = .freq → ∀ q b, ext.polyfit (c.sample V).volume (fun n => (c.sample V).freq q b n * u.f.hertz k) s.fdeg =
      ext.polyfit (c.sample V').volume (fun n => (c.sample V').freq q b n * u.f.hertz k) s.fdeg := fun h q b =>
    fit_polynomial_same hext hinj hinj' (hf h).2.1 (hf h).2.2 (poly_smul ((hf h).1 q b) _)
  have hKT : r.KT i j = r'.KT i j ∧ r.Kp i j = r'.Kp i j := by
    obtain ⟨F, p1, p2, p3⟩ := grid_pair hu hmin hrun hha i j
    obtain ⟨F', p1', p2', p3'⟩ := grid_pair hu hmin hrun' hha' i j
    have hFF : F = F' := by
      funext g
      cases hs : s.scheme with
      | td => rw [p2 hs, p2' hs, hfit, hVT]
      | freq =>
        rw [p3 hs, p3' hs, fe, hVT]
        simp only [fw hs]
        rfl
    rw [hFF, hVT, ← p1'] at p1
    exact Prod.ext_iff.1 p1
  obtain ⟨-, -, -, f1, f2, f3, -⟩ := C134_ground_state hext hu hrun (fun _ => ⟨hinj, hed⟩) i j h0
  obtain ⟨-, -, -, f1', f2', f3', -⟩ := C134_ground_state hext hu hrun' (fun _ => ⟨hinj', hed'⟩) i j h0
  have hFF : r.F i j = r'.F i j := by
    cases hs : s.scheme with
    | td =>
      rw [(C68_td_interpolates hu hrun hs hha i j).2.2.2.2.2.2, (C68_td_interpolates hu hrun' hs hha' i j).2.2.2.2.2.2]
      simp only [hfit, hVT]
    | freq =>
      have g1 := (C68_energies_add_up hext hu hrun (fun h => by simp [hs] at h) i j).2.1
      have g1' := (C68_energies_add_up hext hu hrun' (fun h => by simp [hs] at h) i j).2.1
      have h5 := (C68_freq_interpolates hu hrun hs i j).2.2.2.2
      have h5' := (C68_freq_interpolates hu hrun' hs i j).2.2.2.2
      rw [hVT] at h5 g1
      simp only [fw hs] at h5
      rw [g1, g1', fe, mul_right_cancel₀ hj.ne' (h5.trans h5'.symm)]
  have hU : r.Uzp i j = r'.Uzp i j := by
    have a := (C68_energies_add_up hext hu hrun (fun _ => ⟨hinj, hed⟩) i j).2.1
    have a' := (C68_energies_add_up hext hu hrun' (fun _ => ⟨hinj', hed'⟩) i j).2.1
    rw [fe, hVT] at a
    rw [← f1, ← f1']
    linarith
  refine ⟨hVT, hKT.1, hKT.2, hU, hFF, by rw [← f2, ← f2', hFF], ?_, ?_⟩
  · refine mul_right_cancel₀ hj.ne' ?_
    rw [(C15_legendre hu hrun i j).2, (C15_legendre hu hrun' i j).2, hFF, hVT]
  · refine mul_right_cancel₀ hj.ne' ?_
    rw [(C15_legendre hu hrun i j).1, (C15_legendre hu hrun' i j).1, ← f2, ← f2', hFF, hVT]

end Verif.QHA
