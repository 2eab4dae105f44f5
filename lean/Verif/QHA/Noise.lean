/-
Property C167: how errors of the input, and of the polynomial form, reach the equilibrium volume.
-/
import Verif.QHA.Curves
import Verif.Poly.Noise
import Verif.StatMech.Sensitivity

namespace Verif.QHA
open Verif.Py Verif.Units Verif.HA Verif.QHA.Spec Verif.StatMech Verif.StatMech.Spec Verif.Poly.Spec

variable {nt np nb nf nv : ℕ} {k : Consts} {ext : Ext} {s : Settings nt np} {u : Choice} {x : Input nb nf nv} {r : Results nt np}

/-! ### Specification -/

namespace Spec

/-- Free energy of an oscillator of frequency `ν` hertz at `T` kelvin, in joule. -/
noncomputable def oscillatorEnergy (k : Consts) (T ν : ℝ) : ℝ :=
  k.h * ν / 2 + k.kB * T * Real.log (1 - Real.exp (-(k.h * ν / (k.kB * T))))

/-- Free energy of a crystal per cell at a volume, in joule: static energy and oscillators, averaged over the sampled points of
the Brillouin zone. -/
noncomputable def Crystal.freeEnergy (c : Crystal nb nf) (k : Consts) (u : Choice) (T V : ℝ) : ℝ :=
  c.energy V * u.e.joule k +
    ∑ q, c.weights q / (∑ q, c.weights q) * ∑ b, oscillatorEnergy k T (c.frequency q b V * u.f.hertz k)

/-- An input for a crystal: its static energies, in the units of the user, are off by at most `ε`, its frequencies by at most
the fraction `δ`. -/
structure Describes (x : Input nb nf nv) (c : Crystal nb nf) (ε δ : ℝ) : Prop where
  energy : ∀ n, |x.U0 n - c.energy (x.volume n)| ≤ ε
  frequency : ∀ q b n, Within δ (x.freq q b n) (c.frequency q b (x.volume n))
  weights : x.weights = c.weights

end Spec

/-! ### Lemmas -/

theorem oscillator_eq (k : Consts) {T ν : ℝ} (hT : 0 ≤ T) (h : 0 < ν) : hoF k T ν * (1000 / k.N) = oscillatorEnergy k T ν := by
  have hN := k.N_pos; have hk := k.kB_pos
  rcases hT.eq_or_lt with rfl | hT
  · rw [hoF_zero k h, hoZpe_pos k _ h, oscillatorEnergy]
    field_simp
    norm_num
    ring
  · rw [hoF_pos k hT.ne' h, oscillatorEnergy, show k.h * ν / (k.kB * T) = einstein k ν / T from x_eq k T ν, einstein]
    field_simp

theorem within_scale {δ a b t : ℝ} (ht : 0 < t) (h : Within δ a b) : Within δ (a * t) (b * t) := by
  obtain ⟨h1, h2, h3, h4⟩ := h
  refine ⟨by positivity, by positivity, ?_, ?_⟩
  · have := mul_le_mul_of_nonneg_right h3 ht.le; linarith
  · have := mul_le_mul_of_nonneg_right h4 ht.le; linarith

/-- The free energy of the crystal at a sampled volume, as the kernel computes it. -/
theorem crystal_free (c : Crystal nb nf) (T : Fin nt → ℝ) (i : Fin nt) (hT : 0 ≤ T i) (V : Fin nv → ℝ) (n : Fin nv)
    (hpos : ∀ q b, 0 < c.frequency q b (V n)) :
    c.energy (V n) + vibrationalFreeEnergy k T (fun q b n => c.frequency q b (V n) * u.f.hertz k) (usedWeights c.weights) i n *
      (1000 / k.N) / u.e.joule k = c.freeEnergy k u (T i) (V n) / u.e.joule k := by
  have hj := (joule_pos k u.e).ne'
  rw [Crystal.freeEnergy, add_div, mul_div_cancel_right₀ _ hj]
  congr 2
  rw [vibrationalFreeEnergy, kernel_eq, Finset.sum_mul]
  refine Finset.sum_congr rfl fun q _ => ?_
  rw [Finset.sum_mul, Finset.mul_sum]
  refine Finset.sum_congr rfl fun b _ => ?_
  rw [← oscillator_eq k hT (mul_pos (hpos q b) (hertz_pos k u.f)), usedWeights, totalQPoints]
  ring

/-! ### C167 -/

/-- C167, harmonic free energies: those of the input differ from those of the crystal by at most `ε`, and `δ` times the
vibrational energy. -/
theorem C167_free_energy (hu : u.Of s) {c : Crystal nb nf} {ε δ : ℝ} (hx : Describes x c ε δ) (hw : ∀ q, 0 ≤ c.weights q)
    (hsum : 0 < ∑ q, c.weights q) {ha : HA.Results nt nv} (hha : HA.run k (harmonicSettings s) x.toInput = .ok ha)
    (i : Fin nt) (hT : 0 ≤ u.t.kelvin (s.temperature i)) (n : Fin nv) :
    |ha.F i n - c.freeEnergy k u (u.t.kelvin (s.temperature i)) (x.volume n) / u.e.joule k| ≤
      ε + δ * (ha.Uzp 0 n + ha.Uth i n) := by
  have hj := joule_pos k u.e
  have hN := k.N_pos
  obtain ⟨ha', hha', hF, -, hZ, hE, -⟩ := harmonic_run hu x (k := k)
  rw [hha] at hha'
  obtain rfl := Except.ok.inj hha'
  have hw' : ∀ q, 0 ≤ usedWeights c.weights q := fun q => div_nonneg (hw q) hsum.le
  have h := (C166_errors k (fun i => u.t.kelvin (s.temperature i)) (fun q b n => x.freq q b n * u.f.hertz k)
    (fun q b n => c.frequency q b (x.volume n) * u.f.hertz k) _ hw' i hT n
    (fun q b => within_scale (hertz_pos k u.f) (hx.frequency q b n))).2.1
  have hz : zeroPointEnergy k (fun i => u.t.kelvin (s.temperature i)) (fun q b n => x.freq q b n * u.f.hertz k)
      (usedWeights c.weights) i n = zeroPointEnergy k (fun _ : Fin 1 => 0) (fun q b n => x.freq q b n * u.f.hertz k)
      (usedWeights c.weights) 0 n := by simp only [zeroPointEnergy, kernel_eq, hoZpe]
  rw [hz] at h
  rw [← crystal_free (nt := nt) c (fun i => u.t.kelvin (s.temperature i)) i hT x.volume n fun q b => (hx.frequency q b n).2.1, hF, hZ, hE]
  simp only [StatMech.freeEnergy, hx.weights, zero_add]
  have hm : 0 < 1000 / k.N / u.e.joule k := by positivity
  have h2 := mul_le_mul_of_nonneg_right h hm.le
  rw [← abs_of_pos hm, ← abs_mul, abs_of_pos hm] at h2
  have he := hx.energy n
  rw [abs_le] at he h2 ⊢
  constructor
  · linear_combination he.1 + h2.2
  · linear_combination he.2 + h2.1

/-- C167, the equilibrium condition: at the reported volume the slope of the free energy of the crystal itself balances the
pressure, up to the errors of the energies `ε` and of the frequencies `δ`, and up to the distance `η` of the crystal from the
polynomials at the sampled volumes, all multiplied by a factor that depends on the sampled volumes only, and up to the distance
`η'` of the slopes. -/
theorem C167_slope (hext : Numerics ext) (hu : u.Of s) (hmin : s.minimization = .poly) {c : Crystal nb nf} {ε δ : ℝ}
    (hδ : 0 ≤ δ) (hx : Describes x c ε δ) (hw : ∀ q, 0 ≤ c.weights q) (hsum : 0 < ∑ q, c.weights q) (hrun : run k ext s x = .ok r)
    {ha : HA.Results nt nv} (hha : HA.run k (harmonicSettings s) x.toInput = .ok ha) (i : Fin nt) (j : Fin np)
    (hT : 0 ≤ u.t.kelvin (s.temperature i)) {U : ℝ} (hU : ∀ n, ha.Uzp 0 n + ha.Uth i n ≤ U) {a b K : ℝ}
    (hK : SlopeFactor x.volume (s.edeg + 1) a b K) (hV : a ≤ r.VT i j ∧ r.VT i j ≤ b) {p : ℝ → ℝ} (hp : IsPolynomial s.edeg p)
    {η η' : ℝ} (hη : ∀ n, |c.freeEnergy k u (u.t.kelvin (s.temperature i)) (x.volume n) / u.e.joule k - p (x.volume n)| ≤ η)
    (hη' : ∀ v, a ≤ v → v ≤ b →
      |deriv (fun w => c.freeEnergy k u (u.t.kelvin (s.temperature i)) w / u.e.joule k) v - deriv p v| ≤ η') :
    |deriv (fun w => c.freeEnergy k u (u.t.kelvin (s.temperature i)) w / u.e.joule k) (r.VT i j) * u.e.joule k / u.v.m3 k +
      s.pressure j * u.p.pascal| ≤ (K * (√nv * (ε + δ * U + η)) + η') * u.e.joule k / u.v.m3 k := by
  have hj := joule_pos k u.e
  have hv := m3_pos k u.v
  obtain ⟨hfit, hslope, -⟩ := C20_equilibrium_volume hext hu hmin hrun hha i j
  obtain ⟨d, hd⟩ := hp
  have hpd : p = value d := funext hd
  have hld : IsLeastSquares x.volume (fun n => p (x.volume n)) d := fun c' => by
    have : ssres x.volume (fun n => p (x.volume n)) d = 0 := Finset.sum_eq_zero fun n _ => by rw [hpd]; ring
    rw [this]
    exact Finset.sum_nonneg fun n _ => sq_nonneg _
  have noise : ∀ n, |ha.F i n - p (x.volume n)| ≤ ε + δ * U + η := fun n => by
    have h1 := C167_free_energy hu hx hw hsum hha i hT n
    have h3 := mul_le_mul_of_nonneg_left (hU n) hδ
    have h2 := hη n
    rw [abs_le] at h1 h2 ⊢
    constructor <;> linarith
  have h1 := Poly.fit_slope hfit hld noise hK hV.1 hV.2
  have h2 := hη' _ hV.1 hV.2
  rw [← hpd] at h1
  set D := deriv (fun w => c.freeEnergy k u (u.t.kelvin (s.temperature i)) w / u.e.joule k) (r.VT i j) with hD
  set P := deriv (value (ext.polyfit x.volume (ha.F i) s.edeg)) (r.VT i j) with hP
  have h3 : |D - P| ≤ K * (√nv * (ε + δ * U + η)) + η' := by
    rw [abs_le] at h1 h2 ⊢
    constructor <;> linarith
  have e : D * u.e.joule k / u.v.m3 k + s.pressure j * u.p.pascal = (D - P) * (u.e.joule k / u.v.m3 k) := by
    have : s.pressure j * u.p.pascal = -(P * u.e.joule k / u.v.m3 k) := by linarith
    rw [this]; ring
  have hm : 0 < u.e.joule k / u.v.m3 k := by positivity
  rw [e, abs_mul, abs_of_pos hm, mul_div_assoc]
  exact mul_le_mul_of_nonneg_right h3 hm.le

/-- C167, the equilibrium volume: for each choice of volumes, degree and interval there is a factor `K` such that the reported
volume is off by at most `(K (ε + δ U + η) + η') / κ`, whatever the crystal, the errors, the temperature and the pressure; `κ` is
the least curvature of the free energy of the crystal in the interval. -/
theorem C167_volume {V : Fin nv → ℝ} (hinj : Function.Injective V) {d : ℕ} (hdeg : d + 1 ≤ nv) (a b : ℝ) :
    ∃ K, 0 ≤ K ∧ ∀ {nt np nb nf : ℕ} {k : Consts} {ext : Ext} {s : Settings nt np} {u : Choice} {x : Input nb nf nv}
      {r : Results nt np}, Numerics ext → u.Of s → s.minimization = .poly → s.edeg = d → x.volume = V →
      ∀ {c : Crystal nb nf} {ε δ : ℝ}, 0 ≤ δ → Describes x c ε δ → (∀ q, 0 ≤ c.weights q) → 0 < ∑ q, c.weights q →
      run k ext s x = .ok r → ∀ {ha : HA.Results nt nv}, HA.run k (harmonicSettings s) x.toInput = .ok ha →
      ∀ (i : Fin nt) (j : Fin np), 0 ≤ u.t.kelvin (s.temperature i) → ∀ {U : ℝ}, (∀ n, ha.Uzp 0 n + ha.Uth i n ≤ U) →
      ∀ {F p : ℝ → ℝ}, (∀ v, F v = c.freeEnergy k u (u.t.kelvin (s.temperature i)) v / u.e.joule k) → IsPolynomial d p →
      ∀ {η η' κ w : ℝ}, (∀ n, |F (V n) - p (V n)| ≤ η) → (∀ v, a ≤ v → v ≤ b → |deriv F v - deriv p v| ≤ η') → 0 < κ →
      (∀ v v', a ≤ v → v ≤ v' → v' ≤ b → κ * (v' - v) ≤ deriv F v' - deriv F v) →
      a ≤ r.VT i j → r.VT i j ≤ b → a ≤ w → w ≤ b → deriv F w * u.e.joule k / u.v.m3 k = -(s.pressure j * u.p.pascal) →
      |r.VT i j - w| ≤ (K * (ε + δ * U + η) + η') / κ := by
  obtain ⟨K, hK0, hK⟩ := Poly.slopeFactor_exists hinj hdeg a b
  refine ⟨K * √nv, by positivity, ?_⟩
  intro nt np nb nf k ext s u x r hext hu hmin hed hVx c ε δ hδ hx hw hsum hrun ha hha i j hT U hU F p hF hp η η' κ w hη hη' hκ hcv
    h1 h2 h3 h4 heq
  subst hVx
  subst hed
  obtain rfl : F = fun v => c.freeEnergy k u (u.t.kelvin (s.temperature i)) v / u.e.joule k := funext hF
  have h := C167_slope hext hu hmin hδ hx hw hsum hrun hha i j hT hU hK ⟨h1, h2⟩ hp hη hη'
  have hm : 0 < u.e.joule k / u.v.m3 k := div_pos (joule_pos k u.e) (m3_pos k u.v)
  set D := deriv fun v => c.freeEnergy k u (u.t.kelvin (s.temperature i)) v / u.e.joule k with hD
  have e : D (r.VT i j) * u.e.joule k / u.v.m3 k + s.pressure j * u.p.pascal =
      (D (r.VT i j) - D w) * (u.e.joule k / u.v.m3 k) := by
    have : s.pressure j * u.p.pascal = -(D w * u.e.joule k / u.v.m3 k) := by rw [heq]; ring
    rw [this]; ring
  rw [e, abs_mul, abs_of_pos hm, mul_div_assoc] at h
  have h5 := le_of_mul_le_mul_right h hm
  have h6 : κ * |r.VT i j - w| ≤ |D (r.VT i j) - D w| := by
    rcases le_total w (r.VT i j) with hle | hle
    · rw [abs_of_nonneg (sub_nonneg.2 hle)]
      exact (hcv _ _ h3 hle h2).trans (le_abs_self _)
    · rw [abs_sub_comm, abs_of_nonneg (sub_nonneg.2 hle), abs_sub_comm]
      exact (hcv _ _ h1 hle h4).trans (le_abs_self _)
  rw [le_div_iff₀ hκ]
  have h7 := h6.trans h5
  linarith

end Verif.QHA
