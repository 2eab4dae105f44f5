/-
Property C172: Gibbs energies along the pressure when frequencies are interpolated.
-/
import Verif.QHA.Zero
import Verif.QHA.Expansion

namespace Verif.QHA
open Verif.Py Verif.Units Verif.HA Verif.QHA.Spec Verif.StatMech Verif.Poly.Spec

variable {nt np nb nf nv : ℕ} {k : Consts} {ext : Ext} {s : Settings nt np} {x : Input nb nf nv}
  {u : Choice} {r : Results nt np}

/-! ### C172 -/

/-- C172 (partial: up to the misfit of the two descriptions of the free energy): in either scheme, with polynomial
minimisation, let `M` be what the reported free energy exceeds the fitted one at the equilibrium volumes of a temperature.
Then the Gibbs energies without `M` at two pressures differ by the pressure difference times a volume between those reported,
in joule. -/
theorem C172_bracket_partial (hext : Numerics ext) (hu : u.Of s) (hmin : s.minimization = .poly)
    (hrun : run k ext s x = .ok r) {ha : HA.Results nt nv} (hha : HA.run k (harmonicSettings s) x.toInput = .ok ha)
    (i : Fin nt) (j l : Fin np) (hp : s.pressure j < s.pressure l) {F : ℝ → ℝ}
    (hF : F = value (ext.polyfit x.volume (ha.F i) s.edeg))
    (hc : s.edeg ≤ 3 ∨ ∀ V ∈ Set.uIcc (r.VT i j) (r.VT i l), 0 < deriv (deriv F) V) {M : Fin np → ℝ}
    (hM : ∀ j, r.F i j = F (r.VT i j) + M j) :
    r.VT i l * u.v.m3 k * ((s.pressure l - s.pressure j) * u.p.pascal) <
      ((r.G i l - M l) - (r.G i j - M j)) * u.e.joule k ∧
    ((r.G i l - M l) - (r.G i j - M j)) * u.e.joule k <
      r.VT i j * u.v.m3 k * ((s.pressure l - s.pressure j) * u.p.pascal) := by
  obtain ⟨-, h1, h2, -⟩ := C20_equilibrium_volume hext hu hmin hrun hha i j
  obtain ⟨-, h3, h4, -⟩ := C20_equilibrium_volume hext hu hmin hrun hha i l
  rw [← hF] at h1 h2 h3 h4
  have hj := joule_pos k u.e
  have hv := m3_pos k u.v
  have hpa := pascal_pos u.p
  have hc' : ∀ V ∈ Set.uIcc (r.VT i j) (r.VT i l), 0 < deriv (deriv F) V := by
    rcases hc with hd | hc
    · subst hF
      exact cubic_between (by omega) _ h2 h4
    · exact hc
  have hd := value_differentiable (ext.polyfit x.volume (ha.F i) s.edeg)
  rw [← hF] at hd
  have slope : ∀ {y p : ℝ}, y * u.e.joule k / u.v.m3 k = -(p * u.p.pascal) →
      y = -(p * u.p.pascal * u.v.m3 k / u.e.joule k) := by
    intro y p h
    have : y = y * u.e.joule k / u.v.m3 k * u.v.m3 k / u.e.joule k := by field_simp
    rw [this, h]
    ring
  obtain ⟨-, -, k1, k2⟩ := two_points hd.1 hd.2.1 (P := s.pressure j * u.p.pascal * u.v.m3 k / u.e.joule k)
    (Q := s.pressure l * u.p.pascal * u.v.m3 k / u.e.joule k) (by gcongr) (slope h1) (slope h3) hc'
  have g1 := (C15_legendre hu hrun i j).2
  have g2 := (C15_legendre hu hrun i l).2
  rw [hM] at g1 g2
  have hG : ((r.G i l - M l) - (r.G i j - M j)) * u.e.joule k =
      ((F (r.VT i l) + s.pressure l * u.p.pascal * u.v.m3 k / u.e.joule k * r.VT i l) -
        (F (r.VT i j) + s.pressure j * u.p.pascal * u.v.m3 k / u.e.joule k * r.VT i j)) * u.e.joule k := by
    have : ((r.G i l - M l) - (r.G i j - M j)) * u.e.joule k =
      r.G i l * u.e.joule k - r.G i j * u.e.joule k - (M l - M j) * u.e.joule k := by ring
    rw [this, g1, g2]
    field_simp
    ring
  rw [hG]
  constructor
  · have := mul_lt_mul_of_pos_right k1 hj
    refine lt_of_eq_of_lt ?_ this
    field_simp
  · have := mul_lt_mul_of_pos_right k2 hj
    refine lt_of_lt_of_eq this ?_
    field_simp

/-- C172 (partial: at absolute zero, with the same degree for energies and frequencies): there is no misfit when all
frequencies are positive, those of the input and the interpolated ones, so the Gibbs energies obey the law. -/
theorem C172_absolute_zero_partial (hext : Numerics ext) (hu : u.Of s) (hs : s.scheme = .freq)
    (hinj : Function.Injective x.volume) (hdeg : s.edeg + 1 ≤ nv) (hfd : s.fdeg = s.edeg)
    (hrun : run k ext s x = .ok r) {ha : HA.Results nt nv} (hha : HA.run k (harmonicSettings s) x.toInput = .ok ha)
    (i : Fin nt) (j : Fin np) (h0 : u.t.kelvin (s.temperature i) = 0) (hpos : ∀ q b n, 0 < x.freq q b n)
    (hV : ∀ q b, 0 < value (ext.polyfit x.volume (fun n => x.freq q b n * u.f.hertz k) s.fdeg) (r.VT i j)) :
    r.F i j = value (ext.polyfit x.volume (ha.F i) s.edeg) (r.VT i j) := by
  have hj := (joule_pos k u.e).ne'
  have hN := k.N_pos.ne'
  have hz := hertz_pos k u.f
  obtain ⟨ha', hha', hF, -⟩ := harmonic_run hu x (k := k)
  rw [hha] at hha'
  obtain rfl := Except.ok.inj hha'
  have e1 := (C68_energies_add_up hext hu hrun (fun h => by rw [hs] at h; cases h) i j).2.1
  obtain ⟨-, -, -, -, h5⟩ := C68_freq_interpolates hu hrun hs i j
  set φ : Fin nv → ℝ := fun n => value (ext.polyfit x.volume (Pi.single n 1) s.edeg) (r.VT i j) with hφ
  have swap : ∀ (a : ℝ) (f : Fin nb → Fin nf → Fin nv → ℝ) (w : Fin nb → ℝ),
      ∑ q, ∑ b, a * ((∑ n, f q b n * φ n) * 0.5) * w q = ∑ n, (∑ q, ∑ b, a * (f q b n * 0.5) * w q) * φ n := by
    intro a f w
    simp only [Finset.sum_mul, Finset.mul_sum]
    rw [Finset.sum_comm (s := Finset.univ (α := Fin nv))]
    refine Finset.sum_congr rfl fun q _ => ?_
    rw [Finset.sum_comm (s := Finset.univ (α := Fin nv))]
    exact Finset.sum_congr rfl fun b _ => Finset.sum_congr rfl fun n _ => by ring
  have key : r.Fvib i j * u.e.joule k = (∑ n, (∑ q, ∑ b, (10 : ℝ) ^ (-3 : ℤ) * k.N * k.h * (x.freq q b n * u.f.hertz k * 0.5) *
      usedWeights x.weights q) * φ n) * (1000 / k.N) := by
    rw [h5, ← swap]
    simp only [vibrationalFreeEnergy, kernel_eq, h0, hoF_at_zero, hoZpe, if_neg (not_le.2 (hV _ _))]
    have same : ∀ d, d = s.edeg → ∀ Y : Fin nv → ℝ,
        value (ext.polyfit x.volume Y d) (r.VT i j) = value (ext.polyfit x.volume Y s.edeg) (r.VT i j) := by
      rintro _ rfl _
      rfl
    congr 1
    refine Finset.sum_congr rfl fun q _ => Finset.sum_congr rfl fun b _ => ?_
    rw [same _ hfd, fit_linear hext hinj hdeg (r.VT i j) (fun n => x.freq q b n * u.f.hertz k)]
  refine mul_right_cancel₀ hj ?_
  rw [e1, add_mul, key, fit_linear hext hinj hdeg (r.VT i j) x.U0, fit_linear hext hinj hdeg (r.VT i j) (ha.F i),
    Finset.sum_mul, Finset.sum_mul, Finset.sum_mul, ← Finset.sum_add_distrib]
  refine Finset.sum_congr rfl fun n _ => ?_
  rw [hF]
  simp only [freeEnergy, vibrationalFreeEnergy, kernel_eq, h0, hoF_at_zero, hoZpe,
    if_neg (not_le.2 (mul_pos (hpos _ _ _) hz))]
  change x.U0 n * φ n * _ + _ = _ * φ n * _
  generalize ∑ q, ∑ b, (10 : ℝ) ^ (-3 : ℤ) * k.N * k.h * (x.freq q b n * u.f.hertz k * 0.5) * usedWeights x.weights q = Z
  rw [zero_add, add_mul, add_mul]
  congr 1
  field_simp

/-- A crystal with one mode, whose frequency is largest at the second of its three volumes. -/
noncomputable def exBent (A : ℝ) : Input 1 1 3 :=
  { U0 := fun n => A * ((n.val : ℝ) - 1) ^ 2, freq := fun _ _ n => if n = 1 then 2 else 1, weights := fun _ => 1,
    volume := fun n => n.val + 1 }

/-- Frequencies interpolated by a straight line and energies by a parabola, at 0 K. -/
noncomputable def exLine {np : ℕ} (p : Fin np → ℝ) : Settings 1 np :=
  { scheme := .freq, minimization := .poly, eos := c!"BM", edeg := 2, fdeg := 1,
    eunit := c!"Ha", vunit := c!"A", funit := c!"cm^-1", tunit := c!"K", punit := c!"GPa",
    kieffer := false, temperature := fun _ => 0, pressure := p }

/-- The best line through (1, c), (2, 2c), (3, c) is constant. -/
theorem best_line {c : ℝ} {l : Fin 2 → ℝ} {X Y : Fin 3 → ℝ} (hX : X = fun n => (n.val : ℝ) + 1)
    (hY : Y = ![c, 2 * c, c]) (h : IsLeastSquares X Y l) (V : ℝ) : value l V = 4 / 3 * c := by
  have hl := h ![4 / 3 * c, 0]
  simp only [ssres, Fin.sum_univ_three, value, Fin.sum_univ_two, hX, hY] at hl
  simp at hl
  norm_num at hl
  have e : (l 0 + 2 * l 1 - 4 / 3 * c) ^ 2 * 3 + 2 * l 1 ^ 2 ≤ 0 := by nlinarith
  have h1 : l 1 = 0 := by
    have := sq_nonneg (l 0 + 2 * l 1 - 4 / 3 * c)
    have := sq_nonneg (l 1)
    exact pow_eq_zero_iff (two_ne_zero) |>.1 (by linarith)
  have h0 : l 0 + 2 * l 1 - 4 / 3 * c = 0 := by
    have := sq_nonneg (l 0 + 2 * l 1 - 4 / 3 * c)
    have := sq_nonneg (l 1)
    exact pow_eq_zero_iff (two_ne_zero) |>.1 (by linarith)
  simp only [value, Fin.sum_univ_two, h1]
  simp
  linarith

/-- C172 is violated when frequencies are interpolated with another degree than energies (options of the command): the
volume is the minimum of one description of the free energy and the Gibbs energy is calculated from the other.  There is a
crystal with positive frequencies that succeeds at 0 K, shrinks from 2 to 3/2 under pressure, and whose Gibbs energy grows by
more than the pressure times the larger volume. -/
theorem C172_gibbs_violated (k : Consts) (hext : Numerics ext) :
    ∃ (A p : ℝ) (r : Results 1 2), 0 < p ∧ run k ext (exLine ![0, p]) (exBent A) = .ok r ∧ r.VT 0 0 = 2 ∧ r.VT 0 1 = 3 / 2 ∧
      r.VT 0 0 * exUnits.v.m3 k * (p * exUnits.p.pascal) < (r.G 0 1 - r.G 0 0) * exUnits.e.joule k := by
  have hj := joule_pos k exUnits.e
  have hv := m3_pos k exUnits.v
  have hp := pascal_pos exUnits.p
  have hz := hertz_pos k exUnits.f
  have hN := k.N_pos
  have hh := k.h_pos
  set c : ℝ := exUnits.f.hertz k with hc
  set ζ : ℝ := (10 : ℝ) ^ (-3 : ℤ) * k.N * k.h * (c * 0.5) * (1000 / k.N) / exUnits.e.joule k with hζ
  have hζ0 : 0 < ζ := by positivity
  set A : ℝ := 3 / 2 * ζ with hA
  set p : ℝ := ζ / 2 * exUnits.e.joule k / (exUnits.p.pascal * exUnits.v.m3 k) with hpd
  have hp0 : 0 < p := by positivity
  have pq : p * exUnits.p.pascal * exUnits.v.m3 k = ζ / 2 * exUnits.e.joule k := by
    rw [hpd]
    field_simp
  have hu : exUnits.Of (exLine ![0, p]) := ⟨rfl, rfl, rfl, rfl, rfl⟩
  have kel : exUnits.t.kelvin 0 = 0 := by simp [exUnits, TemperatureUnit.kelvin]
  obtain ⟨ha, hha, hF, -⟩ := harmonic_run hu (exBent A) (k := k)
  have hinj : Function.Injective (exBent A).volume := by
    intro a b h
    simp only [exBent, add_left_inj, Nat.cast_inj] at h
    exact Fin.ext h
  have hw : usedWeights (exBent A).weights 0 = 1 := by simp [usedWeights, totalQPoints, exBent]
  have zpe : ∀ f : ℝ, 0 < f → hoF k 0 (f * c) * 1 * (1000 / k.N) / exUnits.e.joule k = ζ * f := by
    intro f hf
    rw [hoF_at_zero, hoZpe, if_neg (not_le.2 (mul_pos hf hz)), hζ]
    ring
  have hFn : ∀ n, ha.F 0 n = A * ((n.val : ℝ) - 1) ^ 2 + ζ * (if n = 1 then 2 else 1) := by
    intro n
    rw [hF]
    simp only [freeEnergy, vibrationalFreeEnergy, kernel_eq, Fin.sum_univ_one, hw]
    have e : exUnits.t.kelvin ((exLine ![0, p]).temperature 0) = 0 := kel
    rw [e, zero_add]
    congr 1
    exact zpe _ (by simp only [exBent]; split <;> norm_num)
  have hfit : value (ext.polyfit (exBent A).volume (ha.F 0) 2) = fun V => ζ / 2 * (V - 2) ^ 2 + 2 * ζ := by
    have hval : ∀ V, value ![4 * ζ, -2 * ζ, ζ / 2] V = ζ / 2 * (V - 2) ^ 2 + 2 * ζ := by
      intro V
      simp [value, Fin.sum_univ_three]
      ring
    have hd : ∀ n, ha.F 0 n = value ![4 * ζ, -2 * ζ, ζ / 2] ((exBent A).volume n) := by
      intro n
      rw [hval, hFn, hA]
      fin_cases n <;> simp [exBent] <;> ring
    have : ext.polyfit (exBent A).volume (ha.F 0) 2 = ![4 * ζ, -2 * ζ, ζ / 2] :=
      Poly.value_injective hinj (le_refl 3) fun n => by
        rw [Poly.leastSquares_exact (hext.fit _ _ _) hd n, hd n]
    rw [this]
    exact funext hval
  have hd1 : deriv (fun V : ℝ => ζ / 2 * (V - 2) ^ 2 + 2 * ζ) = fun V => ζ * (V - 2) := by
    funext V
    have h : HasDerivAt (fun V : ℝ => ζ / 2 * (V - 2) ^ 2 + 2 * ζ) (ζ / 2 * (2 * (V - 2) ^ 1 * 1)) V :=
      ((((hasDerivAt_id V).sub_const 2).pow 2).const_mul _).add_const _
    rw [h.deriv]; ring
  have hd2 : deriv (fun V : ℝ => ζ * (V - 2)) = fun _ => ζ := by
    funext V
    have h : HasDerivAt (fun V : ℝ => ζ * (V - 2)) (ζ * 1) V := ((hasDerivAt_id V).sub_const 2).const_mul ζ
    rw [h.deriv]; ring
  obtain ⟨r, hr⟩ := (C20_run_succeeds_iff (x := exBent A) hext hu rfl rfl hha).1 (by
    intro i j
    obtain rfl : i = 0 := Subsingleton.elim _ _
    refine ⟨2 - ![0, p] j * exUnits.p.pascal * exUnits.v.m3 k / exUnits.e.joule k / ζ, ?_, ?_⟩
    · show deriv (value (ext.polyfit (exBent A).volume _ 2)) _ * _ / _ = -(![0, p] j * _)
      rw [hfit, hd1]
      field_simp
      ring
    · show 0 < deriv (deriv (value (ext.polyfit (exBent A).volume _ 2))) _
      rw [hfit, hd1, hd2]
      exact hζ0)
  have hV : ∀ j, r.VT 0 j = 2 - ![0, p] j * exUnits.p.pascal * exUnits.v.m3 k / exUnits.e.joule k / ζ := by
    intro j
    obtain ⟨-, e, -⟩ := C20_equilibrium_volume hext hu rfl hr hha 0 j
    change deriv (value (ext.polyfit (exBent A).volume _ 2)) _ * _ / _ = -(![0, p] j * _) at e
    rw [hfit, hd1, div_eq_iff hv.ne'] at e
    have : r.VT 0 j - 2 = -(![0, p] j * exUnits.p.pascal) * exUnits.v.m3 k / exUnits.e.joule k / ζ := by
      rw [← e]
      field_simp
    linear_combination this
  have v0 : r.VT 0 0 = 2 := by rw [hV]; simp
  have v1 : r.VT 0 1 = 3 / 2 := by
    rw [hV]
    show 2 - p * _ * _ / _ / ζ = _
    rw [pq]
    field_simp
    norm_num
  have hU : value (ext.polyfit (exBent A).volume (exBent A).U0 2) = fun V => A * (V - 2) ^ 2 := by
    have hval : ∀ V, value ![4 * A, -4 * A, A] V = A * (V - 2) ^ 2 := by
      intro V
      simp [value, Fin.sum_univ_three]
      ring
    have hd : ∀ n, (exBent A).U0 n = value ![4 * A, -4 * A, A] ((exBent A).volume n) := by
      intro n
      rw [hval]
      fin_cases n <;> norm_num [exBent]
    have : ext.polyfit (exBent A).volume (exBent A).U0 2 = ![4 * A, -4 * A, A] :=
      Poly.value_injective hinj (le_refl 3) fun n => by
        rw [Poly.leastSquares_exact (hext.fit _ _ _) hd n, hd n]
    rw [this]
    exact funext hval
  have hFv : ∀ j, r.Fvib 0 j = ζ * (4 / 3) := by
    intro j
    obtain ⟨-, -, -, -, h5⟩ := C68_freq_interpolates hu hr rfl 0 j
    simp only [vibrationalFreeEnergy, kernel_eq, Fin.sum_univ_one, hw] at h5
    have line : value (ext.polyfit (exBent A).volume (fun n => (exBent A).freq 0 0 n * c) 1) (r.VT 0 j) = 4 / 3 * c :=
      best_line rfl (by funext n; fin_cases n <;> simp [exBent, hc]) (hext.fit _ _ _) _
    have e : exUnits.t.kelvin ((exLine ![0, p]).temperature 0) = 0 := kel
    rw [e] at h5
    change _ = hoF k 0 (value (ext.polyfit (exBent A).volume (fun n => (exBent A).freq 0 0 n * c) 1) (r.VT 0 j)) * 1 * _ at h5
    rw [line] at h5
    rw [← zpe (4 / 3) (by norm_num), ← h5]
    field_simp
  have hFj : ∀ j, r.F 0 j = A * (r.VT 0 j - 2) ^ 2 + ζ * (4 / 3) := by
    intro j
    have e1 := (C68_energies_add_up hext hu hr (fun h => by cases h) 0 j).2.1
    change r.F 0 j = value (ext.polyfit (exBent A).volume (exBent A).U0 2) _ + _ at e1
    rw [e1, hU, hFv]
  refine ⟨A, p, r, hp0, hr, v0, v1, ?_⟩
  have g0 := (C15_legendre hu hr 0 0).2
  have g1 := (C15_legendre hu hr 0 1).2
  change _ = _ + (0 * _) * _ at g0
  change _ = _ + (p * _) * _ at g1
  rw [hFj, v0] at g0
  rw [hFj, v1] at g1
  rw [v0, sub_mul, g0, g1]
  have e1 : p * exUnits.p.pascal * (3 / 2 * exUnits.v.m3 k) = 3 / 2 * (ζ / 2 * exUnits.e.joule k) := by rw [← pq]; ring
  have e2 : 2 * exUnits.v.m3 k * (p * exUnits.p.pascal) = 2 * (ζ / 2 * exUnits.e.joule k) := by rw [← pq]; ring
  rw [e1, e2, hA]
  have : 0 < ζ * exUnits.e.joule k := by positivity
  nlinarith

end Verif.QHA
