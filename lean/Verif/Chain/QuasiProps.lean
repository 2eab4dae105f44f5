/-
Property C148: from the outputs of phonon calculations to the equilibrium volumes of the quasi-harmonic approximation.
-/
import Verif.Chain.DispersionProps
import Verif.Chain.QuasiModel
import Verif.Chain.QuasiSpec
import Verif.QHA.Rigid

noncomputable section

namespace Verif.Chain
open Verif.Py Verif.IO Verif.IO.Spec Verif.Interfaces Verif.Interfaces.Spec Verif.Phonon Verif.Phonon.Spec Verif.Units
  Verif.Units.Spec Verif.QHA.Spec Verif.Poly.Spec Spec

/-! ### Units -/

theorem energy_scale (k : Consts) (e : EnergyUnit) : e.name ∈ [c!"Ha", c!"eV", c!"Ry"] ∧
    ∃ A : Scale, Means (energiesShort k) e.name A ∧ A.slope = e.joule k := by
  cases e
  · exact ⟨by simp [EnergyUnit.name], ⟨[c!"ha"], k.Ha, 0⟩, means_Ha k, rfl⟩
  · exact ⟨by simp [EnergyUnit.name], ⟨[c!"electron volt", c!"ev"], k.eV, 0⟩,
      ⟨by simp [energiesShort], by simp [EnergyUnit.name, lower]⟩, rfl⟩
  · exact ⟨by simp [EnergyUnit.name], ⟨[c!"ry"], k.Ry, 0⟩,
      ⟨by simp [energiesShort], by simp [EnergyUnit.name, lower]⟩, rfl⟩

theorem frequency_scale (k : Consts) (f : FrequencyUnit) : f.name ∈ [c!"cm^-1", c!"THz", c!"Hz"] ∧
    ∃ B : Scale, Means (Units.Spec.frequencies k) f.name B ∧ B.slope = f.hertz k := by
  cases f
  · exact ⟨by simp [FrequencyUnit.name], ⟨[c!"cm^-1"], 100 * k.c, 0⟩, means_cm k, rfl⟩
  · exact ⟨by simp [FrequencyUnit.name], ⟨[c!"thz"], 10 ^ 12, 0⟩,
      ⟨by simp [Units.Spec.frequencies], by simp [FrequencyUnit.name, lower]⟩, rfl⟩
  · exact ⟨by simp [FrequencyUnit.name], ⟨[c!"hz"], 1, 0⟩,
      ⟨by simp [Units.Spec.frequencies], by simp [FrequencyUnit.name, lower]⟩, rfl⟩

theorem temperature_scale (t : TemperatureUnit) : t.name ∈ [c!"K", c!"C"] ∧
    ∃ C : Scale, Means temperatures t.name C ∧ ∀ x, C.toRef x = t.kelvin x := by
  cases t
  · exact ⟨by simp [TemperatureUnit.name], ⟨[c!"kelvin", c!"k"], 1, 0⟩,
      ⟨by simp [temperatures], by simp [TemperatureUnit.name, lower]⟩, fun x => by simp [Scale.toRef, TemperatureUnit.kelvin]⟩
  · exact ⟨by simp [TemperatureUnit.name], ⟨[c!"celsius", c!"°c", c!"c"], 1, 273.15⟩,
      ⟨by simp [temperatures], by simp [TemperatureUnit.name, lower]⟩, fun x => by simp [Scale.toRef, TemperatureUnit.kelvin]⟩

/-- A sum over points and bands with the weights of the code is the mean over the points. -/
theorem sum_modes {nb nf : ℕ} {g f : ℝ → ℝ} {c : ℝ} {w : Fin nb → ℝ} {ω : Fin nb → Fin nf → ℝ}
    (h0 : ∀ ω, ω ≤ 0 → g ω = 0) (hg : ∀ ω, 0 < ω → c * g ω = f ω) :
    c * ∑ j, ∑ m, g (ω j m) * HA.usedWeights w j = modeMean f w ω := by
  rw [modeMean, Finset.mul_sum, Finset.sum_div]
  refine Finset.sum_congr rfl fun j _ => ?_
  rw [HA.usedWeights, HA.totalQPoints, Finset.mul_sum, Finset.mul_sum, Finset.sum_div]
  refine Finset.sum_congr rfl fun m _ => ?_
  by_cases h : 0 < ω j m
  · rw [if_pos h, ← hg _ h]; ring
  · rw [if_neg h, h0 _ (not_lt.1 h)]; ring

/-! ### From the input -/

/-- **C148 (few volumes).**  Inputs with fewer than four volumes are refused. -/
theorem C148_few {nt np : ℕ} (k : Consts) (ext : QHA.Ext) (s : QHA.Settings nt np) {job : Str} {d : Content} (hc : Complete d)
    {doc : Node} (h : IsInput (.str job) d doc) (h4 : d.volumes.length < 4) :
    quasiHarmonic k ext s (.tree doc) = .ok (.error .few) := by
  obtain ⟨r, h1, h2, -, -, -, -, -, ⟨vs, h5, h6⟩, -⟩ := C85_read hc h
  have hl : (vs.map (some : ℚ → Fl)).length < 4 := by rw [List.length_map, ← h6.length_eq]; exact h4
  simp only [quasiHarmonic, h1, h2, h5, bind, Except.bind, if_true, if_pos hl]
  rfl

/-- **C148 (from the input).**  For an input with at least four volumes whose frequencies have at most ten decimals, in all
selectable units and with minimisation by polynomials, `quantas qha` fits the free energies that `quantas ha` returns, and
reports a volume at which the fitted free energy plus pressure times volume is smaller than nearby, for every temperature and
pressure; it fails when there is none. -/
theorem C148_input {nt np : ℕ} (k : Consts) {ext : QHA.Ext} (hext : Numerics ext) {job : Str} {d : Content} (hc : Complete d)
    {doc : Node} (h : IsInput (.str job) d doc)
    (hd : ∀ p ∈ d.points, ∀ f ∈ p.bands, ∀ ν ∈ f, ∃ n : ℤ, ν = n / 10 ^ 10)
    (hw : (d.points.map fun p => p.weight).sum ≠ 0) (h4 : 4 ≤ d.volumes.length) {s : QHA.Settings nt np} {u : Choice}
    (hu : u.Of s) (hm : s.minimization = .poly) (hk : s.kieffer = false) :
    ∃ res : Σ nv, HA.Results nt nv, harmonic k (harmonicSettings s) (.tree doc) = .ok (.ok res) ∧
      Analysed k u s d.volumes d.energies (fun v => vibrationsAt d v) res.2 (quasiHarmonic k ext s (.tree doc)) := by
  obtain ⟨he, A, hA, eA⟩ := energy_scale k u.e
  obtain ⟨hf, B, hB, eB⟩ := frequency_scale k u.f
  obtain ⟨ht, C, hC, eC⟩ := temperature_scale u.t
  obtain ⟨res, r1, r2, r3⟩ := C144_input (nt := nt) k hc h hd hw he hf ht hA hB hC s.temperature
  have hs : harmonicSettings s = ⟨u.e.name, u.f.name, u.t.name, s.temperature⟩ := by
    rw [harmonicSettings, hu.e, hu.f, hu.t]
  rw [← hs] at r1
  obtain ⟨r, h1, h2, -, -, h3, -, h5, ⟨vs, h6, h7⟩, ⟨es, h8, -⟩, fs, h9, h10⟩ := C85_read hc h
  have hfs := frequencies_exact hd h10
  have hlen : d.volumes.length = (vs.map (some : ℚ → Fl)).length := by rw [h7.length_eq, List.length_map]
  have hnv : r.nvol = .ok (vs.map (some : ℚ → Fl)).length := by rw [Reader.nvol, h6]; rfl
  have hl : ¬ (vs.map (some : ℚ → Fl)).length < 4 := by rw [← hlen]; omega
  set F : List (List (List Fl)) := fs.map fun b => b.map fun f => f.map some with hF
  set ws : List Fl := d.points.map fun p => some (p.weight : ℚ) with hws
  set l : List Fl := vs.map some with hlv
  let x : QHA.Input ws.length (3 * (d.natom : ℤ).toNat) l.length :=
    { U0 := fun i => element (elements (.vec (es.map some))) i
      freq := fun j m i => element (((F[(j : ℕ)]?).getD [])[(m : ℕ)]?.getD []) i
      weights := fun j => element ws j
      volume := fun i => element l i }
  have hq : quasiHarmonic k ext s (.tree doc) = (QHA.run k ext s x).map .ok := by
    simp only [quasiHarmonic, h1, h2, h5, h6, h9, h3, h8, bind, Except.bind, if_true, if_neg hl]
    cases QHA.run k ext s x <;> rfl
  have hh : harmonic k (harmonicSettings s) (.tree doc) =
      (HA.run k (harmonicSettings s) x.toInput).map fun y => .ok ⟨_, y⟩ := by
    simp only [harmonic, h1, h2, h5, h9, h3, h8, hnv, bind, Except.bind, if_true]
    cases HA.run k (harmonicSettings s) x.toInput <;> rfl
  obtain ⟨y, hy⟩ : ∃ y, HA.run k (harmonicSettings s) x.toInput = .ok y := by
    rw [hh] at r1
    cases h : HA.run k (harmonicSettings s) x.toInput with
    | error e => rw [h] at r1; cases r1
    | ok y => exact ⟨y, rfl⟩
  rw [hh, hy] at r1
  obtain rfl : (⟨l.length, y⟩ : Σ nv, HA.Results nt nv) = res := Except.ok.inj (Except.ok.inj r1)
  rw [hq]
  refine ⟨⟨l.length, y⟩, by rw [hh, hy]; rfl, x.volume, fun i => ext.polyfit x.volume (y.F i) s.edeg, hlen.symm, ?_, ?_,
    fun i => hext.fit _ _ _, ?_, ?_⟩
  · intro n V hV
    obtain ⟨z, hz, hr⟩ := forall₂_get h7 hV
    exact ⟨z, by simp [x, element, hlv, hz], hr⟩
  · intro i n U hT hU
    have := r3 i n U (by rwa [eC]) hU
    rwa [eA, eB, eC] at this
  · intro hno
    rw [(QHA.C20_run_succeeds_iff hext hu hm hk hy).2 hno]
    rfl
  · intro hyes
    obtain ⟨r, hr⟩ := (QHA.C20_run_succeeds_iff hext hu hm hk hy).1 hyes
    refine ⟨r, by rw [hr]; rfl, fun i j => ?_⟩
    obtain ⟨-, g1, g2, g3⟩ := QHA.C20_equilibrium_volume hext hu hm hr hy i j
    refine ⟨⟨g1, g2⟩, g3, fun hs => ?_, fun hs hT => ?_⟩
    · obtain ⟨-, -, e1, e2, e3, -, e4⟩ := QHA.C68_td_interpolates hu hr hs hy i j
      exact ⟨⟨_, hext.fit _ _ _, e2⟩, ⟨_, hext.fit _ _ _, e3⟩, ⟨_, hext.fit _ _ _, e1⟩, e4⟩
    · obtain ⟨e1, e2, e3, e4, e5⟩ := QHA.C68_freq_interpolates hu hr hs i j
      simp only [StatMech.zeroPointEnergy, StatMech.thermalEnergy, StatMech.entropy, StatMech.vibrationalFreeEnergy,
        StatMech.isochoricHeatCapacity, StatMech.kernel_eq] at e1 e2 e3 e4 e5
      have key := fun (g f : ℝ → ℝ) (c : ℝ) (h0 : ∀ ω, ω ≤ 0 → g ω = 0) (hg : ∀ ω, 0 < ω → c * g ω = f ω) =>
        sum_modes (w := x.weights) h0 hg
          (ω := fun q b => value (ext.polyfit x.volume (fun n => x.freq q b n * u.f.hertz k) s.fdeg) (r.VT i j))
      refine ⟨_, _, x.weights, fun q b => value (ext.polyfit x.volume (fun n => x.freq q b n * u.f.hertz k) s.fdeg) (r.VT i j),
        ?_, ?_, ?_, ?_, ?_, ?_, ?_, ?_⟩
      · intro n
        refine ⟨by simp [vibrationsAt, hws], fun p hp => ?_⟩
        obtain ⟨q, hq, rfl⟩ := List.mem_map.1 hp
        simpa using hc.bands q hq
      · intro n q p hp
        simp only [vibrationsAt, List.getElem?_map, Option.map_eq_some_iff] at hp
        obtain ⟨q', hq, rfl⟩ := hp
        simp [x, hws, element, hq]
      · intro q b
        refine ⟨_, ⟨_, hext.fit _ _ _, rfl⟩, fun n p ν hp hν => ?_⟩
        congr 1
        simp only [vibrationsAt, List.getElem?_map, Option.map_eq_some_iff] at hp
        obtain ⟨q', hq, rfl⟩ := hp
        simp only [List.getElem?_map, Option.map_eq_some_iff] at hν
        obtain ⟨g, hg, rfl⟩ := hν
        have hgl : (n : ℕ) < g.length := by
          rw [hc.freqs q' (List.mem_of_getElem? hq) g (List.mem_of_getElem? hg), hlen]; exact n.2
        simp only [x, hF, hfs, List.getElem?_map, hq, hg, Option.map_some, Option.getD_some, element,
          List.getElem?_eq_getElem hgl, List.getD_eq_getElem?_getD]
      · rw [mul_comm, e1, mul_comm]
        exact key _ _ _ (fun ω hω => by simp [StatMech.hoZpe, hω]) fun ω hω => planck_zero k _ hω
      · rw [mul_comm, e2, mul_comm]
        exact key _ _ _ (fun ω hω => by simp [StatMech.hoEth, hω]) fun ω hω => planck_thermal k hT.ne' hω
      · rw [mul_comm (u.e.joule k), e3, mul_comm, mul_div_right_comm]
        exact key _ _ _ (fun ω hω => by simp [StatMech.hoS, hω]) fun ω hω => by
          rw [div_mul_eq_mul_div]; exact planck_entropy k hT hω
      · rw [mul_comm (u.e.joule k), e4, mul_comm, mul_div_right_comm]
        exact key _ _ _ (fun ω hω => by simp [StatMech.hoCv, hω]) fun ω hω => by
          rw [div_mul_eq_mul_div]; exact planck_heat k hT hω
      · rw [mul_comm, e5, mul_comm]
        exact key _ _ _ (fun ω hω => by simp [StatMech.hoF, hω]) fun ω hω => planck_free k hT hω

/-! ### Cubic polynomials -/

/-- A cubic polynomial plus a linear one that is smaller at `b` than at `a < b` and at `e > b` has one volume with slope zero and
positive curvature; it lies between `a` and `e`. -/
theorem cubic_minimum (c : Fin 4 → ℝ) (q : ℝ) {a b e : ℝ} (hab : a < b) (hbe : b < e)
    (h1 : value c b + q * b < value c a + q * a) (h2 : value c b + q * b < value c e + q * e) :
    (∃ V, deriv (value c) V = -q ∧ 0 < deriv (deriv (value c)) V) ∧
    ∀ V, deriv (value c) V = -q → 0 < deriv (deriv (value c)) V → a < V ∧ V < e := by
  have hv : value c = fun V => c 0 + c 1 * V + c 2 * V ^ 2 + c 3 * V ^ 3 := by
    funext V; simp [value, Fin.sum_univ_four]
  have hd : deriv (value c) = fun V => c 1 + 2 * c 2 * V + 3 * c 3 * V ^ 2 := by
    funext V
    rw [hv]
    have h : HasDerivAt (fun V => c 0 + c 1 * V + c 2 * V ^ 2 + c 3 * V ^ 3)
        (0 + c 1 * 1 + c 2 * (2 * V ^ 1 * 1) + c 3 * (3 * V ^ 2 * 1)) V := by
      refine (((hasDerivAt_const V (c 0)).add ((hasDerivAt_id V).const_mul (c 1))).add
        (((hasDerivAt_id V).pow 2).const_mul (c 2))).add (((hasDerivAt_id V).pow 3).const_mul (c 3)) |>.congr_deriv ?_
      simp
    rw [h.deriv]; ring
  have hdd : deriv (deriv (value c)) = fun V => 2 * c 2 + 6 * c 3 * V := by
    funext V
    rw [hd]
    have h : HasDerivAt (fun V => c 1 + 2 * c 2 * V + 3 * c 3 * V ^ 2)
        (0 + 2 * c 2 * 1 + 3 * c 3 * (2 * V ^ 1 * 1)) V := by
      refine ((hasDerivAt_const V (c 1)).add ((hasDerivAt_id V).const_mul (2 * c 2))).add
        (((hasDerivAt_id V).pow 2).const_mul (3 * c 3)) |>.congr_deriv ?_
      simp
    rw [h.deriv]; ring
  rw [hdd, hd]
  simp only
  simp only [hv] at h1 h2
  have hcont : ContinuousOn (fun V => c 0 + c 1 * V + c 2 * V ^ 2 + c 3 * V ^ 3 + q * V) (Set.Icc a e) := by fun_prop
  obtain ⟨V, hV, hmin⟩ := isCompact_Icc.exists_isMinOn ⟨a, le_rfl, (hab.trans hbe).le⟩ hcont
  have hle : ∀ W ∈ Set.Icc a e, c 0 + c 1 * V + c 2 * V ^ 2 + c 3 * V ^ 3 + q * V ≤
      c 0 + c 1 * W + c 2 * W ^ 2 + c 3 * W ^ 3 + q * W := fun W hW => hmin hW
  have hb := hle b ⟨hab.le, hbe.le⟩
  have haV : a < V := lt_of_le_of_ne hV.1 (by rintro rfl; linarith)
  have hVe : V < e := lt_of_le_of_ne hV.2 (by rintro rfl; linarith)
  have hder : c 1 + 2 * c 2 * V + 3 * c 3 * V ^ 2 = -q := by
    have hloc : IsLocalMin (fun V => c 0 + c 1 * V + c 2 * V ^ 2 + c 3 * V ^ 3 + q * V) V :=
      hmin.isLocalMin (Icc_mem_nhds haV hVe)
    have h0 := hloc.deriv_eq_zero
    have h : HasDerivAt (fun V => c 0 + c 1 * V + c 2 * V ^ 2 + c 3 * V ^ 3 + q * V)
        (0 + c 1 * 1 + c 2 * (2 * V ^ 1 * 1) + c 3 * (3 * V ^ 2 * 1) + q * 1) V := by
      refine ((((hasDerivAt_const V (c 0)).add ((hasDerivAt_id V).const_mul (c 1))).add
        (((hasDerivAt_id V).pow 2).const_mul (c 2))).add (((hasDerivAt_id V).pow 3).const_mul (c 3))).add
        ((hasDerivAt_id V).const_mul q) |>.congr_deriv ?_
      simp
    rw [h.deriv] at h0
    linarith
  have hcurv : 0 < 2 * c 2 + 6 * c 3 * V := by
    have k1 : 0 < (V - a) ^ 2 * ((2 * c 2 + 6 * c 3 * V) / 2 - c 3 * (V - a)) := by
      have : c 1 = -q - 2 * c 2 * V - 3 * c 3 * V ^ 2 := by linarith
      subst_vars
      rw [this] at h1 hb
      nlinarith
    have k2 : 0 < (e - V) ^ 2 * ((2 * c 2 + 6 * c 3 * V) / 2 + c 3 * (e - V)) := by
      have : c 1 = -q - 2 * c 2 * V - 3 * c 3 * V ^ 2 := by linarith
      rw [this] at h2 hb
      nlinarith
    have k3 := (mul_pos_iff_of_pos_left (by have := sub_pos.2 haV; positivity)).1 k1
    have k4 := (mul_pos_iff_of_pos_left (by have := sub_pos.2 hVe; positivity)).1 k2
    nlinarith
  refine ⟨⟨V, hder, hcurv⟩, fun W w1 w2 => ?_⟩
  have : W = V := by
    have h : (W - V) * ((2 * c 2 + 6 * c 3 * W + (2 * c 2 + 6 * c 3 * V)) / 2) = 0 := by linarith
    rcases mul_eq_zero.1 h with h | h
    · linarith
    · linarith
  rw [this]
  exact ⟨haV, hVe⟩

/-- A least-squares polynomial with as many coefficients as there are points goes through the points. -/
theorem least_squares_through {n : ℕ} {X Y : Fin (n + 1) → ℝ} {c : Fin (n + 1) → ℝ} (hX : Function.Injective X)
    (h : IsLeastSquares X Y c) (m : Fin (n + 1)) : value c (X m) = Y m := by
  obtain ⟨ext, hext⟩ := QHA.numerics_exists
  exact Poly.leastSquares_exact h (d := ext.polyfit X Y n) (fun l => (QHA.fit_through hext hX rfl Y l).symm) m

/-- **C148 (four volumes).**  With the default of polynomials of degree three and four different volumes of at most eight
decimals, the analysis succeeds whenever for every temperature and pressure one of the volumes has a smaller harmonic free
energy plus pressure times volume than a smaller and a larger one; the reported volume lies between these two. -/
theorem C148_four_volumes {nt np : ℕ} {k : Consts} {u : Choice} {s : QHA.Settings nt np} {volumes energies : List ℚ}
    {points : Fin 4 → List (ℚ × List ℚ)} {ha : HA.Results nt 4} {out : Except PyErr (Except QuasiError (QHA.Results nt np))}
    (h : Analysed k u s volumes energies points ha out) (hdeg : s.edeg = 3)
    (hdec : ∀ V ∈ volumes, ∃ m : ℤ, V = m / 10 ^ 8) (hdiff : volumes.Nodup) :
    let G := fun i j (n : Fin 4) =>
      ha.F i n * u.e.joule k + s.pressure j * u.p.pascal * ((volumes.getD n 0 : ℝ) * u.v.m3 k)
    let Between := fun i j (l m n : Fin 4) => volumes.getD l 0 < volumes.getD m 0 ∧ volumes.getD m 0 < volumes.getD n 0 ∧
      G i j m < G i j l ∧ G i j m < G i j n
    (∀ i j, ∃ l m n, Between i j l m n) →
      ∃ r, out = .ok (.ok r) ∧ ∀ i j l m n, Between i j l m n →
        volumes.getD l 0 < r.VT i j ∧ r.VT i j < volumes.getD n 0 := by
  intro G Between hall
  obtain ⟨X, c, hlen, hX, -, hfit, -, hok⟩ := h
  have hXv : ∀ n : Fin 4, X n = volumes.getD n 0 := by
    intro n
    have hn : (n : ℕ) < volumes.length := by rw [← hlen]; exact n.2
    obtain ⟨y, h1, h2⟩ := hX n _ (List.getElem?_eq_getElem hn)
    rw [h1, rounded_exact h2 (hdec _ (List.getElem_mem hn)), List.getD_eq_getElem?_getD, List.getElem?_eq_getElem hn]
    rfl
  have hinj : Function.Injective X := by
    intro a b hab
    have ha' : (a : ℕ) < volumes.length := by rw [← hlen]; exact a.2
    have hb' : (b : ℕ) < volumes.length := by rw [← hlen]; exact b.2
    rw [hXv, hXv, Rat.cast_inj] at hab
    simp only [List.getD_eq_getElem?_getD, List.getElem?_eq_getElem ha', List.getElem?_eq_getElem hb',
      Option.getD_some] at hab
    exact Fin.ext ((List.Nodup.getElem_inj_iff hdiff).1 hab)
  obtain ⟨c', hc'⟩ : ∃ c' : Fin nt → Fin 4 → ℝ, ∀ i, value (c i) = value (c' i) ∧ IsLeastSquares X (ha.F i) (c' i) := by
    have : ∀ (m : ℕ) (c : Fin nt → Fin (m + 1) → ℝ), m = 3 → (∀ i, IsLeastSquares X (ha.F i) (c i)) →
        ∃ c' : Fin nt → Fin 4 → ℝ, ∀ i, value (c i) = value (c' i) ∧ IsLeastSquares X (ha.F i) (c' i) := by
      rintro _ c rfl h
      exact ⟨c, fun i => ⟨rfl, h i⟩⟩
    exact this _ c hdeg hfit
  have hJ := QHA.joule_pos k u.e
  have hv := QHA.m3_pos k u.v
  have slope : ∀ i j V, Equilibrium k u (c i) (s.pressure j) V ↔
      deriv (value (c' i)) V = -(s.pressure j * u.p.pascal * u.v.m3 k / u.e.joule k) ∧ 0 < deriv (deriv (value (c' i))) V := by
    intro i j V
    rw [Equilibrium, (hc' i).1]
    refine and_congr_left fun _ => ?_
    rw [div_eq_iff hv.ne', ← eq_div_iff hJ.ne', neg_mul, neg_div]
  have key : ∀ i j l m n, Between i j l m n →
      (∃ V, Equilibrium k u (c i) (s.pressure j) V) ∧
      ∀ V, Equilibrium k u (c i) (s.pressure j) V → volumes.getD l 0 < V ∧ V < volumes.getD n 0 := by
    rintro i j l m n ⟨b1, b2, b3, b4⟩
    have thr : ∀ n : Fin 4, value (c' i) (volumes.getD n 0 : ℚ) = ha.F i n := fun n => by
      rw [← hXv]; exact least_squares_through hinj (hc' i).2 n
    have lift : ∀ n m : Fin 4, G i j n < G i j m →
        value (c' i) (volumes.getD n 0 : ℚ) + s.pressure j * u.p.pascal * u.v.m3 k / u.e.joule k * (volumes.getD n 0 : ℚ) <
        value (c' i) (volumes.getD m 0 : ℚ) + s.pressure j * u.p.pascal * u.v.m3 k / u.e.joule k * (volumes.getD m 0 : ℚ) := by
      intro n m h
      rw [thr, thr]
      have e : ∀ n : Fin 4, ha.F i n + s.pressure j * u.p.pascal * u.v.m3 k / u.e.joule k * (volumes.getD n 0 : ℚ) =
          G i j n / u.e.joule k := by
        intro n
        simp only [G]
        field_simp
      rw [e, e]
      exact div_lt_div_of_pos_right h hJ
    have := cubic_minimum (c' i) (s.pressure j * u.p.pascal * u.v.m3 k / u.e.joule k)
      (Rat.cast_lt.2 b1) (Rat.cast_lt.2 b2) (lift m l b3) (lift m n b4)
    refine ⟨?_, fun V hV => this.2 V ((slope i j V).1 hV).1 ((slope i j V).1 hV).2⟩
    obtain ⟨V, hV⟩ := this.1
    exact ⟨V, (slope i j V).2 hV⟩
  obtain ⟨r, hr, hall'⟩ := hok fun i j => by
    obtain ⟨l, m, n, hb⟩ := hall i j
    exact (key i j l m n hb).1
  exact ⟨r, hr, fun i j l m n hb => (key i j l m n hb).2 _ (hall' i j).1⟩

/-! ### From the outputs -/

/-- **C148 (zone centre).**  CRYSTAL outputs of one crystal at four or more volumes, with vibrations at the zone centre. -/
theorem C148_crystal {nt np : ℕ} (k : Consts) {ext : QHA.Ext} (hext : Numerics ext) {disk : Str → Option Str}
    {filename listing : Str} {files : List Str} (hl : disk filename = some listing) (hr : Listed (readlines listing) files)
    {os : List Vibrations}
    (ho : List.Forall₂ (fun f o => ∃ text, disk f = some text ∧ GammaOutput text o) files os)
    {n : ℕ} (hn : 0 < n) (hsame : ∀ o ∈ os, o.natom = n) {ref : ℕ} (href : ref < os.length) (h4 : 4 ≤ os.length)
    {job : Str} (hj : Phonon.Spec.Plain job) (outfile : Str) {s : QHA.Settings nt np} {u : Choice} (hu : u.Of s)
    (hm : s.minimization = .poly) (hk : s.kieffer = false) :
    ∃ fuel₀, ∀ fuel, fuel₀ ≤ fuel → ∃ st text doc,
      inpgen (crystalFiles fuel disk) ⟨[]⟩ filename outfile true ref c!"crystal" job =
        (st, .written (outfile ++ c!".yaml") text) ∧
      Denotes text doc ∧ (∀ doc', Denotes text doc' → doc' = doc) ∧
      ∃ res : Σ nv, HA.Results nt nv, harmonic k (harmonicSettings s) (.tree doc) = .ok (.ok res) ∧
        Analysed k u s (os.map fun o => o.volume) (os.map fun o => o.energy)
          (fun v => [(1, ((os[(v : ℕ)]?).map fun o => o.freqs).getD [])]) res.2 (quasiHarmonic k ext s (.tree doc)) := by
  obtain ⟨hcomp, hdec, hw, hvib, fuel₀, hfu⟩ := gamma_input (.inr ⟨rfl, listing, hl, hr⟩) ho hn hsame href hj outfile
  refine ⟨fuel₀, fun fuel hle => ?_⟩
  obtain ⟨st, text, doc, h1, h2, h3, h5⟩ := hfu fuel hle
  obtain ⟨res, r1, r2⟩ := C148_input k hext hcomp h5 hdec hw (by simpa [contentGamma] using h4) hu hm hk
  refine ⟨st, text, doc, h1, h2, h3, res, r1, ?_⟩
  obtain ⟨X, c, e, -⟩ := id r2
  have hp : (fun v : Fin res.1 => vibrationsAt (contentGamma n os) v) = fun v : Fin res.1 => [(1, ((os[(v : ℕ)]?).map fun o => o.freqs).getD [])] := by
    funext v
    have hv : (v : ℕ) < os.length := by
      have := v.2.trans_eq e; simpa [contentGamma] using this
    rw [hvib v _ (List.getElem?_eq_getElem hv), List.getElem?_eq_getElem hv]
    rfl
  rw [hp] at r2
  simpa only [contentGamma] using r2

/-- **C148 (dispersion).**  CRYSTAL outputs of phonon dispersions of one crystal at four or more volumes. -/
theorem C148_dispersion {nt np : ℕ} (k : Consts) {ext : QHA.Ext} (hext : Numerics ext) {disk : Str → Option Str}
    {filename listing : Str} {files : List Str} (hl : disk filename = some listing) (hr : Listed (readlines listing) files)
    {os : List Sampling}
    (ho : List.Forall₂ (fun f o => ∃ text, disk f = some text ∧ DispersionOutput text o) files os)
    {ref : ℕ} {r : Sampling} (href : os[ref]? = some r) (hn : 0 < r.natom)
    (hsame : ∀ o ∈ os, o.natom = r.natom ∧ o.points.length = r.points.length) (h4 : 4 ≤ os.length)
    {job : Str} (hj : Phonon.Spec.Plain job) (outfile : Str) (hw : (r.points.map fun p => p.1).sum ≠ 0)
    {s : QHA.Settings nt np} {u : Choice} (hu : u.Of s) (hm : s.minimization = .poly) (hk : s.kieffer = false) :
    ∃ fuel₀, ∀ fuel, fuel₀ ≤ fuel → ∃ st text doc,
      inpgen (crystalFiles fuel disk) ⟨[]⟩ filename outfile true ref c!"crystal" job =
        (st, .written (outfile ++ c!".yaml") text) ∧
      Denotes text doc ∧ (∀ doc', Denotes text doc' → doc' = doc) ∧
      ∃ res : Σ nv, HA.Results nt nv, harmonic k (harmonicSettings s) (.tree doc) = .ok (.ok res) ∧
        Analysed k u s (os.map fun o => o.volume) (os.map fun o => o.energy)
          (fun v => ((os[(v : ℕ)]?).map (pointsOf r)).getD []) res.2 (quasiHarmonic k ext s (.tree doc)) := by
  obtain ⟨hcomp, hdec, hw', hvib, fuel₀, hfu⟩ := dispersion_input (.inr ⟨rfl, listing, hl, hr⟩) ho href hn hsame hj outfile hw
  refine ⟨fuel₀, fun fuel hle => ?_⟩
  obtain ⟨st, text, doc, h1, h2, h3, h5⟩ := hfu fuel hle
  obtain ⟨res, r1, r2⟩ := C148_input k hext hcomp h5 hdec hw' (by simpa [contentSampling] using h4) hu hm hk
  refine ⟨st, text, doc, h1, h2, h3, res, r1, ?_⟩
  obtain ⟨X, c, e, -⟩ := id r2
  have hp : (fun v : Fin res.1 => vibrationsAt (contentSampling r os) v) = fun v : Fin res.1 => ((os[(v : ℕ)]?).map (pointsOf r)).getD [] := by
    funext v
    have hv : (v : ℕ) < os.length := by
      have := v.2.trans_eq e; simpa [contentSampling] using this
    rw [hvib v _ (List.getElem?_eq_getElem hv), List.getElem?_eq_getElem hv]
    rfl
  rw [hp] at r2
  simpa only [contentSampling] using r2

/-- **C148 (quasi-harmonic output).**  A CRYSTAL output of a quasi-harmonic calculation, on the unit cell or a supercell. -/
theorem C148_quasi_harmonic {nt np : ℕ} (k : Consts) {ext : QHA.Ext} (hext : Numerics ext) {disk : Str → Option Str}
    {filename text : Str} (hd : disk filename = some text) {x : Expanded} (ho : QuasiOutput text x) (hn : 0 < x.natom)
    (h4 : 4 ≤ x.volumes.length) {job : Str} (hj : Phonon.Spec.Plain job) (st : Phonon.State) (outfile : Str) (ref : ℤ)
    {s : QHA.Settings nt np} {u : Choice} (hu : u.Of s) (hm : s.minimization = .poly) (hk : s.kieffer = false) :
    ∃ text doc, inpgen (quasiFiles disk) st filename outfile false ref c!"crystal-qha" job =
        (st, .written (outfile ++ c!".yaml") text) ∧
      Denotes text doc ∧ (∀ doc', Denotes text doc' → doc' = doc) ∧
      ∃ res : Σ nv, HA.Results nt nv, harmonic k (harmonicSettings s) (.tree doc) = .ok (.ok res) ∧
        Analysed k u s x.volumes x.energies (fun v => pointsAt x v) res.2 (quasiHarmonic k ext s (.tree doc)) := by
  obtain ⟨E, hcomp, hdec, hw, hvib, text', doc, h1, h2, h3, h5⟩ := quasi_input hd ho hn hj st outfile ref
  obtain ⟨res, r1, r2⟩ := C148_input k hext hcomp h5 hdec hw h4 hu hm hk
  simp only [hvib] at r2
  exact ⟨text', doc, h1, h2, h3, res, r1, r2⟩

end Verif.Chain
