/-
Property C140: Maxwell's relation and the sign of the thermal expansion.
-/
import Verif.QHA.Temperature
import Verif.QHA.Zero
import Verif.StatMech.Frequency

namespace Verif.QHA
open Verif.Py Verif.Units Verif.HA Verif.QHA.Spec Verif.StatMech Verif.Poly.Spec

variable {nt np nb nf nv : ℕ} {k : Consts} {ext : Ext} {s : Settings nt np} {x : Input nb nf nv}
  {u : Choice} {r : Results nt np}

/-! ### Lemmas -/

/-- The slope at `V` of the fit is a linear function of the data. -/
theorem fit_slope_linear (hext : Numerics ext) {X : Fin nv → ℝ} (hinj : Function.Injective X) {d : ℕ} (hdeg : d + 1 ≤ nv)
    (V : ℝ) (Y : Fin nv → ℝ) :
    deriv (value (ext.polyfit X Y d)) V = ∑ n, Y n * deriv (value (ext.polyfit X (Pi.single n 1) d)) V := by
  have e : value (ext.polyfit X Y d) = fun v => ∑ n, Y n * value (ext.polyfit X (Pi.single n 1) d) v :=
    funext fun v => fit_linear hext hinj hdeg v Y
  have h : HasDerivAt (fun v => ∑ n, Y n * value (ext.polyfit X (Pi.single n 1) d) v)
      (∑ n, Y n * deriv (value (ext.polyfit X (Pi.single n 1) d)) V) V :=
    HasDerivAt.fun_sum fun n _ => ((value_differentiable _).1 V).hasDerivAt.const_mul _
  rw [e, h.deriv]

/-- Differentiability gives an exact mean value, also for equal or decreasing arguments. -/
theorem mean_value_uIcc {f : ℝ → ℝ} (hf : Differentiable ℝ f) (a b : ℝ) :
    ∃ η ∈ Set.uIcc a b, f b - f a = deriv f η * (b - a) := by
  rcases lt_trichotomy a b with h | rfl | h
  · obtain ⟨η, hη, e⟩ := exists_deriv_eq_slope f h hf.continuous.continuousOn hf.differentiableOn
    rw [eq_div_iff (by linarith)] at e
    exact ⟨η, by rw [Set.uIcc_of_le h.le]; exact ⟨hη.1.le, hη.2.le⟩, e.symm⟩
  · exact ⟨a, Set.left_mem_uIcc, by ring⟩
  · obtain ⟨η, hη, e⟩ := exists_deriv_eq_slope f h hf.continuous.continuousOn hf.differentiableOn
    rw [eq_div_iff (by linarith)] at e
    exact ⟨η, by rw [Set.uIcc_of_ge h.le]; exact ⟨hη.1.le, hη.2.le⟩, by linarith⟩

/-- A polynomial with three coefficients or fewer. -/
theorem quadratic_form {n : ℕ} (hn : n ≤ 3) (c : Fin n → ℝ) : ∃ a b d : ℝ, (∀ v, value c v = a + b * v + d * v ^ 2) ∧
    (∀ v, deriv (value c) v = b + 2 * d * v) ∧ ∀ v, deriv (deriv (value c)) v = 2 * d := by
  have key : ∃ a b d : ℝ, ∀ v, value c v = a + b * v + d * v ^ 2 := by
    rw [value_polyval]
    generalize hl : List.ofFn c = l
    have hlen : l.length ≤ 3 := by rw [← hl, List.length_ofFn]; exact hn
    match l, hlen with
    | [], _ => exact ⟨0, 0, 0, fun v => by simp⟩
    | [a], _ => exact ⟨a, 0, 0, fun v => by simp⟩
    | [a, b], _ => exact ⟨a, b, 0, fun v => by simp [mul_comm]⟩
    | [a, b, d], _ => exact ⟨a, b, d, fun v => by simp; ring⟩
  obtain ⟨a, b, d, h⟩ := key
  have h1 : ∀ v, HasDerivAt (value c) (b + 2 * d * v) v := by
    intro v
    rw [funext h]
    refine ((((hasDerivAt_id v).const_mul b).const_add a).add (((hasDerivAt_id v).pow 2).const_mul d)).congr_deriv ?_
    simp
    ring
  have h2 : deriv (value c) = fun v => b + 2 * d * v := funext fun v => (h1 v).deriv
  refine ⟨a, b, d, h, fun v => (h1 v).deriv, fun v => ?_⟩
  rw [h2]
  have : HasDerivAt (fun v : ℝ => b + 2 * d * v) (2 * d * 1) v := ((hasDerivAt_id v).const_mul (2 * d)).const_add b
  rw [this.deriv, mul_one]

theorem quadratic_curvature {n : ℕ} (hn : n ≤ 3) (c : Fin n → ℝ) (v w : ℝ) :
    deriv (deriv (value c)) v = deriv (deriv (value c)) w := by
  obtain ⟨a, b, d, -, -, h⟩ := quadratic_form hn c
  rw [h, h]

/-- The slope of a parabola half way between two points is that of the secant. -/
theorem quadratic_secant {n : ℕ} (hn : n ≤ 3) (c : Fin n → ℝ) (p q : ℝ) :
    deriv (value c) ((p + q) / 2) * (q - p) = value c q - value c p := by
  obtain ⟨a, b, d, h, h', -⟩ := quadratic_form hn c
  rw [h, h, h']
  ring

/-- The slope of a parabola between two points of positive slope is positive. -/
theorem quadratic_slope_between {n : ℕ} (hn : n ≤ 3) (c : Fin n → ℝ) {p q v : ℝ} (hp : 0 < deriv (value c) p)
    (hq : 0 < deriv (value c) q) (hv : v ∈ Set.Icc p q) : 0 < deriv (value c) v := by
  obtain ⟨a, b, d, -, h, -⟩ := quadratic_form hn c
  rw [h] at hp hq ⊢
  rcases le_total 0 d with hd | hd
  · nlinarith [mul_nonneg hd (sub_nonneg.2 hv.1)]
  · nlinarith [mul_nonneg (neg_nonneg.2 hd) (sub_nonneg.2 hv.2)]

/-- A fit with as many coefficients as points passes through the points. -/
theorem fit_interpolates (hext : Numerics ext) {X : Fin nv → ℝ} (hinj : Function.Injective X) {d : ℕ} (hdeg : d + 1 = nv)
    (Y : Fin nv → ℝ) (n : Fin nv) : value (ext.polyfit X Y d) (X n) = Y n := by
  subst hdeg
  let L : (Fin (d + 1) → ℝ) →ₗ[ℝ] (Fin (d + 1) → ℝ) :=
    { toFun := fun c n => value c (X n)
      map_add' := fun a b => funext fun n => by simp [value, add_mul, Finset.sum_add_distrib]
      map_smul' := fun a b => funext fun n => by simp [value, mul_assoc, Finset.mul_sum] }
  have hL : Function.Injective L := fun a b h => Poly.value_injective hinj le_rfl fun n => congrFun h n
  obtain ⟨c, hc⟩ := (LinearMap.injective_iff_surjective.1 hL) Y
  have hd : ∀ n, Y n = value c (X n) := fun n => (congrFun hc n).symm
  rw [Poly.leastSquares_exact (hext.fit _ _ _) hd n, hd n]

theorem hertz_pos (k : Consts) (f : FrequencyUnit) : 0 < f.hertz k := by
  have := k.c_pos
  cases f <;> simp only [FrequencyUnit.hertz] <;> positivity

/-- Softer modes have strictly more entropy. -/
theorem hoS_strictAnti (k : Consts) {T ω ω' : ℝ} (hT : 0 < T) (h : 0 < ω) (hlt : ω < ω') : hoS k T ω' < hoS k T ω := by
  have hd : ∀ o ∈ Set.Ioi (0 : ℝ), HasDerivAt (fun o => hoS k T o) (-hoCv k T o / o) o :=
    fun o ho => hasDerivAt_hoS_freq k hT ho
  refine strictAntiOn_of_deriv_neg (f := fun o => hoS k T o) (convex_Ioi 0)
    (fun o ho => (hd o ho).continuousAt.continuousWithinAt) (fun o ho => ?_) h (h.trans hlt) hlt
  rw [interior_Ioi] at ho
  rw [(hd o ho).deriv, hoCv_pos k hT.ne' ho]
  have ho' : 0 < o := ho
  have hN := k.N_pos
  have hk := k.kB_pos
  have he : 0 < einstein k o := einstein_pos k ho'
  have : 0 < Real.exp (einstein k o / T) - 1 := by
    have := Real.add_one_lt_exp (show einstein k o / T ≠ 0 by positivity)
    have : 0 < einstein k o / T := by positivity
    linarith
  rw [neg_div]
  exact neg_neg_of_pos (by positivity)

/-! ### C140 -/

/-- C140 (Maxwell): at each pressure, between two temperatures of the grid, the first of which may be absolute zero, the
volume changes as the dependence of the entropy on volume says: for some temperature between the two and some volume between
the two volumes, curvature of the free energy at the higher temperature times change of volume is slope of the entropy at
the initial volume times change of temperature.  (Entropies are exported in thousandths of the unit of energy.)  It is the
finite form of `-(∂P/∂V) dV = (∂S/∂V) dT`, and holds for both interpolation schemes. -/
theorem C140_maxwell (hext : Numerics ext) (hu : u.Of s) (hmin : s.minimization = .poly)
    (hinj : Function.Injective x.volume) (hdeg : s.edeg + 1 ≤ nv) (hrun : run k ext s x = .ok r)
    {h : ℝ → HA.Results 1 nv} (hh : ∀ t, HA.run k (atKelvin s t) x.toInput = .ok (h t)) (i l : Fin nt) (j : Fin np)
    {T : Fin nt → ℝ} (hT : ∀ i, T i = u.t.kelvin (s.temperature i)) (h0 : 0 ≤ T i) (hil : T i < T l)
    {F S : ℝ → ℝ → ℝ} (hF : ∀ t, F t = value (ext.polyfit x.volume ((h t).F 0) s.edeg))
    (hS : ∀ t, S t = value (ext.polyfit x.volume ((h t).S 0) s.edeg)) :
    ∃ ξ ∈ Set.Ioo (T i) (T l), ∃ V ∈ Set.uIcc (r.VT i j) (r.VT l j),
      deriv (deriv (F (T l))) V * (r.VT l j - r.VT i j) = deriv (S ξ) (r.VT i j) * (T l - T i) / 1000 := by
  obtain ⟨ha, hha, -⟩ := harmonic_run hu x (k := k)
  have row : ∀ m, ha.F m = (h (T m)).F 0 := fun m => (harmonic_row hu hha m (by rw [← hT]; exact hh _)).1
  have hj := joule_pos k u.e
  have hv := m3_pos k u.v
  have slope : ∀ m, deriv (F (T m)) (r.VT m j) = -(s.pressure j * u.p.pascal * u.v.m3 k / u.e.joule k) := by
    intro m
    have h1 := (C20_equilibrium_volume hext hu hmin hrun hha m j).2.1
    rw [row, ← hF] at h1
    have : deriv (F (T m)) (r.VT m j) = deriv (F (T m)) (r.VT m j) * u.e.joule k / u.v.m3 k * u.v.m3 k / u.e.joule k := by
      field_simp
    rw [this, h1]
    ring
  obtain ⟨ξ, hξ, e1⟩ := free_mean_value hu hh
    (fun n => deriv (value (ext.polyfit x.volume (Pi.single n 1) s.edeg)) (r.VT i j)) h0 hil
  rw [← fit_slope_linear hext hinj hdeg, ← fit_slope_linear hext hinj hdeg, ← fit_slope_linear hext hinj hdeg, ← hF, ← hF,
    ← hS, slope i] at e1
  have hd : Differentiable ℝ (deriv (F (T l))) := by rw [hF]; exact (value_differentiable _).2.1
  obtain ⟨V, hV, e2⟩ := mean_value_uIcc hd (r.VT i j) (r.VT l j)
  exact ⟨ξ, hξ, V, hV, by rw [← e2, slope l, ← e1]⟩

/-- C140: a crystal whose entropy grows with volume expands on heating, one whose entropy falls with volume contracts, and one
whose entropy does not depend on volume keeps its volume; for free energies that are convex between the two volumes, as
parabolas with a minimum always are. -/
theorem C140_expands (hext : Numerics ext) (hu : u.Of s) (hmin : s.minimization = .poly)
    (hinj : Function.Injective x.volume) (hdeg : s.edeg + 1 ≤ nv) (hrun : run k ext s x = .ok r)
    {h : ℝ → HA.Results 1 nv} (hh : ∀ t, HA.run k (atKelvin s t) x.toInput = .ok (h t)) (i l : Fin nt) (j : Fin np)
    {T : Fin nt → ℝ} (hT : ∀ i, T i = u.t.kelvin (s.temperature i)) (h0 : 0 ≤ T i) (hil : T i < T l)
    {F S : ℝ → ℝ → ℝ} (hF : ∀ t, F t = value (ext.polyfit x.volume ((h t).F 0) s.edeg))
    (hS : ∀ t, S t = value (ext.polyfit x.volume ((h t).S 0) s.edeg))
    (hc : s.edeg ≤ 2 ∨ ∀ V ∈ Set.uIcc (r.VT i j) (r.VT l j), 0 < deriv (deriv (F (T l))) V) :
    ((∀ t ∈ Set.Ioo (T i) (T l), 0 < deriv (S t) (r.VT i j)) → r.VT i j < r.VT l j) ∧
    ((∀ t ∈ Set.Ioo (T i) (T l), deriv (S t) (r.VT i j) < 0) → r.VT l j < r.VT i j) ∧
    ((∀ t ∈ Set.Ioo (T i) (T l), deriv (S t) (r.VT i j) = 0) → r.VT l j = r.VT i j) := by
  obtain ⟨ξ, hξ, V, hV, e⟩ := C140_maxwell hext hu hmin hinj hdeg hrun hh i l j hT h0 hil hF hS
  have hc' : 0 < deriv (deriv (F (T l))) V := by
    rcases hc with hd | hc
    · obtain ⟨ha, hha, -⟩ := harmonic_run hu x (k := k)
      have h1 := (C20_equilibrium_volume hext hu hmin hrun hha l j).2.2.1
      rw [(harmonic_row hu hha l (by rw [← hT]; exact hh _)).1, ← hF] at h1
      have := quadratic_curvature (n := s.edeg + 1) (by omega) (ext.polyfit x.volume ((h (T l)).F 0) s.edeg)
      rw [← hF] at this
      rwa [this V (r.VT l j)]
    · exact hc V hV
  have hp : 0 < T l - T i := by linarith
  refine ⟨fun h => ?_, fun h => ?_, fun h => ?_⟩
  · have h1 : 0 < deriv (deriv (F (T l))) V * (r.VT l j - r.VT i j) := by
      rw [e]; have := h ξ hξ; positivity
    have := pos_of_mul_pos_right h1 hc'.le
    linarith
  · have h1 : deriv (deriv (F (T l))) V * (r.VT l j - r.VT i j) < 0 := by
      rw [e]
      have := mul_neg_of_neg_of_pos (h ξ hξ) hp
      linarith
    have := neg_of_mul_neg_right h1 hc'.le
    linarith
  · rw [h ξ hξ, zero_mul, zero_div, mul_eq_zero] at e
    rcases e with e | e <;> linarith

/-- C140, from the raw input: with three increasing volumes and parabolas, a crystal whose frequencies all fall with volume
expands on heating, from absolute zero on, as long as its volume is between the midpoints of the three.  Every mode has a
positive frequency, and the weights of the wave vectors are positive. -/
theorem C140_softening {x : Input nb nf 3} (hext : Numerics ext) (hu : u.Of s) (hmin : s.minimization = .poly)
    (hdeg : s.edeg = 2) (hV : x.volume 0 < x.volume 1 ∧ x.volume 1 < x.volume 2) (hnb : 0 < nb) (hnf : 0 < nf)
    (hw : ∀ q, 0 < x.weights q)
    (hf : ∀ q b, 0 < x.freq q b 2 ∧ x.freq q b 2 < x.freq q b 1 ∧ x.freq q b 1 < x.freq q b 0)
    (hrun : run k ext s x = .ok r) (i l : Fin nt) (j : Fin np)
    (hi : (x.volume 0 + x.volume 1) / 2 ≤ r.VT i j ∧ r.VT i j ≤ (x.volume 1 + x.volume 2) / 2)
    (h0 : 0 ≤ u.t.kelvin (s.temperature i)) (hil : u.t.kelvin (s.temperature i) < u.t.kelvin (s.temperature l)) :
    r.VT i j < r.VT l j := by
  have hinj : Function.Injective x.volume := by
    intro a b hab
    obtain ⟨h1, h2⟩ := hV
    fin_cases a <;> fin_cases b <;> first | rfl | (simp at hab; linarith)
  choose h hh using at_exists (k := k) hu x
  refine (C140_expands hext hu hmin hinj (by omega) hrun hh i l j (T := fun i => u.t.kelvin (s.temperature i)) (fun _ => rfl)
    h0 hil (fun _ => rfl) (fun _ => rfl) (Or.inl hdeg.le)).1 fun t ht => ?_
  have ht0 : 0 < t := h0.trans_lt ht.1
  have hS := fun n => (harmonic_at hu (hh t)).2.1 n
  have hmono : ∀ a b : Fin 3, (∀ q m, 0 < x.freq q m b ∧ x.freq q m b < x.freq q m a) → (h t).S 0 a < (h t).S 0 b := by
    intro a b hab
    rw [hS, hS]
    have hj := joule_pos k u.e
    have hN := k.N_pos
    refine div_lt_div_of_pos_right (mul_lt_mul_of_pos_right ?_ (by positivity)) hj
    simp only [atTemp, entropy, kernel_eq]
    have : Nonempty (Fin nb) := ⟨⟨0, hnb⟩⟩
    have : Nonempty (Fin nf) := ⟨⟨0, hnf⟩⟩
    have hsum : 0 < ∑ q, x.weights q := Finset.sum_pos (fun q _ => hw q) Finset.univ_nonempty
    refine Finset.sum_lt_sum_of_nonempty Finset.univ_nonempty fun q _ =>
      Finset.sum_lt_sum_of_nonempty Finset.univ_nonempty fun m _ => mul_lt_mul_of_pos_right ?_ (div_pos (hw q) hsum)
    have hz := hertz_pos k u.f
    exact hoS_strictAnti k ht0 (mul_pos (hab q m).1 hz) (mul_lt_mul_of_pos_right (hab q m).2 hz)
  have hfit := fit_interpolates hext hinj (d := s.edeg) (by omega) ((h t).S 0)
  have sec := quadratic_secant (n := s.edeg + 1) (by omega) (ext.polyfit x.volume ((h t).S 0) s.edeg)
  have s1 := sec (x.volume 0) (x.volume 1)
  have s2 := sec (x.volume 1) (x.volume 2)
  rw [hfit, hfit] at s1 s2
  have m1 := hmono 0 1 fun q m => ⟨(hf q m).1.trans (hf q m).2.1, (hf q m).2.2⟩
  have m2 := hmono 1 2 fun q m => ⟨(hf q m).1, (hf q m).2.1⟩
  refine quadratic_slope_between (n := s.edeg + 1) (by omega) _ ?_ ?_ hi
  · exact pos_of_mul_pos_left (by rw [s1]; linarith) (sub_nonneg.2 hV.1.le)
  · exact pos_of_mul_pos_left (by rw [s2]; linarith) (sub_nonneg.2 hV.2.le)

/-- C140: where the crystal expands to the next temperature of a grid of at least 50, the thermal expansion coefficient is
positive; so is then the Grüneisen parameter, the isobaric heat capacity exceeds the isochoric and the adiabatic bulk modulus
the isothermal. -/
theorem C140_signs (hu : u.Of s) (hrun : run k ext s x = .ok r) (hn : 50 ≤ nt) (i i' : Fin nt) (hi : i'.val = i.val + 1)
    (j : Fin np) (hT : 0 < u.t.kelvin (s.temperature i))
    (hT' : u.t.kelvin (s.temperature i) < u.t.kelvin (s.temperature i')) (hV : 0 < r.VT i j) (hlt : r.VT i j < r.VT i' j)
    (hC : 0 < r.Cv i j) (hK : 0 < r.KT i j) :
    0 < r.alphaV i j ∧ 0 < r.gruneisen i j ∧ r.Cv i j < r.Cp i j ∧ r.KT i j < r.KS i j := by
  have ha : 0 < r.alphaV i j := by
    rw [(C19_quotients hu hrun hn i j).1 i' hi]
    exact div_pos (div_pos (by linarith) (by linarith)) hV
  obtain ⟨h1, h2, h3⟩ := C16_relations_partial hu hrun hn i j hC.ne'
  have hg : 0 < r.gruneisen i j := by
    obtain ⟨ha', hha'⟩ := harmonic_exists k hu x
    obtain ⟨m, r0, hm, hf, hK', -⟩ := run_data hu hrun hha'
    obtain ⟨-, -, -, -, -, -, h7⟩ := finalize_long hu hn hf
    have e := h7 i j (by rw [← hK'.Cv]; exact hC.ne')
    rw [← hK'.Cv, ← hK'.KT, ← hK'.VT] at e
    rw [e]
    have hj := joule_pos k u.e
    have hp := pascal_pos u.p
    have hm3 := m3_pos k u.v
    positivity
  have hp : 0 < r.alphaV i j * r.gruneisen i j * u.t.kelvin (s.temperature i) := by positivity
  refine ⟨ha, hg, ?_, ?_⟩
  · rw [h3]; nlinarith
  · rw [h2]; nlinarith

/-! ### Witness: a crystal that expands -/

/-- Three volumes, a parabola of curvature `2 A`, and one mode whose frequency falls with volume. -/
noncomputable def exSoft (A : ℝ) : Input 1 1 3 :=
  { U0 := fun n => A * ((n.val : ℝ) - 1) ^ 2, freq := fun _ _ n => 300 - 100 * n.val, weights := fun _ => 1,
    volume := fun n => n.val + 1 }

theorem exSoft_injective (A : ℝ) : Function.Injective (exSoft A).volume := exInput_injective

/-- If the crystal is stiff enough, the run succeeds and the volumes are between the midpoints. -/
theorem exSoft_run (k : Consts) (hext : Numerics ext) (sc : Scheme) (T : Fin nt → ℝ) :
    ∃ A r, run k ext (exAt sc T) (exSoft A) = .ok r ∧ ∀ i j, 3 / 2 ≤ r.VT i j ∧ r.VT i j ≤ 5 / 2 := by
  obtain ⟨h0, hh0, hF0, -⟩ := harmonic_run (exAt_of sc T) (exSoft 0) (k := k)
  set A : ℝ := 1 + ∑ i, ∑ n, |h0.F i n| with hA
  obtain ⟨ha, hha, hF, -⟩ := harmonic_run (exAt_of sc T) (exSoft A) (k := k)
  have key : ∀ i n, ha.F i n = A * ((n.val : ℝ) - 1) ^ 2 + h0.F i n := by
    intro i n
    rw [hF, hF0]
    simp [freeEnergy, exSoft]
  have hb : ∀ i, |h0.F i 0| + |h0.F i 1| + |h0.F i 2| < A := by
    intro i
    have h1 : ∑ n, |h0.F i n| ≤ ∑ i, ∑ n, |h0.F i n| :=
      Finset.single_le_sum (f := fun i => ∑ n, |h0.F i n|) (fun i _ => Finset.sum_nonneg fun n _ => abs_nonneg _)
        (Finset.mem_univ i)
    rw [Fin.sum_univ_three] at h1
    linarith
  have hdiff : ∀ i, -A < h0.F i 1 - h0.F i 0 ∧ h0.F i 1 - h0.F i 0 < A ∧ -A < h0.F i 2 - h0.F i 1 ∧
      h0.F i 2 - h0.F i 1 < A := by
    intro i
    have := hb i
    have a0 := abs_le.1 (le_refl |h0.F i 0|)
    have a1 := abs_le.1 (le_refl |h0.F i 1|)
    have a2 := abs_le.1 (le_refl |h0.F i 2|)
    have p0 := abs_nonneg (h0.F i 0)
    have p1 := abs_nonneg (h0.F i 1)
    have p2 := abs_nonneg (h0.F i 2)
    refine ⟨?_, ?_, ?_, ?_⟩ <;> linarith [a0.1, a0.2, a1.1, a1.2, a2.1, a2.2]
  have slopes : ∀ i, deriv (value (ext.polyfit (exSoft A).volume (ha.F i) 2)) (3 / 2) < 0 ∧
      0 < deriv (value (ext.polyfit (exSoft A).volume (ha.F i) 2)) (5 / 2) := by
    intro i
    have hfit := fit_interpolates hext (exSoft_injective A) (d := 2) rfl (ha.F i)
    have sec := quadratic_secant (n := 3) le_rfl (ext.polyfit (exSoft A).volume (ha.F i) 2)
    have s1 := sec ((exSoft A).volume 0) ((exSoft A).volume 1)
    have s2 := sec ((exSoft A).volume 1) ((exSoft A).volume 2)
    rw [hfit, hfit, key, key] at s1 s2
    obtain ⟨d1, d2, d3, d4⟩ := hdiff i
    have e0 : (exSoft A).volume 0 = 1 := by simp [exSoft]
    have e1 : (exSoft A).volume 1 = 2 := by simp [exSoft]; norm_num
    have e2 : (exSoft A).volume 2 = 3 := by simp [exSoft]; norm_num
    rw [e0, e1] at s1
    rw [e1, e2] at s2
    norm_num at s1 s2
    exact ⟨by rw [s1]; linarith, by rw [s2]; linarith⟩
  have hu := exAt_of sc T
  have hok : ∃ r, run k ext (exAt sc T) (exSoft A) = .ok r := by
    refine (C20_run_succeeds_iff hext hu rfl rfl hha).1 fun i j => ?_
    obtain ⟨a, b, d, -, h1, h2⟩ := quadratic_form (n := 3) le_rfl (ext.polyfit (exSoft A).volume (ha.F i) 2)
    obtain ⟨l1, l2⟩ := slopes i
    rw [h1] at l1 l2
    have hd : 0 < d := by linarith
    refine ⟨-b / (2 * d), ?_, ?_⟩
    · show deriv (value (ext.polyfit (exSoft A).volume _ 2)) _ * _ / _ = -(0 * _)
      rw [h1]
      have : b + 2 * d * (-b / (2 * d)) = 0 := by field_simp; ring
      rw [this]
      ring
    · show 0 < deriv (deriv (value (ext.polyfit (exSoft A).volume _ 2))) _
      rw [h2]
      linarith
  obtain ⟨r, hr⟩ := hok
  refine ⟨A, r, hr, fun i j => ?_⟩
  have h := (C20_equilibrium_volume hext hu rfl hr hha i j).2.1
  change deriv (value (ext.polyfit (exSoft A).volume _ 2)) _ * _ / _ = -(0 * _) at h
  have hj := (joule_pos k exUnits.e).ne'
  have hv := (m3_pos k exUnits.v).ne'
  rw [zero_mul, neg_zero, div_eq_zero_iff, mul_eq_zero] at h
  have h := (h.resolve_right hv).resolve_right hj
  obtain ⟨a, b, d, -, h1, h2⟩ := quadratic_form (n := 3) le_rfl (ext.polyfit (exSoft A).volume (ha.F i) 2)
  obtain ⟨l1, l2⟩ := slopes i
  rw [h1] at l1 l2 h
  have hd : 0 < d := by linarith
  exact ⟨by nlinarith, by nlinarith⟩

theorem exSoft_expands {A : ℝ} {sc : Scheme} {T : Fin nt → ℝ} {r : Results nt 1} (hext : Numerics ext)
    (hr : run k ext (exAt sc T) (exSoft A) = .ok r) (hV : ∀ i j, 3 / 2 ≤ r.VT i j ∧ r.VT i j ≤ 5 / 2) (i l : Fin nt)
    (h0 : 0 ≤ T i) (hil : T i < T l) : r.VT i 0 < r.VT l 0 := by
  refine C140_softening hext (exAt_of sc T) rfl rfl ?_ one_pos one_pos (fun q => ?_) (fun q b => ?_) hr i l 0 ?_ h0 hil
  · simp [exSoft]
  · simp [exSoft]
  · simp [exSoft]; norm_num
  · have := hV i 0
    simp [exSoft]
    constructor <;> linarith

/-- A crystal that expands from 0 K on, in both schemes: `C140_softening` applies to a run with distinct volumes. -/
example (k : Consts) (sc : Scheme) : ∃ (ext : Ext) (A : ℝ) (r : Results 60 1), Numerics ext ∧
    run k ext (exAt sc fun i => i.val) (exSoft A) = .ok r ∧ ∀ i l : Fin 60, i < l → r.VT i 0 < r.VT l 0 := by
  obtain ⟨ext, hext⟩ := numerics_exists
  obtain ⟨A, r, hr, hV⟩ := exSoft_run (nt := 60) k hext sc fun i => i.val
  refine ⟨ext, A, r, hext, hr, fun i l hil => exSoft_expands hext hr hV i l (Nat.cast_nonneg _) ?_⟩
  exact_mod_cast hil

/-- `C140_maxwell` for that crystal, from 0 K to 1 K. -/
example (k : Consts) : ∃ (ext : Ext) (A : ℝ) (r : Results 60 1) (h : ℝ → HA.Results 1 3), Numerics ext ∧
    run k ext (exAt .td fun i => i.val) (exSoft A) = .ok r ∧ r.VT 0 0 < r.VT 1 0 ∧
    ∃ ξ ∈ Set.Ioo (0 : ℝ) 1, ∃ V ∈ Set.uIcc (r.VT 0 0) (r.VT 1 0),
      deriv (deriv (value (ext.polyfit (exSoft A).volume ((h 1).F 0) 2))) V * (r.VT 1 0 - r.VT 0 0) =
        deriv (value (ext.polyfit (exSoft A).volume ((h ξ).S 0) 2)) (r.VT 0 0) * (1 - 0) / 1000 := by
  obtain ⟨ext, hext⟩ := numerics_exists
  obtain ⟨A, r, hr, hV⟩ := exSoft_run (nt := 60) k hext .td fun i => i.val
  have hu := exAt_of (nt := 60) .td fun i => i.val
  choose h hh using at_exists (k := k) hu (exSoft A)
  have := C140_maxwell hext hu rfl (exSoft_injective A) (le_refl 3) hr hh 0 1 0 (T := fun i => i.val)
    (fun i => rfl) (by simp) (by simp) (fun _ => rfl) (fun _ => rfl)
  simp only [Fin.val_zero, Fin.val_one, Nat.cast_zero, Nat.cast_one] at this
  exact ⟨ext, A, r, h, hext, hr, exSoft_expands hext hr hV 0 1 (by simp) (by simp), this⟩

/-- All the hypotheses of `C140_signs` hold for that crystal on 60 temperatures that are high enough. -/
example (k : Consts) : ∃ (ext : Ext) (A T₀ : ℝ) (r : Results 60 1), Numerics ext ∧
    run k ext (exAt .td fun i => T₀ + i.val) (exSoft A) = .ok r ∧ ∀ i : Fin 60, i.val < 59 →
      0 < r.alphaV i 0 ∧ 0 < r.gruneisen i 0 ∧ r.Cv i 0 < r.Cp i 0 ∧ r.KT i 0 < r.KS i 0 := by
  obtain ⟨ext, hext⟩ := numerics_exists
  set band : Fin 1 → Fin 1 → Fin 3 → ℝ := fun _ _ n => (300 - 100 * n.val) * exUnits.f.hertz k with hband
  have hN := k.N_pos
  have hk := k.kB_pos
  have hz := hertz_pos k exUnits.f
  have hbp : ∀ n q b, 0 < band q b n := by
    intro n q b
    refine mul_pos ?_ hz
    have : (n.val : ℝ) ≤ 2 := by exact_mod_cast Nat.le_of_lt_succ n.2
    linarith
  have hlim : ∀ n, ∀ᶠ t in Filter.atTop, k.N * k.kB / 2 < atTemp (isochoricHeatCapacity k) band (fun _ => 1) n t := by
    intro n
    have := C10_high_temperature k band (fun _ => 1) n fun q b => hbp n q b
    refine this.eventually_const_lt ?_
    simp
    nlinarith [mul_pos hN hk]
  obtain ⟨T₁, hT⟩ := Filter.eventually_atTop.1 (Filter.eventually_all.2 hlim)
  set T : Fin 60 → ℝ := fun i => max T₁ 1 + i.val with hTdef
  have hT1 : ∀ i, T₁ ≤ T i ∧ 0 < T i := fun i => by
    have : (0 : ℝ) ≤ i.val := Nat.cast_nonneg _
    have := le_max_left T₁ 1
    have := le_max_right T₁ 1
    exact ⟨by simp only [hTdef]; linarith, by simp only [hTdef]; linarith⟩
  obtain ⟨A, r, hr, hV⟩ := exSoft_run (nt := 60) k hext .td T
  have hu := exAt_of .td T
  refine ⟨ext, A, max T₁ 1, r, hext, hr, fun i hi => ?_⟩
  obtain ⟨ha, hha, -, -, -, -, -, hC, -⟩ := harmonic_run hu (exSoft A) (k := k)
  have hw : usedWeights (exSoft A).weights = fun _ => 1 := by
    funext q
    simp [usedWeights, totalQPoints, exSoft]
  have hj := joule_pos k exUnits.e
  have hc : ∀ n, k.kB / exUnits.e.joule k * 500 < ha.Cv i n ∧ ha.Cv i n ≤ k.kB / exUnits.e.joule k * 1000 := by
    intro n
    have h1 := hT _ (hT1 i).1 n
    have h2 := (C09_bounds k (fun _ : Fin 1 => T i) band (fun _ => 1) (fun _ => zero_le_one) 0 (hT1 i).2.le n).2.2.2.2.2.1
    have e : ha.Cv i n = atTemp (isochoricHeatCapacity k) band (fun _ => 1) n (T i) * (1000 / k.N) / exUnits.e.joule k := by
      rw [hC, hw]
      simp only [atTemp, isochoricHeatCapacity, kernel_eq]
      rfl
    have h2 : atTemp (isochoricHeatCapacity k) band (fun _ => 1) n (T i) ≤ k.N * k.kB := by
      simpa [atTemp] using h2
    rw [e]
    constructor
    · calc k.kB / exUnits.e.joule k * 500 = k.N * k.kB / 2 * (1000 / k.N) / exUnits.e.joule k := by field_simp; norm_num
        _ < _ := by gcongr
    · calc _ ≤ k.N * k.kB * (1000 / k.N) / exUnits.e.joule k := by gcongr
        _ = _ := by field_simp
  have hCv : 0 < r.Cv i 0 := by
    rw [(C68_td_interpolates hu hr rfl hha i 0).2.2.2.2.1]
    show 0 < value (ext.polyfit (exSoft A).volume (ha.Cv i) 2) _
    have hfit := fit_interpolates hext (exSoft_injective A) (d := 2) rfl (ha.Cv i)
    obtain ⟨a, b, d, h, -⟩ := quadratic_form (n := 3) le_rfl (ext.polyfit (exSoft A).volume (ha.Cv i) 2)
    have f0 := hfit 0
    have f1 := hfit 1
    have f2 := hfit 2
    have e0 : (exSoft A).volume 0 = 1 := by simp [exSoft]
    have e1 : (exSoft A).volume 1 = 2 := by simp [exSoft]; norm_num
    have e2 : (exSoft A).volume 2 = 3 := by simp [exSoft]; norm_num
    rw [h, e0] at f0
    rw [h, e1] at f1
    rw [h, e2] at f2
    obtain ⟨v1, v2⟩ := hV i 0
    rw [h]
    generalize r.VT i 0 = v at v1 v2
    have e : a + b * v + d * v ^ 2 = (v - 2) * (v - 3) / 2 * ha.Cv i 0 + (v - 1) * (3 - v) * ha.Cv i 1 +
        (v - 1) * (v - 2) / 2 * ha.Cv i 2 := by
      rw [← f0, ← f1, ← f2]
      ring
    rw [e]
    obtain ⟨l0, u0⟩ := hc 0
    obtain ⟨l1, u1⟩ := hc 1
    obtain ⟨l2, u2⟩ := hc 2
    have hq : 0 < k.kB / exUnits.e.joule k := by positivity
    have w1 : 3 / 4 ≤ (v - 1) * (3 - v) := by nlinarith
    have w0 : -(1 / 8) ≤ (v - 2) * (v - 3) / 2 := by nlinarith [sq_nonneg (v - 5 / 2)]
    have w2 : -(1 / 8) ≤ (v - 1) * (v - 2) / 2 := by nlinarith [sq_nonneg (v - 3 / 2)]
    have m0 := mul_le_mul_of_nonneg_right w0 (show 0 ≤ ha.Cv i 0 by linarith)
    have m1 := mul_le_mul_of_nonneg_right w1 (show 0 ≤ ha.Cv i 1 by linarith)
    have m2 := mul_le_mul_of_nonneg_right w2 (show 0 ≤ ha.Cv i 2 by linarith)
    linarith
  have hKT : 0 < r.KT i 0 := (C69_bulk_modulus hext hu rfl rfl (by decide : 2 ≤ 4) hr hha i 0
    (by have := (hV i 0).1; linarith)).2
  refine C140_signs hu hr (by norm_num) i ⟨i.val + 1, by omega⟩ rfl 0 (hT1 i).2 ?_ (by have := (hV i 0).1; linarith)
    (exSoft_expands hext hr hV _ _ (hT1 i).2.le ?_) hCv hKT
  · simp [exAt, exUnits, TemperatureUnit.kelvin, hTdef]
  · simp [hTdef]

end Verif.QHA
