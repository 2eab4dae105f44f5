/-
Properties C100 (starting values of a pressure-volume fit) and C101 (starting values of an
energy-volume fit).
-/
import Mathlib.Analysis.Calculus.DerivativeTest
import Verif.Guess.Lemmas

namespace Verif.Guess
open Verif.Py Verif.Poly Verif.Poly.Spec Verif.Guess.Spec

variable {n : ℕ} {polyfit : Polyfit}

theorem deriv_value {m : ℕ} (c : Fin m → ℝ) :
    deriv (value c) = polyval (polyder (List.ofFn c)) := by
  rw [← deriv_polyval]
  exact congrArg deriv (funext fun x => (polyval_ofFn c x).symm)

theorem deriv2_value {m : ℕ} (c : Fin m → ℝ) :
    deriv (deriv (value c)) = polyval (polyder (polyder (List.ofFn c))) := by
  rw [deriv_value, deriv_polyval]

/-! ### C100 -/

/-- C100, curves: the starting volume is the value at zero pressure of the cubic closest to the
volumes as a function of pressure, the starting modulus is the bulk modulus, at that volume, of
the cubic closest to the pressures as a function of volume; `K'` starts at 4 and `K''` at 0. -/
theorem C100_curves (hfit : Fits polyfit) (hn : 4 ≤ n) {V P : Fin n → ℝ}
    (hV : Function.Injective V) (hP : Function.Injective P) {q r : Fin 4 → ℝ}
    (hq : IsLeastSquares P V q) (hr : IsLeastSquares V P r) :
    pvGuess polyfit V P = ⟨modulusP (value r) (value q 0), 4, 0, value q 0⟩ := by
  have e1 : polyfit n P V 3 = q := fit_unique hP hn (hfit n P V 3) hq
  have e2 : polyfit n V P 3 = r := fit_unique hV hn (hfit n V P 3) hr
  simp only [pvGuess, modulusP, deriv_value, e1, e2, polyval_ofFn]

/-- C100, exact data: when the data lie on such cubics the starting values are those of the
curves. -/
theorem C100_exact (hfit : Fits polyfit) (hn : 4 ≤ n) {V P : Fin n → ℝ}
    (hV : Function.Injective V) (hP : Function.Injective P) {q r : Fin 4 → ℝ}
    (hq : ∀ k, V k = value q (P k)) (hr : ∀ k, P k = value r (V k)) :
    pvGuess polyfit V P = ⟨modulusP (value r) (value q 0), 4, 0, value q 0⟩ := by
  have e1 : polyfit n P V 3 = q := fit_exact hP hn (hfit n P V 3) hq
  have e2 : polyfit n V P 3 = r := fit_exact hV hn (hfit n V P 3) hr
  exact C100_curves hfit hn hV hP (e1 ▸ hfit n P V 3) (e2 ▸ hfit n V P 3)

/-- C100, order: the starting values do not depend on the order of the data. -/
theorem C100_order (hfit : Fits polyfit) (hn : 4 ≤ n) {V P : Fin n → ℝ}
    (hV : Function.Injective V) (hP : Function.Injective P) (σ : Equiv.Perm (Fin n)) :
    pvGuess polyfit (V ∘ σ) (P ∘ σ) = pvGuess polyfit V P := by
  rw [C100_curves hfit hn hV hP (leastSquares_perm σ (hfit n (P ∘ σ) (V ∘ σ) 3))
    (leastSquares_perm σ (hfit n (V ∘ σ) (P ∘ σ) 3))]
  exact C100_curves hfit hn (hV.comp σ.injective) (hP.comp σ.injective) (hfit n _ _ 3) (hfit n _ _ 3)

/-- C100, units: in other units of volume and pressure the starting values describe the same
volume and the same modulus. -/
theorem C100_units (hfit : Fits polyfit) (hn : 4 ≤ n) {V P : Fin n → ℝ}
    (hV : Function.Injective V) (hP : Function.Injective P) {s t : ℝ} (hs : s ≠ 0) (ht : t ≠ 0) :
    pvGuess polyfit (fun k => s * V k) (fun k => t * P k) =
      ⟨t * (pvGuess polyfit V P).K0, 4, 0, s * (pvGuess polyfit V P).V0⟩ := by
  have hs' : Function.Injective fun k => s * V k := fun a b h => hV (mul_left_cancel₀ hs h)
  have ht' : Function.Injective fun k => t * P k := fun a b h => hP (mul_left_cancel₀ ht h)
  have e1 : polyfit n (fun k => t * P k) (fun k => s * V k) 3 = _ :=
    fit_unique ht' hn (hfit n _ _ 3) (leastSquares_scale ht hs (hfit n P V 3))
  have e2 : polyfit n (fun k => s * V k) (fun k => t * P k) 3 = _ :=
    fit_unique hs' hn (hfit n _ _ 3) (leastSquares_scale hs ht (hfit n V P 3))
  have hd : ∀ (c : Fin 4 → ℝ) (x : ℝ),
      deriv (value fun j => t * c j / s ^ (j : ℕ)) (s * x) = t / s * deriv (value c) x := by
    intro c x
    simp only [deriv_value, polyder, List.ofFn_succ, List.ofFn_zero]
    simp [polyval, List.zipIdx]
    field_simp
  have h0 : value (fun j => s * polyfit n P V 3 j / t ^ (j : ℕ)) 0 = s * value (polyfit n P V 3) 0 := by
    have := value_scale (polyfit n P V 3) ht s 0
    rwa [mul_zero] at this
  rw [C100_curves hfit hn hs' ht' (hfit n _ _ 3) (hfit n _ _ 3),
    C100_curves hfit hn hV hP (hfit n _ _ 3) (hfit n _ _ 3), e1, e2, h0]
  simp only [modulusP, hd]
  congr 1
  field_simp

/-- A least-squares routine exists. -/
theorem fits_exists : ∃ polyfit : Polyfit, Fits polyfit :=
  ⟨fun _ X Y _ => (leastSquares_exists X Y).choose, fun _ X Y _ => (leastSquares_exists X Y).choose_spec⟩

/-- Five points of the line `P = 100 - 10 V` (so `V = 10 - P / 10`): the start is `V0 = 10`,
`K0 = 100`. -/
example (hfit : Fits polyfit) :
    pvGuess polyfit (fun k : Fin 5 => 10 - (k : ℝ) / 10) (fun k => (k : ℝ)) = ⟨100, 4, 0, 10⟩ := by
  have hP : Function.Injective fun k : Fin 5 => (k : ℝ) := fun a b h => Fin.ext (by
    have h' : (a : ℝ) = b := h
    exact_mod_cast h')
  have hV : Function.Injective fun k : Fin 5 => 10 - (k : ℝ) / 10 := fun a b h => hP (by
    have : (a : ℝ) = b := by
      have h' : 10 - (a : ℝ) / 10 = 10 - (b : ℝ) / 10 := h
      linarith
    exact this)
  rw [C100_exact hfit (by norm_num) hV hP (q := ![10, -1 / 10, 0, 0]) (r := ![100, -10, 0, 0])
    (fun k => by simp [value, Fin.sum_univ_succ]; ring)
    (fun k => by simp [value, Fin.sum_univ_succ]; ring)]
  rw [modulusP, deriv_value]
  simp [value, Fin.sum_univ_succ, polyder, polyval, List.zipIdx]
  norm_num

/-! ### C101 -/

theorem polyder5 (c : Fin 5 → ℝ) :
    polyder (List.ofFn c) = [c 1, 2 * c 2, 3 * c 3, 4 * c 4] := by
  simp [polyder, List.ofFn_succ, List.zipIdx]

/-- The roots of the derivative of a quartic. -/
theorem mem_roots5 {roots : List ℝ → List ℂ} (hr : RootFinder roots) {c : Fin 5 → ℝ}
    (hne : ∃ a ∈ polyder (List.ofFn c), a ≠ 0) (z : ℂ) :
    z ∈ roots (polyder (List.ofFn c)) ↔
      (c 1 : ℂ) + 2 * c 2 * z + 3 * c 3 * z ^ 2 + 4 * c 4 * z ^ 3 = 0 := by
  rw [hr.zeros _ hne]
  have : ∀ d : List ℝ, d = [c 1, 2 * c 2, 3 * c 3, 4 * c 4] →
      (∑ i : Fin d.length, ((d.get i : ℝ) : ℂ) * z ^ (i : ℕ)) =
        (c 1 : ℂ) + 2 * c 2 * z + 3 * c 3 * z ^ 2 + 4 * c 4 * z ^ 3 := by
    rintro d rfl
    simp only [List.length_cons, List.length_nil, Fin.sum_univ_succ]
    simp
    ring
  rw [this _ (polyder5 c)]

/-- C101, curve: whenever a start is returned, its volume is the real part of a stationary point
(real or complex) of the quartic closest to the data, and energy and modulus are those of that
quartic at this volume; `K'` starts at 4. -/
theorem C101_curve {roots : List ℝ → List ℂ} (hr : RootFinder roots) (hfit : Fits polyfit)
    (hn : 5 ≤ n) {V E : Fin n → ℝ} (hV : Function.Injective V) {c : Fin 5 → ℝ}
    (hc : IsLeastSquares V E c) {g : Fin 4 → ℝ} (h : evGuess polyfit roots V E = .ok g) :
    g = ![value c (g 3), modulusE (value c) (g 3), 4, g 3] ∧
      ∃ z : ℂ, z.re = g 3 ∧
        (c 1 : ℂ) + 2 * c 2 * z + 3 * c 3 * z ^ 2 + 4 * c 4 * z ^ 3 = 0 ∧
        ∀ x : ℝ, deriv (value c) x = 0 → Complex.normSq z ≤ x ^ 2 := by
  have e : polyfit n V E 4 = c := fit_unique hV hn (hfit n V E 4) hc
  simp only [evGuess, e] at h
  cases hz : smallest (roots (polyder (List.ofFn c))) with
  | error x => rw [hz] at h; cases h
  | ok z =>
    rw [hz] at h
    have hg : ![polyval (List.ofFn c) z.re,
        z.re * polyval (polyder (polyder (List.ofFn c))) z.re, 4, z.re] = g := by
      simpa [bind, Except.bind, pure, Except.pure] using h
    have h3 : g 3 = z.re := by rw [← hg]; rfl
    obtain ⟨hm, hmin⟩ := smallest_mem hz
    have hne : ∃ a ∈ polyder (List.ofFn c), a ≠ 0 := by
      by_contra hcon
      push Not at hcon
      rw [hr.none _ hcon] at hm
      cases hm
    refine ⟨?_, z, h3.symm, ?_, ?_⟩
    · rw [h3, ← hg]
      simp only [modulusE, deriv2_value, polyval_ofFn]
    · exact (mem_roots5 hr hne z).1 hm
    · intro x hx
      have hx' : (x : ℂ) ∈ roots (polyder (List.ofFn c)) := by
        rw [hr.zeros _ hne]
        rw [deriv_value, polyval_eq_sum] at hx
        exact_mod_cast congrArg (fun t : ℝ => (t : ℂ)) hx
      have := hmin _ hx'
      rwa [Complex.normSq_ofReal, ← pow_two] at this

/-- The start that is returned when the stationary points of the curve through the data have one
of least modulus, and it is real. -/
theorem evGuess_of {roots : List ℝ → List ℂ} (hr : RootFinder roots) (hfit : Fits polyfit)
    (hn : 5 ≤ n) {V E : Fin n → ℝ} (hV : Function.Injective V) {c : Fin 5 → ℝ}
    (hE : ∀ k, E k = value c (V k)) (hne : ∃ a ∈ polyder (List.ofFn c), a ≠ 0) {v : ℝ}
    (hv : (c 1 : ℂ) + 2 * c 2 * v + 3 * c 3 * v ^ 2 + 4 * c 4 * v ^ 3 = 0)
    (hmin : ∀ z : ℂ, (c 1 : ℂ) + 2 * c 2 * z + 3 * c 3 * z ^ 2 + 4 * c 4 * z ^ 3 = 0 →
      Complex.normSq z ≤ v ^ 2 → z = v) :
    evGuess polyfit roots V E = .ok ![value c v, modulusE (value c) v, 4, v] := by
  have e : polyfit n V E 4 = c := fit_exact hV hn (hfit n V E 4) hE
  have hvm : (v : ℂ) ∈ roots (polyder (List.ofFn c)) := (mem_roots5 hr hne _).2 hv
  obtain ⟨z, hz⟩ := smallest_ok (List.ne_nil_of_mem hvm)
  obtain ⟨hm, hle⟩ := smallest_mem hz
  have : z = v := hmin z ((mem_roots5 hr hne z).1 hm) (by
    have := hle _ hvm
    rwa [Complex.normSq_ofReal, ← pow_two] at this)
  subst this
  simp only [evGuess, e, hz, modulusE, deriv2_value, polyval_ofFn]
  rfl

/-- C101, parabola: energies on a parabola give its vertex, its least energy and its modulus. -/
theorem C101_parabola {roots : List ℝ → List ℂ} (hr : RootFinder roots) (hfit : Fits polyfit)
    (hn : 5 ≤ n) {V E : Fin n → ℝ} (hV : Function.Injective V) {e0 a v0 : ℝ} (ha : a ≠ 0)
    (hE : ∀ k, E k = e0 + a * (V k - v0) ^ 2) :
    evGuess polyfit roots V E = .ok ![e0, 2 * a * v0, 4, v0] := by
  set c : Fin 5 → ℝ := ![e0 + a * v0 ^ 2, -2 * a * v0, a, 0, 0] with hc
  have hval : ∀ x, value c x = e0 + a * (x - v0) ^ 2 := fun x => by
    simp [value, hc, Fin.sum_univ_succ]; ring
  have hzero : ∀ z : ℂ, (c 1 : ℂ) + 2 * c 2 * z + 3 * c 3 * z ^ 2 + 4 * c 4 * z ^ 3 =
      2 * a * (z - v0) := fun z => by
    simp [hc]; ring
  rw [evGuess_of hr hfit hn hV (c := c) (v := v0) (fun k => (hE k).trans (hval _).symm)]
  · have hm : modulusE (value c) v0 = 2 * a * v0 := by
      rw [modulusE, deriv2_value, polyder5]
      simp [polyder, polyval, hc, List.zipIdx]; ring
    rw [hval, hm]; simp
  · rw [polyder5]; exact ⟨2 * c 2, by simp, by simp [hc, ha]⟩
  · rw [hzero]; simp
  · intro z hz _
    rw [hzero] at hz
    have ha' : (2 * a : ℂ) ≠ 0 := by simp [ha]
    exact sub_eq_zero.1 ((mul_eq_zero.1 hz).resolve_left ha')

/-- The energy curve with stationary volumes `v1` and `v2`. -/
noncomputable def cubic (e s v1 v2 : ℝ) (V : ℝ) : ℝ :=
  e + s * (V ^ 3 / 3 - (v1 + v2) * V ^ 2 / 2 + v1 * v2 * V)

theorem hasDerivAt_cubic (e s v1 v2 V : ℝ) :
    HasDerivAt (cubic e s v1 v2) (s * ((V - v1) * (V - v2))) V := by
  have h : HasDerivAt (fun V : ℝ => e + s * (V ^ 3 / 3 - (v1 + v2) * V ^ 2 / 2 + v1 * v2 * V)) _ V :=
    (((((hasDerivAt_id V).pow 3).div_const 3).sub
      ((((hasDerivAt_id V).pow 2).const_mul (v1 + v2)).div_const 2)).add
        ((hasDerivAt_id V).const_mul (v1 * v2))).const_mul s |>.const_add e
  refine h.congr_deriv ?_
  simp only [id]
  push_cast
  ring

theorem guess_cubic {roots : List ℝ → List ℂ} (hr : RootFinder roots) (hfit : Fits polyfit)
    (hn : 5 ≤ n) {V E : Fin n → ℝ} (hV : Function.Injective V) {e s v1 v2 : ℝ} (hs : s ≠ 0)
    (hv : |v1| < |v2|) (hE : ∀ k, E k = cubic e s v1 v2 (V k)) :
    evGuess polyfit roots V E = .ok ![cubic e s v1 v2 v1, v1 * (s * (v1 - v2)), 4, v1] := by
  set c : Fin 5 → ℝ := ![e, s * v1 * v2, -s * (v1 + v2) / 2, s / 3, 0] with hc
  have hval : ∀ x, value c x = cubic e s v1 v2 x := fun x => by
    simp [value, hc, Fin.sum_univ_succ, cubic]; ring
  have hzero : ∀ z : ℂ, (c 1 : ℂ) + 2 * c 2 * z + 3 * c 3 * z ^ 2 + 4 * c 4 * z ^ 3 =
      s * ((z - v1) * (z - v2)) := fun z => by
    simp [hc]; ring
  rw [evGuess_of hr hfit hn hV (c := c) (v := v1) (fun k => (hE k).trans (hval _).symm)]
  · have hm : modulusE (value c) v1 = v1 * (s * (v1 - v2)) := by
      rw [modulusE, deriv2_value, polyder5]
      simp [polyder, polyval, hc, List.zipIdx]; ring_nf; simp
    rw [hval, hm]
  · rw [polyder5]; exact ⟨3 * c 3, by simp, by simp [hc, hs]⟩
  · rw [hzero]; simp
  · intro z hz hle
    rw [hzero] at hz
    have hs' : (s : ℂ) ≠ 0 := by simp [hs]
    rcases mul_eq_zero.1 ((mul_eq_zero.1 hz).resolve_left hs') with h | h
    · exact sub_eq_zero.1 h
    · have : z = v2 := sub_eq_zero.1 h
      subst this
      rw [Complex.normSq_ofReal, ← pow_two] at hle
      exact absurd (sq_lt_sq.2 hv) (not_lt.2 hle)

/-- C101, partial: for energies on a curve of degree three that stiffens on compression (its
maximum lies at a larger volume than its minimum) the start is the minimum, with its energy and
its modulus. -/
theorem C101_minimum_partial {roots : List ℝ → List ℂ} (hr : RootFinder roots)
    (hfit : Fits polyfit) (hn : 5 ≤ n) {V E : Fin n → ℝ} (hV : Function.Injective V)
    {e s v0 v2 : ℝ} (hs : s < 0) (h0 : 0 < v0) (h2 : v0 < v2)
    (hE : ∀ k, E k = cubic e s v0 v2 (V k)) :
    ∃ K > 0, K = modulusE (cubic e s v0 v2) v0 ∧
      evGuess polyfit roots V E = .ok ![cubic e s v0 v2 v0, K, 4, v0] ∧
      IsLocalMin (cubic e s v0 v2) v0 := by
  have hd : deriv (cubic e s v0 v2) = fun V => s * ((V - v0) * (V - v2)) :=
    funext fun V => (hasDerivAt_cubic e s v0 v2 V).deriv
  have hd2 : deriv (deriv (cubic e s v0 v2)) v0 = s * (v0 - v2) := by
    rw [hd]
    have h : HasDerivAt (fun V : ℝ => s * ((V - v0) * (V - v2))) _ v0 :=
      (((hasDerivAt_id v0).sub_const v0).mul ((hasDerivAt_id v0).sub_const v2)).const_mul s
    rw [h.deriv]; simp
  have hK : 0 < v0 * (s * (v0 - v2)) := mul_pos h0 (mul_pos_of_neg_of_neg hs (by linarith))
  refine ⟨_, hK, ?_, guess_cubic hr hfit hn hV hs.ne (by rw [abs_of_pos h0, abs_of_pos (h0.trans h2)]; exact h2) hE, ?_⟩
  · rw [modulusE, hd2]
  · refine isLocalMin_of_deriv_deriv_pos ?_ ?_ (hasDerivAt_cubic e s v0 v2 v0).continuousAt
    · rw [hd2]; exact mul_pos_of_neg_of_neg hs (by linarith)
    · rw [hd]; simp

/-- C101, violated: the start is the stationary volume nearest to zero, not a minimum.  For
energies on a curve of degree three whose maximum lies at a smaller volume than its minimum, the
start is that maximum, with a negative modulus, however close to the minimum the volumes are. -/
theorem C101_maximum_violated {roots : List ℝ → List ℂ} (hr : RootFinder roots)
    (hfit : Fits polyfit) (hn : 5 ≤ n) {V E : Fin n → ℝ} (hV : Function.Injective V)
    {e s v0 v1 : ℝ} (hs : 0 < s) (h1 : 0 < v1) (h0 : v1 < v0)
    (hE : ∀ k, E k = cubic e s v1 v0 (V k)) :
    IsLocalMin (cubic e s v1 v0) v0 ∧ IsLocalMax (cubic e s v1 v0) v1 ∧
      ∃ K < 0, evGuess polyfit roots V E = .ok ![cubic e s v1 v0 v1, K, 4, v1] := by
  have hd : deriv (cubic e s v1 v0) = fun V => s * ((V - v1) * (V - v0)) :=
    funext fun V => (hasDerivAt_cubic e s v1 v0 V).deriv
  have hd2 : ∀ x, deriv (deriv (cubic e s v1 v0)) x = s * ((x - v0) + (x - v1)) := by
    intro x
    rw [hd]
    have h : HasDerivAt (fun V : ℝ => s * ((V - v1) * (V - v0))) _ x :=
      (((hasDerivAt_id x).sub_const v1).mul ((hasDerivAt_id x).sub_const v0)).const_mul s
    rw [h.deriv]; simp
  refine ⟨?_, ?_, v1 * (s * (v1 - v0)), mul_neg_of_pos_of_neg h1 (mul_neg_of_pos_of_neg hs (by linarith)),
    guess_cubic hr hfit hn hV hs.ne' (by rw [abs_of_pos h1, abs_of_pos (h1.trans h0)]; exact h0) hE⟩
  · refine isLocalMin_of_deriv_deriv_pos ?_ ?_ (hasDerivAt_cubic e s v1 v0 v0).continuousAt
    · rw [hd2]; exact mul_pos hs (by linarith)
    · rw [hd]; simp
  · refine isLocalMax_of_deriv_deriv_neg ?_ ?_ (hasDerivAt_cubic e s v1 v0 v1).continuousAt
    · rw [hd2]; exact mul_neg_of_pos_of_neg hs (by linarith)
    · rw [hd]; simp

/-- C101, flat: energies without any variation give no start; the call raises ValueError. -/
theorem C101_flat {roots : List ℝ → List ℂ} (hr : RootFinder roots) (hfit : Fits polyfit)
    (hn : 5 ≤ n) {V E : Fin n → ℝ} (hV : Function.Injective V) {e : ℝ} (hE : ∀ k, E k = e) :
    evGuess polyfit roots V E = .error .valueError := by
  have hx : polyfit n V E 4 = ![e, 0, 0, 0, 0] := fit_exact hV hn (hfit n V E 4) fun k => by
    rw [hE]; simp [value, Fin.sum_univ_succ]
  have : roots (polyder (List.ofFn ![e, 0, 0, 0, 0])) = [] := hr.none _ (by rw [polyder5]; simp)
  simp only [evGuess, hx, this]
  rfl

/-- The curve with `dE/dV = (V - 1)(V - 2)` at five volumes between 1.8 and 2.2, close to its minimum at
`V = 2`: the start is the maximum at `V = 1`, with modulus `-1`. -/
example {roots : List ℝ → List ℂ} (hr : RootFinder roots) (hfit : Fits polyfit) :
    evGuess polyfit roots (fun k : Fin 5 => 1.8 + (k : ℝ) / 10)
      (fun k => cubic 0 1 1 2 (1.8 + (k : ℝ) / 10)) = .ok ![5 / 6, -1, 4, 1] := by
  have hV : Function.Injective fun k : Fin 5 => (1.8 : ℝ) + (k : ℝ) / 10 := fun a b h => Fin.ext (by
    have h' : (1.8 : ℝ) + (a : ℝ) / 10 = 1.8 + (b : ℝ) / 10 := h
    have : (a : ℝ) = b := by linarith
    exact_mod_cast this)
  rw [guess_cubic hr hfit le_rfl hV one_ne_zero (by norm_num) fun k => rfl]
  norm_num [cubic]

end Verif.Guess
