/-
Property C102: the static pressures listed in the input report of a quasi-harmonic run.
-/
import Mathlib.Analysis.Calculus.MeanValue
import Mathlib.Analysis.Convex.Slope
import Mathlib.Analysis.Convex.SpecificFunctions.Deriv
import Mathlib.Analysis.Calculus.Darboux
import Verif.EoS.Props
import Verif.QHA.Lemmas
import Verif.Report.StaticSpec

namespace Verif.Report
open Verif.Report.Spec
open Verif.Py Verif.QHA Verif.QHA.Spec Verif.Units

/-- Secant slope between neighbours. -/
noncomputable def secant (f x : ℕ → ℝ) (i : ℕ) : ℝ := (f (i + 1) - f i) / (x (i + 1) - x i)

/-- Inside, the gradient is the average of the neighbouring secants, the shorter interval weighing
more. -/
theorem gradientAt_interior {n : ℕ} (f x : ℕ → ℝ) {i : ℕ} (h0 : i ≠ 0) (hn : i + 1 < n)
    (h1 : x i - x (i - 1) ≠ 0) (h2 : x (i + 1) - x i ≠ 0) (h3 : x (i + 1) - x (i - 1) ≠ 0) :
    gradientAt n f x i =
      ((x (i + 1) - x i) * secant f x (i - 1) + (x i - x (i - 1)) * secant f x i) /
        (x (i + 1) - x (i - 1)) := by
  obtain ⟨j, rfl⟩ := Nat.exists_eq_succ_of_ne_zero h0
  simp only [Nat.succ_eq_add_one, Nat.add_sub_cancel] at *
  simp only [gradientAt, secant, Nat.add_sub_cancel, if_neg (Nat.succ_ne_zero j), if_neg (ne_of_lt hn)]
  split
  · rename_i he
    have e1 := he j (by omega)
    have e2 := he (j + 1) hn
    have e3 : x (j + 1 + 1) - x j = 2 * (x 1 - x 0) := by linarith
    have e0 : x 1 - x 0 ≠ 0 := by rw [← e1]; exact h1
    rw [e1, e2, e3]
    field_simp
    ring
  · have e3 : (x (j + 1) - x j) + (x (j + 1 + 1) - x (j + 1)) = x (j + 1 + 1) - x j := by ring
    rw [e3]
    field_simp
    ring

theorem gradientAt_inner {n : ℕ} (f x : ℕ → ℝ) {j : ℕ} (hn : j + 1 + 1 < n)
    (h1 : x (j + 1) - x j ≠ 0) (h2 : x (j + 1 + 1) - x (j + 1) ≠ 0) (h3 : x (j + 1 + 1) - x j ≠ 0) :
    gradientAt n f x (j + 1) =
      ((x (j + 1 + 1) - x (j + 1)) * secant f x j + (x (j + 1) - x j) * secant f x (j + 1)) /
        (x (j + 1 + 1) - x j) :=
  gradientAt_interior f x (Nat.succ_ne_zero j) hn h1 h2 h3

theorem gradientAt_first (n : ℕ) (f x : ℕ → ℝ) : gradientAt n f x 0 = secant f x 0 := by
  simp [gradientAt, secant]

theorem gradientAt_last {n : ℕ} (f x : ℕ → ℝ) {j : ℕ} (h : j + 2 = n) :
    gradientAt n f x (j + 1) = secant f x j := by
  simp [gradientAt, secant, h]

theorem staticPressures_none (k : Consts) (u : Choice) (eosFit : EoS.EForm → Fin 4 → ℝ) {n : ℕ}
    (hn : 2 ≤ n) (x f : ℕ → ℝ) :
    staticPressures k u.e.name u.v.name u.p.name none eosFit n x f =
      .ok fun i => -(gradientAt n f x i * u.e.joule k / u.v.m3 k / u.p.pascal) := by
  simp only [staticPressures, gradient, if_neg (not_lt.2 hn), e2pMap_eq]
  rfl

theorem isPressure_of (k : Consts) (u : Choice) (s : ℝ) :
    IsPressure k u (-(s * u.e.joule k / u.v.m3 k / u.p.pascal)) s := by
  have hm := (m3_pos k u.v).ne'
  have hp := (pascal_pos u.p).ne'
  unfold IsPressure
  field_simp

theorem isPressure_unique {k : Consts} {u : Choice} {p s t : ℝ} (h : IsPressure k u p s)
    (h' : IsPressure k u p t) : s = t := by
  have hj := (joule_pos k u.e).ne'
  unfold IsPressure at h h'
  have : -s * u.e.joule k = -t * u.e.joule k := h.symm.trans h'
  have := mul_right_cancel₀ hj this
  linarith

theorem increasing_le {n : ℕ} {x : ℕ → ℝ} (hx : Increasing n x) {i j : ℕ} (hij : i ≤ j) (hj : j < n) :
    x i ≤ x j := by
  induction j, hij using Nat.le_induction with
  | base => exact le_rfl
  | succ j hij ih => exact (ih (by omega)).trans (hx j hj).le

theorem secant_deriv {n : ℕ} {x : ℕ → ℝ} (hx : Increasing n x) {E : ℝ → ℝ}
    (hE : ∀ v, x 0 ≤ v → v ≤ x (n - 1) → DifferentiableAt ℝ E v) {i : ℕ} (hi : i + 1 < n) :
    ∃ v, x i < v ∧ v < x (i + 1) ∧ secant (fun i => E (x i)) x i = deriv E v := by
  have hd : ∀ v ∈ Set.Icc (x i) (x (i + 1)), DifferentiableAt ℝ E v := fun v hv =>
    hE v ((increasing_le hx (Nat.zero_le i) (by omega)).trans hv.1)
      (hv.2.trans (increasing_le hx (by omega) (by omega)))
  obtain ⟨c, hc, h⟩ := exists_deriv_eq_slope E (hx i hi)
    (fun v hv => (hd v hv).continuousAt.continuousWithinAt)
    (fun v hv => (hd v ⟨hv.1.le, hv.2.le⟩).differentiableWithinAt)
  exact ⟨c, hc.1, hc.2, by rw [h, secant]⟩

/-- C102, polynomial minimisation: for every energy curve with a derivative and volumes in increasing
order, each listed pressure is minus the slope of the curve at some volume between the neighbours of
the listed one. -/
theorem C102_slope (k : Consts) (u : Choice) (eosFit : EoS.EForm → Fin 4 → ℝ) {n : ℕ} (hn : 2 ≤ n)
    {x : ℕ → ℝ} (hx : Increasing n x) {E : ℝ → ℝ}
    (hE : ∀ v, x 0 ≤ v → v ≤ x (n - 1) → DifferentiableAt ℝ E v) :
    ∃ p, staticPressures k u.e.name u.v.name u.p.name none eosFit n x (fun i => E (x i)) = .ok p ∧
      ∀ i < n, ∃ v, x (i - 1) ≤ v ∧ v ≤ x (min (i + 1) (n - 1)) ∧
        IsPressure k u (p i) (deriv E v) := by
  refine ⟨_, staticPressures_none k u eosFit hn x _, fun i hi => ?_⟩
  suffices h : ∃ v, x (i - 1) ≤ v ∧ v ≤ x (min (i + 1) (n - 1)) ∧
      gradientAt n (fun i => E (x i)) x i = deriv E v by
    obtain ⟨v, h1, h2, h3⟩ := h
    refine ⟨v, h1, h2, ?_⟩
    rw [← h3]
    exact isPressure_of k u _
  rcases Nat.eq_zero_or_pos i with rfl | hpos
  · obtain ⟨v, h1, h2, h3⟩ := secant_deriv hx hE (i := 0) (by omega)
    refine ⟨v, h1.le, ?_, by rw [gradientAt_first, h3]⟩
    rw [min_eq_left (by omega)]; exact h2.le
  · obtain ⟨j, rfl⟩ := Nat.exists_eq_succ_of_ne_zero hpos.ne'
    simp only [Nat.succ_eq_add_one, Nat.add_sub_cancel] at *
    obtain ⟨v, h1, h2, h3⟩ := secant_deriv hx hE (i := j) (by omega)
    rcases Nat.lt_or_ge (j + 1 + 1) n with hlt | hge
    · obtain ⟨w, g1, g2, g3⟩ := secant_deriv hx hE (i := j + 1) hlt
      have hj := hx j (by omega)
      have hj' := hx (j + 1) hlt
      have hconv := (convex_Ioo (x j) (x (j + 1 + 1))).image_deriv (f := E) fun v hv =>
        hE v ((increasing_le hx (Nat.zero_le j) (by omega)).trans hv.1.le)
          (hv.2.le.trans (increasing_le hx (by omega) (by omega)))
      have hd : 0 < x (j + 1 + 1) - x j := by linarith
      have hin := hconv ⟨v, ⟨h1, h2.trans hj'⟩, rfl⟩ ⟨w, ⟨hj.trans g1, g2⟩, rfl⟩
        (a := (x (j + 1 + 1) - x (j + 1)) / (x (j + 1 + 1) - x j))
        (b := (x (j + 1) - x j) / (x (j + 1 + 1) - x j))
        (div_nonneg (by linarith) hd.le) (div_nonneg (by linarith) hd.le)
        (by rw [← add_div, div_eq_one_iff_eq hd.ne']; ring)
      obtain ⟨z, hz, hz'⟩ := hin
      refine ⟨z, hz.1.le, ?_, ?_⟩
      · rw [min_eq_left (by omega)]; exact hz.2.le
      · rw [gradientAt_inner _ _ hlt (sub_ne_zero.2 hj.ne') (sub_ne_zero.2 hj'.ne') hd.ne', hz', h3, g3]
        simp only [smul_eq_mul]
        field_simp
    · have hn' : j + 2 = n := by omega
      refine ⟨v, h1.le, ?_, by rw [gradientAt_last _ _ hn', h3]⟩
      rw [min_eq_right (by omega)]
      have : n - 1 = j + 1 := by omega
      rw [this]; exact h2.le

/-- C102, polynomial minimisation: for a strictly convex energy curve (positive bulk modulus) and
three or more volumes in increasing order, the listed pressures decrease. -/
theorem C102_decreasing (k : Consts) (u : Choice) (eosFit : EoS.EForm → Fin 4 → ℝ) {n : ℕ}
    (hn : 3 ≤ n) {x : ℕ → ℝ} (hx : Increasing n x) {E : ℝ → ℝ} {s : Set ℝ}
    (hE : StrictConvexOn ℝ s E) (hs : ∀ i < n, x i ∈ s) {p : ℕ → ℝ}
    (hp : staticPressures k u.e.name u.v.name u.p.name none eosFit n x (fun i => E (x i)) = .ok p)
    {i : ℕ} (hi : i + 1 < n) : p (i + 1) < p i := by
  rw [staticPressures_none k u eosFit (by omega) x] at hp
  cases hp
  have hj := joule_pos k u.e
  have hm := m3_pos k u.v
  have hpp := pascal_pos u.p
  suffices h : gradientAt n (fun i => E (x i)) x i < gradientAt n (fun i => E (x i)) x (i + 1) by
    have := mul_lt_mul_of_pos_right h hj
    have := div_lt_div_of_pos_right (div_lt_div_of_pos_right this hm) hpp
    linarith
  set f := fun i => E (x i) with hf
  have hsec : ∀ j, j + 2 < n → secant f x j < secant f x (j + 1) := fun j hj =>
    hE.slope_strict_mono_adjacent (hs j (by omega)) (hs (j + 2) hj) (hx j (by omega)) (hx (j + 1) hj)
  -- inside, the gradient lies between the neighbouring secants
  have hin : ∀ j, j + 2 < n → secant f x j < gradientAt n f x (j + 1) ∧
      gradientAt n f x (j + 1) < secant f x (j + 1) := by
    intro j hj
    have a1 := hx j (by omega)
    have a2 := hx (j + 1) hj
    have hd : 0 < x (j + 1 + 1) - x j := by linarith
    rw [gradientAt_inner f x hj (sub_ne_zero.2 a1.ne') (sub_ne_zero.2 a2.ne') hd.ne']
    have hlt := hsec j hj
    have b1 : 0 < x (j + 1) - x j := by linarith
    have b2 : 0 < x (j + 1 + 1) - x (j + 1) := by linarith
    rw [lt_div_iff₀ hd, div_lt_iff₀ hd]
    constructor <;> nlinarith [mul_pos b1 (sub_pos.2 hlt), mul_pos b2 (sub_pos.2 hlt)]
  rcases Nat.eq_zero_or_pos i with rfl | hpos
  · rw [gradientAt_first]
    exact (hin 0 (by omega)).1
  · obtain ⟨j, rfl⟩ := Nat.exists_eq_succ_of_ne_zero hpos.ne'
    simp only [Nat.succ_eq_add_one] at *
    refine lt_of_lt_of_le (hin j (by omega)).2 ?_
    rcases Nat.lt_or_ge (j + 3) n with hlt | hge
    · exact (hin (j + 1) hlt).1.le
    · rw [gradientAt_last f x (j := j + 1) (by omega)]

/-- C102, partial: for a parabolic energy curve the pressures listed for the inner volumes are those
of the curve, whatever the spacing of the volumes. -/
theorem C102_inner_partial (k : Consts) (u : Choice) (eosFit : EoS.EForm → Fin 4 → ℝ) {n : ℕ}
    {x : ℕ → ℝ} (hx : Increasing n x) (e0 a v0 : ℝ) {i : ℕ} (h0 : 0 < i) (hi : i + 1 < n) :
    ∃ p, staticPressures k u.e.name u.v.name u.p.name none eosFit n x
        (fun i => e0 + a * (x i - v0) ^ 2) = .ok p ∧ IsPressure k u (p i) (2 * a * (x i - v0)) := by
  refine ⟨_, staticPressures_none k u eosFit (by omega) x _, ?_⟩
  obtain ⟨j, rfl⟩ := Nat.exists_eq_succ_of_ne_zero h0.ne'
  simp only [Nat.succ_eq_add_one] at *
  have a1 := hx j (by omega)
  have a2 := hx (j + 1) hi
  have hg : gradientAt n (fun i => e0 + a * (x i - v0) ^ 2) x (j + 1) = 2 * a * (x (j + 1) - v0) := by
    have b1 : x (j + 1) - x j ≠ 0 := (sub_pos.2 a1).ne'
    have b2 : x (j + 1 + 1) - x (j + 1) ≠ 0 := (sub_pos.2 a2).ne'
    have b3 : x (j + 1 + 1) - x j ≠ 0 := (sub_pos.2 (a1.trans a2)).ne'
    rw [gradientAt_inner _ _ hi b1 b2 b3]
    simp only [secant]
    field_simp
    ring
  rw [← hg]
  exact isPressure_of k u _

/-- C102, violated: the pressures listed for the first and the last volume are one-sided differences.
For every parabolic energy curve they are the pressures at the middle of the first and the last
interval, and so are wrong. -/
theorem C102_ends_violated (k : Consts) (u : Choice) (eosFit : EoS.EForm → Fin 4 → ℝ) {n : ℕ}
    (hn : 2 ≤ n) {x : ℕ → ℝ} (hx : Increasing n x) (e0 v0 : ℝ) {a : ℝ} (ha : a ≠ 0) :
    ∃ p, staticPressures k u.e.name u.v.name u.p.name none eosFit n x
        (fun i => e0 + a * (x i - v0) ^ 2) = .ok p ∧
      IsPressure k u (p 0) (2 * a * ((x 0 + x 1) / 2 - v0)) ∧
      IsPressure k u (p (n - 1)) (2 * a * ((x (n - 2) + x (n - 1)) / 2 - v0)) ∧
      ¬ IsPressure k u (p 0) (2 * a * (x 0 - v0)) ∧
      ¬ IsPressure k u (p (n - 1)) (2 * a * (x (n - 1) - v0)) := by
  obtain ⟨j, rfl⟩ : ∃ j, n = j + 2 := ⟨n - 2, by omega⟩
  have hsec : ∀ i, i + 1 < j + 2 → secant (fun i => e0 + a * (x i - v0) ^ 2) x i =
      2 * a * ((x i + x (i + 1)) / 2 - v0) := by
    intro i hi
    have b1 : x (i + 1) - x i ≠ 0 := (sub_pos.2 (hx i hi)).ne'
    simp only [secant]
    field_simp
    ring
  have e1 : j + 2 - 1 = j + 1 := rfl
  have e2 : j + 2 - 2 = j := rfl
  have p0 := isPressure_of k u (gradientAt (j + 2) (fun i => e0 + a * (x i - v0) ^ 2) x 0)
  have p1 := isPressure_of k u (gradientAt (j + 2) (fun i => e0 + a * (x i - v0) ^ 2) x (j + 1))
  refine ⟨_, staticPressures_none k u eosFit hn x _, ?_, ?_, ?_, ?_⟩
  · rw [← hsec 0 (by omega), ← gradientAt_first (j + 2)]; exact p0
  · rw [e1, e2, ← hsec j (by omega), ← gradientAt_last _ _ (n := j + 2) rfl]; exact p1
  · intro h
    have := isPressure_unique p0 h
    rw [gradientAt_first, hsec 0 (by omega)] at this
    have hlt := hx 0 (by omega)
    have : a * (x (0 + 1) - x 0) = 0 := by linarith
    rcases mul_eq_zero.1 this with h | h
    · exact ha h
    · linarith
  · intro h
    rw [e1] at h
    have := isPressure_unique p1 h
    rw [gradientAt_last _ _ rfl, hsec j (by omega)] at this
    have hlt := hx j (by omega)
    have : a * (x (j + 1) - x j) = 0 := by linarith
    rcases mul_eq_zero.1 this with h | h
    · exact ha h
    · linarith

/-- C102: with fewer than two volumes numpy refuses to differentiate. -/
theorem C102_few (k : Consts) (eunit vunit punit : Str) (eosFit : EoS.EForm → Fin 4 → ℝ) {n : ℕ}
    (hn : n < 2) (x f : ℕ → ℝ) :
    staticPressures k eunit vunit punit none eosFit n x f = .error .valueError := by
  simp only [staticPressures, gradient, if_pos hn]
  rfl

theorem pressure_scale (f : EoS.EForm) (s K0 Kp V0 V : ℝ) :
    EoS.pressure f (s * K0) Kp V0 V = s * EoS.pressure f K0 Kp V0 V := by
  cases f <;>
    simp [EoS.pressure, EoS.pvType, EoS.eos, EoS.parsAfter, EoS.setKpp, EoS.setKp, EoS.formula] <;> ring

/-- C102, minimisation with an equation of state: the listed pressures are minus the slope of the
fitted energy curve for the Murnaghan and Vinet formulations, at all volumes. -/
theorem C102_eos_partial (k : Consts) (u : Choice) (f : EoS.EForm) (hf : f = .murnaghan ∨ f = .vinet)
    (eosFit : EoS.EForm → Fin 4 → ℝ) (n : ℕ) {x : ℕ → ℝ} (e : ℕ → ℝ) {E0 K0 Kp V0 : ℝ}
    (hfit : eosFit f = ![E0, K0, Kp, V0]) (hV0 : 0 < V0) (hK0 : 0 < K0) (hr : EoS.Spec.ERegular f Kp)
    {i : ℕ} (hi : 0 < x i) :
    ∃ p, staticPressures k u.e.name u.v.name u.p.name (some f) eosFit n x e = .ok p ∧
      IsPressure k u (p i) (deriv (EoS.energy f E0 K0 Kp V0) (x i)) := by
  refine ⟨_, by simp only [staticPressures, e2pMap_eq]; rfl, ?_⟩
  have h := EoS.C26_pressure_partial f E0 K0 Kp V0 (x i) hV0 hi hK0 hr
    (hf.elim .inl fun h => .inr (.inl h))
  have e1 : K0 * u.e.joule k / u.v.m3 k / u.p.pascal =
      (u.e.joule k / u.v.m3 k / u.p.pascal) * K0 := by ring
  have := isPressure_of k u (deriv (EoS.energy f E0 K0 Kp V0) (x i))
  simp only [hfit, Matrix.cons_val_one, Matrix.cons_val_zero, Matrix.cons_val]
  rw [e1, pressure_scale, h]
  convert this using 1
  ring

/-- C102, violated: for the Birch-Murnaghan and Pourier-Tarantola formulations the pressures listed for
compressed volumes are larger than those of the fitted energy curve, always. -/
theorem C102_eos_violated (k : Consts) (u : Choice) (f : EoS.EForm)
    (hf : f = .birchMurnaghan ∨ f = .pourierTarantola)
    (eosFit : EoS.EForm → Fin 4 → ℝ) (n : ℕ) {x : ℕ → ℝ} (e : ℕ → ℝ) {E0 K0 Kp V0 : ℝ}
    (hfit : eosFit f = ![E0, K0, Kp, V0]) (hV0 : 0 < V0) (hK0 : 0 < K0) {i : ℕ} (hi : 0 < x i)
    (hlt : x i < V0) :
    ∃ p s, staticPressures k u.e.name u.v.name u.p.name (some f) eosFit n x e = .ok p ∧
      IsPressure k u (p i) s ∧ -deriv (EoS.energy f E0 K0 Kp V0) (x i) < -s := by
  refine ⟨_, -EoS.pressure f K0 Kp V0 (x i), by simp only [staticPressures, e2pMap_eq]; rfl, ?_, ?_⟩
  · have e1 : K0 * u.e.joule k / u.v.m3 k / u.p.pascal =
        (u.e.joule k / u.v.m3 k / u.p.pascal) * K0 := by ring
    have := isPressure_of k u (-EoS.pressure f K0 Kp V0 (x i))
    simp only [hfit, Matrix.cons_val_one, Matrix.cons_val_zero, Matrix.cons_val]
    rw [e1, pressure_scale]
    convert this using 1
    ring
  · rw [neg_neg]
    exact (EoS.C26_pressure_violated f hf E0 K0 Kp V0 (x i) hV0 hi hK0).1 hlt

/-- Volumes 100, 101, 104 and the energy `(V - 102)²`: the hypotheses of `C102_slope`, `C102_decreasing`,
`C102_inner_partial` and `C102_ends_violated` hold. -/
example : Increasing 3 (fun i => 100 + (i : ℝ) ^ 2) ∧
    StrictConvexOn ℝ Set.univ (fun v : ℝ => v ^ 2) ∧
    (∀ i < 3, (100 + (i : ℝ) ^ 2) ∈ (Set.univ : Set ℝ)) ∧ (1 : ℝ) ≠ 0 := by
  refine ⟨fun i _ => ?_, ?_, by simp, one_ne_zero⟩
  · push_cast; nlinarith [Nat.cast_nonneg (α := ℝ) i]
  · exact even_two.strictConvexOn_pow two_ne_zero

/-- A Murnaghan fit with `V0 = 10`, `K0 = 0.1`, `K' = 4` at the volume 9. -/
example : (0 : ℝ) < 10 ∧ (0 : ℝ) < 0.1 ∧ EoS.Spec.ERegular .murnaghan 4 ∧ (0 : ℝ) < 9 ∧ (9 : ℝ) < 10 := by
  norm_num [EoS.Spec.ERegular]

end Verif.Report
