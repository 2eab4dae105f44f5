/-
Property C173: the angles of the elastic sections (/repo/quantas/soec/soec.py:313, 360-382) and of the seismic scan
(/repo/quantas/seismic/seismic.py:209-213) in the arithmetic of the computer, with every operation rounded to binary64.
-/
import Mathlib.Analysis.Real.Pi.Bounds
import Mathlib.Analysis.SpecialFunctions.Trigonometric.Bounds
import Verif.Grid.Float
import Verif.Elastic.Model

namespace Verif.Grid.Binary
open Verif.Elastic (vector)

/-! ### The code -/

/-- `np.pi`: the binary64 number nearest to π. -/
def pi64 : ℚ := 884279719003555 / 281474976710656

/-- `np.linspace(0, stop, n)` (numpy, `function_base.linspace`): `arange(0, n) * step` with `step = stop / (n - 1)`, and the last
of more than one is `stop` itself.  Simplification: adding the start, zero, is left out because it is exact. -/
def linspace0 (stop : ℚ) (n : ℕ) : List ℚ :=
  (List.range n).map fun i : ℕ => if i + 1 = n ∧ 1 < n then stop else rnd (i * rnd (stop / ((n : ℚ) - 1)))

/-- The angles of the sections, `np.linspace(0, 2*np.pi, nrad)` (soec.py:313). -/
def sectionAngles (n : ℕ) : List ℚ := linspace0 (rnd (2 * pi64)) n

/-- `np.degrees(x)`, the first column of the sections (soec.py:360-382): `x * (180 / pi)`. -/
def degrees64 (x : ℚ) : ℚ := rnd (x * rnd (180 / pi64))

/-- The polar angle `0.5*np.pi*theta/(ntheta-1)` of the scan (seismic.py:212). -/
def scanTheta (ntheta i : ℕ) : ℚ := rnd (rnd (rnd (1 / 2 * pi64) * i) / ((ntheta : ℚ) - 1))

/-- The azimuth `2.0*np.pi*phi/(nphi-1)` of the scan (seismic.py:213). -/
def scanPhi (nphi j : ℕ) : ℚ := rnd (rnd (rnd (2 * pi64) * j) / ((nphi : ℚ) - 1))

/-! ### Lemmas -/

theorem rel_rnd {a A c : ℚ} (hA : 0 ≤ A) (hc0 : 0 ≤ c) (hc : c ≤ 10) (h : |a - A| ≤ c * u * A) :
    |rnd a - A| ≤ (c + 1 + 1 / 1000) * u * A := by
  have h1 := rnd_err a
  have h2 : |a| ≤ A + c * u * A := by
    have := abs_sub_abs_le_abs_sub a A
    rw [abs_of_nonneg hA] at this
    linarith
  have h3 : |rnd a - A| ≤ |rnd a - a| + |a - A| := by
    have := abs_add_le (rnd a - a) (a - A)
    simpa using this
  have hu := u_pos
  have hu2 := u_small
  have h4 : u * |a| ≤ u * (A + c * u * A) := mul_le_mul_of_nonneg_left h2 hu.le
  have h5 : c * u ≤ 1 / 1000 := by nlinarith
  have h6 : c * u * (u * A) ≤ 1 / 1000 * (u * A) := mul_le_mul_of_nonneg_right h5 (by positivity)
  linarith

theorem rel_mul {a A c m : ℚ} (hm : 0 ≤ m) (h : |a - A| ≤ c * u * A) : |m * a - m * A| ≤ c * u * (m * A) := by
  rw [← mul_sub, abs_mul, abs_of_nonneg hm]
  calc m * |a - A| ≤ m * (c * u * A) := mul_le_mul_of_nonneg_left h hm
    _ = _ := by ring

theorem pi64_pos : 0 < pi64 := by unfold pi64; norm_num

/-- `np.pi` is the nearest to π of the binary64 numbers from 2 to 4, which are the multiples of `2^(-51)` there. -/
theorem pi64_nearest : (∃ z : ℤ, pi64 = z * 2 ^ (-51 : ℤ)) ∧ |Real.pi - (pi64 : ℝ)| < 1 / 2 * 2 ^ (-51 : ℤ) := by
  have p1 := Real.pi_gt_d20
  have p2 := Real.pi_lt_d20
  have hp : (pi64 : ℝ) = 884279719003555 / 281474976710656 := by simp [pi64]
  refine ⟨⟨884279719003555 * 8, by unfold pi64; norm_num⟩, ?_⟩
  rw [hp, abs_lt]
  constructor <;> norm_num at p1 p2 ⊢ <;> linarith

theorem rel_refl {A : ℚ} : |A - A| ≤ 0 * u * A := by simp

theorem rel_weaken {a A c d : ℚ} (hA : 0 ≤ A) (hcd : c ≤ d) (h : |a - A| ≤ c * u * A) : |a - A| ≤ d * u * A :=
  h.trans (mul_le_mul_of_nonneg_right (mul_le_mul_of_nonneg_right hcd u_pos.le) hA)

theorem two_pi : rnd (2 * pi64) = 2 * pi64 := by
  have : (2 * pi64 : ℚ) = ((884279719003555 : ℤ) : ℚ) * 2 ^ (-47 : ℤ) := by unfold pi64; norm_num
  rw [this]
  exact rnd_exact (by decide) _

theorem half_pi : rnd (1 / 2 * pi64) = 1 / 2 * pi64 := by
  have : (1 / 2 * pi64 : ℚ) = ((884279719003555 : ℤ) : ℚ) * 2 ^ (-49 : ℤ) := by unfold pi64; norm_num
  rw [this]
  exact rnd_exact (by decide) _

/-- A node of the sections. -/
theorem section_rel {stop : ℚ} (hs : 0 ≤ stop) {n i : ℕ} (hn : 2 ≤ n) (hi : i < n) :
    |(linspace0 stop n)[i]'(by simp [linspace0, hi]) - i * (stop / ((n : ℚ) - 1))| ≤
      (2 + 1 / 400) * u * (i * (stop / ((n : ℚ) - 1))) := by
  have hn1 : (0 : ℚ) < (n : ℚ) - 1 := by
    have : (2 : ℚ) ≤ n := by exact_mod_cast hn
    linarith
  have hA : 0 ≤ stop / ((n : ℚ) - 1) := by positivity
  simp only [linspace0, List.getElem_map, List.getElem_range]
  split_ifs with h
  · have e : (i : ℚ) * (stop / ((n : ℚ) - 1)) = stop := by
      have : (i : ℚ) = (n : ℚ) - 1 := by
        rw [← h.1]; push_cast; ring
      rw [this]
      field_simp
    rw [e]
    have := u_pos
    simp only [sub_self, abs_zero]
    positivity
  · have h1 := rel_rnd hA le_rfl (by norm_num) (rel_refl (A := stop / ((n : ℚ) - 1)))
    have h2 := rel_rnd (by positivity) (by norm_num) (by norm_num) (rel_mul (m := i) (Nat.cast_nonneg i) h1)
    exact rel_weaken (by positivity) (by norm_num) h2

theorem scan_rel {h : ℚ} (hh : 0 ≤ h) {n i : ℕ} (hn : 2 ≤ n) :
    |rnd (rnd (h * i) / ((n : ℚ) - 1)) - i * (h / ((n : ℚ) - 1))| ≤ (2 + 1 / 400) * u * (i * (h / ((n : ℚ) - 1))) := by
  have hn1 : (0 : ℚ) < (n : ℚ) - 1 := by
    have : (2 : ℚ) ≤ n := by exact_mod_cast hn
    linarith
  have h1 := rel_rnd (A := h * i) (by positivity) le_rfl (by norm_num) (rel_refl)
  have h2 := rel_rnd (by positivity) (by norm_num) (by norm_num) (rel_mul (m := 1 / ((n : ℚ) - 1)) (by positivity) h1)
  have e : ∀ a : ℚ, 1 / ((n : ℚ) - 1) * a = a / ((n : ℚ) - 1) := fun a => by ring
  rw [e, e] at h2
  have e2 : (i : ℚ) * (h / ((n : ℚ) - 1)) = h * i / ((n : ℚ) - 1) := by ring
  rw [e2]
  exact rel_weaken (by positivity) (by norm_num) h2

/-- Nodes that are near the equidistant ones are increasing. -/
theorem rel_lt {x y A : ℚ} (hA : 0 < A) {i j : ℕ} (hij : i < j) (hj : j ≤ 2 ^ 49) (hx : |x - i * A| ≤ (2 + 1 / 400) * u * (i * A))
    (hy : |y - j * A| ≤ (2 + 1 / 400) * u * (j * A)) : x < y := by
  have hj' : (j : ℚ) ≤ 2 ^ 49 := by exact_mod_cast hj
  have hij' : (i : ℚ) + 1 ≤ j := by exact_mod_cast hij
  have hx := (abs_le.1 hx).2
  have hy := (abs_le.1 hy).1
  have hu : u = 1 / 2 ^ 53 := rfl
  have key : (2 + 1 / 400) * u * (i : ℚ) + (2 + 1 / 400) * u * j < 1 := by
    have hb : (j : ℚ) ≤ 562949953421312 := hj'.trans (by norm_num)
    rw [hu]
    norm_num
    linarith
  have : ((2 + 1 / 400) * u * (i : ℚ) + (2 + 1 / 400) * u * j) * A < (j - i) * A :=
    mul_lt_mul_of_pos_right (by linarith) hA
  linarith

/-- From multiples of `np.pi` to multiples of π. -/
theorem rel_real {x c : ℚ} {m : ℚ} (hm : 0 ≤ m) (hc0 : 0 ≤ c) (h : |x - m * pi64| ≤ c * u * (m * pi64)) :
    |(x : ℝ) - m * Real.pi| ≤ (c + 1 / 2) / 2 ^ 53 * (m * Real.pi) := by
  have h' : |(x : ℝ) - m * (pi64 : ℝ)| ≤ c * (1 / 2 ^ 53) * (m * (pi64 : ℝ)) := by
    have := (Rat.cast_le (K := ℝ)).2 h
    simpa [u] using this
  have p1 := Real.pi_gt_d20
  have p2 := Real.pi_lt_d20
  have hp : (pi64 : ℝ) = 884279719003555 / 281474976710656 := by simp [pi64]
  have hle : (pi64 : ℝ) ≤ Real.pi := by rw [hp]; norm_num at p1 ⊢; linarith
  have hd : Real.pi - (pi64 : ℝ) ≤ 1 / 2 / 2 ^ 53 * Real.pi := by rw [hp]; norm_num at p1 p2 ⊢; linarith
  have hm' : (0 : ℝ) ≤ m := by exact_mod_cast hm
  have hc' : (0 : ℝ) ≤ c := by exact_mod_cast hc0
  have a1 : |(m : ℝ) * pi64 - m * Real.pi| ≤ m * (1 / 2 / 2 ^ 53 * Real.pi) := by
    rw [← mul_sub, abs_mul, abs_of_nonneg hm', abs_sub_comm, abs_of_nonneg (by linarith)]
    exact mul_le_mul_of_nonneg_left hd hm'
  have a2 : (c : ℝ) * (1 / 2 ^ 53) * (m * (pi64 : ℝ)) ≤ c * (1 / 2 ^ 53) * (m * Real.pi) := by gcongr
  have a3 := abs_sub_le (x : ℝ) (m * (pi64 : ℝ)) (m * Real.pi)
  calc _ ≤ _ := a3
    _ ≤ c * (1 / 2 ^ 53) * (m * Real.pi) + m * (1 / 2 / 2 ^ 53 * Real.pi) := add_le_add (h'.trans a2) a1
    _ = _ := by ring

/-! ### C173 -/

/-- C173, sections: for at least two and at most `2^49` angles there is one for each requested, they start at 0, increase, stay
within 0 and 2π, and each is `2π i / (n - 1)` up to three units of `2^(-53)` of itself. -/
theorem C173_sections (n : ℕ) (hn : 2 ≤ n) (hmax : n ≤ 2 ^ 49) :
    (sectionAngles n).length = n ∧ (sectionAngles n).head? = some 0 ∧ (sectionAngles n).Pairwise (· < ·) ∧
    ∀ i (h : i < (sectionAngles n).length), 0 ≤ ((sectionAngles n)[i] : ℝ) ∧ ((sectionAngles n)[i] : ℝ) ≤ 2 * Real.pi ∧
      |((sectionAngles n)[i] : ℝ) - 2 * Real.pi * i / ((n : ℝ) - 1)| ≤ 3 / 2 ^ 53 * (2 * Real.pi * i / ((n : ℝ) - 1)) := by
  have hn2 : (2 : ℚ) ≤ n := by exact_mod_cast hn
  have hn1 : (0 : ℚ) < (n : ℚ) - 1 := by linarith
  have hpi := pi64_pos
  have hlen : (sectionAngles n).length = n := by simp [sectionAngles, linspace0]
  have hA : 0 < 2 * pi64 / ((n : ℚ) - 1) := by positivity
  have rel : ∀ i (h : i < (sectionAngles n).length), |(sectionAngles n)[i] - i * (2 * pi64 / ((n : ℚ) - 1))| ≤
      (2 + 1 / 400) * u * (i * (2 * pi64 / ((n : ℚ) - 1))) := by
    intro i h
    have := section_rel (stop := 2 * pi64) (by positivity) hn (by rwa [hlen] at h : i < n)
    simp only [sectionAngles, two_pi]
    exact this
  have inc : ∀ i j (hi : i < (sectionAngles n).length) (hj : j < (sectionAngles n).length), i < j →
      (sectionAngles n)[i] < (sectionAngles n)[j] := fun i j hi hj hij =>
    rel_lt hA hij (by rw [hlen] at hj; omega) (rel i hi) (rel j hj)
  have h0 : 0 < (sectionAngles n).length := by omega
  have first : (sectionAngles n)[0] = 0 := by
    have := rel 0 h0
    simp only [Nat.cast_zero, zero_mul, mul_zero, sub_zero] at this
    exact abs_eq_zero.1 (le_antisymm this (abs_nonneg _))
  have hlast : n - 1 < (sectionAngles n).length := by omega
  have last : (sectionAngles n)[n - 1] = 2 * pi64 := by
    simp only [sectionAngles, two_pi, linspace0, List.getElem_map, List.getElem_range]
    rw [if_pos ⟨by omega, by omega⟩]
  refine ⟨hlen, ?_, List.pairwise_iff_getElem.2 inc, fun i h => ⟨?_, ?_, ?_⟩⟩
  · rw [List.head?_eq_getElem?, List.getElem?_eq_getElem h0, first]
  · have : 0 ≤ (sectionAngles n)[i] := by
      rcases Nat.eq_zero_or_pos i with rfl | hp
      · exact first.ge
      · exact first ▸ (inc 0 i h0 h hp).le
    exact_mod_cast this
  · have : (sectionAngles n)[i] ≤ 2 * pi64 := by
      rcases Nat.lt_or_ge i (n - 1) with hl | hl
      · exact last ▸ (inc i (n - 1) h hlast hl).le
      · obtain rfl : i = n - 1 := by omega
        exact last.le
    have this : ((sectionAngles n)[i] : ℝ) ≤ ((2 * pi64 : ℚ) : ℝ) := by exact_mod_cast this
    have p1 := Real.pi_gt_d20
    have hp : ((2 * pi64 : ℚ) : ℝ) = 2 * (884279719003555 / 281474976710656) := by simp [pi64]
    rw [hp] at this
    norm_num at p1 this ⊢
    linarith
  · have e : (i : ℚ) * (2 * pi64 / ((n : ℚ) - 1)) = (2 * i / ((n : ℚ) - 1)) * pi64 := by ring
    have hr := rel i h
    rw [e] at hr
    have := rel_real (by positivity) (by norm_num) hr
    push_cast at this
    have e2 : (2 * (i : ℝ) / ((n : ℝ) - 1)) * Real.pi = 2 * Real.pi * i / ((n : ℝ) - 1) := by ring
    rw [e2] at this
    refine this.trans (mul_le_mul_of_nonneg_right (by norm_num) ?_)
    have : (0 : ℝ) < (n : ℝ) - 1 := by exact_mod_cast hn1
    have := Real.pi_pos
    positivity

/-- C173, degrees: the first column of a section holds `360 i / (n - 1)` up to five units of `2^(-53)` of itself. -/
theorem C173_degrees (n : ℕ) (hn : 2 ≤ n) (i : ℕ) (h : i < (sectionAngles n).length) :
    |degrees64 (sectionAngles n)[i] - 360 * i / ((n : ℚ) - 1)| ≤ 5 / 2 ^ 53 * (360 * i / ((n : ℚ) - 1)) := by
  have hn2 : (2 : ℚ) ≤ n := by exact_mod_cast hn
  have hn1 : (0 : ℚ) < (n : ℚ) - 1 := by linarith
  have hpi := pi64_pos
  have hlen : (sectionAngles n).length = n := by simp [sectionAngles, linspace0]
  have hr : |(sectionAngles n)[i] - i * (2 * pi64 / ((n : ℚ) - 1))| ≤
      (2 + 1 / 400) * u * (i * (2 * pi64 / ((n : ℚ) - 1))) := by
    have := section_rel (stop := 2 * pi64) (by positivity) hn (by rwa [hlen] at h : i < n)
    simp only [sectionAngles, two_pi]
    exact this
  set x := (sectionAngles n)[i] with hx
  set A := (i : ℚ) * (2 * pi64 / ((n : ℚ) - 1)) with hA
  have hA0 : 0 ≤ A := by positivity
  have hB0 : 0 ≤ 180 / pi64 := by positivity
  have hd := rel_rnd hB0 le_rfl (by norm_num) (rel_refl (A := 180 / pi64))
  have m1 := rel_mul hA0 hd
  have m2 : |x * rnd (180 / pi64) - A * rnd (180 / pi64)| ≤ (2 + 1 / 100) * u * (A * (180 / pi64)) := by
    rw [← sub_mul, abs_mul]
    have b1 : |rnd (180 / pi64)| ≤ (1 + 1 / 1000) * (180 / pi64) := by
      have h1 := abs_sub_abs_le_abs_sub (rnd (180 / pi64)) (180 / pi64)
      rw [abs_of_nonneg hB0] at h1
      have : (0 + 1 + 1 / 1000) * u * (180 / pi64) ≤ 1 / 1000 * (180 / pi64) :=
        mul_le_mul_of_nonneg_right (by have := u_small; linarith) hB0
      linarith
    calc _ ≤ ((2 + 1 / 400) * u * A) * ((1 + 1 / 1000) * (180 / pi64)) :=
          mul_le_mul hr b1 (abs_nonneg _) (by have := u_pos; positivity)
      _ = (2 + 1 / 400) * (1 + 1 / 1000) * (u * (A * (180 / pi64))) := by ring
      _ ≤ (2 + 1 / 100) * (u * (A * (180 / pi64))) :=
          mul_le_mul_of_nonneg_right (by norm_num) (by have := u_pos; positivity)
      _ = _ := by ring
  have m3 : |x * rnd (180 / pi64) - A * (180 / pi64)| ≤ (3 + 1 / 50) * u * (A * (180 / pi64)) := by
    have := abs_sub_le (x * rnd (180 / pi64)) (A * rnd (180 / pi64)) (A * (180 / pi64))
    refine this.trans ((add_le_add m2 m1).trans (le_of_le_of_eq
      (b := (3 + 1 / 50) * (u * (A * (180 / pi64)))) ?_ (by ring)))
    have : (2 + 1 / 100) * u * (A * (180 / pi64)) + (0 + 1 + 1 / 1000) * u * (A * (180 / pi64)) =
        (3 + 11 / 1000) * (u * (A * (180 / pi64))) := by ring
    rw [this]
    exact mul_le_mul_of_nonneg_right (by norm_num) (by have := u_pos; positivity)
  have e : A * (180 / pi64) = 360 * i / ((n : ℚ) - 1) := by
    rw [hA]
    field_simp
    ring
  rw [e] at m3
  have := rel_rnd (by positivity) (by norm_num) (by norm_num) m3
  refine this.trans (mul_le_mul_of_nonneg_right ?_ (by positivity))
  unfold u
  norm_num

/-- C173, scans: the polar angles and the azimuths of a scan are `π i / (2 (ntheta - 1))` and `2π j / (nphi - 1)` up to three units
of `2^(-53)` of themselves, the first are 0, and they increase. -/
theorem C173_scan (ntheta nphi : ℕ) (ht : 2 ≤ ntheta) (hp : 2 ≤ nphi) (ht' : ntheta ≤ 2 ^ 49) (hp' : nphi ≤ 2 ^ 49) :
    scanTheta ntheta 0 = 0 ∧ scanPhi nphi 0 = 0 ∧
    (∀ i j, i < j → j < ntheta → scanTheta ntheta i < scanTheta ntheta j) ∧
    (∀ i j, i < j → j < nphi → scanPhi nphi i < scanPhi nphi j) ∧
    (∀ i : ℕ, |(scanTheta ntheta i : ℝ) - Real.pi * i / (2 * ((ntheta : ℝ) - 1))| ≤
      3 / 2 ^ 53 * (Real.pi * i / (2 * ((ntheta : ℝ) - 1)))) ∧
    ∀ j : ℕ, |(scanPhi nphi j : ℝ) - 2 * Real.pi * j / ((nphi : ℝ) - 1)| ≤ 3 / 2 ^ 53 * (2 * Real.pi * j / ((nphi : ℝ) - 1)) := by
  have hpi := pi64_pos
  have t1 : (0 : ℚ) < (ntheta : ℚ) - 1 := by
    have : (2 : ℚ) ≤ ntheta := by exact_mod_cast ht
    linarith
  have f1 : (0 : ℚ) < (nphi : ℚ) - 1 := by
    have : (2 : ℚ) ≤ nphi := by exact_mod_cast hp
    linarith
  have rt : ∀ i : ℕ, |scanTheta ntheta i - i * (1 / 2 * pi64 / ((ntheta : ℚ) - 1))| ≤
      (2 + 1 / 400) * u * (i * (1 / 2 * pi64 / ((ntheta : ℚ) - 1))) := fun i => by
    unfold scanTheta
    rw [half_pi]
    exact scan_rel (by positivity) ht
  have rf : ∀ j : ℕ, |scanPhi nphi j - j * (2 * pi64 / ((nphi : ℚ) - 1))| ≤
      (2 + 1 / 400) * u * (j * (2 * pi64 / ((nphi : ℚ) - 1))) := fun j => by
    unfold scanPhi
    rw [two_pi]
    exact scan_rel (by positivity) hp
  have zero : ∀ {x A : ℚ}, |x - ((0 : ℕ) : ℚ) * A| ≤ (2 + 1 / 400) * u * (((0 : ℕ) : ℚ) * A) → x = 0 := by
    intro x A h
    simp only [Nat.cast_zero, zero_mul, mul_zero, sub_zero] at h
    exact abs_eq_zero.1 (le_antisymm h (abs_nonneg _))
  refine ⟨zero (rt 0), zero (rf 0), fun i j hij hj => rel_lt (by positivity) hij (by omega) (rt i) (rt j),
    fun i j hij hj => rel_lt (by positivity) hij (by omega) (rf i) (rf j), fun i => ?_, fun j => ?_⟩
  · have hr := rt i
    have e : (i : ℚ) * (1 / 2 * pi64 / ((ntheta : ℚ) - 1)) = (i / (2 * ((ntheta : ℚ) - 1))) * pi64 := by field_simp
    rw [e] at hr
    have := rel_real (by positivity) (by norm_num) hr
    push_cast at this
    have e2 : ((i : ℝ) / (2 * ((ntheta : ℝ) - 1))) * Real.pi = Real.pi * i / (2 * ((ntheta : ℝ) - 1)) := by ring
    rw [e2] at this
    refine this.trans (mul_le_mul_of_nonneg_right (by norm_num) ?_)
    have : (0 : ℝ) < (ntheta : ℝ) - 1 := by exact_mod_cast t1
    have := Real.pi_pos
    positivity
  · have hr := rf j
    have e : (j : ℚ) * (2 * pi64 / ((nphi : ℚ) - 1)) = (2 * j / ((nphi : ℚ) - 1)) * pi64 := by ring
    rw [e] at hr
    have := rel_real (by positivity) (by norm_num) hr
    push_cast at this
    have e2 : (2 * (j : ℝ) / ((nphi : ℝ) - 1)) * Real.pi = 2 * Real.pi * j / ((nphi : ℝ) - 1) := by ring
    rw [e2] at this
    refine this.trans (mul_le_mul_of_nonneg_right (by norm_num) ?_)
    have : (0 : ℝ) < (nphi : ℝ) - 1 := by exact_mod_cast f1
    have := Real.pi_pos
    positivity

/-- Components of directions move no more than the angles. -/
theorem vector_lipschitz (a b c d : ℝ) (l : Fin 3) : |vector a b l - vector c d l| ≤ |a - c| + |b - d| := by
  have s1 := Real.abs_sin_sub_sin_le a c
  have c1 := Real.abs_cos_sub_cos_le a c
  have s2 := Real.abs_sin_sub_sin_le b d
  have c2 := Real.abs_cos_sub_cos_le b d
  have prod : ∀ {p q p' q' : ℝ}, |q| ≤ 1 → |p'| ≤ 1 → |p - p'| ≤ |a - c| → |q - q'| ≤ |b - d| →
      |p * q - p' * q'| ≤ |a - c| + |b - d| := by
    intro p q p' q' hq hp' h1 h2
    have e : p * q - p' * q' = (p - p') * q + p' * (q - q') := by ring
    rw [e]
    refine (abs_add_le _ _).trans (add_le_add ?_ ?_)
    · rw [abs_mul]
      exact (mul_le_of_le_one_right (abs_nonneg _) hq).trans h1
    · rw [abs_mul]
      exact (mul_le_of_le_one_left (abs_nonneg _) hp').trans h2
  fin_cases l
  · exact prod (Real.abs_cos_le_one _) (Real.abs_sin_le_one _) s1 c2
  · exact prod (Real.abs_sin_le_one _) (Real.abs_sin_le_one _) s1 s2
  · exact c1.trans (le_add_of_nonneg_right (abs_nonneg _))

/-- C173, directions: so every component of the direction of a node of a scan is the intended one up to `2^(-48)`. -/
theorem C173_directions (ntheta nphi : ℕ) (ht : 2 ≤ ntheta) (hp : 2 ≤ nphi) (ht' : ntheta ≤ 2 ^ 49) (hp' : nphi ≤ 2 ^ 49)
    (i j : ℕ) (hi : i < ntheta) (hj : j < nphi) (l : Fin 3) :
    |vector (scanTheta ntheta i) (scanPhi nphi j) l -
      vector (Real.pi * i / (2 * ((ntheta : ℝ) - 1))) (2 * Real.pi * j / ((nphi : ℝ) - 1)) l| ≤ 1 / 2 ^ 48 := by
  obtain ⟨-, -, -, -, h1, h2⟩ := C173_scan ntheta nphi ht hp ht' hp'
  have hpi := Real.pi_pos
  have hpi4 := Real.pi_le_four
  have t1 : (0 : ℝ) < (ntheta : ℝ) - 1 := by
    have : (2 : ℝ) ≤ ntheta := by exact_mod_cast ht
    linarith
  have f1 : (0 : ℝ) < (nphi : ℝ) - 1 := by
    have : (2 : ℝ) ≤ nphi := by exact_mod_cast hp
    linarith
  have hi' : (i : ℝ) ≤ (ntheta : ℝ) - 1 := by
    have : (i : ℝ) + 1 ≤ ntheta := by exact_mod_cast hi
    linarith
  have hj' : (j : ℝ) ≤ (nphi : ℝ) - 1 := by
    have : (j : ℝ) + 1 ≤ nphi := by exact_mod_cast hj
    linarith
  have b1 : Real.pi * i / (2 * ((ntheta : ℝ) - 1)) ≤ 2 := by
    rw [div_le_iff₀ (by positivity)]
    nlinarith
  have b2 : 2 * Real.pi * j / ((nphi : ℝ) - 1) ≤ 8 := by
    rw [div_le_iff₀ f1]
    nlinarith
  refine (vector_lipschitz _ _ _ _ l).trans ((add_le_add (h1 i) (h2 j)).trans ?_)
  norm_num
  linarith

/-! ### Cases -/

example := C173_sections 360 (by decide) (by decide)
example := C173_degrees 360 (by decide) 359 (by simp [sectionAngles, linspace0])
example := C173_scan 180 720 (by decide) (by decide) (by decide) (by decide)
example := C173_directions 180 720 (by decide) (by decide) (by decide) (by decide) 90 359 (by decide) (by decide) 1

/-- Three angles: 0, the half turn and the turn. -/
example : sectionAngles 3 = [0, pi64, 2 * pi64] := by decide +kernel

end Verif.Grid.Binary
