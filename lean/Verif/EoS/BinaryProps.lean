/-
C162: equations of state in the arithmetic of the computer.
-/
import Verif.EoS.BinaryEnergy
import Verif.StatMech.RoundMono

noncomputable section

namespace Verif.EoS.Rounded
open Verif.EoS Verif.EoS.Rounded.Spec
open Verif.Elastic.Rounded (Bnd u_pos u_le)
open Verif.Elastic.Rounded.Spec (u)

variable {m : Machine} {p : Pars} {V : ℝ}

theorem rnd_pos (hm : Accurate m) {x : ℝ} (hx : 0 < x) : 0 < m.rnd x := by
  have h := (abs_le.1 (hm.rnd x)).1
  rw [abs_of_pos hx] at h
  nlinarith [u_le, u_pos]

theorem rnd_zero (hm : Accurate m) : m.rnd 0 = 0 := by
  have := hm.rnd 0
  simp only [sub_zero, abs_zero, mul_zero] at this
  exact abs_eq_zero.1 (le_antisymm this (abs_nonneg _))

theorem log_one (hm : Accurate m) : m.log 1 = 0 := by
  have := hm.log 1 one_pos
  simp only [Real.log_one, sub_zero, abs_zero, mul_zero] at this
  exact abs_eq_zero.1 (le_antisymm this (abs_nonneg _))

/-! ### The implied second derivative -/

theorem setKp_fields (f : Formulation) (p : Pars) (order : ℕ) (linear dofit : Bool) :
    (EoS.setKp f p order linear dofit).K0 = p.K0 ∧ (EoS.setKp f p order linear dofit).V0 = p.V0 ∧
      (EoS.setKp f p order linear dofit).Kpp = p.Kpp := by
  unfold EoS.setKp
  split_ifs <;> simp

theorem implied_birch (hm : Accurate m) {K κ : ℝ} (hK : 0 < K) (k1 : 1 ≤ κ) (k2 : κ ≤ 12) :
    Bnd 8 (120 / K) (m.rnd (m.rnd (-1 / K) * m.rnd (m.rnd (m.rnd (3 - κ) * m.rnd (4 - κ)) + m.rnd (35 / 9))))
      (-1 / K * ((3 - κ) * (4 - κ) + 35 / 9)) := by
  have a0 := rndC hm (-1 / K) (b := 1 / K) (by rw [neg_div, abs_neg, abs_of_pos (by positivity)])
  have a1 := rndC hm (3 - κ) (b := 9) (by rw [abs_le]; constructor <;> linarith)
  have a2 := rndC hm (4 - κ) (b := 8) (by rw [abs_le]; constructor <;> linarith)
  have a3 := rndB hm (mulB a1 a2 (by norm_num) (by norm_num)) (by norm_num)
  have a4 := (rndC hm (35 / 9) (b := 3.9) (by rw [abs_of_pos] <;> norm_num)).mono (n' := 1 + 1 + 0.001 + 1.001) (by norm_num) le_rfl
  have a5 := rndB hm (a3.add a4) (by norm_num)
  refine (rndB hm (mulB a0 a5 (by norm_num) (by norm_num)) (by norm_num)).mono (by norm_num) ?_
  rw [one_div_mul_eq_div]
  exact div_le_div_of_nonneg_right (by norm_num) hK.le

theorem implied_natural (hm : Accurate m) {K κ : ℝ} (hK : 0 < K) (k1 : 1 ≤ κ) (k2 : κ ≤ 12) :
    Bnd 8 (120 / K) (m.rnd (m.rnd (-1 / K) * m.rnd (m.rnd (1 + m.rnd (κ - 2)) + m.npow (m.rnd (κ - 2)) 2)))
      (-1 / K * (1 + (κ - 2) + (κ - 2) ^ 2)) := by
  have a0 := rndC hm (-1 / K) (b := 1 / K) (by rw [neg_div, abs_neg, abs_of_pos (by positivity)])
  have a1 := rndC hm (κ - 2) (b := 10) (by rw [abs_le]; constructor <;> linarith)
  have a2 := (rndB hm (shift a1 1 (b' := 11) (n' := 1) (by rw [abs_le]; constructor <;> linarith) (by norm_num) (by norm_num))
    (by norm_num)).mono (n' := 2 * 1 + 2.002) (by norm_num) le_rfl
  have a5 := rndB hm (a2.add (sqB hm a1 (by norm_num))) (by norm_num)
  refine (rndB hm (mulB a0 a5 (by norm_num) (by norm_num)) (by norm_num)).mono (by norm_num) ?_
  rw [one_div_mul_eq_div]
  exact div_le_div_of_nonneg_right (by norm_num) hK.le

theorem implied_vinet (hm : Accurate m) {K κ : ℝ} (hK : 0 < K) (k1 : 1 ≤ κ) (k2 : κ ≤ 12) :
    Bnd 8 (120 / K) (m.rnd (m.rnd (-1 / K) * m.rnd (m.rnd (m.npow (m.rnd (κ / 2)) 2 + m.rnd (κ / 2)) - m.rnd (19 / 46))))
      (-1 / K * ((κ / 2) ^ 2 + κ / 2 - 19 / 46)) := by
  have a0 := rndC hm (-1 / K) (b := 1 / K) (by rw [neg_div, abs_neg, abs_of_pos (by positivity)])
  have a1 := rndC hm (κ / 2) (b := 6) (by rw [abs_le]; constructor <;> linarith)
  have a2 := rndB hm ((sqB hm a1 (by norm_num)).add (a1.mono (n' := 2 * 1 + 2.002) (by norm_num) le_rfl)) (by norm_num)
  have a4 := (rndC hm (19 / 46) (b := 0.42) (by rw [abs_of_pos] <;> norm_num)).mono (n' := 2 * 1 + 2.002 + 1.001) (by norm_num) le_rfl
  have a5 := rndB hm (a2.sub a4) (by norm_num)
  have a6 := rndB hm (mulB a0 a5 (by norm_num) (by norm_num)) (by norm_num)
  have hK' : 0 < K⁻¹ := by positivity
  refine rescale (a6.mono le_rfl (b' := 50 * (1 / K)) (by norm_num; linarith)) (a6.le.trans ?_) (by norm_num) ?_
  · rw [one_div_mul_eq_div]
    exact div_le_div_of_nonneg_right (by norm_num) hK.le
  · rw [show (120 : ℝ) / K = 120 * (1 / K) by ring]
    norm_num
    linarith

/-- **C162 (pressure).**  In the arithmetic of the computer `eos` returns the pressure of the equation of state up to 1e-12 of the
bulk modulus (1e-10 for the modified Tait equation), for every formulation, every order, linear or not, fitting or not, at all
volumes between two thirds and three halves of the reference volume. -/
theorem C162_pressure (hm : Accurate m) (f : Formulation) (p : Pars) (V : ℝ) (order : ℕ) (linear dofit : Bool)
    (h : Solid (EoS.parsAfter f p order linear dofit) V) (hc : dofit = true ∧ order < 4 ∨ Curvature f p) :
    |(eos m f p V order linear dofit).1 - (EoS.eos f p V order linear dofit).1| ≤ tolerance f * p.K0 := by
  have hf := setKp_fields f p order linear dofit
  have hkk : ¬ (dofit = true ∧ order < 4) → EoS.setKp f p order linear dofit = p := by
    intro hn
    cases dofit
    · rfl
    · have : 4 ≤ order := by simpa using hn
      have h2 : order ≠ 2 := by omega
      simp [EoS.setKp, h2]
  simp only [eos, EoS.eos, parsAfter, EoS.parsAfter, setKp] at h ⊢
  set q := EoS.setKp f p order linear dofit with hq
  obtain ⟨e1, e2, e3⟩ := hf
  rw [← e1]
  cases f
  · exact murnaghan_err hm h
  · simp only [setKpp, EoS.setKpp] at h ⊢
    by_cases hd : dofit = true ∧ order < 4
    · simp only [hd, and_self, if_true] at h ⊢
      exact birch_err hm h ⟨rfl, rfl, rfl⟩ (implied_birch hm h.posK h.Kp.1 h.Kp.2)
    · simp only [hd, if_false] at h ⊢
      have hp := hkk hd
      rw [hp] at h ⊢
      refine birch_err hm h ⟨rfl, rfl, rfl⟩ (constB _ ?_ (by norm_num))
      have h1 : |p.K0 * p.Kpp| ≤ 120 := hc.resolve_left hd
      rwa [abs_mul, abs_of_pos h.posK, ← le_div_iff₀' h.posK] at h1
  · simp only [setKpp, EoS.setKpp] at h ⊢
    by_cases hd : dofit = true ∧ order < 4
    · simp only [hd, and_self, if_true] at h ⊢
      exact natural_err hm h ⟨rfl, rfl, rfl⟩ (implied_natural hm h.posK h.Kp.1 h.Kp.2)
    · simp only [hd, if_false] at h ⊢
      have hp := hkk hd
      rw [hp] at h ⊢
      refine natural_err hm h ⟨rfl, rfl, rfl⟩ (constB _ ?_ (by norm_num))
      have h1 : |p.K0 * p.Kpp| ≤ 120 := hc.resolve_left hd
      rwa [abs_mul, abs_of_pos h.posK, ← le_div_iff₀' h.posK] at h1
  · exact vinet_err hm h ⟨rfl, rfl, rfl⟩
  · simp only [setKpp, EoS.setKpp] at h ⊢
    by_cases hd : dofit = true ∧ order < 4
    · simp only [hd, and_self, if_true] at h ⊢
      have hK := h.posK
      have hκ := h.Kp.1
      simp only at hK hκ
      have he : q.K0 * (-q.Kp / q.K0) = -q.Kp := by field_simp
      exact tait_err hm h ⟨rfl, rfl, rfl⟩ (show -q.Kp ≤ q.K0 * (-q.Kp / q.K0) ∧ q.K0 * (-q.Kp / q.K0) ≤ 0 by
          rw [he]; constructor <;> linarith)
        (rndC hm _ (by rw [neg_div, abs_neg, abs_of_pos (by positivity)]))
    · simp only [hd, if_false] at h ⊢
      have hp := hkk hd
      rw [hp] at h ⊢
      have h1 : Curvature .tait p := hc.resolve_left hd
      refine tait_err hm h ⟨rfl, rfl, rfl⟩ h1 (constB _ ?_ (by norm_num))
      obtain ⟨w1, w2⟩ : -p.Kp ≤ p.K0 * p.Kpp ∧ p.K0 * p.Kpp ≤ 0 := h1
      have w : p.K0 * |p.Kpp| = |p.K0 * p.Kpp| := by rw [abs_mul, abs_of_pos h.posK]
      rw [le_div_iff₀' h.posK, w, abs_le]
      constructor <;> linarith [h.Kp.1]

/-- **C162 (parameters).**  `eos` leaves `K0`, `K'` and `V0` the same as without rounding, and the implied second derivative is
accurate to 1e-12 divided by the bulk modulus. -/
theorem C162_parameters (hm : Accurate m) (f : Formulation) (p : Pars) (V : ℝ) (order : ℕ) (linear dofit : Bool)
    (h : Solid (EoS.parsAfter f p order linear dofit) V) :
    (eos m f p V order linear dofit).2.K0 = (EoS.eos f p V order linear dofit).2.K0 ∧
    (eos m f p V order linear dofit).2.Kp = (EoS.eos f p V order linear dofit).2.Kp ∧
    (eos m f p V order linear dofit).2.V0 = (EoS.eos f p V order linear dofit).2.V0 ∧
    |(eos m f p V order linear dofit).2.Kpp - (EoS.eos f p V order linear dofit).2.Kpp| ≤ 1e-12 / p.K0 := by
  obtain ⟨e1, e2, e3⟩ := setKp_fields f p order linear dofit
  simp only [eos, EoS.eos, parsAfter, EoS.parsAfter, setKp] at h ⊢
  set q := EoS.setKp f p order linear dofit with hq
  rw [← e1]
  have hK0 : 0 < q.K0 := by
    have := h.posK
    cases f <;> simp only [EoS.setKpp] at this <;> first | exact this | (split_ifs at this <;> exact this)
  have zero : (0 : ℝ) ≤ 1e-12 / q.K0 := by positivity
  have fin {x X : ℝ} (hB : Bnd 8 (120 / q.K0) x X) : |x - X| ≤ 1e-12 / q.K0 := by
    have := small hB (K := 1 / q.K0) (by positivity) (N := 960) (t := 1e-12) (le_of_eq (by ring)) (by norm_num) (by norm_num)
    rwa [mul_one_div] at this
  cases f
  · simp only [setKpp, EoS.setKpp, sub_self, abs_zero]
    exact ⟨trivial, trivial, trivial, zero⟩
  · simp only [setKpp, EoS.setKpp] at h ⊢
    by_cases hd : dofit = true ∧ order < 4
    · simp only [hd, and_self, if_true] at h ⊢
      exact ⟨trivial, trivial, trivial, fin (implied_birch hm h.posK h.Kp.1 h.Kp.2)⟩
    · simp [hd, zero]
  · simp only [setKpp, EoS.setKpp] at h ⊢
    by_cases hd : dofit = true ∧ order < 4
    · simp only [hd, and_self, if_true] at h ⊢
      exact ⟨trivial, trivial, trivial, fin (implied_natural hm h.posK h.Kp.1 h.Kp.2)⟩
    · simp [hd, zero]
  · exact ⟨rfl, rfl, rfl, fin (implied_vinet hm h.posK h.Kp.1 h.Kp.2)⟩
  · simp only [setKpp, EoS.setKpp] at h ⊢
    by_cases hd : dofit = true ∧ order < 4
    · simp only [hd, and_self, if_true] at h ⊢
      obtain ⟨k1, k2⟩ := h.Kp
      simp only at k1 k2
      refine ⟨trivial, trivial, trivial, fin ((rndC hm _ (b := 120 / q.K0) ?_).mono (by norm_num) le_rfl)⟩
      rw [neg_div, abs_neg, abs_of_pos (by positivity)]
      exact div_le_div_of_nonneg_right (by linarith) hK0.le
    · simp [hd, zero]

/-- **C162 (energy).**  The energies are those of the equation of state up to one unit in the last place of the reference energy
plus 1e-11 of `K0 V0`. -/
theorem C162_energy (hm : Accurate m) (f : EForm) (E0 K0 Kp V0 V : ℝ) (h : Solid ⟨K0, Kp, 0, V0⟩ V)
    (h2 : f = .murnaghan ∨ f = .vinet → 2 ≤ Kp) :
    |energy m f E0 K0 Kp V0 V - EoS.energy f E0 K0 Kp V0 V| ≤ 2.01 * u * |E0| + 1e-11 * (K0 * V0) := by
  cases f
  · exact energy_murnaghan_err hm h (h2 (.inl rfl))
  · exact energy_birch_err hm h
  · exact energy_tarantola_err hm h
  · exact energy_vinet_err hm h (h2 (.inr rfl))

/-- **C162 (pressure of a fitted energy).** -/
theorem C162_ev_pressure (hm : Accurate m) (f : EForm) (K0 Kp V0 V : ℝ) (h : Solid ⟨K0, Kp, 0, V0⟩ V) :
    |pressure m f K0 Kp V0 V - EoS.pressure f K0 Kp V0 V| ≤ 1e-12 * K0 := by
  have hk := h.posK
  have := C162_pressure hm (pvType f) ⟨K0, Kp, 0, V0⟩ V 3 false false
    (by cases f <;> exact ⟨h.posK, h.posV0, h.posV, h.compressed, h.expanded, h.Kp⟩)
    (.inr (by cases f <;> simp [pvType, Curvature]))
  cases f <;> exact this

/-- **C162 (reference volume).**  At the reference volume the computed pressure is exactly zero.  Missing: the modified Tait
equation (`C162_tait_violated`). -/
theorem C162_zero_partial (hm : Accurate m) (h1 : KeepsOne m) (f : Formulation) (hf : f ≠ .tait) (p : Pars) (hV : p.V0 ≠ 0) (order : ℕ)
    (linear dofit : Bool) : (eos m f p p.V0 order linear dofit).1 = 0 := by
  have h0 := rnd_zero hm
  have hl := log_one hm
  obtain ⟨-, e2, -⟩ := setKp_fields f p order linear dofit
  have eV : (parsAfter m f p order linear dofit).V0 = p.V0 := by
    rw [← e2, parsAfter, setKp]
    cases f <;> simp only [setKpp] <;> split_ifs <;> rfl
  rw [eos]
  generalize parsAfter m f p order linear dofit = q at *
  simp only
  cases f
  · simp [formula, eV, hV, h1.rnd, h1.pow, h0]
  · simp [formula, fE, eV, hV, h1.rnd, h1.pow, h0]
  · simp [formula, fN, eV, hV, h1.rnd, hl, h0]
  · simp [formula, fV, eV, hV, h1.rnd, h1.pow, h0]
  · exact absurd rfl hf

/-- **C162 (order).**  Along a Murnaghan equation of state the computed pressure never increases with the volume. -/
theorem C162_order (ho : Ordered m) (hm : Accurate m) (p : Pars) (hK : 0 < p.K0) (hk : 0 < p.Kp) (hV0 : 0 < p.V0) (V W : ℝ)
    (hV : 0 < V) (h : V ≤ W) (order : ℕ) (linear dofit : Bool) :
    (eos m .murnaghan p W order linear dofit).1 ≤ (eos m .murnaghan p V order linear dofit).1 := by
  have hq : EoS.setKp .murnaghan p order linear dofit = p := by
    unfold EoS.setKp
    split_ifs <;> rfl
  simp only [eos, parsAfter, setKp, hq, setKpp, formula]
  apply ho.rnd
  apply mul_le_mul_of_nonneg_left _ (rnd_pos hm (div_pos hK hk)).le
  apply ho.rnd
  have hW : 0 < W := by linarith
  have := ho.pow _ _ p.Kp (rnd_pos hm (div_pos hV0 hW)) (ho.rnd (div_le_div_of_nonneg_left hV0.le hV h)) hk.le
  linarith

end Verif.EoS.Rounded
