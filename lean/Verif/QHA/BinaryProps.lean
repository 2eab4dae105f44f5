/-
C163: derived quasi-harmonic quantities in the arithmetic of the computer.
-/
import Verif.QHA.BinaryLemmas
import Verif.QHA.Lemmas

noncomputable section

namespace Verif.QHA.Rounded
open Verif.QHA Verif.QHA.Rounded.Spec Verif.Units
open Verif.EoS.Rounded (Machine)
open Verif.EoS.Rounded.Spec (Accurate)
open Verif.Elastic.Rounded (u_pos u_le)
open Verif.Elastic.Rounded.Spec (u)

variable {nt np : ℕ} {m : Machine} {k : Consts}

theorem alpha_exact (T V : Fin nt → ℝ) (i : Fin nt) :
    QHA.alphaColumn T V i = (V (partner i) - V i) / (T (partner i) - T i) / V i := by
  unfold QHA.alphaColumn partner
  split_ifs
  · rfl
  · rw [← neg_sub (V _) (V i), ← neg_sub (T _) (T i), neg_div_neg_eq]

/-- A quotient of differences in the arithmetic of the computer. -/
theorem quotient_near (hm : Accurate m) (v v' t t' : ℝ) (ht : t' ≠ t) :
    Near 3.1 (m.rnd (m.rnd (v' - v) / m.rnd (t' - t))) ((v' - v) / (t' - t)) := by
  have h1 := nrnd hm (self (v' - v)) le_rfl (by norm_num)
  have h2 := nrnd hm (self (t' - t)) le_rfl (by norm_num)
  exact (nrnd hm (ndiv h1 h2 (sub_ne_zero.2 ht) (by norm_num) (by norm_num) (by norm_num) (by norm_num)) (by norm_num)
    (by norm_num)).mono (by norm_num)

/-- **C163 (thermal expansion).**  From the computed volumes and temperatures the thermal expansion is accurate to five halves of a
unit in the last place. -/
theorem C163_expansion (hm : Accurate m) (T V : Fin nt → ℝ) (i : Fin nt) (hT : T (partner i) ≠ T i) (hV : V i ≠ 0) :
    Near 5 (alphaColumn m T V i) (QHA.alphaColumn T V i) := by
  have fin {x X : ℝ} (h : Near 3.1 x X) : Near 5 (m.rnd (x / V i)) (X / V i) :=
    (nrnd hm (ndiv h (self (V i)) hV (by norm_num) le_rfl (by norm_num) (by norm_num)) (by norm_num) (by norm_num)).mono
      (by norm_num)
  unfold alphaColumn QHA.alphaColumn
  unfold partner at hT
  split_ifs at hT ⊢ with h
  · exact fin (quotient_near hm _ _ _ _ hT)
  · exact fin (quotient_near hm _ _ _ _ hT.symm)

/-- **C163 (sign).**  The computed thermal expansion is zero exactly when the two volumes are the same, and positive exactly when the
volume grows. -/
theorem C163_expansion_sign (hm : Accurate m) (T V : Fin nt → ℝ) (i : Fin nt) (hT : T (partner i) ≠ T i) (hV : 0 < V i) :
    (alphaColumn m T V i = 0 ↔ V (partner i) = V i) ∧
    (0 < alphaColumn m T V i ↔ 0 < (V (partner i) - V i) / (T (partner i) - T i)) := by
  have h := C163_expansion hm T V i hT hV.ne'
  rw [near_zero h (by norm_num), near_pos h (by norm_num), alpha_exact]
  constructor
  · rw [div_eq_zero_iff, div_eq_zero_iff, sub_eq_zero, sub_eq_zero]
    exact ⟨fun h => (h.resolve_right hV.ne').resolve_right hT, fun h => .inl (.inl h)⟩
  · exact div_pos_iff_of_pos_right hV

/-- **C163 (inaccurate volumes).**  When the volumes are off by at most a fraction `η`, the thermal expansion is off by little more
than `2 η` divided by the temperature step. -/
theorem C163_volumes (hm : Accurate m) (T V W : Fin nt → ℝ) (i : Fin nt) (hT : T (partner i) ≠ T i) (hW : ∀ i, 0 < W i) {η : ℝ}
    (hη : η ≤ 1e-3) (h : ∀ i, |V i - W i| ≤ η * W i) :
    |alphaColumn m T V i - QHA.alphaColumn T W i| ≤
      5 * u * |QHA.alphaColumn T W i| + 2.01 * η * (W (partner i) / W i) / |T (partner i) - T i| := by
  have hη0 : 0 ≤ η := by
    have := (abs_nonneg _).trans (h i)
    exact nonneg_of_mul_nonneg_left this (hW i)
  have hVi : 0 < V i := by
    have := (abs_le.1 (h i)).1
    nlinarith [hW i]
  have h1 : |alphaColumn m T V i - QHA.alphaColumn T V i| ≤ 5 * u * |QHA.alphaColumn T V i| :=
    C163_expansion hm T V i hT hVi.ne'
  set j := partner i with hj
  have hd : 0 < |T j - T i| := abs_pos.2 (sub_ne_zero.2 hT)
  have e (V : Fin nt → ℝ) (hV : 0 < V i) : QHA.alphaColumn T V i = (V j / V i - 1) / (T j - T i) := by
    rw [alpha_exact, ← hj]
    field_simp
  have hr : |V j / V i - W j / W i| ≤ 2.003 * η * (W j / W i) := by
    have hWi := hW i
    have hWj := hW j
    rw [div_sub_div _ _ hVi.ne' (hW i).ne', abs_div, abs_of_pos (mul_pos hVi (hW i)), div_le_iff₀ (mul_pos hVi (hW i))]
    have e1 : V j * W i - V i * W j = (V j - W j) * W i - (V i - W i) * W j := by ring
    have e2 : 2.003 * η * (W j / W i) * (V i * W i) = 2.003 * η * (W j * V i) := by field_simp
    rw [e1, e2]
    refine (abs_sub _ _).trans ?_
    rw [abs_mul, abs_mul, abs_of_pos hWi, abs_of_pos hWj]
    have g1 := mul_le_mul_of_nonneg_right (h j) hWi.le
    have g2 := mul_le_mul_of_nonneg_right (h i) hWj.le
    have g3 : 0.999 * W i ≤ V i := by
      have := (abs_le.1 (h i)).1
      nlinarith
    have g4 : η * W j * W i * 0.999 ≤ η * W j * V i := by
      have := mul_le_mul_of_nonneg_left g3 (mul_nonneg hη0 hWj.le)
      linarith
    have g5 : 0 ≤ η * W j * W i := by positivity
    nlinarith
  have h2 : |QHA.alphaColumn T V i - QHA.alphaColumn T W i| ≤ 2.003 * η * (W j / W i) / |T j - T i| := by
    rw [e V hVi, e W (hW i), ← sub_div, abs_div, sub_sub_sub_cancel_right]
    exact div_le_div_of_nonneg_right hr hd.le
  have h3 : |QHA.alphaColumn T V i| ≤ |QHA.alphaColumn T W i| + 2.003 * η * (W j / W i) / |T j - T i| := by
    have := abs_add_le (QHA.alphaColumn T V i - QHA.alphaColumn T W i) (QHA.alphaColumn T W i)
    rw [sub_add_cancel] at this
    linarith
  have h4 := abs_sub_le (alphaColumn m T V i) (QHA.alphaColumn T V i) (QHA.alphaColumn T W i)
  have h5 : 0 ≤ η * (W j / W i) / |T j - T i| := by
    have := hW i
    have := hW j
    positivity
  have e3 : 2.003 * η * (W j / W i) / |T j - T i| = 2.003 * (η * (W j / W i) / |T j - T i|) := by ring
  have e4 : 2.01 * η * (W j / W i) / |T j - T i| = 2.01 * (η * (W j / W i) / |T j - T i|) := by ring
  rw [e3] at h2 h3
  rw [e4]
  have h6 : 5 * u * |QHA.alphaColumn T V i| ≤ 5 * u * (|QHA.alphaColumn T W i| + 2.003 * (η * (W j / W i) / |T j - T i|)) :=
    mul_le_mul_of_nonneg_left h3 (by linarith [u_pos])
  have h7 : 5 * u * (2.003 * (η * (W j / W i) / |T j - T i|)) ≤ 0.001 * (η * (W j / W i) / |T j - T i|) := by
    nlinarith [u_le, u_pos]
  linarith

/-- **C163 (Grüneisen parameter).** -/
theorem C163_gruneisen (hm : Accurate m) {V V' KT KT' al al' Cv Cv' : Fin nt → Fin np → ℝ} (hV : NearAll 8 V' V) (hK : NearAll 8 KT' KT)
    (ha : NearAll 8 al' al) (hC : NearAll 8 Cv' Cv) :
    NearAll 40 (gruneisenParameter m k V' KT' al' Cv') (QHA.gruneisenParameter k V KT al Cv) := by
  have hN := k.N_pos.ne'
  intro i j
  simp only [gruneisenParameter, QHA.gruneisenParameter, near_zero (hC i j) (by norm_num)]
  split_ifs with h0
  · simp [Near]
  · have e1 := nrnd hm (nmul (hV i j) (hK i j) (by norm_num) (by norm_num) (by norm_num) (by norm_num)) (by norm_num) (by norm_num)
    have e2 := nrnd hm (nmul e1 (ha i j) (by norm_num) (by norm_num) (by norm_num) (by norm_num)) (by norm_num) (by norm_num)
    have e3 := nrnd hm (ndiv (hC i j) (self k.N) hN (by norm_num) le_rfl (by norm_num) (by norm_num)) (by norm_num) (by norm_num)
    exact (nrnd hm (ndiv e2 e3 (div_ne_zero h0 hN) (by norm_num) (by norm_num) (by norm_num) (by norm_num)) (by norm_num)
      (by norm_num)).mono (by norm_num)

theorem tmat_row (T : Fin nt → ℝ) (i : Fin nt) (j : Fin np) : tmat (np := np) T i j = T i := by
  unfold tmat
  congr 1
  apply Fin.ext
  have hj := j.isLt
  show (i.val * np + j.val) / np = i.val
  rw [mul_comm, Nat.mul_add_div (by omega), Nat.div_eq_of_lt hj, add_zero]

/-- **C163 (heat capacities).** -/
theorem C163_capacity (hm : Accurate m) {T T' : Fin nt → ℝ} {V V' KT KT' al al' : Fin nt → Fin np → ℝ} (hT : ∀ i, Near 8 (T' i) (T i))
    (hV : NearAll 8 V' V) (hK : NearAll 8 KT' KT) (ha : NearAll 8 al' al) :
    NearAll 50 (Rounded.capacityDifference m k T' V' KT' al') (Spec.capacityDifference k T V KT al) := by
  intro i j
  simp only [Rounded.capacityDifference, Spec.capacityDifference, tmat_row]
  have e0 := nsquare hm (ha i j) (by norm_num) (by norm_num)
  have e1 := nrnd hm (nmul e0 (hK i j) (by norm_num) (by norm_num) (by norm_num) (by norm_num)) (by norm_num) (by norm_num)
  have e2 := nrnd hm (nmul e1 (hV i j) (by norm_num) (by norm_num) (by norm_num) (by norm_num)) (by norm_num) (by norm_num)
  have e3 := nrnd hm (nmul (self k.N) (hT i) le_rfl (by norm_num) (by norm_num) (by norm_num)) (by norm_num) (by norm_num)
  exact (nrnd hm (nmul e2 e3 (by norm_num) (by norm_num) (by norm_num) (by norm_num)) (by norm_num) (by norm_num)).mono (by norm_num)

/-- **C163 (adiabatic bulk modulus).** -/
theorem C163_adiabatic (hm : Accurate m) {T T' : Fin nt → ℝ} {V V' KT KT' al al' Cv Cv' : Fin nt → Fin np → ℝ}
    (hT : ∀ i, Near 8 (T' i) (T i)) (hV : NearAll 8 V' V) (hK : NearAll 8 KT' KT) (ha : NearAll 8 al' al) (hC : NearAll 8 Cv' Cv)
    (pT : ∀ i, 0 ≤ T i) (pV : ∀ i j, 0 ≤ V i j) (pK : ∀ i j, 0 ≤ KT i j) (pC : ∀ i j, 0 ≤ Cv i j) :
    NearAll 80 (adiabaticBulkModulus m k T' V' KT' al' Cv' 1) (QHA.adiabaticBulkModulus k T V KT al Cv 1) := by
  have hN := k.N_pos
  intro i j
  simp only [adiabaticBulkModulus, QHA.adiabaticBulkModulus, near_zero (hC i j) (by norm_num), near_zero (hT i) (by norm_num)]
  split_ifs with h0
  · exact (hK i j).mono (by norm_num)
  · push Not at h0
    have c1 := nrnd hm (nmul (self (1 : ℝ)) (hK i j) le_rfl (by norm_num) (by norm_num) (by norm_num)) (by norm_num) (by norm_num)
    have c2 := nrnd hm (nmul c1 (self (1 : ℝ)) (by norm_num) le_rfl (by norm_num) (by norm_num)) (by norm_num) (by norm_num)
    have c3 := nrnd hm (nmul c2 (hK i j) (by norm_num) (by norm_num) (by norm_num) (by norm_num)) (by norm_num) (by norm_num)
    have e0 := nrnd hm (nmul (ha i j) (ha i j) (by norm_num) (by norm_num) (by norm_num) (by norm_num)) (by norm_num) (by norm_num)
    have e1 := nrnd hm (nmul e0 c3 (by norm_num) (by norm_num) (by norm_num) (by norm_num)) (by norm_num) (by norm_num)
    have e2 := nrnd hm (nmul e1 (hV i j) (by norm_num) (by norm_num) (by norm_num) (by norm_num)) (by norm_num) (by norm_num)
    have e3 := nrnd hm (nmul e2 (hT i) (by norm_num) (by norm_num) (by norm_num) (by norm_num)) (by norm_num) (by norm_num)
    have e4 := nrnd hm (ndiv (hC i j) (self k.N) hN.ne' (by norm_num) le_rfl (by norm_num) (by norm_num)) (by norm_num) (by norm_num)
    have e5 := nrnd hm (ndiv e3 e4 (div_ne_zero h0.2 hN.ne') (by norm_num) (by norm_num) (by norm_num) (by norm_num)) (by norm_num)
      (by norm_num)
    have e6 := nrnd hm (ndiv e5 (self (1 : ℝ)) one_ne_zero (by norm_num) le_rfl (by norm_num) (by norm_num)) (by norm_num)
      (by norm_num)
    have e7 := nadd ((hK i j).mono (b := 75) (by norm_num)) (e6.mono (b := 75) (by norm_num)) (pK i j) (by
      have := pT i
      have := pV i j
      have := pC i j
      have := mul_self_nonneg (al i j)
      have := mul_self_nonneg (KT i j)
      rw [one_mul, mul_one, div_one]
      positivity)
    exact (nrnd hm e7 (by norm_num) (by norm_num)).mono (by norm_num)

/-- **C163 (order).**  When rounding keeps the order of numbers, the computed adiabatic bulk modulus is never below the isothermal
one, and the computed isobaric heat capacity never below the isochoric one. -/
theorem C163_order (hm : Accurate m) (ho : Monotone m.rnd) (T : Fin nt → ℝ) (V KT al Cv : Fin nt → Fin np → ℝ) (i : Fin nt)
    (j : Fin np) (pT : 0 ≤ T i) (pV : 0 ≤ V i j) (pK : 0 ≤ KT i j) (pC : 0 ≤ Cv i j)
    (rK : Representable m (KT i j)) (rC : Representable m (Cv i j)) :
    KT i j ≤ adiabaticBulkModulus m k T V KT al Cv 1 i j ∧
    Cv i j ≤ m.rnd (Cv i j + Rounded.capacityDifference m k T V KT al i j) := by
  have hN := k.N_pos
  have pos {x : ℝ} (hx : 0 ≤ x) : 0 ≤ m.rnd x := by
    have := ho hx
    rwa [show m.rnd 0 = 0 from by simpa using hm.rnd 0] at this
  constructor
  · simp only [adiabaticBulkModulus]
    split_ifs
    · exact le_rfl
    · refine le_trans (le_of_eq rK.symm) (ho ?_)
      have := pos (div_nonneg (pos (div_nonneg (pos (mul_nonneg (pos (mul_nonneg (pos (mul_nonneg
        (pos (mul_self_nonneg (al i j))) (pos (mul_nonneg (pos (mul_nonneg (pos (mul_nonneg zero_le_one pK)) zero_le_one)) pK))))
        pV)) pT)) (pos (div_nonneg pC hN.le)))) (zero_le_one (α := ℝ)))
      linarith
  · refine le_trans (le_of_eq rC.symm) (ho ?_)
    have hs : 0 ≤ m.npow (al i j) 2 := by
      have h := (abs_le.1 (hm.npow (al i j) 2)).1
      rw [abs_of_nonneg (sq_nonneg _)] at h
      nlinarith [u_le, u_pos, sq_nonneg (al i j)]
    have : 0 ≤ Rounded.capacityDifference m k T V KT al i j := by
      simp only [Rounded.capacityDifference, tmat_row]
      exact pos (mul_nonneg (pos (mul_nonneg (pos (mul_nonneg hs pK)) pV)) (pos (mul_nonneg hN.le pT)))
    linarith

/-- **C163 (thermodynamic relation).**  The ratio of the adiabatic to the isothermal bulk modulus is that of the heat capacities up to
rounding: `KS Cv` and `KT Cp` agree to 200 halves of a unit in the last place. -/
theorem C163_ratio (hm : Accurate m) (T : Fin nt → ℝ) (V KT al Cv : Fin nt → Fin np → ℝ) (pT : ∀ i, 0 ≤ T i)
    (pV : ∀ i j, 0 ≤ V i j) (pK : ∀ i j, 0 ≤ KT i j) (pC : ∀ i j, 0 < Cv i j) (i : Fin nt) (j : Fin np) :
    let KS := adiabaticBulkModulus m k T V KT al Cv 1 i j
    let Cp := m.rnd (Cv i j + Rounded.capacityDifference m k T V KT al i j)
    |KS * Cv i j - KT i j * Cp| ≤ 200 * u * (KT i j * Cp) := by
  intro KS Cp
  have hN := k.N_pos
  have s (x : Fin nt → Fin np → ℝ) : NearAll 8 x x := fun i j => (self _).mono (by norm_num)
  have s1 (x : Fin nt → ℝ) (i : Fin nt) : Near 8 (x i) (x i) := (self _).mono (by norm_num)
  have h1 := C163_adiabatic (k := k) hm (s1 T) (s V) (s KT) (s al) (s Cv) pT pV pK (fun i j => (pC i j).le) i j
  have h2 := C163_capacity (k := k) hm (s1 T) (s V) (s KT) (s al) i j
  have hd : 0 ≤ Spec.capacityDifference k T V KT al i j := by
    have := pT i
    have := pV i j
    have := pK i j
    unfold Spec.capacityDifference
    positivity
  have h3 := nrnd hm (nadd ((self (Cv i j)).mono (b := 50) (by norm_num)) h2 (pC i j).le hd) (by norm_num) (by norm_num)
  have e : QHA.adiabaticBulkModulus k T V KT al Cv 1 i j * Cv i j =
      KT i j * (Cv i j + Spec.capacityDifference k T V KT al i j) := by
    have hc := (pC i j).ne'
    simp only [QHA.adiabaticBulkModulus, Spec.capacityDifference, hc, or_false]
    split_ifs with h0
    · rw [h0]
      ring
    · field_simp
  set X := QHA.adiabaticBulkModulus k T V KT al Cv 1 i j
  set Y := Cv i j + Spec.capacityDifference k T V KT al i j
  have hY : 0 ≤ Y := add_nonneg (pC i j).le hd
  have hX : 0 ≤ X := by
    have : 0 ≤ X * Cv i j := by rw [e]; exact mul_nonneg (pK i j) hY
    exact nonneg_of_mul_nonneg_left this (pC i j)
  unfold Near at h1 h3
  rw [abs_of_nonneg hX] at h1
  rw [abs_of_nonneg hY] at h3
  have g1 : |KS * Cv i j - X * Cv i j| ≤ 80 * u * (KT i j * Y) := by
    rw [← sub_mul, abs_mul, abs_of_pos (pC i j), ← e]
    have := mul_le_mul_of_nonneg_right h1 (pC i j).le
    linarith
  have g2 : |KT i j * Y - KT i j * Cp| ≤ 51.001 * u * (KT i j * Y) := by
    rw [← mul_sub, abs_mul, abs_of_nonneg (pK i j), abs_sub_comm]
    have := mul_le_mul_of_nonneg_left h3 (pK i j)
    linarith
  have g3 : KT i j * Y ≤ 1.1 * (KT i j * Cp) := by
    have q1 : KT i j * Y - KT i j * Cp ≤ 51.001 * u * (KT i j * Y) := (abs_le.1 g2).2
    have q2 := mul_nonneg (pK i j) hY
    nlinarith [u_le, u_pos]
  have g4 := abs_sub_le (KS * Cv i j) (X * Cv i j) (KT i j * Cp)
  rw [e] at g4 g1
  have g5 : 131.001 * u * (KT i j * Y) ≤ 131.001 * u * (1.1 * (KT i j * Cp)) :=
    mul_le_mul_of_nonneg_left g3 (by linarith [u_pos])
  have g6 : 0 ≤ u * (KT i j * Cp) := by
    have := mul_nonneg (pK i j) hY
    exact mul_nonneg u_pos.le (by linarith)
  nlinarith

/-- **C163 (enthalpy and Gibbs energy).** -/
theorem C163_potential (hm : Accurate m) (V : Fin nt → Fin np → ℝ) (p : Fin np → ℝ) (E : Fin nt → Fin np → ℝ) (i : Fin nt)
    (j : Fin np) :
    |potential m k V p E i j - QHA.enthalpy k V p E i j| ≤ 5 * u * (|E i j| + |p j * V i j * k.N / 1000|) ∧
    |potential m k V p E i j - QHA.gibbs k V p E i j| ≤ 5 * u * (|E i j| + |p j * V i j * k.N / 1000|) := by
  have e1 := nrnd hm (self (p j * V i j)) le_rfl (by norm_num)
  have e2 := nrnd hm (nmul e1 (self k.N) (by norm_num) le_rfl (by norm_num) (by norm_num)) (by norm_num) (by norm_num)
  have e3 := nrnd hm (ndiv e2 (self (1000 : ℝ)) (by norm_num) (by norm_num) le_rfl (by norm_num) (by norm_num)) (by norm_num)
    (by norm_num)
  set x := m.rnd (m.rnd (m.rnd (p j * V i j) * k.N) / 1000)
  set X := p j * V i j * k.N / 1000
  have key : |m.rnd (E i j + x) - (E i j + X)| ≤ 5 * u * (|E i j| + |X|) := by
    have h1 := hm.rnd (E i j + x)
    have h2 : |x - X| ≤ 3.1 * u * |X| := e3.mono (by norm_num)
    have h3 : |E i j + x| ≤ |E i j| + |X| + |x - X| := by
      have := abs_add_le (E i j + X) (x - X)
      rw [show E i j + X + (x - X) = E i j + x by ring] at this
      linarith [abs_add_le (E i j) X]
    have h4 := abs_sub_le (m.rnd (E i j + x)) (E i j + x) (E i j + X)
    rw [add_sub_add_left_eq_sub] at h4
    have h5 : u * |E i j + x| ≤ u * (|E i j| + |X| + |x - X|) := mul_le_mul_of_nonneg_left h3 u_pos.le
    have h6 : u * |x - X| ≤ 0.1 * u * |X| := by
      have : u * |x - X| ≤ u * (3.1 * u * |X|) := mul_le_mul_of_nonneg_left h2 u_pos.le
      have h7 : 3.1 * u ≤ 0.1 := by linarith [u_le]
      have := mul_le_mul_of_nonneg_right h7 (mul_nonneg u_pos.le (abs_nonneg X))
      linarith
    nlinarith [mul_nonneg u_pos.le (abs_nonneg (E i j)), mul_nonneg u_pos.le (abs_nonneg X)]
  exact ⟨key, key⟩

end Verif.QHA.Rounded
