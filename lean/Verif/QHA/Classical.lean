/-
Property C165 for the results of a quasi-harmonic run that interpolates frequencies, in the units of the user.
-/
import Verif.StatMech.Classical
import Verif.QHA.Zero
import Verif.QHA.Expansion

namespace Verif.QHA
open Verif.Py Verif.Units Verif.HA Verif.QHA.Spec Verif.StatMech Verif.StatMech.Spec Verif.Poly.Spec

variable {nt np nb nf nv : ℕ} {k : Consts} {ext : Ext} {s : Settings nt np} {x : Input nb nf nv}
  {u : Choice} {r : Results nt np}

/-- C165, quasi-harmonic runs with interpolated frequencies: in joule per cell, at a node whose interpolated frequencies are
positive with quanta of at most `X k_B T`, the vibrational energy is between `k_B T` per mode and `1 + X² / 12` times it, and the
heat capacity between `1 - X² / 12` times `k_B` per mode and it. -/
theorem C165_quasi_harmonic (hu : u.Of s) (hrun : run k ext s x = .ok r) (hs : s.scheme = .freq)
    (hw : ∀ q, 0 ≤ x.weights q) (hsum : 0 < ∑ q, x.weights q) (i : Fin nt) (j : Fin np)
    (hT : 0 < u.t.kelvin (s.temperature i)) {ω : Fin nb → Fin nf → ℝ}
    (hω : ω = fun q b => value (ext.polyfit x.volume (fun n => x.freq q b n * u.f.hertz k) s.fdeg) (r.VT i j))
    (hp : ∀ q b, 0 < ω q b) {X : ℝ} (hX : ∀ q b, quanta k (u.t.kelvin (s.temperature i)) (ω q b) ≤ X) :
    let kT := k.kB * u.t.kelvin (s.temperature i)
    nf * kT ≤ (r.Uzp i j + r.Uth i j) * u.e.joule k ∧ (r.Uzp i j + r.Uth i j) * u.e.joule k ≤ nf * kT * (1 + X ^ 2 / 12) ∧
    nf * k.kB * (1 - X ^ 2 / 12) ≤ r.Cv i j / 1000 * u.e.joule k ∧ r.Cv i j / 1000 * u.e.joule k ≤ nf * k.kB := by
  intro kT
  have hN := k.N_pos
  have hk := k.kB_pos
  obtain ⟨e1, e2, -, e5, -⟩ := C68_freq_interpolates hu hrun hs i j
  set T := u.t.kelvin (s.temperature i) with hTd
  have hkTe : kT = k.kB * T := rfl
  have hw' := usedWeights_nonneg hw
  have hs1 := usedWeights_sum hsum
  have hbound : weighted (usedWeights x.weights) (fun q b => quanta k T (ω q b) ^ 2 / 12) ≤ nf * (X ^ 2 / 12) := by
    have : weighted (usedWeights x.weights) (fun q b => quanta k T (ω q b) ^ 2 / 12) ≤
        weighted (usedWeights x.weights) (fun _ (_ : Fin nf) => X ^ 2 / 12 * 1) := weighted_le hw' fun q b => by
      have h0 := (quanta_pos k hT (hp q b)).le
      have := pow_le_pow_left₀ h0 (hX q b) 2
      linarith
    rw [weighted_mul, weighted_one, hs1] at this
    linarith
  obtain ⟨u1, u2⟩ := C165_energy k (fun _ : Fin 1 => T) (fun q b (_ : Fin 1) => ω q b) _ hw' 0 hT 0 hp
  obtain ⟨c1, c2⟩ := C165_heat_capacity k (fun _ : Fin 1 => T) (fun q b (_ : Fin 1) => ω q b) _ hw' 0 hT 0 hp
  rw [hs1] at u1 u2 c1 c2
  subst hω
  have hkT : 0 < kT := mul_pos hk hT
  have hNm : 0 < 1000 / k.N := by positivity
  have m1 := mul_le_mul_of_nonneg_right u1 hNm.le
  have m2 := mul_le_mul_of_nonneg_right u2 hNm.le
  have n1 := mul_le_mul_of_nonneg_left c1 (inv_pos.2 hN).le
  have n2 := mul_le_mul_of_nonneg_left c2 (inv_pos.2 hN).le
  have b1 := mul_le_mul_of_nonneg_left hbound hkT.le
  have b2 := mul_le_mul_of_nonneg_left hbound hk.le
  have cell : ∀ W : ℝ, k.N⁻¹ * W = W * (1000 / k.N) / 1000 := fun W => by field_simp
  rw [add_mul, e1, e2, ← add_mul, div_mul_eq_mul_div, e5]
  refine ⟨?_, ?_, ?_, ?_⟩
  · refine le_trans (le_of_eq ?_) m1
    rw [hkTe]; field_simp
  · refine m2.trans ?_
    have e : ∀ W : ℝ, (nf * 1 * (k.N / 1000 * (k.kB * T)) + k.N / 1000 * (k.kB * T) * W) * (1000 / k.N) =
        nf * kT + kT * W := fun W => by
      rw [hkTe]; field_simp
    rw [e]
    linarith
  · have e : ∀ W : ℝ, k.N⁻¹ * (nf * 1 * (k.N * k.kB) - k.N * k.kB * W) = nf * k.kB - k.kB * W := fun W => by field_simp
    rw [e] at n1
    refine le_trans ?_ (n1.trans (le_of_eq (cell _)))
    linarith
  · refine (le_of_eq (cell _).symm).trans (n2.trans (le_of_eq ?_))
    field_simp

/-- The hypotheses are met by the crystal that expands on heating, at 300 K. -/
example (k : Consts) (hext : Numerics ext) : ∃ A r, ∃ X : ℝ, run k ext (exAt .freq fun _ : Fin 1 => 300) (exSoft A) = .ok r ∧
    r.Cv 0 0 / 1000 * exUnits.e.joule k ≤ 1 * k.kB ∧ 1 * k.kB * (1 - X ^ 2 / 12) ≤ r.Cv 0 0 / 1000 * exUnits.e.joule k := by
  obtain ⟨A, r, hr, hV⟩ := exSoft_run k hext .freq (fun _ : Fin 1 => 300)
  have hz := hertz_pos k exUnits.f
  have hval : ∀ V, value ![400 * exUnits.f.hertz k, -100 * exUnits.f.hertz k, 0] V = (400 - 100 * V) * exUnits.f.hertz k := by
    intro V
    simp [value, Fin.sum_univ_three]
    ring
  have hfit : ∀ q b, value (ext.polyfit (exSoft A).volume (fun n => (exSoft A).freq q b n * exUnits.f.hertz k) 2) (r.VT 0 0) =
      (400 - 100 * r.VT 0 0) * exUnits.f.hertz k := by
    intro q b
    have hd : ∀ n, (exSoft A).freq q b n * exUnits.f.hertz k =
        value ![400 * exUnits.f.hertz k, -100 * exUnits.f.hertz k, 0] ((exSoft A).volume n) := by
      intro n
      rw [hval]
      simp only [exSoft]
      ring
    have : ext.polyfit (exSoft A).volume (fun n => (exSoft A).freq q b n * exUnits.f.hertz k) 2 =
        ![400 * exUnits.f.hertz k, -100 * exUnits.f.hertz k, 0] :=
      Poly.value_injective (exSoft_injective A) (le_refl 3) fun n => by
        rw [Poly.leastSquares_exact (hext.fit _ _ _) hd n, hd n]
    rw [this, hval]
  have hpos : 0 < (400 - 100 * r.VT 0 0) * exUnits.f.hertz k := mul_pos (by linarith [(hV 0 0).2]) hz
  obtain ⟨-, -, h3, h4⟩ := C165_quasi_harmonic (exAt_of .freq _) hr rfl (fun _ => by simp [exSoft]) (by simp [exSoft]) 0 0
    (by show (0 : ℝ) < exUnits.t.kelvin 300; norm_num [exUnits, TemperatureUnit.kelvin]) rfl
    (fun q b => (hfit q b).symm ▸ hpos) (fun q b => le_of_eq (congrArg _ (hfit q b)))
  exact ⟨A, r, _, hr, by simpa using h4, by simpa using h3⟩

end Verif.QHA
