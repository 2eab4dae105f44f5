/-
Property C166 for the results of a harmonic run, in the units of the user.
-/
import Verif.StatMech.Sensitivity
import Verif.HA.Cases

namespace Verif.HA
open Verif.Py Verif.Units Verif.Units.Spec Verif.StatMech Verif.StatMech.Spec

variable {nt nb nf nv : ℕ} {k : Consts} {s : Settings nt} {x x' : Input nb nf nv} {r r' : Results nt nv} {A B C : Scale}

/-- C166, runs: two runs with the same settings on inputs whose frequencies agree to the fraction `δ`. In joule per cell, the
total free energies differ by at most `δ` times the vibrational energy of the first run, the zero-point energies by the fraction
`δ`, the thermal energies by `δ nf k_B T`, and entropies and heat capacities (printed in thousandths) by `δ nf k_B`. -/
theorem C166_run (h : run k s x = .ok r) (h' : run k s x' = .ok r') (hA : Means (energiesShort k) s.eunit A)
    (hB : Means (frequencies k) s.funit B) (hC : Means temperatures s.tunit C) (hw : ∀ q, 0 ≤ x.weights q)
    (hsum : 0 < ∑ q, x.weights q) (same : x'.weights = x.weights) (same' : x'.U0 = x.U0) (i : Fin nt)
    (hT : 0 ≤ C.toRef (s.temperature i)) (n : Fin nv) {δ : ℝ} (hδ : ∀ q b, Within δ (B.toRef (x.freq q b n)) (B.toRef (x'.freq q b n))) :
    let kT := k.kB * C.toRef (s.temperature i)
    |A.toRef (r'.F i n) - A.toRef (r.F i n)| ≤ δ * A.toRef (r.Uzp 0 n + r.Uth i n) ∧
    |A.toRef (r'.Uzp 0 n) - A.toRef (r.Uzp 0 n)| ≤ δ * A.toRef (r.Uzp 0 n) ∧
    |A.toRef (r'.Uth i n) - A.toRef (r.Uth i n)| ≤ δ * (nf * kT) ∧
    |A.toRef (r'.S i n) / 1000 - A.toRef (r.S i n) / 1000| ≤ δ * (nf * k.kB) ∧
    |A.toRef (r'.Cv i n) / 1000 - A.toRef (r.Cv i n) / 1000| ≤ δ * (nf * k.kB) := by
  intro kT
  have hN := k.N_pos
  obtain ⟨e1, e2, e3, e4, e5⟩ := C14_in_users_units h hA hB hC i n
  obtain ⟨f1, f2, f3, f4, f5⟩ := C14_in_users_units h' hA hB hC i n
  simp only [same] at f1 f2 f3 f4 f5
  have z : A.offset = 0 := by
    have z : ∀ A ∈ energiesShort k, A.offset = 0 := by simp [energiesShort]
    exact z A hA.1
  have hw' : ∀ q, 0 ≤ usedWeights x.weights q := fun q => div_nonneg (hw q) hsum.le
  have hs1 : ∑ q, usedWeights x.weights q = 1 := C14_weights _ hsum.ne'
  obtain ⟨g1, g2, g3, g4, g5⟩ := C166_errors k (fun i => C.toRef (s.temperature i)) (fun q b n => B.toRef (x.freq q b n))
    (fun q b n => B.toRef (x'.freq q b n)) _ hw' i hT n hδ
  rw [hs1] at g3 g4 g5
  have eU : A.toRef (r.Uzp 0 n + r.Uth i n) = A.toRef (r.Uzp 0 n) + A.toRef (r.Uth i n) := by
    simp only [Scale.toRef, z]; ring
  have eF : A.toRef (r'.F i n) - A.toRef (r.F i n) = A.toRef (r'.Fvib i n) - A.toRef (r.Fvib i n) := by
    obtain ⟨_, _, _, _, _, _, _, _, _, _, _, _, _, _, -, u1⟩ := run_ok h
    obtain ⟨_, _, _, _, _, _, _, _, _, _, _, _, _, _, -, u2⟩ := run_ok h'
    rw [u1, u2, same']
    simp only [Scale.toRef]; ring
  have hm : 0 < 1000 / k.N := by positivity
  have lift : ∀ {c a b e : ℝ}, 0 < c → |b - a| ≤ e → |c * b - c * a| ≤ c * e := fun {c a b e} hc hab => by
    rw [← mul_sub, abs_mul, abs_of_pos hc]; exact mul_le_mul_of_nonneg_left hab hc.le
  rw [eF, eU, e1, e2, e3, e4, e5, f1, f2, f3, f4, f5]
  have d : ∀ a : ℝ, 1000 / k.N * a / 1000 = 1 / k.N * a := fun a => by ring
  refine ⟨(lift hm g2).trans_eq ?_, (lift hm g1).trans_eq ?_, (lift hm g3).trans_eq ?_, ?_, ?_⟩
  · ring
  · ring
  · simp only [kT]; field_simp
  · rw [d, d]
    exact (lift (by positivity) g4).trans_eq (by field_simp)
  · rw [d, d]
    exact (lift (by positivity) g5).trans_eq (by field_simp)

/-! ### Witness -/

namespace Cases

/-- The crystal of `input` with frequencies one percent higher at the first q point and one percent lower at the second. -/
noncomputable def shifted : Input 2 3 1 := ⟨fun _ => -3, fun j m _ => (2 + j + m) * ![1.01, 0.99] j, ![1, 3]⟩

/-- Frequencies good to 1.1 percent give a free energy good to 1.1 percent of the vibrational energy, at 25 degrees Celsius. -/
example : ∃ r r', run codata settings input = .ok r ∧ run codata settings shifted = .ok r' ∧
    |codata.eV * r'.F 0 0 + 0 - (codata.eV * r.F 0 0 + 0)| ≤ 0.011 * (codata.eV * (r.Uzp 0 0 + r.Uth 0 0) + 0) := by
  obtain ⟨r, hr⟩ := runs
  obtain ⟨r', hr'⟩ := C14_selectable_units codata shifted settings.temperature (e := c!"eV") (f := c!"THz") (t := c!"C")
    (by simp) (by simp) (by simp)
  refine ⟨r, r', hr, hr', (C166_run hr hr' eV thz celsius (fun q => by fin_cases q <;> simp [input])
    (by simp [input, Fin.sum_univ_two]; norm_num) rfl rfl 0 (by simp [Scale.toRef, settings]; norm_num) 0 (δ := 0.011) fun q b => ?_).1⟩
  have h0 : (0 : ℝ) ≤ b.val := by positivity
  have h1 : (0 : ℝ) ≤ q.val := by positivity
  have hp : (0 : ℝ) < 10 ^ 12 * (2 + (q.val : ℝ) + b.val) := by positivity
  fin_cases q <;> simp [Within, Scale.toRef, input, shifted] at hp h1 ⊢ <;> refine ⟨?_, ?_, ?_, ?_⟩ <;> linarith
end Cases
end Verif.HA
