/-
Property C150, continued: free energies on a Birch–Murnaghan curve at a pressure other than zero.
-/
import Verif.QHA.EosMin
import Verif.EoS.Energy

namespace Verif.QHA
open Verif.Py Verif.Units Verif.HA Verif.QHA.Spec Verif.StatMech Verif.EoS Verif.EoS.Spec
open scoped Topology

variable {nt np nb nf : ℕ} {k : Consts} {ext : Ext} {s : Settings nt np} {x : Input nb nf 4}
  {u : Choice} {r : Results nt np}

/-- Four volumes, from 0.36 `w` to 1.95 `w`. -/
noncomputable def exVolumes (w : ℝ) : Fin 4 → ℝ := ![125 / 64 * w, w, 125 / 216 * w, 125 / 343 * w]

/-- A Birch–Murnaghan solid with the volume 1.95 `w`, the bulk modulus 0.32 `c` and `K' = 4.86`; `e` is the zero of energy. -/
noncomputable def exBirch (e c w : ℝ) : EPars :=
  ⟨e - 32119935 / 25113088 * c * w, 131163904 / 406326375 * c, 27418100 / 5635949, 125 / 64 * w⟩

theorem cbrt_cube {y : ℝ} (hy : 0 ≤ y) : (y ^ 3) ^ ((1 : ℝ) / 3) = y := by
  have := Real.pow_rpow_inv_natCast hy (n := 3) (by norm_num)
  simpa [one_div] using this

/-- The Birch–Murnaghan energy at a ratio of volumes that is a cube. -/
theorem birch_cube {V V0 y : ℝ} (hy : 0 ≤ y) (h : V0 / V = y ^ 3) (E0 K0 Kp : ℝ) :
    energy .birchMurnaghan E0 K0 Kp V0 V =
      E0 + (9 * K0 * V0 / 16) * (Kp * (y ^ 2 - 1) ^ 3 + ((y ^ 2 - 1) ^ 2) * (6 - 4 * y ^ 2)) := by
  simp only [energy, h, cbrt_cube hy]

/-- The four free energies plus `c V` lie on another Birch–Murnaghan curve, with the volume `w`. -/
theorem exBirch_loaded {e c w : ℝ} (hw : 0 < w) (n : Fin 4) :
    energy .birchMurnaghan (exBirch e c w).E0 (exBirch e c w).K0 (exBirch e c w).Kp (exBirch e c w).V0 (exVolumes w n) +
      c * exVolumes w n =
    energy .birchMurnaghan e (10580665625 / 2288430144 * c) 4 w (exVolumes w n) := by
  have hw' := hw.ne'
  fin_cases n
  · rw [birch_cube (y := 1) (by norm_num) (by simp [exBirch, exVolumes, hw']),
      birch_cube (y := 4 / 5) (by norm_num) (by simp [exVolumes]; field_simp; norm_num)]
    simp [exBirch, exVolumes]; ring
  · rw [birch_cube (y := 5 / 4) (by norm_num) (by simp [exBirch, exVolumes]; field_simp; norm_num),
      birch_cube (y := 1) (by norm_num) (by simp [exVolumes, hw'])]
    simp [exBirch, exVolumes]; ring
  · rw [birch_cube (y := 3 / 2) (by norm_num) (by simp [exBirch, exVolumes]; field_simp; norm_num),
      birch_cube (y := 6 / 5) (by norm_num) (by simp [exVolumes]; field_simp; norm_num)]
    simp [exBirch, exVolumes]; ring
  · rw [birch_cube (y := 7 / 4) (by norm_num) (by simp [exBirch, exVolumes]; field_simp; norm_num),
      birch_cube (y := 7 / 5) (by norm_num) (by simp [exVolumes]; field_simp; norm_num)]
    simp [exBirch, exVolumes]; ring

/-- The pressure of the curve at the volume `w` is 1.134 `c`. -/
theorem exBirch_pressure {e c w : ℝ} (hc : 0 < c) (hw : 0 < w) :
    -deriv (energy .birchMurnaghan (exBirch e c w).E0 (exBirch e c w).K0 (exBirch e c w).Kp (exBirch e c w).V0) w =
      24038425 / 21189168 * c := by
  have hV0 : 0 < (exBirch e c w).V0 := by simp only [exBirch]; positivity
  have hK : 0 < (exBirch e c w).K0 := by simp only [exBirch]; positivity
  rw [(energy_bm _ (exBirch e c w).K0 (exBirch e c w).Kp (exBirch e c w).V0 w hV0 hw hK.ne').deriv, neg_neg]
  have hr : (exBirch e c w).V0 / w = (5 / 4 : ℝ) ^ 3 := by simp only [exBirch]; field_simp; norm_num
  have e1 : ((5 / 4 : ℝ) ^ 3) ^ ((2 : ℝ) / 3) = 25 / 16 := by
    rw [show (2 : ℝ) / 3 = 1 / 3 * 2 by norm_num, Real.rpow_mul (by norm_num), cbrt_cube (by norm_num)]
    norm_num
  have e2 : (25 / 16 : ℝ) ^ (2.5 : ℝ) = (5 / 4) ^ 5 := by
    rw [show (25 / 16 : ℝ) = (5 / 4) ^ (2 : ℕ) by norm_num, ← Real.rpow_natCast, ← Real.rpow_mul (by norm_num),
      ← Real.rpow_natCast]
    norm_num
  have e3 : (exBirch e c w).K0 * (-1 / (exBirch e c w).K0 * ((3 - (exBirch e c w).Kp) * (4 - (exBirch e c w).Kp) + 35 / 9)) =
      -((3 - (exBirch e c w).Kp) * (4 - (exBirch e c w).Kp) + 35 / 9) := by field_simp
  simp only [formula, hr, e1, e3]
  rw [show 1 + 2 * (0.5 * ((25 / 16 : ℝ) - 1)) = 25 / 16 by norm_num, e2]
  simp only [exBirch]
  ring

theorem exBirch_solid {e c w : ℝ} (hc : 0 < c) (hw : 0 < w) : Solid .birchMurnaghan (exBirch e c w) :=
  ⟨by simp only [exBirch]; positivity, by simp only [exBirch]; positivity, trivial⟩

theorem exVolumes_injective {w : ℝ} (hw : 0 < w) : Function.Injective (exVolumes w) := by
  intro a b h
  fin_cases a <;> fin_cases b <;> simp [exVolumes, hw.ne'] at h ⊢ <;> norm_num at h

theorem exVolumes_pos {w : ℝ} (hw : 0 < w) (n : Fin 4) : 0 < exVolumes w n := by
  fin_cases n <;> simp [exVolumes, hw]

/-- Free energies on a Birch–Murnaghan curve, at any positive pressure: with the four volumes and the curve of this
example (scaled to the pressure) the reported volume is `w`, but the pressure of the curve at that volume exceeds
the one asked for by 13 %.  (`F + p V` is fitted, and is not a Birch–Murnaghan curve.) -/
theorem C150_birch_murnaghan_violated (hext : BestFits ext) (hu : u.Of s) (hmin : s.minimization = .eos)
    (hf : s.eos = formName .birchMurnaghan) (hrun : run k ext s x = .ok r) {ha : HA.Results nt 4}
    (hha : HA.run k (harmonicSettings s) x.toInput = .ok ha) (i : Fin nt) (j : Fin np) (hp : 0 < s.pressure j)
    {e w : ℝ} (hw : 0 < w) (hV : x.volume = exVolumes w) {q : EPars}
    (hq : q = exBirch e (s.pressure j * u.p.pascal * u.v.m3 k / u.e.joule k) w)
    (hF : ∀ n, ha.F i n = energy .birchMurnaghan q.E0 q.K0 q.Kp q.V0 (x.volume n)) :
    let A := fun V => energy .birchMurnaghan q.E0 q.K0 q.Kp q.V0 V * u.e.joule k
    Solid .birchMurnaghan q ∧ r.VT i j = w ∧
      pressureOf k u A (r.VT i j) = 24038425 / 21189168 * (s.pressure j * u.p.pascal) ∧
      pressureOf k u A (r.VT i j) ≠ s.pressure j * u.p.pascal := by
  intro A
  have hj := joule_pos k u.e
  have hv := m3_pos k u.v
  have hpp := mul_pos hp (pascal_pos u.p)
  obtain ⟨c, hc⟩ : ∃ c : ℝ, c = s.pressure j * u.p.pascal * u.v.m3 k / u.e.joule k := ⟨_, rfl⟩
  have hc0 : 0 < c := by rw [hc]; positivity
  rw [← hc] at hq
  subst hq
  have hs : Solid .birchMurnaghan ⟨e, 10580665625 / 2288430144 * c, 4, w⟩ :=
    ⟨by simp only; positivity, hw, trivial⟩
  obtain ⟨h1, -, -⟩ := C150_recovered hext hu hmin hf hrun hha i j hs (le_refl 4) (hV ▸ exVolumes_injective hw)
    (fun n => hV ▸ exVolumes_pos hw n) fun n => by
      rw [loaded, hF n, hV, ← exBirch_loaded hw n, hc]; ring
  have hP : pressureOf k u A (r.VT i j) = 24038425 / 21189168 * (s.pressure j * u.p.pascal) := by
    rw [h1, pressureOf]
    have : deriv A w = deriv (energy .birchMurnaghan (exBirch e c w).E0 (exBirch e c w).K0 (exBirch e c w).Kp
        (exBirch e c w).V0) w * u.e.joule k := deriv_mul_const_field _
    rw [this, ← neg_mul, exBirch_pressure hc0 hw, hc]
    field_simp
  refine ⟨exBirch_solid hc0 hw, h1, hP, ?_⟩
  rw [hP]
  intro h
  have : (24038425 / 21189168 - 1) * (s.pressure j * u.p.pascal) = 0 := by linarith
  rcases mul_eq_zero.1 this with h | h
  · norm_num at h
  · exact hpp.ne' h

end Verif.QHA
