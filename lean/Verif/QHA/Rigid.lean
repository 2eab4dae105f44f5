/-
Properties C127 (a crystal whose frequencies do not depend on the volume) and C128 (agreement with the harmonic calculation at
the volumes of the input).
-/
import Verif.QHA.Copies

namespace Verif.QHA
open Verif.Py Verif.Units Verif.HA Verif.QHA.Spec Verif.StatMech Verif.Poly.Spec

variable {nt np nb nf nv : ℕ} {k : Consts} {ext : Ext} {s : Settings nt np} {x : Input nb nf nv}
  {u : Choice} {r : Results nt np}

/-- No frequency depends on the volume. -/
def Spec.Rigid (x : Input nb nf nv) : Prop := ∀ q b n n', x.freq q b n = x.freq q b n'

/-- The equation-of-state fit does not depend on the zero of energy: shifting all energies shifts `E0` only. -/
def Spec.ShiftsE0 (ext : Ext) : Prop := ∀ {n : ℕ} (eos : Str) (V F : Fin n → ℝ) (c : ℝ) (i : Fin 4), i ≠ 0 →
  ext.eosFit eos V (fun m => F m + c) i = ext.eosFit eos V F i

/-! ### Lemmas -/

/-- The fit of a constant is the constant. -/
theorem fit_const (hext : Numerics ext) {n : ℕ} {X : Fin n → ℝ} (hinj : Function.Injective X) {d : ℕ} (hdeg : d + 1 ≤ n)
    (c : ℝ) : ext.polyfit X (fun _ => c) d = Fin.cons c (fun _ => 0) := by
  have hv : ∀ t, value (Fin.cons c (fun _ => 0) : Fin (d + 1) → ℝ) t = c := fun t => by
    simp [value, Fin.sum_univ_succ]
  exact Poly.value_injective hinj hdeg fun m => by
    rw [Poly.leastSquares_exact (hext.fit X _ d) (d := Fin.cons c (fun _ => 0)) (fun _ => (hv _).symm) m, hv]

/-- Adding a constant to the data changes the constant coefficient only. -/
theorem fit_shift (hext : Numerics ext) {n : ℕ} {X : Fin n → ℝ} (hinj : Function.Injective X) {d : ℕ} (hdeg : d + 1 ≤ n)
    (Y : Fin n → ℝ) (c : ℝ) : ext.polyfit X (fun m => Y m + c) d =
      Fin.cons (ext.polyfit X Y d 0 + c) (fun l => ext.polyfit X Y d l.succ) := by
  have h := Poly.leastSquares_linear hinj hdeg 1 (hext.fit X Y d) (hext.fit X (fun _ => c) d)
    (hext.fit X (fun m => Y m + 1 * c) d)
  simp only [one_mul] at h
  rw [h, fit_const hext hinj hdeg c]
  funext l
  refine Fin.cases ?_ (fun l => ?_) l <;> simp

theorem polyder_cons (a b : ℝ) (l : List ℝ) : Poly.polyder (a :: l) = Poly.polyder (b :: l) := by
  simp [Poly.polyder]

theorem polyder_shift {d : ℕ} (c : Fin (d + 1) → ℝ) (a : ℝ) :
    Poly.polyder (List.ofFn (Fin.cons a (fun l => c l.succ) : Fin (d + 1) → ℝ)) = Poly.polyder (List.ofFn c) := by
  rw [List.ofFn_succ, List.ofFn_succ]
  simp only [Fin.cons_zero, Fin.cons_succ]
  exact polyder_cons _ _ _

/-- The minimum of the fit does not depend on the zero of energy. -/
theorem minimum_shift (hext : Numerics ext) {n : ℕ} {X : Fin n → ℝ} (hinj : Function.Injective X) {d : ℕ} (hdeg : d + 1 ≤ n)
    (Y : Fin n → ℝ) (c : ℝ) (p : Option ℝ) :
    Poly.findPolynomialMinimum ext.roots (List.ofFn (ext.polyfit X (fun m => Y m + c) d)) p =
      Poly.findPolynomialMinimum ext.roots (List.ofFn (ext.polyfit X Y d)) p := by
  simp only [Poly.findPolynomialMinimum, fit_shift hext hinj hdeg, polyder_shift]

theorem bulk_shift (hext : Numerics ext) {n : ℕ} {X : Fin n → ℝ} (hinj : Function.Injective X) {d : ℕ} (hdeg : d + 1 ≤ n)
    (Y : Fin n → ℝ) (c : ℝ) (e : ℝ → ℝ) (idx : Fin n) :
    numericalBulkModulus ext d e X (fun m => Y m + c) idx = numericalBulkModulus ext d e X Y idx := by
  simp only [numericalBulkModulus, fit_shift hext hinj hdeg, polyder_shift]

/-- Vibrational contributions of a crystal with fixed frequencies are the same at all volumes. -/
theorem rigid_kernel (hr : Rigid x) (c : ℝ) {m : ℕ} (f : ℝ → ℝ → ℝ) (T : Fin m → ℝ) (w : Fin nb → ℝ) (i : Fin m) (n n' : Fin nv) :
    kernel f T (fun q b n => x.freq q b n * c) w i n = kernel f T (fun q b n => x.freq q b n * c) w i n' := by
  simp only [kernel_eq, hr _ _ n n']

/-- The free energies of two temperatures differ by a constant. -/
theorem rigid_free (hu : u.Of s) (hr : Rigid x) {ha : HA.Results nt nv}
    (hha : HA.run k (harmonicSettings s) x.toInput = .ok ha) (i : Fin nt) :
    ∃ c, ha.F i = fun n => x.U0 n + c := by
  obtain ⟨ha', hha', hF, -⟩ := harmonic_run hu x (k := k)
  rw [hha] at hha'
  obtain rfl := Except.ok.inj hha'
  rcases Nat.eq_zero_or_pos nv with rfl | hn
  · exact ⟨0, funext fun n => n.elim0⟩
  refine ⟨ha.F i ⟨0, hn⟩ - x.U0 ⟨0, hn⟩, funext fun n => ?_⟩
  rw [hF]
  simp only [freeEnergy, vibrationalFreeEnergy, rigid_kernel hr _ _ _ _ i n ⟨0, hn⟩]
  ring

/-! ### C127 -/

/-- C127, volumes: the equilibrium volumes do not depend on the temperature; they are those of the static energies. -/
theorem C127_volumes (hext : Numerics ext) (hu : u.Of s) (hmin : s.minimization = .poly)
    (hinj : Function.Injective x.volume) (hdeg : s.edeg + 1 ≤ nv) (hr : Rigid x) (hrun : run k ext s x = .ok r)
    (i i' : Fin nt) (j : Fin np) :
    r.VT i j = r.VT i' j ∧
    deriv (value (ext.polyfit x.volume x.U0 s.edeg)) (r.VT i j) * u.e.joule k / u.v.m3 k = -(s.pressure j * u.p.pascal) ∧
    0 < deriv (deriv (value (ext.polyfit x.volume x.U0 s.edeg))) (r.VT i j) := by
  obtain ⟨ha, hha⟩ := harmonic_exists k hu x
  obtain ⟨m, r0, hm, hf, hK, hVT, -⟩ := run_data hu hrun hha
  have hj := (joule_pos k u.e).ne'
  have hv := (m3_pos k u.v).ne'
  have cell : ∀ i, (match Poly.findPolynomialMinimum ext.roots (List.ofFn (ext.polyfit x.volume x.U0 s.edeg))
      (some (s.pressure j * u.p.pascal * u.v.m3 k / u.e.joule k)) with
      | [] => Except.error PyErr.indexError
      | v :: _ => .ok (v, (0 : ℝ), (0 : ℝ))) = .ok (m i j) := by
    intro i
    have h2 := (seqFin_ok _ _).1 ((seqFin_ok _ _).1 hm i) j
    rw [minimize_poly hu hmin] at h2
    obtain ⟨c, hc⟩ := rigid_free hu hr hha i
    rw [hc] at h2
    simp only [Option.getD_none, minimum_shift hext hinj hdeg] at h2
    exact h2
  refine ⟨?_, ?_⟩
  · rw [hVT, hVT]
    have := (cell i).symm.trans (cell i')
    rw [Except.ok.inj this]
  · have hmem : r.VT i j ∈ Poly.findPolynomialMinimum ext.roots (List.ofFn (ext.polyfit x.volume x.U0 s.edeg))
      (some (s.pressure j * u.p.pascal * u.v.m3 k / u.e.joule k)) := by
      have h := cell i
      rw [hVT]
      split at h
      · exact absurd h (by simp)
      · rename_i v l heq
        rw [heq, ← Except.ok.inj h]
        simp
    have h1 := (Poly.C20_candidates hext.roots _ _ _).1 hmem
    simp only [polyval_ofFn_fun] at h1
    refine ⟨?_, h1.2⟩
    rw [h1.1]; field_simp

/-- C127, volumes from equations of state: the same when the fit does not depend on the zero of energy, and bulk modulus and
its derivative do not depend on the temperature either. -/
theorem C127_volumes_eos (hext : ShiftsE0 ext) (hu : u.Of s) (hmin : s.minimization = .eos) (hr : Rigid x)
    (hrun : run k ext s x = .ok r) (i i' : Fin nt) (j : Fin np) :
    r.VT i j = r.VT i' j ∧ r.KT i j = r.KT i' j ∧ r.Kp i j = r.Kp i' j := by
  obtain ⟨ha, hha⟩ := harmonic_exists k hu x
  obtain ⟨m, r0, hm, hf, hK, hVT, hE, -⟩ := run_data hu hrun hha
  have cell : ∀ i, m i j = (let c := ext.eosFit s.eos x.volume (fun n => x.U0 n + s.pressure j * u.p.pascal * u.v.m3 k / u.e.joule k * x.volume n)
      (c 3, c 1 * u.e.joule k / u.v.m3 k / u.p.pascal, c 2)) := by
    intro i
    have h2 := (seqFin_ok _ _).1 ((seqFin_ok _ _).1 hm i) j
    rw [minimize_eos hu hmin] at h2
    obtain ⟨c, hc⟩ := rigid_free hu hr hha i
    rw [hc] at h2
    have e : (fun n => x.U0 n + c + s.pressure j * u.p.pascal * u.v.m3 k / u.e.joule k * x.volume n) =
        fun n => (x.U0 n + s.pressure j * u.p.pascal * u.v.m3 k / u.e.joule k * x.volume n) + c := by
      funext n; ring
    rw [← Except.ok.inj h2]
    simp only [e]
    rw [hext _ _ _ c 3 (by decide), hext _ _ _ c 1 (by decide), hext _ _ _ c 2 (by decide)]
  obtain ⟨a1, a2⟩ := hE hmin i j
  obtain ⟨b1, b2⟩ := hE hmin i' j
  rw [hVT, hVT, a1, a2, b1, b2, cell i, cell i']
  exact ⟨rfl, rfl, rfl⟩

/-- Without change of volume there is no thermal expansion, and nothing that follows from it. -/
theorem no_expansion (hu : u.Of s) (hrun : run k ext s x = .ok r) (j : Fin np) (h : ∀ i i', r.VT i j = r.VT i' j) (i : Fin nt) :
    r.alphaV i j = 0 ∧ r.CpmCv i j = 0 ∧ r.gruneisen i j = 0 ∧ r.KS i j = r.KT i j ∧ (50 ≤ nt → r.Cp i j = r.Cv i j) := by
  by_cases hn : nt < 50
  · obtain ⟨h1, h2, h3, h4⟩ := C19_short_grid hu hrun hn i j
    exact ⟨h1, h2, h3, h4, fun h => absurd hn (by omega)⟩
  have hn' : 50 ≤ nt := by omega
  obtain ⟨ha, hha⟩ := harmonic_exists k hu x
  obtain ⟨m, r0, hm, hf, hK, -⟩ := run_data hu hrun hha
  obtain ⟨-, h2, h3, h4, h5, h6, h7⟩ := finalize_long hu hn' hf
  have hα : r.alphaV i j = 0 := by
    by_cases hi : i.val + 1 < nt
    · rw [(C19_quotients hu hrun hn' i j).1 ⟨i.val + 1, hi⟩ rfl, h ⟨i.val + 1, hi⟩ i]; simp
    · rw [(C19_quotients hu hrun hn' i j).2 ⟨i.val - 1, by omega⟩ (by omega) (by simp only; omega),
        h ⟨i.val - 1, by omega⟩ i]; simp
  have hC : r.CpmCv i j = 0 := by
    have := h2 i j
    rw [hα] at this
    simpa [(joule_pos k u.e).ne'] using this
  refine ⟨hα, hC, ?_, ?_, fun _ => by rw [h3, hC, add_zero, hK.Cv]⟩
  · by_cases h0 : r0.Cv i j = 0
    · exact h6 i j h0
    · rw [h7 i j h0, hα]; simp
  · rw [hK.KT]
    by_cases h0 : u.t.kelvin (s.temperature i) = 0 ∨ r0.Cv i j = 0
    · exact h4 i j h0
    · rw [not_or] at h0
      have := h5 i j h0.1 h0.2
      rw [hα] at this
      have : (r.KS i j - r0.KT i j) * u.p.pascal = 0 := by rw [this]; simp
      rcases mul_eq_zero.1 this with h | h
      · linarith
      · exact absurd h (pascal_pos u.p).ne'

/-- C127, no thermal expansion: expansion, `Cp - Cv` and the Grüneisen parameter vanish, adiabatic and isothermal bulk moduli
agree, and from 50 temperatures on `Cp = Cv`. -/
theorem C127_no_expansion (hext : Numerics ext) (hu : u.Of s)
    (hmin : (s.minimization = .poly ∧ Function.Injective x.volume ∧ s.edeg + 1 ≤ nv) ∨
      (s.minimization = .eos ∧ ShiftsE0 ext)) (hr : Rigid x) (hrun : run k ext s x = .ok r) (i : Fin nt) (j : Fin np) :
    r.alphaV i j = 0 ∧ r.CpmCv i j = 0 ∧ r.gruneisen i j = 0 ∧ r.KS i j = r.KT i j ∧ (50 ≤ nt → r.Cp i j = r.Cv i j) := by
  refine no_expansion hu hrun j (fun i i' => ?_) i
  rcases hmin with ⟨h1, h2, h3⟩ | ⟨h1, h2⟩
  · exact (C127_volumes hext hu h1 h2 h3 hr hrun i i' j).1
  · exact (C127_volumes_eos h2 hu h1 hr hrun i i' j).1

/-- The five free energies from which bulk modulus and derivative are taken. -/
theorem grid_pair (hu : u.Of s) (hmin : s.minimization = .poly) (hrun : run k ext s x = .ok r)
    {ha : HA.Results nt nv} (hha : HA.run k (harmonicSettings s) x.toInput = .ok ha) (i : Fin nt) (j : Fin np) :
    ∃ F : Fin 5 → ℝ, (r.KT i j, r.Kp i j) = numericalBulkModulus ext s.edeg (fun y => y * u.e.joule k / u.v.m3 k / u.p.pascal)
        (fun g => r.VT i j + r.VT i j * grid5 g) F idx5 ∧
      (s.scheme = .td → ∀ g, F g = value (ext.polyfit x.volume (ha.F i) s.edeg) (r.VT i j + r.VT i j * grid5 g)) ∧
      (s.scheme = .freq → ∀ g, F g =
        value (ext.polyfit x.volume x.U0 s.edeg) (r.VT i j + r.VT i j * grid5 g) +
          kernel (hoF k) (fun _ : Fin 1 => u.t.kelvin (s.temperature i))
            (fun q b (g : Fin 5) => value (ext.polyfit x.volume (fun l => x.freq q b l * u.f.hertz k) s.fdeg)
              (r.VT i j + r.VT i j * grid5 g)) (usedWeights x.weights) 0 g * (1000 / k.N) / u.e.joule k) := by
  obtain ⟨ha', hha', hF, -⟩ := harmonic_run hu x (k := k)
  rw [hha] at hha'
  obtain rfl := Except.ok.inj hha'
  obtain ⟨m, r0, hm, hf, hK, hVT, hE, h1, h2⟩ := run_data hu hrun hha
  have hm' := hm
  rw [hF] at hm'
  simp only [minimizeAll] at hm'
  cases hs : s.scheme with
  | td =>
    have h0 := h1 hs
    simp only [runTd, hu.e, hu.v, hu.p, energyMap_from, bind, Except.bind, minimize_some] at h0
    rw [hm'] at h0
    simp only [e2pMap_eq, pure, Except.pure, Except.ok.injEq] at h0
    refine ⟨_, ?_, fun _ g => rfl, fun h => by simp at h⟩
    rw [hK.KT, hK.Kp, hVT, hF, ← h0]
    simp only [hmin, evalFit_eq]
  | freq =>
    have h0 := h2 hs
    simp only [runFreq, hu.e, hu.v, hu.p, energyMap_from, bind, Except.bind] at h0
    rw [hm'] at h0
    simp only [e2pMap_eq, pure, Except.pure, Except.ok.injEq] at h0
    refine ⟨_, ?_, fun h => by simp at h, fun _ g => rfl⟩
    rw [hK.KT, hK.Kp, hVT, ← h0]
    simp only [hmin, evalFit_eq, vibrationalFreeEnergy, kernel_eq, Poly.multiInterpolateArray_eq]

/-- C127, bulk modulus: it is `V U0''(V)` of the static energies, and like its pressure derivative it does not depend on the
temperature, in both schemes. -/
theorem C127_moduli (hext : Numerics ext) (hu : u.Of s) (hmin : s.minimization = .poly)
    (hinj : Function.Injective x.volume) (hdeg : s.edeg + 1 ≤ nv) (h4 : s.edeg ≤ 4) (hfd : s.scheme = .freq → s.fdeg + 1 ≤ nv)
    (hr : Rigid x) (hrun : run k ext s x = .ok r) (i i' : Fin nt) (j : Fin np) (hV : r.VT i j ≠ 0) :
    r.KT i j * u.p.pascal =
      r.VT i j * deriv (deriv (value (ext.polyfit x.volume x.U0 s.edeg))) (r.VT i j) * u.e.joule k / u.v.m3 k ∧
    r.KT i j = r.KT i' j ∧ r.Kp i j = r.Kp i' j := by
  obtain ⟨ha, hha⟩ := harmonic_exists k hu x
  set c := ext.polyfit x.volume x.U0 s.edeg with hc
  have hginj : Function.Injective fun g : Fin 5 => r.VT i j + r.VT i j * grid5 g := by
    intro a b hab
    simp only [add_right_inj] at hab
    exact grid5_injective (mul_left_cancel₀ hV hab)
  have key : ∀ l, (r.KT l j, r.Kp l j) = numericalBulkModulus ext s.edeg (fun y => y * u.e.joule k / u.v.m3 k / u.p.pascal)
        (fun g => r.VT i j + r.VT i j * grid5 g) (fun g => value c (r.VT i j + r.VT i j * grid5 g)) idx5 := by
    intro l
    have hl := (C127_volumes hext hu hmin hinj hdeg hr hrun l i j).1
    obtain ⟨F, h1, h2, h3⟩ := grid_pair hu hmin hrun hha l j
    rw [h1, hl]
    obtain ⟨a, ha⟩ : ∃ a, F = fun g => value c (r.VT i j + r.VT i j * grid5 g) + a := by
      cases hs : s.scheme with
      | td =>
        obtain ⟨a, ha⟩ := rigid_free hu hr hha l
        refine ⟨a, funext fun g => ?_⟩
        rw [h2 hs g, ha, fit_shift hext hinj hdeg, hl]
        simp only [value, Fin.sum_univ_succ, Fin.cons_zero, Fin.cons_succ, hc]
        simp only [Fin.val_zero, pow_zero, mul_one]
        ring
      | freq =>
        have hfr : ∀ q b t, value (ext.polyfit x.volume (fun l => x.freq q b l * u.f.hertz k) s.fdeg) t =
            x.freq q b ⟨0, by omega⟩ * u.f.hertz k := by
          intro q b t
          have : (fun l => x.freq q b l * u.f.hertz k) = fun _ => x.freq q b ⟨0, by omega⟩ * u.f.hertz k := by
            funext l; rw [hr q b l]
          rw [this, fit_const hext hinj (hfd hs)]
          simp [value, Fin.sum_univ_succ]
        refine ⟨kernel (hoF k) (fun _ : Fin 1 => u.t.kelvin (s.temperature l))
            (fun q b (_ : Fin 5) => x.freq q b ⟨0, by omega⟩ * u.f.hertz k) (usedWeights x.weights) 0 0 *
              (1000 / k.N) / u.e.joule k, funext fun g => ?_⟩
        rw [h3 hs g, hl]
        simp only [hfr, kernel_eq]
        rw [hc]
    rw [ha, bulk_shift hext hginj (by omega)]
  have h1 := key i
  have h2 := h1.trans (key i').symm
  rw [Prod.mk.injEq] at h2
  refine ⟨?_, h2⟩
  have hfit : ext.polyfit (fun g : Fin 5 => r.VT i j + r.VT i j * grid5 g)
      (fun g => value c (r.VT i j + r.VT i j * grid5 g)) s.edeg = c :=
    Poly.value_injective hginj (by omega) fun g =>
      Poly.leastSquares_exact (hext.fit _ _ _) (d := c) (fun _ => rfl) g
  have hj := joule_pos k u.e
  have hv := m3_pos k u.v
  have hp := pascal_pos u.p
  have hKT := (Prod.mk.inj h1).1
  rw [hKT]
  simp only [numericalBulkModulus, hfit, grid5_idx, mul_zero, add_zero]
  rw [← Poly.deriv_polyval, ← Poly.deriv_polyval, polyval_ofFn_fun]
  field_simp

/-- C127, vibrational quantities: entropy, heat capacity and vibrational energies are those of the harmonic calculation, at
whichever input volume. -/
theorem C127_harmonic (hext : Numerics ext) (hu : u.Of s) (hinj : Function.Injective x.volume)
    (hdeg : s.scheme = .td → s.edeg + 1 ≤ nv) (hfd : s.scheme = .freq → s.fdeg + 1 ≤ nv)
    (hr : Rigid x) (hrun : run k ext s x = .ok r) {ha : HA.Results nt nv}
    (hha : HA.run k (harmonicSettings s) x.toInput = .ok ha) (i : Fin nt) (j : Fin np) (n : Fin nv) :
    r.Uzp i j = ha.Uzp 0 n ∧ r.Uth i j = ha.Uth i n ∧ r.S i j = ha.S i n ∧ r.Cv i j = ha.Cv i n ∧ r.Fvib i j = ha.Fvib i n := by
  have hj := (joule_pos k u.e).ne'
  obtain ⟨ha', hha', hF, hU, hZ, hT, hS, hC, hV⟩ := harmonic_run hu x (k := k)
  rw [hha] at hha'
  obtain rfl := Except.ok.inj hha'
  cases hs : s.scheme with
  | td =>
    obtain ⟨h1, h2, -, h3, h4, h5, -⟩ := C68_td_interpolates hu hrun hs hha i j
    have fc : ∀ Y : Fin nv → ℝ, (∀ m, Y m = Y n) → value (ext.polyfit x.volume Y s.edeg) (r.VT i j) = Y n := by
      intro Y hY
      have : Y = fun _ => Y n := funext hY
      rw [this, fit_const hext hinj (hdeg hs)]
      simp [value, Fin.sum_univ_succ]
    refine ⟨h1.trans (fc _ ?_), h2.trans (fc _ ?_), h3.trans (fc _ ?_), h4.trans (fc _ ?_), h5.trans (fc _ ?_)⟩ <;> intro m
    · rw [hZ]; simp only [zeroPointEnergy, rigid_kernel hr _ _ _ _ _ m n]
    · rw [hT]; simp only [thermalEnergy, rigid_kernel hr _ _ _ _ _ m n]
    · rw [hS]; simp only [entropy, rigid_kernel hr _ _ _ _ _ m n]
    · rw [hC]; simp only [isochoricHeatCapacity, rigid_kernel hr _ _ _ _ _ m n]
    · rw [hV]; simp only [vibrationalFreeEnergy, rigid_kernel hr _ _ _ _ _ m n]
  | freq =>
    obtain ⟨h1, h2, h3, h4, h5⟩ := C68_freq_interpolates hu hrun hs i j
    have hfr : ∀ q b t, value (ext.polyfit x.volume (fun l => x.freq q b l * u.f.hertz k) s.fdeg) t =
        x.freq q b n * u.f.hertz k := by
      intro q b t
      have : (fun l => x.freq q b l * u.f.hertz k) = fun _ => x.freq q b n * u.f.hertz k := by
        funext l; rw [hr q b l]
      rw [this, fit_const hext hinj (hfd hs)]
      simp [value, Fin.sum_univ_succ]
    simp only [hfr] at h1 h2 h3 h4 h5
    have e : ∀ a b : ℝ, a * u.e.joule k = b → a = b / u.e.joule k := fun a b h => by rw [← h, mul_div_cancel_right₀ _ hj]
    rw [e _ _ h1, e _ _ h2, e _ _ h3, e _ _ h4, e _ _ h5, hZ, hT, hS, hC, hV]
    simp only [zeroPointEnergy, thermalEnergy, entropy, isochoricHeatCapacity, vibrationalFreeEnergy, kernel_eq, hoZpe]
    exact ⟨trivial, trivial, trivial, trivial, trivial⟩

/-! ### C128 -/

/-- A fit with as many coefficients as points goes through the points. -/
theorem fit_through (hext : Numerics ext) {n : ℕ} {X : Fin n → ℝ} (hinj : Function.Injective X) {d : ℕ} (hd : d + 1 = n)
    (Y : Fin n → ℝ) (m : Fin n) : value (ext.polyfit X Y d) (X m) = Y m := by
  subst hd
  have hsurj : Function.Surjective fun (c : Fin (d + 1) → ℝ) (m : Fin (d + 1)) => value c (X m) := by
    let f : (Fin (d + 1) → ℝ) →ₗ[ℝ] (Fin (d + 1) → ℝ) :=
      { toFun := fun c m => value c (X m)
        map_add' := fun c c' => by
          funext m
          have := Poly.value_add c c' 1 (X m)
          simp only [one_mul] at this
          exact this
        map_smul' := fun a c => by
          funext m
          exact Poly.value_smul c a (X m) }
    have hi : Function.Injective f := fun c c' h => Poly.value_injective hinj le_rfl fun m => congrFun h m
    exact (LinearMap.injective_iff_surjective (f := f)).1 hi
  obtain ⟨c, hc⟩ := hsurj Y
  exact Poly.leastSquares_exact (hext.fit X Y d) (d := c) (fun l => (congrFun hc l).symm) m

/-- C128: wherever the equilibrium volume is one of the input volumes and the polynomials have as many coefficients as there
are volumes, every exported quantity is that of the harmonic calculation at this volume, in both schemes. -/
theorem C128_input_volume (hext : Numerics ext) (hu : u.Of s) (hinj : Function.Injective x.volume)
    (hdeg : s.edeg + 1 = nv) (hfd : s.scheme = .freq → s.fdeg + 1 = nv) (hrun : run k ext s x = .ok r)
    {ha : HA.Results nt nv} (hha : HA.run k (harmonicSettings s) x.toInput = .ok ha) (i : Fin nt) (j : Fin np) (n : Fin nv)
    (hn : r.VT i j = x.volume n) :
    r.Uzp i j = ha.Uzp 0 n ∧ r.Uth i j = ha.Uth i n ∧ r.Utot i j = ha.Utot i n ∧ r.S i j = ha.S i n ∧
    r.Cv i j = ha.Cv i n ∧ r.Fvib i j = ha.Fvib i n ∧ r.F i j = ha.F i n := by
  have hj := (joule_pos k u.e).ne'
  cases hs : s.scheme with
  | td =>
    have h := C68_td_interpolates hu hrun hs hha i j
    simp only [hn, fit_through hext hinj hdeg] at h
    exact h
  | freq =>
    obtain ⟨ha', hha', hF, hU, hZ, hT, hS, hC, hV⟩ := harmonic_run hu x (k := k)
    rw [hha] at hha'
    obtain rfl := Except.ok.inj hha'
    obtain ⟨h1, h2, h3, h4, h5⟩ := C68_freq_interpolates hu hrun hs i j
    obtain ⟨g1, g2, -⟩ := C68_energies_add_up hext hu hrun (fun h => by simp [hs] at h) i j
    simp only [hn, fit_through hext hinj hdeg] at g1 g2
    simp only [hn, fit_through hext hinj (hfd hs)] at h1 h2 h3 h4 h5
    have e : ∀ a b : ℝ, a * u.e.joule k = b → a = b / u.e.joule k := fun a b h => by rw [← h, mul_div_cancel_right₀ _ hj]
    rw [g1, g2, e _ _ h1, e _ _ h2, e _ _ h3, e _ _ h4, e _ _ h5, hZ, hT, hS, hC, hV, hF, hU]
    simp only [zeroPointEnergy, thermalEnergy, entropy, isochoricHeatCapacity, vibrationalFreeEnergy, kernel_eq, hoZpe,
      internalEnergy, freeEnergy, zero_add]
    exact ⟨trivial, trivial, trivial, trivial, trivial, trivial, trivial⟩

/-! ### Witnesses -/

theorem exInput_rigid : Rigid exInput := fun _ _ _ _ => rfl

/-- The three volumes and the parabola of the example: 60 temperatures, no expansion. -/
example (k : Consts) : ∃ (ext : Ext) (ha : HA.Results 60 3) (r : Results 60 1),
    HA.run k (harmonicSettings (exSettings 60)) exInput.toInput = .ok ha ∧ run k ext (exSettings 60) exInput = .ok r ∧
    ∀ i j, r.alphaV i j = 0 ∧ r.Cp i j = r.Cv i j ∧ r.KS i j = r.KT i j ∧ r.S i j = ha.S i 0 ∧ r.F i j = ha.F i 1 := by
  obtain ⟨ext, ha, r, hext, hha, hr, h⟩ := witness k 60
  refine ⟨ext, ha, r, hha, hr, fun i j => ?_⟩
  obtain ⟨h1, -, -, h2, h3⟩ := C127_no_expansion hext (exUnits_of 60) (.inl ⟨rfl, exInput_injective, le_rfl⟩) exInput_rigid hr i j
  refine ⟨h1, h3 (by norm_num), h2, (C127_harmonic hext (exUnits_of 60) exInput_injective (fun _ => le_rfl)
    (fun _ => le_rfl) exInput_rigid hr hha i j 0).2.2.1, ?_⟩
  refine (C128_input_volume hext (exUnits_of 60) exInput_injective rfl (fun _ => rfl) hr hha i j 1 ?_).2.2.2.2.2.2
  rw [(h i j).1]
  norm_num [exInput]

end Verif.QHA
