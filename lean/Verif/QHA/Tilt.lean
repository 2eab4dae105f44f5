/-
Property C187: a term proportional to the volume, added to the static energies, is a pressure.
-/
import Verif.QHA.Rigid

namespace Verif.QHA
open Verif.Py Verif.Units Verif.HA Verif.QHA.Spec Verif.StatMech Verif.Poly.Spec

variable {nt np nb nf nv : ℕ} {k : Consts} {ext : Ext} {s : Settings nt np} {x : Input nb nf nv} {u : Choice}
  {r r' : Results nt np}

/-- The same settings with the pressures lowered by `q`. -/
def Spec.lowered (s : Settings nt np) (q : ℝ) : Settings nt np := { s with pressure := fun j => s.pressure j - q }

/-- The same input with the energy of the pressure `q` added: `q V`, converted from the units of pressure and volume. -/
noncomputable def Spec.tilted (k : Consts) (u : Choice) (x : Input nb nf nv) (q : ℝ) : Input nb nf nv :=
  { x with U0 := fun n => x.U0 n + q * u.p.pascal * (x.volume n * u.v.m3 k) / u.e.joule k }

/-! ### Lemmas -/

theorem fit_abscissae (hext : Numerics ext) {n : ℕ} {X : Fin n → ℝ} (hinj : Function.Injective X) {d : ℕ} (hdeg : d + 2 ≤ n) :
    ext.polyfit X X (d + 1) = Fin.cons 0 (Fin.cons 1 fun _ => 0) := by
  have hv : ∀ t, value (Fin.cons 0 (Fin.cons 1 fun _ => 0) : Fin (d + 1 + 1) → ℝ) t = t := fun t => by
    simp [value, Fin.sum_univ_succ]
  exact Poly.value_injective hinj hdeg fun m => by
    rw [Poly.leastSquares_exact (hext.fit X _ (d + 1)) (d := Fin.cons 0 (Fin.cons 1 fun _ => 0)) (fun _ => (hv _).symm) m, hv]

/-- Adding a multiple of the abscissae to the data changes the linear coefficient only. -/
theorem fit_tilt (hext : Numerics ext) {n : ℕ} {X : Fin n → ℝ} (hinj : Function.Injective X) {d : ℕ} (hdeg : d + 2 ≤ n)
    (Y : Fin n → ℝ) (a : ℝ) : ext.polyfit X (fun m => Y m + a * X m) (d + 1) =
      fun l => ext.polyfit X Y (d + 1) l + a * (Fin.cons 0 (Fin.cons 1 fun _ => 0) : Fin (d + 1 + 1) → ℝ) l := by
  rw [Poly.leastSquares_linear hinj hdeg a (hext.fit X Y (d + 1)) (hext.fit X X (d + 1)) (hext.fit X _ (d + 1)),
    fit_abscissae hext hinj hdeg]

theorem polyder_two (a b : ℝ) (l : List ℝ) : Poly.polyder (a :: b :: l) = b :: (l.zipIdx 2).map fun p => (p.2 : ℝ) * p.1 := by
  simp [Poly.polyder, List.zipIdx_cons]

theorem tilt_list {d : ℕ} (c : Fin (d + 1 + 1) → ℝ) (a : ℝ) :
    List.ofFn (fun l => c l + a * (Fin.cons 0 (Fin.cons 1 fun _ => 0) : Fin (d + 1 + 1) → ℝ) l) =
      c 0 :: (c 1 + a) :: List.ofFn fun l : Fin d => c l.succ.succ := by
  rw [List.ofFn_succ, List.ofFn_succ]
  simp

theorem plain_list {d : ℕ} (c : Fin (d + 1 + 1) → ℝ) : List.ofFn c = c 0 :: c 1 :: List.ofFn fun l : Fin d => c l.succ.succ := by
  rw [List.ofFn_succ, List.ofFn_succ]
  simp

/-- The values of the fit. -/
theorem tilt_value (hext : Numerics ext) {n : ℕ} {X : Fin n → ℝ} (hinj : Function.Injective X) {d : ℕ} (h1 : 1 ≤ d)
    (hdeg : d + 1 ≤ n) (Y : Fin n → ℝ) (a V : ℝ) :
    value (ext.polyfit X (fun m => Y m + a * X m) d) V = value (ext.polyfit X Y d) V + a * V := by
  obtain ⟨d, rfl⟩ := Nat.exists_eq_add_of_le' h1
  rw [fit_tilt hext hinj hdeg]
  simp only [value, add_mul, Finset.sum_add_distrib]
  congr 1
  simp [Fin.sum_univ_succ]

/-- The minimum of the fit, under a pressure lowered accordingly. -/
theorem minimum_tilt (hext : Numerics ext) {n : ℕ} {X : Fin n → ℝ} (hinj : Function.Injective X) {d : ℕ} (h1 : 1 ≤ d)
    (hdeg : d + 1 ≤ n) (Y : Fin n → ℝ) (a p : ℝ) :
    Poly.findPolynomialMinimum ext.roots (List.ofFn (ext.polyfit X (fun m => Y m + a * X m) d)) (some (p - a)) =
      Poly.findPolynomialMinimum ext.roots (List.ofFn (ext.polyfit X Y d)) (some p) := by
  obtain ⟨d, rfl⟩ := Nat.exists_eq_add_of_le' h1
  rw [fit_tilt hext hinj hdeg, tilt_list, plain_list (ext.polyfit X Y (d + 1))]
  simp only [Poly.findPolynomialMinimum, polyder_two, Poly.addConst]
  have e : ext.polyfit X Y (d + 1) 1 + a + (p - a) = ext.polyfit X Y (d + 1) 1 + p := by ring
  rw [e, polyder_cons _ (ext.polyfit X Y (d + 1) 1)]

theorem bulk_tilt (hext : Numerics ext) {n : ℕ} {X : Fin n → ℝ} (hinj : Function.Injective X) {d : ℕ} (h1 : 1 ≤ d)
    (hdeg : d + 1 ≤ n) (Y : Fin n → ℝ) (a : ℝ) (e : ℝ → ℝ) (idx : Fin n) :
    (numericalBulkModulus ext d e X (fun m => Y m + a * X m) idx).1 = (numericalBulkModulus ext d e X Y idx).1 := by
  obtain ⟨d, rfl⟩ := Nat.exists_eq_add_of_le' h1
  simp only [numericalBulkModulus]
  rw [fit_tilt hext hinj hdeg, tilt_list, plain_list (ext.polyfit X Y (d + 1)), polyder_two, polyder_two,
    polyder_cons _ (ext.polyfit X Y (d + 1) 1)]

theorem lowered_of (hu : u.Of s) (q : ℝ) : u.Of (lowered s q) := ⟨hu.e, hu.v, hu.p, hu.t, hu.f⟩

/-- The harmonic columns of the two inputs. -/
theorem tilted_harmonic (hu : u.Of s) (q : ℝ) {ha ha' : HA.Results nt nv}
    (hha : HA.run k (harmonicSettings s) x.toInput = .ok ha)
    (hha' : HA.run k (harmonicSettings (lowered s q)) (tilted k u x q).toInput = .ok ha') :
    (∀ i, ha'.F i = fun n => ha.F i n + q * u.p.pascal * u.v.m3 k / u.e.joule k * x.volume n) ∧ ha'.Uzp = ha.Uzp ∧
    ha'.Uth = ha.Uth ∧ ha'.S = ha.S ∧ ha'.Cv = ha.Cv ∧ ha'.Fvib = ha.Fvib := by
  obtain ⟨h, e, hF, -, hZ, hT, hS, hC, hV⟩ := harmonic_run hu x (k := k)
  obtain ⟨h', e', hF', -, hZ', hT', hS', hC', hV'⟩ := harmonic_run (lowered_of hu q) (tilted k u x q) (k := k)
  rw [hha] at e
  rw [hha'] at e'
  obtain rfl := Except.ok.inj e
  obtain rfl := Except.ok.inj e'
  refine ⟨fun i => funext fun n => ?_, hZ'.trans hZ.symm, hT'.trans hT.symm, hS'.trans hS.symm, hC'.trans hC.symm, hV'.trans hV.symm⟩
  rw [hF, hF']
  simp only [freeEnergy, tilted, lowered]
  ring

/-- The searches for the volumes. -/
theorem tilted_minimize (hext : Numerics ext) (hu : u.Of s) (hmin : s.minimization = .poly) (hinj : Function.Injective x.volume)
    (h1 : 1 ≤ s.edeg) (hdeg : s.edeg + 1 ≤ nv) (q : ℝ) {ha ha' : HA.Results nt nv}
    (hha : HA.run k (harmonicSettings s) x.toInput = .ok ha)
    (hha' : HA.run k (harmonicSettings (lowered s q)) (tilted k u x q).toInput = .ok ha') :
    minimizeAll k ext (lowered s q) (tilted k u x q) ha'.F = minimizeAll k ext s x ha.F := by
  unfold minimizeAll
  congr 1
  funext i
  congr 1
  funext j
  rw [minimize_poly (lowered_of hu q) hmin, minimize_poly hu hmin, (tilted_harmonic hu q hha hha').1 i]
  simp only [Option.getD_none]
  have e : (lowered s q).pressure j * u.p.pascal * u.v.m3 k / u.e.joule k =
      s.pressure j * u.p.pascal * u.v.m3 k / u.e.joule k - q * u.p.pascal * u.v.m3 k / u.e.joule k := by
    simp only [lowered]
    ring
  have m := minimum_tilt hext hinj h1 hdeg (ha.F i) (q * u.p.pascal * u.v.m3 k / u.e.joule k)
    (s.pressure j * u.p.pascal * u.v.m3 k / u.e.joule k)
  rw [e]
  exact congrArg (fun l : List ℝ => match l with | [] => (Except.error PyErr.indexError : Except PyErr (ℝ × ℝ × ℝ)) | v :: _ => .ok (v, 0, 0)) m

/-! ### Theorems -/

/-- C187, success: the run with the energy of the pressure added and the pressures lowered succeeds exactly when the original does. -/
theorem C187_success (hext : Numerics ext) (hu : u.Of s) (hmin : s.minimization = .poly) (hinj : Function.Injective x.volume)
    (h1 : 1 ≤ s.edeg) (hdeg : s.edeg + 1 ≤ nv) (q : ℝ) :
    (∃ r', run k ext (lowered s q) (tilted k u x q) = .ok r') ↔ ∃ r, run k ext s x = .ok r := by
  obtain ⟨ha, hha⟩ := harmonic_exists k hu x
  obtain ⟨ha', hha'⟩ := harmonic_exists k (lowered_of hu q) (tilted k u x q)
  have hm := tilted_minimize hext hu hmin hinj h1 hdeg q hha hha'
  constructor
  · rintro ⟨r', hr'⟩
    obtain ⟨m, -, hm', -⟩ := run_data (lowered_of hu q) hr' hha'
    rw [hm] at hm'
    have hk := kieffer_off (lowered_of hu q) hr'
    obtain ⟨-, r, hr, -⟩ := (run_cases (ext := ext) hu hk hha).2 m hm'
    exact ⟨r, hr⟩
  · rintro ⟨r, hr⟩
    obtain ⟨m, -, hm', -⟩ := run_data hu hr hha
    rw [← hm] at hm'
    have hk := kieffer_off hu hr
    obtain ⟨-, r', hr', -⟩ := (run_cases (ext := ext) (lowered_of hu q) hk hha').2 m hm'
    exact ⟨r', hr'⟩

/-- C187, results: volumes, vibrational energies, entropies, heat capacities, enthalpies and Gibbs energies are those of the original
run; total energy and free energy differ by `q V`; the bulk moduli agree for fits of at most the fourth degree. -/
theorem C187_results (hext : Numerics ext) (hu : u.Of s) (hmin : s.minimization = .poly) (hinj : Function.Injective x.volume)
    (h1 : 1 ≤ s.edeg) (hdeg : s.edeg + 1 ≤ nv) (q : ℝ) (hrun : run k ext s x = .ok r)
    (hrun' : run k ext (lowered s q) (tilted k u x q) = .ok r') (i : Fin nt) (j : Fin np) :
    r'.VT i j = r.VT i j ∧ r'.Uzp i j = r.Uzp i j ∧ r'.Uth i j = r.Uth i j ∧ r'.Fvib i j = r.Fvib i j ∧ r'.S i j = r.S i j ∧
    r'.Cv i j = r.Cv i j ∧
    r'.F i j * u.e.joule k = r.F i j * u.e.joule k + q * u.p.pascal * (r.VT i j * u.v.m3 k) ∧
    r'.Utot i j * u.e.joule k = r.Utot i j * u.e.joule k + q * u.p.pascal * (r.VT i j * u.v.m3 k) ∧
    r'.G i j = r.G i j ∧ r'.H i j = r.H i j ∧ (s.edeg ≤ 4 → r.VT i j ≠ 0 → r'.KT i j = r.KT i j) := by
  have hj := (joule_pos k u.e).ne'
  have hu' := lowered_of hu q
  obtain ⟨ha, hha⟩ := harmonic_exists k hu x
  obtain ⟨ha', hha'⟩ := harmonic_exists k hu' (tilted k u x q)
  obtain ⟨hF, hZ, hT, hS, hC, hV⟩ := tilted_harmonic hu q hha hha'
  have hVT : r'.VT i j = r.VT i j := by
    obtain ⟨m, -, hm, -, -, e, -⟩ := run_data hu hrun hha
    obtain ⟨m', -, hm', -, -, e', -⟩ := run_data hu' hrun' hha'
    rw [tilted_minimize hext hu hmin hinj h1 hdeg q hha hha'] at hm'
    rw [e, e', Except.ok.inj (hm.symm.trans hm')]
  set a := q * u.p.pascal * u.v.m3 k / u.e.joule k with ha0
  have cols : r'.Uzp i j = r.Uzp i j ∧ r'.Uth i j = r.Uth i j ∧ r'.Fvib i j = r.Fvib i j ∧ r'.S i j = r.S i j ∧
      r'.Cv i j = r.Cv i j := by
    cases hs : s.scheme with
    | td =>
      obtain ⟨c1, c2, -, c3, c4, c5, -⟩ := C68_td_interpolates hu hrun hs hha i j
      obtain ⟨d1, d2, -, d3, d4, d5, -⟩ := C68_td_interpolates hu' hrun' hs hha' i j
      rw [c1, c2, c3, c4, c5, d1, d2, d3, d4, d5, hZ, hT, hS, hC, hV, hVT]
      exact ⟨rfl, rfl, rfl, rfl, rfl⟩
    | freq =>
      obtain ⟨c1, c2, c3, c4, c5⟩ := C68_freq_interpolates hu hrun hs i j
      obtain ⟨d1, d2, d3, d4, d5⟩ := C68_freq_interpolates hu' hrun' hs i j
      rw [hVT] at d1 d2 d3 d4 d5
      exact ⟨mul_right_cancel₀ hj (d1.trans c1.symm), mul_right_cancel₀ hj (d2.trans c2.symm),
        mul_right_cancel₀ hj (d5.trans c5.symm), mul_right_cancel₀ hj (d3.trans c3.symm), mul_right_cancel₀ hj (d4.trans c4.symm)⟩
  have hU0 : ∀ W, value (ext.polyfit x.volume (tilted k u x q).U0 s.edeg) W = value (ext.polyfit x.volume x.U0 s.edeg) W + a * W := by
    intro W
    rw [← tilt_value hext hinj h1 hdeg]
    congr 2
    funext n
    simp only [tilted, ha0]
    ring
  obtain ⟨e1, e2, -⟩ := C68_energies_add_up hext hu hrun (fun _ => ⟨hinj, hdeg⟩) i j
  obtain ⟨f1, f2, -⟩ := C68_energies_add_up hext hu' hrun' (fun _ => ⟨hinj, hdeg⟩) i j
  have f1' : r'.Utot i j = value (ext.polyfit x.volume (tilted k u x q).U0 s.edeg) (r'.VT i j) + r'.Uzp i j + r'.Uth i j := f1
  have f2' : r'.F i j = value (ext.polyfit x.volume (tilted k u x q).U0 s.edeg) (r'.VT i j) + r'.Fvib i j := f2
  obtain ⟨c1, c2, c3, c4, c5⟩ := cols
  rw [hU0, hVT, c1, c2] at f1'
  rw [hU0, hVT, c3] at f2'
  have hFF : r'.F i j * u.e.joule k = r.F i j * u.e.joule k + q * u.p.pascal * (r.VT i j * u.v.m3 k) := by
    rw [f2', e2, ha0]
    field_simp
    ring
  have hUU : r'.Utot i j * u.e.joule k = r.Utot i j * u.e.joule k + q * u.p.pascal * (r.VT i j * u.v.m3 k) := by
    rw [f1', e1, ha0]
    field_simp
    ring
  obtain ⟨l1, l2⟩ := C15_legendre hu hrun i j
  obtain ⟨l1', l2'⟩ := C15_legendre hu' hrun' i j
  have hp : (lowered s q).pressure j = s.pressure j - q := rfl
  refine ⟨hVT, c1, c2, c3, c4, c5, hFF, hUU, mul_right_cancel₀ hj ?_, mul_right_cancel₀ hj ?_, fun h4 hne => ?_⟩
  · rw [l2, l2', hFF, hVT, hp]
    ring
  · rw [l1, l1', hUU, hVT, hp]
    ring
  · obtain ⟨P, p1, p2, p3⟩ := grid_pair hu hmin hrun hha i j
    obtain ⟨P', p1', p2', p3'⟩ := grid_pair hu' hmin hrun' hha' i j
    have hPP : P' = fun g => P g + a * (r.VT i j + r.VT i j * grid5 g) := by
      funext g
      cases hs : s.scheme with
      | td =>
        rw [p2 hs, ← tilt_value hext hinj h1 hdeg, ← hF, ← hVT]
        exact p2' hs g
      | freq =>
        have e := p3' hs g
        rw [hVT] at e
        refine e.trans ?_
        rw [p3 hs, add_right_comm, ← hU0]
        rfl
    have hgrid : Function.Injective fun g : Fin 5 => r.VT i j + r.VT i j * grid5 g := by
      intro g g' h
      simp only [add_right_inj] at h
      exact grid5_injective (mul_left_cancel₀ hne h)
    have b := bulk_tilt hext hgrid h1 (by omega) P a (fun y => y * u.e.joule k / u.v.m3 k / u.p.pascal) idx5
    rw [← hPP] at b
    have e1 := congrArg Prod.fst p1
    have e1' := congrArg Prod.fst p1'
    rw [hVT] at e1'
    exact e1'.trans (b.trans e1.symm)

end Verif.QHA
