/- The two interpolation schemes. -/
import Verif.QHA.Finalize

namespace Verif.QHA
open Verif.Py Verif.Units Verif.HA Verif.QHA.Spec Verif.StatMech Verif.Poly.Spec

variable {nt np nb nf nv : ℕ}

theorem polyval_ofFn {d : ℕ} (c : Fin d → ℝ) (x : ℝ) : Poly.polyval (List.ofFn c) x = value c x := by
  rw [Poly.polyval_eq_sum]; exact (Poly.C21_ranks.sum_ofFn c x).symm

theorem evalFit_eq {d : ℕ} (c : Fin d → ℝ) (x : ℝ) : evalFit c x = value c x := polyval_ofFn c x

theorem polyval_ofFn_fun {d : ℕ} (c : Fin d → ℝ) : Poly.polyval (List.ofFn c) = value c :=
  funext (polyval_ofFn c)

/-- The free energies both schemes start from are those of the harmonic calculation. -/
theorem harmonic_run {k : Consts} {s : Settings nt np} {u : Choice} (hu : u.Of s)
    (x : Input nb nf nv) :
    let T := fun i => u.t.kelvin (s.temperature i)
    let ω := fun q b n => x.freq q b n * u.f.hertz k
    let w := usedWeights x.weights
    let ce := fun y : ℝ => y * (1000 / k.N) / u.e.joule k
    ∃ ha, HA.run k (harmonicSettings s) x.toInput = .ok ha ∧
      ha.F = freeEnergy x.U0 (fun i n => ce (vibrationalFreeEnergy k T ω w i n)) ∧
      ha.Utot = internalEnergy x.U0 (fun n => ce (zeroPointEnergy k (fun _ : Fin 1 => 0) ω w 0 n))
        (fun i n => ce (thermalEnergy k T ω w i n)) ∧
      ha.Uzp = (fun i n => ce (zeroPointEnergy k (fun _ : Fin 1 => 0) ω w i n)) ∧
      ha.Uth = (fun i n => ce (thermalEnergy k T ω w i n)) ∧
      ha.S = (fun i n => ce (entropy k T ω w i n)) ∧
      ha.Cv = (fun i n => ce (isochoricHeatCapacity k T ω w i n)) ∧
      ha.Fvib = (fun i n => ce (vibrationalFreeEnergy k T ω w i n)) := by
  simp only [HA.run, harmonicSettings, hu.t, hu.f, hu.e, temperatureMap_to, frequencyMap_to,
    energyMap_from, bind, Except.bind, pure, Except.pure]
  exact ⟨_, rfl, rfl, rfl, rfl, rfl, rfl, rfl, rfl⟩

/-- `minimize_volume` in user units, for polynomials. -/
theorem minimize_poly {k : Consts} {ext : Ext} {s : Settings nt np} {u : Choice} (hu : u.Of s)
    (hm : s.minimization = .poly) (V F : Fin nv → ℝ) (p : ℝ) (pars : Option (Fin (s.edeg + 1) → ℝ)) :
    minimizeVolume k ext s V F p pars =
      match Poly.findPolynomialMinimum ext.roots
        (List.ofFn (pars.getD (ext.polyfit V F s.edeg)))
        (some (p * u.p.pascal * u.v.m3 k / u.e.joule k)) with
      | [] => .error .indexError
      | v :: _ => .ok (v, 0, 0) := by
  simp only [minimizeVolume, hm, hu.e, hu.v, hu.p, p2eMap_eq, bind, Except.bind]
  rfl

theorem minimize_eos {k : Consts} {ext : Ext} {s : Settings nt np} {u : Choice} (hu : u.Of s)
    (hm : s.minimization = .eos) (V F : Fin nv → ℝ) (p : ℝ) (pars : Option (Fin (s.edeg + 1) → ℝ)) :
    minimizeVolume k ext s V F p pars =
      (let c := ext.eosFit s.eos V (fun n => F n + p * u.p.pascal * u.v.m3 k / u.e.joule k * V n)
       .ok (c 3, c 1 * u.e.joule k / u.v.m3 k / u.p.pascal, c 2)) := by
  simp only [minimizeVolume, hm, hu.e, hu.v, hu.p, p2eMap_eq, e2pMap_eq, bind, Except.bind]

/-- Minimisation over the whole grid, shared by both schemes. -/
noncomputable def minimizeAll (k : Consts) (ext : Ext) (s : Settings nt np) (x : Input nb nf nv)
    (F : Fin nt → Fin nv → ℝ) : Except PyErr (Fin nt → Fin np → ℝ × ℝ × ℝ) :=
  seqFin fun (i : Fin nt) => seqFin fun (j : Fin np) =>
    minimizeVolume k ext s x.volume (F i) (s.pressure j) none

theorem minimize_some {k : Consts} {ext : Ext} {s : Settings nt np} (V F : Fin nv → ℝ) (p : ℝ) :
    minimizeVolume k ext s V F p (some (ext.polyfit V F s.edeg)) =
      minimizeVolume k ext s V F p none := by
  unfold minimizeVolume
  rfl

/-- Outcome of a run in terms of the harmonic results: the minimisation decides success, and the
two schemes fill the table as below. -/
theorem run_cases {k : Consts} {ext : Ext} {s : Settings nt np} {x : Input nb nf nv} {u : Choice}
    (hu : u.Of s) (hk : s.kieffer = false) {ha : HA.Results nt nv}
    (hha : HA.run k (harmonicSettings s) x.toInput = .ok ha) :
    (∀ e, minimizeAll k ext s x ha.F = .error e → run k ext s x = .error e) ∧
    (∀ m, minimizeAll k ext s x ha.F = .ok m → ∃ r0 r, run k ext s x = .ok r ∧
      finalizeRun k s r0 = .ok r ∧ (∀ i j, r0.VT i j = (m i j).1) ∧
      (s.minimization = .eos → ∀ i j, r0.KT i j = (m i j).2.1 ∧ r0.Kp i j = (m i j).2.2) ∧
      (s.scheme = .td → runTd k ext s x (fun i => u.t.kelvin (s.temperature i))
        (fun q b n => x.freq q b n * u.f.hertz k) = .ok r0) ∧
      (s.scheme = .freq → runFreq k ext s x (fun i => u.t.kelvin (s.temperature i))
        (fun q b n => x.freq q b n * u.f.hertz k) = .ok r0)) := by
  obtain ⟨ha', hha', hF, -⟩ := harmonic_run hu x (k := k)
  rw [hha] at hha'
  obtain rfl := Except.ok.inj hha'
  have htd : runTd k ext s x (fun i => u.t.kelvin (s.temperature i))
        (fun q b n => x.freq q b n * u.f.hertz k) =
      (minimizeAll k ext s x ha.F).bind fun m =>
        runTd k ext s x (fun i => u.t.kelvin (s.temperature i))
          (fun q b n => x.freq q b n * u.f.hertz k) := by
    rw [hF]
    cases hm : minimizeAll k ext s x _ with
    | ok m => rfl
    | error e =>
      simp only [minimizeAll] at hm
      simp only [Except.bind, runTd, hu.e, energyMap_from, bind, minimize_some]
      rw [hm]
  have hfr : runFreq k ext s x (fun i => u.t.kelvin (s.temperature i))
        (fun q b n => x.freq q b n * u.f.hertz k) =
      (minimizeAll k ext s x ha.F).bind fun m =>
        runFreq k ext s x (fun i => u.t.kelvin (s.temperature i))
          (fun q b n => x.freq q b n * u.f.hertz k) := by
    rw [hF]
    cases hm : minimizeAll k ext s x _ with
    | ok m => rfl
    | error e =>
      simp only [minimizeAll] at hm
      simp only [Except.bind, runFreq, hu.e, energyMap_from, bind]
      rw [hm]
  have hrun : run k ext s x = (match s.scheme with
      | .freq => runFreq k ext s x (fun i => u.t.kelvin (s.temperature i))
        (fun q b n => x.freq q b n * u.f.hertz k)
      | .td => runTd k ext s x (fun i => u.t.kelvin (s.temperature i))
        (fun q b n => x.freq q b n * u.f.hertz k)).bind (finalizeRun k s) := by
    simp only [run, hu.t, hu.f, temperatureMap_to, frequencyMap_to, bind, hk]
    cases s.scheme <;> rfl
  constructor
  · intro e he
    rw [hrun]
    cases s.scheme with
    | td => simp only; rw [htd, he]; rfl
    | freq => simp only; rw [hfr, he]; rfl
  · intro m hm
    have hm' := hm
    rw [hF] at hm'
    simp only [minimizeAll] at hm'
    cases hs : s.scheme with
    | td =>
      have : ∃ r0, runTd k ext s x (fun i => u.t.kelvin (s.temperature i))
          (fun q b n => x.freq q b n * u.f.hertz k) = .ok r0 ∧ (∀ i j, r0.VT i j = (m i j).1) ∧
          (s.minimization = .eos → ∀ i j, r0.KT i j = (m i j).2.1 ∧ r0.Kp i j = (m i j).2.2) := by
        simp only [runTd, hu.e, hu.v, hu.p, energyMap_from, bind, Except.bind, minimize_some]
        rw [hm']
        simp only [e2pMap_eq, pure, Except.pure]
        refine ⟨_, rfl, fun _ _ => rfl, fun he i j => ?_⟩
        simp only [he]
        exact ⟨trivial, trivial⟩
      obtain ⟨r0, h0, h1, h2⟩ := this
      obtain ⟨r, hr, -⟩ := finalize_kept hu r0 (k := k)
      refine ⟨r0, r, ?_, hr, h1, h2, fun _ => h0, fun h => by simp at h⟩
      rw [hrun, hs]
      simp only
      rw [h0]
      exact hr
    | freq =>
      have : ∃ r0, runFreq k ext s x (fun i => u.t.kelvin (s.temperature i))
          (fun q b n => x.freq q b n * u.f.hertz k) = .ok r0 ∧ (∀ i j, r0.VT i j = (m i j).1) ∧
          (s.minimization = .eos → ∀ i j, r0.KT i j = (m i j).2.1 ∧ r0.Kp i j = (m i j).2.2) := by
        simp only [runFreq, hu.e, hu.v, hu.p, energyMap_from, bind, Except.bind]
        rw [hm']
        simp only [e2pMap_eq, pure, Except.pure]
        refine ⟨_, rfl, fun _ _ => rfl, fun he i j => ?_⟩
        simp only [he]
        exact ⟨trivial, trivial⟩
      obtain ⟨r0, h0, h1, h2⟩ := this
      obtain ⟨r, hr, -⟩ := finalize_kept hu r0 (k := k)
      refine ⟨r0, r, ?_, hr, h1, h2, fun h => by simp at h, fun _ => h0⟩
      rw [hrun, hs]
      simp only
      rw [h0]
      exact hr

end Verif.QHA
