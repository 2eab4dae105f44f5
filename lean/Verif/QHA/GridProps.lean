/-
Property C159: a quasi-harmonic result at a temperature and a pressure does not depend on the rest of the grid.
-/
import Verif.QHA.GridSpec
import Verif.QHA.Witness

namespace Verif.QHA
open Verif.Py Verif.Units Verif.HA Verif.QHA.Spec Verif.StatMech

variable {nt np nt' np' nb nf nv : ℕ} {k : Consts} {ext : Ext} {s : Settings nt np} {x : Input nb nf nv}

theorem seqFin_error {α : Type*} {n : ℕ} {f : Fin n → Except PyErr α} {e : PyErr} (h : seqFin f = .error e) :
    ∃ i, f i = .error e := by
  induction n with
  | zero => simp [seqFin] at h
  | succ n ih =>
    cases h0 : f 0 with
    | error e' =>
      simp only [seqFin, h0, bind, Except.bind, Except.error.injEq] at h
      exact ⟨0, by rw [h0, h]⟩
    | ok a =>
      cases h1 : seqFin (fun i => f i.succ) with
      | error e' =>
        simp only [seqFin, h0, h1, bind, Except.bind, Except.error.injEq] at h
        subst h
        obtain ⟨i, hi⟩ := ih h1
        exact ⟨i.succ, hi⟩
      | ok as => simp [seqFin, h0, h1, bind, Except.bind, pure, Except.pure] at h

theorem seqFin_one {α : Type*} {f : Fin 1 → Except PyErr α} {a : α} (h : f 0 = .ok a) : seqFin f = .ok fun _ => a :=
  (seqFin_ok f _).2 fun i => by rw [Subsingleton.elim i 0, h]

/-- What a kernel writes at a temperature depends on that temperature only. -/
theorem kernel_at (f : ℝ → ℝ → ℝ) (T : Fin nt → ℝ) (ω : Fin nb → Fin nf → Fin nv → ℝ) (w : Fin nb → ℝ) (i : Fin nt)
    (n : Fin nv) : kernel f T ω w i n = kernel f (fun _ : Fin 1 => T i) ω w 0 n := by
  rw [kernel_eq, kernel_eq]

theorem td_alone {T : Fin nt → ℝ} {ph : Fin nb → Fin nf → Fin nv → ℝ} {r : Results nt np}
    (h : runTd k ext s x T ph = .ok r) (i : Fin nt) (j : Fin np) :
    ∃ r1, runTd k ext (alone s (s.temperature i) (s.pressure j)) x (fun _ => T i) ph = .ok r1 ∧ SameNode r i j r1 0 0 := by
  have hk : ∀ f n, kernel f T ph (usedWeights x.weights) i n = kernel f (fun _ : Fin 1 => T i) ph (usedWeights x.weights) 0 n :=
    fun f n => kernel_at f T ph _ i n
  simp only [runTd, bind, Except.bind, thermalEnergy, entropy, isochoricHeatCapacity, vibrationalFreeEnergy,
    alone, onGrid] at h ⊢
  cases hce : energyMap k c!"kjmol" s.eunit with
  | error e => rw [hce] at h; simp at h
  | ok ce =>
    rw [hce] at h
    simp only at h ⊢
    split at h
    · simp at h
    · rename_i m hm
      have hm' := (seqFin_ok _ _).1 ((seqFin_ok _ _).1 hm i) j
      have hF : freeEnergy x.U0 (fun l n => ce (kernel (hoF k) T ph (usedWeights x.weights) l n)) i =
          freeEnergy x.U0 (fun (l : Fin 1) n => ce (kernel (hoF k) (fun _ : Fin 1 => T i) ph (usedWeights x.weights) l n)) 0 :=
        funext fun n => by simp only [freeEnergy, hk]
      have hU : internalEnergy x.U0 (fun n => ce (zeroPointEnergy k (fun _ : Fin 1 => 0) ph (usedWeights x.weights) 0 n))
            (fun l n => ce (kernel (hoEth k) T ph (usedWeights x.weights) l n)) i =
          internalEnergy x.U0 (fun n => ce (zeroPointEnergy k (fun _ : Fin 1 => 0) ph (usedWeights x.weights) 0 n))
            (fun (l : Fin 1) n => ce (kernel (hoEth k) (fun _ : Fin 1 => T i) ph (usedWeights x.weights) l n)) 0 :=
        funext fun n => by simp only [internalEnergy, hk]
      rw [hF] at hm'
      cases he : e2pMap k s.eunit s.vunit s.punit with
      | error e => rw [he] at h; simp at h
      | ok e2p =>
        rw [he] at h
        simp only [pure, Except.pure, Except.ok.injEq] at h ⊢
        subst h
        split
        · rename_i e h1
          obtain ⟨a, ha⟩ := seqFin_error h1
          obtain ⟨b, hb⟩ := seqFin_error ha
          rw [Subsingleton.elim a 0] at hb
          exact absurd (hb.symm.trans hm') (by simp)
        · rename_i m1 h1
          have h2 : m i j = m1 0 0 := Except.ok.inj (hm'.symm.trans ((seqFin_ok _ _).1 ((seqFin_ok _ _).1 h1 0) 0))
          refine ⟨_, rfl, ?_⟩
          constructor <;> simp only [h2, hF, hU, hk]
          all_goals rfl

theorem freq_alone {T : Fin nt → ℝ} {ph : Fin nb → Fin nf → Fin nv → ℝ} {r : Results nt np}
    (h : runFreq k ext s x T ph = .ok r) (i : Fin nt) (j : Fin np) :
    ∃ r1, runFreq k ext (alone s (s.temperature i) (s.pressure j)) x (fun _ => T i) ph = .ok r1 ∧ SameNode r i j r1 0 0 := by
  have hk : ∀ f n, kernel f T ph (usedWeights x.weights) i n = kernel f (fun _ : Fin 1 => T i) ph (usedWeights x.weights) 0 n :=
    fun f n => kernel_at f T ph _ i n
  simp only [runFreq, bind, Except.bind, vibrationalFreeEnergy, alone, onGrid] at h ⊢
  cases hce : energyMap k c!"kjmol" s.eunit with
  | error e => rw [hce] at h; simp at h
  | ok ce =>
    rw [hce] at h
    simp only at h ⊢
    split at h
    · simp at h
    · rename_i m hm
      have hm' := (seqFin_ok _ _).1 ((seqFin_ok _ _).1 hm i) j
      have hF : freeEnergy x.U0 (fun l n => ce (kernel (hoF k) T ph (usedWeights x.weights) l n)) i =
          freeEnergy x.U0 (fun (l : Fin 1) n => ce (kernel (hoF k) (fun _ : Fin 1 => T i) ph (usedWeights x.weights) l n)) 0 :=
        funext fun n => by simp only [freeEnergy, hk]
      rw [hF] at hm'
      cases he : e2pMap k s.eunit s.vunit s.punit with
      | error e => rw [he] at h; simp at h
      | ok e2p =>
        rw [he] at h
        simp only [pure, Except.pure, Except.ok.injEq] at h ⊢
        subst h
        split
        · rename_i e h1
          obtain ⟨a, ha⟩ := seqFin_error h1
          obtain ⟨b, hb⟩ := seqFin_error ha
          rw [Subsingleton.elim a 0] at hb
          exact absurd (hb.symm.trans hm') (by simp)
        · rename_i m1 h1
          have h2 : m i j = m1 0 0 := Except.ok.inj (hm'.symm.trans ((seqFin_ok _ _).1 ((seqFin_ok _ _).1 h1 0) 0))
          refine ⟨_, rfl, ?_⟩
          constructor <;> simp only [h2]
          all_goals rfl

theorem td_error {T : Fin nt → ℝ} {ph : Fin nb → Fin nf → Fin nv → ℝ} {e : PyErr}
    (h : runTd k ext s x T ph = .error e) (hnt : 0 < nt) (hnp : 0 < np) :
    ∃ i j, runTd k ext (alone s (s.temperature i) (s.pressure j)) x (fun _ => T i) ph = .error e := by
  simp only [runTd, bind, Except.bind, thermalEnergy, entropy, isochoricHeatCapacity, vibrationalFreeEnergy, alone, onGrid] at h ⊢
  have hF : ∀ (ce : ℝ → ℝ) i, freeEnergy x.U0 (fun l n => ce (kernel (hoF k) T ph (usedWeights x.weights) l n)) i =
      freeEnergy x.U0 (fun (l : Fin 1) n => ce (kernel (hoF k) (fun _ : Fin 1 => T i) ph (usedWeights x.weights) l n)) 0 :=
    fun ce i => funext fun n => by simp only [freeEnergy, kernel_at (hoF k) T ph _ i n]
  cases hce : energyMap k c!"kjmol" s.eunit with
  | error e' =>
    rw [hce] at h
    exact ⟨⟨0, hnt⟩, ⟨0, hnp⟩, congrArg Except.error (Except.error.inj h)⟩
  | ok ce =>
    rw [hce] at h
    simp only at h ⊢
    split at h
    · rename_i e' h1
      obtain ⟨i, hi⟩ := seqFin_error h1
      obtain ⟨j, hj⟩ := seqFin_error hi
      obtain rfl := Except.error.inj h
      rw [hF] at hj
      refine ⟨i, j, ?_⟩
      split
      · rename_i e2 h2
        obtain ⟨a, ha⟩ := seqFin_error h2
        obtain ⟨b, hb⟩ := seqFin_error ha
        rw [Subsingleton.elim a 0] at hb
        exact congrArg Except.error (Except.error.inj (hb.symm.trans hj))
      · rename_i m1 h2
        have h3 := (seqFin_ok _ _).1 ((seqFin_ok _ _).1 h2 0) 0
        exact absurd (h3.symm.trans hj) (by simp)
    · rename_i m hm
      have hm' := (seqFin_ok _ _).1 ((seqFin_ok _ _).1 hm ⟨0, hnt⟩) ⟨0, hnp⟩
      rw [hF] at hm'
      refine ⟨⟨0, hnt⟩, ⟨0, hnp⟩, ?_⟩
      split
      · rename_i e2 h2
        obtain ⟨a, ha⟩ := seqFin_error h2
        obtain ⟨b, hb⟩ := seqFin_error ha
        rw [Subsingleton.elim a 0] at hb
        exact absurd (hb.symm.trans hm') (by simp)
      · cases he : e2pMap k s.eunit s.vunit s.punit with
        | error e2 => rw [he] at h; exact congrArg Except.error (Except.error.inj h)
        | ok e2p => rw [he] at h; simp [pure, Except.pure] at h

theorem freq_error {T : Fin nt → ℝ} {ph : Fin nb → Fin nf → Fin nv → ℝ} {e : PyErr}
    (h : runFreq k ext s x T ph = .error e) (hnt : 0 < nt) (hnp : 0 < np) :
    ∃ i j, runFreq k ext (alone s (s.temperature i) (s.pressure j)) x (fun _ => T i) ph = .error e := by
  simp only [runFreq, bind, Except.bind, vibrationalFreeEnergy, alone, onGrid] at h ⊢
  have hF : ∀ (ce : ℝ → ℝ) i, freeEnergy x.U0 (fun l n => ce (kernel (hoF k) T ph (usedWeights x.weights) l n)) i =
      freeEnergy x.U0 (fun (l : Fin 1) n => ce (kernel (hoF k) (fun _ : Fin 1 => T i) ph (usedWeights x.weights) l n)) 0 :=
    fun ce i => funext fun n => by simp only [freeEnergy, kernel_at (hoF k) T ph _ i n]
  cases hce : energyMap k c!"kjmol" s.eunit with
  | error e' =>
    rw [hce] at h
    exact ⟨⟨0, hnt⟩, ⟨0, hnp⟩, congrArg Except.error (Except.error.inj h)⟩
  | ok ce =>
    rw [hce] at h
    simp only at h ⊢
    split at h
    · rename_i e' h1
      obtain ⟨i, hi⟩ := seqFin_error h1
      obtain ⟨j, hj⟩ := seqFin_error hi
      obtain rfl := Except.error.inj h
      rw [hF] at hj
      refine ⟨i, j, ?_⟩
      split
      · rename_i e2 h2
        obtain ⟨a, ha⟩ := seqFin_error h2
        obtain ⟨b, hb⟩ := seqFin_error ha
        rw [Subsingleton.elim a 0] at hb
        exact congrArg Except.error (Except.error.inj (hb.symm.trans hj))
      · rename_i m1 h2
        have h3 := (seqFin_ok _ _).1 ((seqFin_ok _ _).1 h2 0) 0
        exact absurd (h3.symm.trans hj) (by simp)
    · rename_i m hm
      have hm' := (seqFin_ok _ _).1 ((seqFin_ok _ _).1 hm ⟨0, hnt⟩) ⟨0, hnp⟩
      rw [hF] at hm'
      refine ⟨⟨0, hnt⟩, ⟨0, hnp⟩, ?_⟩
      split
      · rename_i e2 h2
        obtain ⟨a, ha⟩ := seqFin_error h2
        obtain ⟨b, hb⟩ := seqFin_error ha
        rw [Subsingleton.elim a 0] at hb
        exact absurd (hb.symm.trans hm') (by simp)
      · cases he : e2pMap k s.eunit s.vunit s.punit with
        | error e2 => rw [he] at h; exact congrArg Except.error (Except.error.inj h)
        | ok e2p => rw [he] at h; simp [pure, Except.pure] at h

theorem alone_of {u : Choice} (hu : u.Of s) (t p : ℝ) : u.Of (alone s t p) := ⟨hu.e, hu.v, hu.p, hu.t, hu.f⟩

theorem onGrid_of {u : Choice} (hu : u.Of s) (T : Fin nt' → ℝ) (p : Fin np' → ℝ) : u.Of (onGrid s T p) :=
  ⟨hu.e, hu.v, hu.p, hu.t, hu.f⟩

theorem run_eq {u : Choice} (hu : u.Of s) : run k ext s x = if s.kieffer then .error .attributeError else
    (match s.scheme with
      | .freq => runFreq k ext s x (fun i => u.t.kelvin (s.temperature i)) (fun q b n => x.freq q b n * u.f.hertz k)
      | .td => runTd k ext s x (fun i => u.t.kelvin (s.temperature i))
        (fun q b n => x.freq q b n * u.f.hertz k)).bind (finalizeRun k s) := by
  simp only [run, hu.t, hu.f, temperatureMap_to, frequencyMap_to, bind]
  cases s.scheme <;> rfl

/-- What the last stage adds at a node depends on the node only. -/
theorem finalize_node {u : Choice} (hu : u.Of s) {T : Fin nt' → ℝ} {p : Fin np' → ℝ} {r0 r : Results nt np}
    {r0' r' : Results nt' np'} (h : finalizeRun k s r0 = .ok r) (h' : finalizeRun k (onGrid s T p) r0' = .ok r')
    {i : Fin nt} {j : Fin np} {i' : Fin nt'} {j' : Fin np'} (hp : s.pressure j = p j')
    (hn : SameNode r0 i j r0' i' j') : SameNode r i j r' i' j' := by
  have hj := (joule_pos k u.e).ne'
  obtain ⟨r1, h1, hk, hH, hG⟩ := finalize_kept hu r0 (k := k)
  obtain ⟨r2, h2, hk', hH', hG'⟩ := finalize_kept (onGrid_of hu T p) r0' (k := k)
  obtain rfl := Except.ok.inj (h.symm.trans h1)
  obtain rfl := Except.ok.inj (h'.symm.trans h2)
  refine ⟨?_, ?_, ?_, ?_, ?_, ?_, ?_, ?_, ?_, ?_, ?_, ?_⟩
  · rw [hk.VT, hk'.VT, hn.VT]
  · rw [hk.KT, hk'.KT, hn.KT]
  · rw [hk.Kp, hk'.Kp, hn.Kp]
  · rw [hk.Uzp, hk'.Uzp, hn.Uzp]
  · rw [hk.Uth, hk'.Uth, hn.Uth]
  · rw [hk.Utot, hk'.Utot, hn.Utot]
  · rw [hk.S, hk'.S, hn.S]
  · rw [hk.Cv, hk'.Cv, hn.Cv]
  · rw [hk.Fvib, hk'.Fvib, hn.Fvib]
  · rw [hk.F, hk'.F, hn.F]
  · refine mul_right_cancel₀ hj ?_
    rw [hH, hH', hn.Utot, hn.VT, hp]
    rfl
  · refine mul_right_cancel₀ hj ?_
    rw [hG, hG', hn.F, hn.VT, hp]
    rfl

theorem Spec.SameNode.symm {r : Results nt np} {r' : Results nt' np'} {i : Fin nt} {j : Fin np} {i' : Fin nt'}
    {j' : Fin np'} (h : SameNode r i j r' i' j') : SameNode r' i' j' r i j :=
  ⟨h.VT.symm, h.KT.symm, h.Kp.symm, h.Uzp.symm, h.Uth.symm, h.Utot.symm, h.S.symm, h.Cv.symm, h.Fvib.symm, h.F.symm,
    h.H.symm, h.G.symm⟩

theorem Spec.SameNode.trans {nt'' np'' : ℕ} {r : Results nt np} {r' : Results nt' np'} {r'' : Results nt'' np''}
    {i : Fin nt} {j : Fin np} {i' : Fin nt'} {j' : Fin np'} {i'' : Fin nt''} {j'' : Fin np''}
    (h : SameNode r i j r' i' j') (h' : SameNode r' i' j' r'' i'' j'') : SameNode r i j r'' i'' j'' :=
  ⟨h.VT.trans h'.VT, h.KT.trans h'.KT, h.Kp.trans h'.Kp, h.Uzp.trans h'.Uzp, h.Uth.trans h'.Uth, h.Utot.trans h'.Utot,
    h.S.trans h'.S, h.Cv.trans h'.Cv, h.Fvib.trans h'.Fvib, h.F.trans h'.F, h.H.trans h'.H, h.G.trans h'.G⟩

/-! ### C159 -/

/-- C159, alone: whatever a run reports at a temperature and a pressure, a run asked for nothing else succeeds and reports
the same. -/
theorem C159_alone {u : Choice} (hu : u.Of s) {r : Results nt np} (h : run k ext s x = .ok r) (i : Fin nt) (j : Fin np) :
    ∃ r1, run k ext (alone s (s.temperature i) (s.pressure j)) x = .ok r1 ∧ SameNode r i j r1 0 0 := by
  have hu' := alone_of hu (s.temperature i) (s.pressure j)
  rw [run_eq hu] at h
  rw [run_eq hu']
  by_cases hk : s.kieffer
  · rw [if_pos hk] at h; simp at h
  rw [if_neg hk] at h
  rw [if_neg (show ¬ (alone s (s.temperature i) (s.pressure j)).kieffer = true from hk)]
  have fin : ∀ (r0 : Results nt np) (r1 : Results 1 1), finalizeRun k s r0 = .ok r → SameNode r0 i j r1 0 0 →
      ∃ r2, finalizeRun k (alone s (s.temperature i) (s.pressure j)) r1 = .ok r2 ∧ SameNode r i j r2 0 0 := by
    intro r0 r1 h0 h1
    obtain ⟨r2, h2, -⟩ := finalize_kept hu' r1 (k := k)
    exact ⟨r2, h2, finalize_node hu h0 h2 rfl h1⟩
  show ∃ r1, (match s.scheme with | .freq => _ | .td => _ : Except PyErr (Results 1 1)).bind _ = .ok r1 ∧ _
  cases hs : s.scheme with
  | freq =>
    rw [hs] at h
    simp only at h ⊢
    cases h0 : runFreq k ext s x (fun i => u.t.kelvin (s.temperature i)) (fun q b n => x.freq q b n * u.f.hertz k) with
    | error e => rw [h0] at h; simp [Except.bind] at h
    | ok r0 =>
      rw [h0] at h
      obtain ⟨r1, h1, h2⟩ := freq_alone h0 i j
      obtain ⟨r2, h3, h4⟩ := fin r0 r1 h h2
      refine ⟨r2, ?_, h4⟩
      erw [h1]
      exact h3
  | td =>
    rw [hs] at h
    simp only at h ⊢
    cases h0 : runTd k ext s x (fun i => u.t.kelvin (s.temperature i)) (fun q b n => x.freq q b n * u.f.hertz k) with
    | error e => rw [h0] at h; simp [Except.bind] at h
    | ok r0 =>
      rw [h0] at h
      obtain ⟨r1, h1, h2⟩ := td_alone h0 i j
      obtain ⟨r2, h3, h4⟩ := fin r0 r1 h h2
      refine ⟨r2, ?_, h4⟩
      erw [h1]
      exact h3

/-- C159, errors: when a run fails, so does, with the same exception, a run asked for one of its nodes alone. -/
theorem C159_errors {u : Choice} (hu : u.Of s) (hnt : 0 < nt) (hnp : 0 < np) {e : PyErr} (h : run k ext s x = .error e) :
    ∃ i j, run k ext (alone s (s.temperature i) (s.pressure j)) x = .error e := by
  rw [run_eq hu] at h
  by_cases hk : s.kieffer
  · rw [if_pos hk] at h
    refine ⟨⟨0, hnt⟩, ⟨0, hnp⟩, ?_⟩
    rw [run_eq (alone_of hu _ _), if_pos (show (alone s _ _).kieffer = true from hk)]
    exact congrArg Except.error (Except.error.inj h)
  rw [if_neg hk] at h
  cases hs : s.scheme with
  | freq =>
    rw [hs] at h
    simp only at h
    cases h0 : runFreq k ext s x (fun i => u.t.kelvin (s.temperature i)) (fun q b n => x.freq q b n * u.f.hertz k) with
    | ok r0 =>
      rw [h0] at h
      obtain ⟨r2, h2, -⟩ := finalize_kept hu r0 (k := k)
      exact absurd (h2.symm.trans h) (by simp)
    | error e' =>
      rw [h0] at h
      obtain rfl : e' = e := Except.error.inj h
      obtain ⟨i, j, h1⟩ := freq_error h0 hnt hnp
      refine ⟨i, j, ?_⟩
      rw [run_eq (alone_of hu _ _), if_neg (show ¬ (alone s _ _).kieffer = true from hk)]
      show (match s.scheme with | .freq => _ | .td => _ : Except PyErr (Results 1 1)).bind _ = _
      rw [hs]
      exact congrArg (fun a : Except PyErr (Results 1 1) => a.bind _) h1
  | td =>
    rw [hs] at h
    simp only at h
    cases h0 : runTd k ext s x (fun i => u.t.kelvin (s.temperature i)) (fun q b n => x.freq q b n * u.f.hertz k) with
    | ok r0 =>
      rw [h0] at h
      obtain ⟨r2, h2, -⟩ := finalize_kept hu r0 (k := k)
      exact absurd (h2.symm.trans h) (by simp)
    | error e' =>
      rw [h0] at h
      obtain rfl : e' = e := Except.error.inj h
      obtain ⟨i, j, h1⟩ := td_error h0 hnt hnp
      refine ⟨i, j, ?_⟩
      rw [run_eq (alone_of hu _ _), if_neg (show ¬ (alone s _ _).kieffer = true from hk)]
      show (match s.scheme with | .freq => _ | .td => _ : Except PyErr (Results 1 1)).bind _ = _
      rw [hs]
      exact congrArg (fun a : Except PyErr (Results 1 1) => a.bind _) h1

/-- C159, part of a grid: a run on temperatures and pressures taken from a grid that works, works. -/
theorem C159_subgrid {u : Choice} (hu : u.Of s) {r : Results nt np} (h : run k ext s x = .ok r) {T : Fin nt' → ℝ}
    {p : Fin np' → ℝ} (hnt : 0 < nt') (hnp : 0 < np') (hT : ∀ i', ∃ i, s.temperature i = T i')
    (hp : ∀ j', ∃ j, s.pressure j = p j') : ∃ r', run k ext (onGrid s T p) x = .ok r' := by
  cases h' : run k ext (onGrid s T p) x with
  | ok r' => exact ⟨r', rfl⟩
  | error e =>
    obtain ⟨i', j', h1⟩ := C159_errors (onGrid_of hu T p) hnt hnp h'
    obtain ⟨i, hi⟩ := hT i'
    obtain ⟨j, hj⟩ := hp j'
    obtain ⟨r1, h2, -⟩ := C159_alone hu h i j
    rw [hi, hj] at h2
    exact absurd (h2.symm.trans h1) (by simp)

/-- C159, node: two runs that share a temperature and a pressure report the same there, whatever else they were asked for. -/
theorem C159_node {u : Choice} (hu : u.Of s) {r : Results nt np} (h : run k ext s x = .ok r) {T : Fin nt' → ℝ}
    {p : Fin np' → ℝ} {r' : Results nt' np'} (h' : run k ext (onGrid s T p) x = .ok r') {i : Fin nt} {j : Fin np}
    {i' : Fin nt'} {j' : Fin np'} (hT : s.temperature i = T i') (hp : s.pressure j = p j') :
    SameNode r i j r' i' j' := by
  obtain ⟨r1, h1, h2⟩ := C159_alone hu h i j
  obtain ⟨r2, h3, h4⟩ := C159_alone (onGrid_of hu T p) h' i' j'
  rw [hT, hp] at h1
  obtain rfl := Except.ok.inj (h1.symm.trans h3)
  exact h2.trans h4.symm

theorem run_finalize {u : Choice} (hu : u.Of s) {r : Results nt np} (h : run k ext s x = .ok r) :
    ∃ r0, finalizeRun k s r0 = .ok r ∧ Kept r0 r := by
  rw [run_eq hu] at h
  split_ifs at h with hk
  have fin : ∀ r0 : Results nt np, finalizeRun k s r0 = .ok r → ∃ r0, finalizeRun k s r0 = .ok r ∧ Kept r0 r := by
    intro r0 h0
    obtain ⟨r1, h1, h2, -⟩ := finalize_kept hu r0 (k := k)
    obtain rfl := Except.ok.inj (h0.symm.trans h1)
    exact ⟨r0, h0, h2⟩
  cases hs : s.scheme with
  | freq =>
    rw [hs] at h
    simp only at h
    cases h0 : runFreq k ext s x (fun i => u.t.kelvin (s.temperature i)) (fun q b n => x.freq q b n * u.f.hertz k) with
    | error e => rw [h0] at h; simp [Except.bind] at h
    | ok r0 => rw [h0] at h; exact fin r0 h
  | td =>
    rw [hs] at h
    simp only at h
    cases h0 : runTd k ext s x (fun i => u.t.kelvin (s.temperature i)) (fun q b n => x.freq q b n * u.f.hertz k) with
    | error e => rw [h0] at h; simp [Except.bind] at h
    | ok r0 => rw [h0] at h; exact fin r0 h

/-- At equal nodes with equal thermal expansion, the derived quantities agree. -/
theorem expansion_of_alpha {u : Choice} (hu : u.Of s) {r : Results nt np} (h : run k ext s x = .ok r) {T : Fin nt' → ℝ}
    {p : Fin np' → ℝ} {r' : Results nt' np'} (h' : run k ext (onGrid s T p) x = .ok r') (hnt : 50 ≤ nt) (hnt' : 50 ≤ nt')
    {i : Fin nt} {j : Fin np} {i' : Fin nt'} {j' : Fin np'} (hT : s.temperature i = T i') (hp : s.pressure j = p j')
    (ha : r.alphaV i j = r'.alphaV i' j') : SameExpansion r i j r' i' j' := by
  have hj := (joule_pos k u.e).ne'
  have hP := (pascal_pos u.p).ne'
  have hn := C159_node hu h h' hT hp
  obtain ⟨r0, h0, hk⟩ := run_finalize hu h
  obtain ⟨r0', h0', hk'⟩ := run_finalize (onGrid_of hu T p) h'
  obtain ⟨-, e2, e3, e4, e5, e6, e7⟩ := finalize_long hu hnt h0
  obtain ⟨-, f2, f3, f4, f5, f6, f7⟩ := finalize_long (onGrid_of hu T p) hnt' h0'
  simp only at e2 e4 e5 f2 f4 f5
  rw [← hk.KT, ← hk.VT] at e2
  rw [← hk'.KT, ← hk'.VT] at f2
  rw [← hk.Cv] at e3 e4 e5 e6 e7
  rw [← hk'.Cv] at f3 f4 f5 f6 f7
  rw [← hk.KT] at e4 e5 e7
  rw [← hk'.KT] at f4 f5 f7
  rw [← hk.VT] at e5 e7
  rw [← hk'.VT] at f5 f7
  have hT' : (onGrid s T p).temperature i' = s.temperature i := hT.symm
  have hd : r.CpmCv i j = r'.CpmCv i' j' := mul_right_cancel₀ hj (by rw [e2, f2, ha, hn.KT, hn.VT, hT'])
  refine ⟨ha, hd, by rw [e3, f3, hn.Cv, hd], ?_, ?_⟩
  · by_cases hz : u.t.kelvin (s.temperature i) = 0 ∨ r.Cv i j = 0
    · rw [e4 i j hz, f4 i' j' (by rw [hT', ← hn.Cv]; exact hz), hn.KT]
    · rw [not_or] at hz
      have a := e5 i j hz.1 hz.2
      have b := f5 i' j' (by rw [hT']; exact hz.1) (by rw [← hn.Cv]; exact hz.2)
      rw [hT', ← hn.Cv, ← hn.KT, ← hn.VT, ← ha, ← a] at b
      have := mul_right_cancel₀ hP b
      linarith
  · by_cases hz : r.Cv i j = 0
    · rw [e6 i j hz, f6 i' j' (by rw [← hn.Cv]; exact hz)]
    · rw [e7 i j hz, f7 i' j' (by rw [← hn.Cv]; exact hz), ha, hn.Cv, hn.KT, hn.VT]

/-- C159, thermal expansion: in runs of fifty temperatures or more, thermal expansion, isobaric heat capacity, adiabatic bulk
modulus and Grüneisen parameter agree too when the temperature that follows is the same in both grids (the expansion is a
difference quotient to the next temperature of the grid). -/
theorem C159_expansion_partial {u : Choice} (hu : u.Of s) {r : Results nt np} (h : run k ext s x = .ok r) {T : Fin nt' → ℝ}
    {p : Fin np' → ℝ} {r' : Results nt' np'} (h' : run k ext (onGrid s T p) x = .ok r') (hnt : 50 ≤ nt) (hnt' : 50 ≤ nt')
    {i : Fin nt} {j : Fin np} {i' : Fin nt'} {j' : Fin np'} (hT : s.temperature i = T i') (hp : s.pressure j = p j')
    (hi : i.val + 1 < nt) (hi' : i'.val + 1 < nt') (hT1 : s.temperature ⟨i + 1, hi⟩ = T ⟨i' + 1, hi'⟩) :
    SameExpansion r i j r' i' j' := by
  refine expansion_of_alpha hu h h' hnt hnt' hT hp ?_
  have hn := C159_node hu h h' hT hp
  have hn1 := C159_node hu h h' hT1 hp
  obtain ⟨r0, h0, hk⟩ := run_finalize hu h
  obtain ⟨r0', h0', hk'⟩ := run_finalize (onGrid_of hu T p) h'
  rw [(finalize_long hu hnt h0).1, (finalize_long (onGrid_of hu T p) hnt' h0').1, ← hk.VT, ← hk'.VT]
  simp only [alphaColumn, dif_pos hi, dif_pos hi', hn.VT, hn1.VT, hT1, hT]
  rfl

/-- C159, last row: the last rows of two such runs agree when the temperatures before them do. -/
theorem C159_last_partial {u : Choice} (hu : u.Of s) {r : Results nt np} (h : run k ext s x = .ok r) {T : Fin nt' → ℝ}
    {p : Fin np' → ℝ} {r' : Results nt' np'} (h' : run k ext (onGrid s T p) x = .ok r') (hnt : 50 ≤ nt) (hnt' : 50 ≤ nt')
    {j : Fin np} {j' : Fin np'} (hp : s.pressure j = p j')
    (hT : s.temperature ⟨nt - 1, by omega⟩ = T ⟨nt' - 1, by omega⟩)
    (hT1 : s.temperature ⟨nt - 2, by omega⟩ = T ⟨nt' - 2, by omega⟩) :
    SameExpansion r ⟨nt - 1, by omega⟩ j r' ⟨nt' - 1, by omega⟩ j' := by
  refine expansion_of_alpha hu h h' hnt hnt' hT hp ?_
  have hn := C159_node hu h h' hT hp
  have hn1 := C159_node hu h h' hT1 hp
  obtain ⟨r0, h0, hk⟩ := run_finalize hu h
  obtain ⟨r0', h0', hk'⟩ := run_finalize (onGrid_of hu T p) h'
  rw [(finalize_long hu hnt h0).1, (finalize_long (onGrid_of hu T p) hnt' h0').1, ← hk.VT, ← hk'.VT]
  simp only [alphaColumn, dif_neg (by omega : ¬ nt - 1 + 1 < nt), dif_neg (by omega : ¬ nt' - 1 + 1 < nt'), hn.VT, hT]
  have e : ∀ n : ℕ, n - 1 - 1 = n - 2 := fun n => by omega
  simp only [e, hn1.VT, hT1]
  rfl

/-- C159, violated for short grids: the same temperature and pressure, asked for among fewer than fifty temperatures, come
out with isobaric heat capacity, thermal expansion and Grüneisen parameter 0, below the isochoric heat capacity. -/
theorem C159_short_violated (k : Consts) : ∃ (ext : Ext) (r : Results 60 1) (r' : Results 2 1), Numerics ext ∧
    run k ext (exSettings 60) exInput = .ok r ∧
    run k ext (onGrid (exSettings 60) (fun i : Fin 2 => i.val + 1) (exSettings 60).pressure) exInput = .ok r' ∧
    SameNode r 0 0 r' 0 0 ∧ 0 < r'.Cv 0 0 ∧ r.Cv 0 0 ≤ r.Cp 0 0 ∧ r'.Cp 0 0 = 0 ∧ ¬ SameExpansion r 0 0 r' 0 0 := by
  obtain ⟨ext, ha, r, hext, -, hr, hall⟩ := witness k 60
  have hu := exUnits_of 60
  obtain ⟨r', hr'⟩ := C159_subgrid hu hr (T := fun i : Fin 2 => (i.val : ℝ) + 1) (p := (exSettings 60).pressure)
    (by norm_num) (by norm_num) (fun i' => ⟨⟨i'.val, by omega⟩, rfl⟩) fun j' => ⟨j', rfl⟩
  have hn : SameNode r 0 0 r' 0 0 := C159_node hu hr hr' (by simp [exSettings]) rfl
  obtain ⟨hV, -, hK, hC⟩ := hall 0 0
  obtain ⟨r0, h0, hk⟩ := run_finalize hu hr
  obtain ⟨r0', h0', -⟩ := run_finalize (onGrid_of hu _ _) hr'
  obtain ⟨-, e2, e3, -⟩ := finalize_long hu (by norm_num) h0
  obtain ⟨-, -, s3, -⟩ := finalize_short (onGrid_of hu _ _) (by norm_num) h0'
  have hp0 : r'.Cp 0 0 = 0 := by rw [s3]
  have hle : r.Cv 0 0 ≤ r.Cp 0 0 := by
    have h2 := e2 0 0
    rw [← hk.KT, ← hk.VT, hV] at h2
    rw [e3, hk.Cv]
    have hj := joule_pos k exUnits.e
    have hP := pascal_pos exUnits.p
    have hm := m3_pos k exUnits.v
    have hT : exUnits.t.kelvin ((exSettings 60).temperature 0) = 1 := by simp [exUnits, exSettings, TemperatureUnit.kelvin]
    have : 0 ≤ r.CpmCv 0 0 * exUnits.e.joule k := by
      rw [h2]
      simp only [hT]
      positivity
    have := nonneg_of_mul_nonneg_left this hj
    linarith
  refine ⟨ext, r, r', hext, hr, hr', hn, by rw [← hn.Cv]; exact hC, hle, hp0, fun h => ?_⟩
  have := h.Cp
  rw [hp0] at this
  linarith

end Verif.QHA
