/-
Property theorems C14 (harmonic run).
-/
import Verif.HA.Model
import Verif.Units.Props
import Verif.StatMech.Props

namespace Verif.HA
open Verif.Py Verif.Units Verif.Units.Spec Verif.StatMech

variable {nt nb nf nv : ℕ}

/-! The elementwise maps are the array converters. -/

theorem energyMap_eq (k : Consts) (v : List ℝ) (a b : Str) :
    convertEnergy k v a b = (energyMap k a b).map (fun f => v.map f) := by
  unfold convertEnergy energyMap
  cases energyToHartree k a <;> cases energyFromHartree k b <;>
    simp [bind, Except.bind, pure, Except.pure, Except.map]

theorem temperatureMap_eq (v : List ℝ) (a b : Str) :
    convertTemperature v a b = (temperatureMap a b).map (fun f => v.map f) := by
  unfold convertTemperature temperatureMap
  cases tempToKelvin a <;> cases tempFromKelvin b <;>
    simp [bind, Except.bind, pure, Except.pure, Except.map]

theorem frequencyMap_eq (k : Consts) (v : List ℝ) (a b : Str) :
    convertFrequency k v a b = (frequencyMap k a b).map (fun f => v.map f) := by
  unfold convertFrequency frequencyMap
  cases freqToCm k a <;> cases freqFromCm k b <;>
    simp [bind, Except.bind, pure, Except.pure, Except.map]

theorem map_spec {scales : List Scale} {conv : List ℝ → Str → Str → Except PyErr (List ℝ)}
    (hF : Faithful scales conv) (hu : Unambiguous scales) {m : Except PyErr (ℝ → ℝ)} {a b : Str}
    (he : ∀ v, conv v a b = m.map (fun f => v.map f)) {f : ℝ → ℝ} (hm : m = .ok f) :
    ∃ A B, Means scales a A ∧ Means scales b B ∧ ∀ x, A.toRef x = B.toRef (f x) := by
  have key : ∀ x, ∃ A B, Means scales a A ∧ Means scales b B ∧ A.toRef x = B.toRef (f x) := by
    intro x
    have h := he [x]
    rw [hm] at h
    obtain ⟨A, B, hA, hB, h2⟩ := (hF.ok_iff _ _ _ _).1 h
    refine ⟨A, B, hA, hB, ?_⟩
    simpa using h2
  obtain ⟨A, B, hA, hB, _⟩ := key 0
  refine ⟨A, B, hA, hB, fun x => ?_⟩
  obtain ⟨A', B', hA', hB', e⟩ := key x
  rw [hu _ _ _ hA hA', hu _ _ _ hB hB']
  exact e

/-- `kjmol` names the kilojoule per mole. -/
theorem means_kjmol (k : Consts) : Means (energiesShort k) c!"kjmol"
    ⟨[c!"kj/mol", c!"kjmol"], 1000 / k.N, 0⟩ := by
  constructor <;> simp [energiesShort, lower]
theorem means_K : Means temperatures c!"K" ⟨[c!"kelvin", c!"k"], 1, 0⟩ := by
  constructor
  · simp [temperatures]
  · decide
theorem means_Hz (k : Consts) : Means (frequencies k) c!"Hz" ⟨[c!"hz"], 1, 0⟩ := by
  constructor
  · simp [frequencies]
  · decide

/-- What a successful run computed, in physical terms. -/
theorem run_ok {k : Consts} {s : Settings nt} {x : Input nb nf nv} {r : Results nt nv}
    (h : run k s x = .ok r) :
    ∃ (A : Scale) (B : Scale) (C : Scale) (ce : ℝ → ℝ),
      Means (energiesShort k) s.eunit A ∧ Means (frequencies k) s.funit B ∧
      Means temperatures s.tunit C ∧ (∀ y, 1000 / k.N * y = A.slope * ce y) ∧ A.offset = 0 ∧
      (let T := fun i => C.toRef (s.temperature i)
       let ω := fun j m n => B.toRef (x.freq j m n)
       let w := usedWeights x.weights
       r.Uzp = (fun (i : Fin 1) n => ce (zeroPointEnergy k (fun _ => 0) ω w i n)) ∧
       r.Uth = (fun i n => ce (thermalEnergy k T ω w i n)) ∧
       r.S = (fun i n => ce (entropy k T ω w i n)) ∧
       r.Cv = (fun i n => ce (isochoricHeatCapacity k T ω w i n)) ∧
       r.Fvib = (fun i n => ce (vibrationalFreeEnergy k T ω w i n)) ∧
       r.Utot = (fun i n => x.U0 n + r.Uzp 0 n + r.Uth i n) ∧
       r.F = (fun i n => x.U0 n + r.Fvib i n)) := by
  unfold run at h
  cases hT : temperatureMap s.tunit c!"K" with
  | error e => rw [hT] at h; simp [bind, Except.bind] at h
  | ok tK =>
  cases hf : frequencyMap k s.funit c!"Hz" with
  | error e => rw [hT, hf] at h; simp [bind, Except.bind] at h
  | ok hz =>
  cases he : energyMap k c!"kjmol" s.eunit with
  | error e => rw [hT, hf, he] at h; simp [bind, Except.bind] at h
  | ok ce =>
  rw [hT, hf, he] at h
  simp only [bind, Except.bind, pure, Except.pure, Except.ok.injEq] at h
  obtain ⟨C, C', hC, hC', h1⟩ := map_spec C01_faithful temperatures_unambiguous
    (fun v => temperatureMap_eq v _ _) hT
  obtain ⟨B, B', hB, hB', h2⟩ := map_spec (C04_frequency_faithful k) (frequencies_unambiguous k)
    (fun v => frequencyMap_eq k v _ _) hf
  obtain ⟨A', A, hA', hA, h3⟩ := map_spec (C02_faithful_partial k) (energiesShort_unambiguous k)
    (fun v => energyMap_eq k v _ _) he
  obtain rfl := temperatures_unambiguous _ _ _ hC' means_K
  obtain rfl := frequencies_unambiguous k _ _ _ hB' (means_Hz k)
  obtain rfl := energiesShort_unambiguous k _ _ _ hA' (means_kjmol k)
  have hA0 : A.offset = 0 := by
    have : ∀ A ∈ energiesShort k, A.offset = 0 := by simp [energiesShort]
    exact this A hA.1
  have e1 : tK = C.toRef := by funext y; rw [h1 y]; simp [Scale.toRef]
  have e2 : hz = B.toRef := by funext y; rw [h2 y]; simp [Scale.toRef]
  refine ⟨A, B, C, ce, hA, hB, hC, ?_, hA0, ?_⟩
  · intro y
    have := h3 y
    simpa [Scale.toRef, hA0] using this
  · subst h e1 e2
    refine ⟨rfl, rfl, rfl, rfl, rfl, ?_, ?_⟩
    · funext i n; simp [internalEnergy]
    · funext i n; simp [freeEnergy]

/-! ### C14 -/

/-- The exported values are mutually consistent: total internal energy and free energy are the
sums of their parts, and `F = U - T S` with `T` the temperature converted to kelvin. -/
theorem C14_consistent {k : Consts} {s : Settings nt} {x : Input nb nf nv} {r : Results nt nv}
    (h : run k s x = .ok r) (i : Fin nt) (n : Fin nv) {TK : ℝ}
    (hT : convertTemperature [s.temperature i] s.tunit c!"K" = .ok [TK]) :
    r.Utot i n = x.U0 n + r.Uzp 0 n + r.Uth i n ∧
    r.F i n = x.U0 n + r.Fvib i n ∧
    r.F i n = r.Utot i n - TK * r.S i n / 1000 := by
  obtain ⟨A, B, C, ce, hA, hB, hC, hce, hA0, e1, e2, e3, e4, e5, e6, e7⟩ := run_ok h
  have hTK : TK = C.toRef (s.temperature i) := by
    obtain ⟨C', K, hC', hK, h2⟩ := (C01_faithful.ok_iff _ _ _ _).1 hT
    obtain rfl := temperatures_unambiguous _ _ _ hK means_K
    obtain rfl := temperatures_unambiguous _ _ _ hC' hC
    simp only [List.forall₂_cons, List.forall₂_nil_left_iff, and_true] at h2
    rw [h2]; simp [Scale.toRef]
  refine ⟨by rw [e6], by rw [e7], ?_⟩
  have hs : A.slope ≠ 0 := (energiesShort_slopes k A hA.1).ne'
  have hN := k.N_pos.ne'
  have hce' : ∀ y, ce y = 1000 / k.N * y / A.slope := fun y => by
    rw [hce y]; field_simp
  have hF := C07_F_eq_U_minus_TS k (fun i => C.toRef (s.temperature i))
    (fun j m n => B.toRef (x.freq j m n)) (usedWeights x.weights) i n
  have hz : zeroPointEnergy k (fun i => C.toRef (s.temperature i))
      (fun j m n => B.toRef (x.freq j m n)) (usedWeights x.weights) i n =
      zeroPointEnergy k (fun _ : Fin 1 => 0)
      (fun j m n => B.toRef (x.freq j m n)) (usedWeights x.weights) 0 n := by
    simp only [zeroPointEnergy, kernel_eq, hoZpe]
  rw [e7, e6, e5, e1, e2, e3]
  simp only [hce', hTK]
  rw [hF, hz]
  field_simp
  ring

/-- The weights used add up to one. -/
theorem C14_weights (w : Fin nb → ℝ) (hw : totalQPoints w ≠ 0) : ∑ j, usedWeights w j = 1 := by
  simp only [usedWeights, ← Finset.sum_div]
  exact div_self hw

/-- The figures are in the unit the user asked for: multiplied by that unit's size in joule they
are the molar quantities (in kJ) divided by Avogadro's number, at the absolute temperature and
the frequencies in hertz that the input denotes. -/
theorem C14_in_users_units {k : Consts} {s : Settings nt} {x : Input nb nf nv}
    {r : Results nt nv} (h : run k s x = .ok r) {A B C : Scale}
    (hA : Means (energiesShort k) s.eunit A) (hB : Means (frequencies k) s.funit B)
    (hC : Means temperatures s.tunit C) (i : Fin nt) (n : Fin nv) :
    let T := fun i => C.toRef (s.temperature i)
    let ω := fun j m n => B.toRef (x.freq j m n)
    let w := usedWeights x.weights
    A.toRef (r.Uzp 0 n) = 1000 / k.N * zeroPointEnergy k T ω w i n ∧
    A.toRef (r.Uth i n) = 1000 / k.N * thermalEnergy k T ω w i n ∧
    A.toRef (r.Fvib i n) = 1000 / k.N * vibrationalFreeEnergy k T ω w i n ∧
    A.toRef (r.S i n) = 1000 / k.N * entropy k T ω w i n ∧
    A.toRef (r.Cv i n) = 1000 / k.N * isochoricHeatCapacity k T ω w i n := by
  obtain ⟨A', B', C', ce, hA', hB', hC', hce, hA0, e1, e2, e3, e4, e5, e6, e7⟩ := run_ok h
  obtain rfl := energiesShort_unambiguous k _ _ _ hA' hA
  obtain rfl := frequencies_unambiguous k _ _ _ hB' hB
  obtain rfl := temperatures_unambiguous _ _ _ hC' hC
  intro T ω w
  have hz : zeroPointEnergy k T ω w i n = zeroPointEnergy k (fun _ : Fin 1 => 0) ω w 0 n := by
    simp only [zeroPointEnergy, kernel_eq, hoZpe]
  rw [e1, e2, e3, e4, e5, hz]
  simp only [Scale.toRef, hA0, add_zero, hce]
  exact ⟨rfl, rfl, rfl, rfl, rfl⟩

/-- The same crystal described in other units gives the same physical results. -/
theorem C14_unit_independent {k : Consts} {s s' : Settings nt} {x x' : Input nb nf nv}
    {r r' : Results nt nv} (h : run k s x = .ok r) (h' : run k s' x' = .ok r')
    {A A' B B' C C' : Scale}
    (hA : Means (energiesShort k) s.eunit A) (hA' : Means (energiesShort k) s'.eunit A')
    (hB : Means (frequencies k) s.funit B) (hB' : Means (frequencies k) s'.funit B')
    (hC : Means temperatures s.tunit C) (hC' : Means temperatures s'.tunit C')
    (hU : ∀ n, A.toRef (x.U0 n) = A'.toRef (x'.U0 n))
    (hω : ∀ j m n, B.toRef (x.freq j m n) = B'.toRef (x'.freq j m n))
    (hT : ∀ i, C.toRef (s.temperature i) = C'.toRef (s'.temperature i))
    (hw : x.weights = x'.weights) (i : Fin nt) (n : Fin nv) :
    A.toRef (r.Utot i n) = A'.toRef (r'.Utot i n) ∧
    A.toRef (r.F i n) = A'.toRef (r'.F i n) ∧
    A.toRef (r.S i n) = A'.toRef (r'.S i n) ∧
    A.toRef (r.Cv i n) = A'.toRef (r'.Cv i n) := by
  obtain ⟨a1, a2, a3, a4, a5⟩ := C14_in_users_units h hA hB hC i n
  obtain ⟨b1, b2, b3, b4, b5⟩ := C14_in_users_units h' hA' hB' hC' i n
  simp only [← hw, ← hω, ← hT] at b1 b2 b3 b4 b5
  have z : ∀ A ∈ energiesShort k, A.offset = 0 := by simp [energiesShort]
  have za := z A hA.1
  have za' := z A' hA'.1
  obtain ⟨_, _, _, _, _, _, _, _, _, _, _, _, _, _, u1, f1⟩ := run_ok h
  obtain ⟨_, _, _, _, _, _, _, _, _, _, _, _, _, _, u2, f2⟩ := run_ok h'
  have hU := hU n
  refine ⟨?_, ?_, a4.trans b4.symm, a5.trans b5.symm⟩
  · rw [u1, u2]
    have p := a1.trans b1.symm
    have q := a2.trans b2.symm
    simp only [Scale.toRef, za, za', add_zero] at hU p q ⊢
    linear_combination hU + p + q
  · rw [f1, f2]
    have q := a3.trans b3.symm
    simp only [Scale.toRef, za, za', add_zero] at hU q ⊢
    linear_combination hU + q

/-- Every combination of units that `quantas ha` offers is accepted. -/
theorem C14_selectable_units (k : Consts) (x : Input nb nf nv) (T : Fin nt → ℝ) {e f t : Str}
    (he : e ∈ [c!"Ha", c!"eV", c!"Ry"]) (hf : f ∈ [c!"cm^-1", c!"THz", c!"Hz"])
    (ht : t ∈ [c!"K", c!"C"]) : ∃ r, run k ⟨e, f, t, T⟩ x = .ok r := by
  have h1 : ∃ g, temperatureMap t c!"K" = .ok g := by
    simp only [List.mem_cons, List.not_mem_nil, or_false] at ht
    rcases ht with rfl | rfl <;>
      simp [temperatureMap, tempToKelvin, tempFromKelvin, lower, bind, Except.bind, pure,
        Except.pure]
  have h2 : ∃ g, frequencyMap k f c!"Hz" = .ok g := by
    simp only [List.mem_cons, List.not_mem_nil, or_false] at hf
    rcases hf with rfl | rfl | rfl <;>
      simp [frequencyMap, freqToCm, freqFromCm, lower, bind, Except.bind, pure,
        Except.pure]
  have h3 : ∃ g, energyMap k c!"kjmol" e = .ok g := by
    simp only [List.mem_cons, List.not_mem_nil, or_false] at he
    rcases he with rfl | rfl | rfl <;>
      simp [energyMap, energyToHartree, energyFromHartree, lower, bind, Except.bind, pure,
        Except.pure]
  obtain ⟨g1, h1⟩ := h1
  obtain ⟨g2, h2⟩ := h2
  obtain ⟨g3, h3⟩ := h3
  simp [run, h1, h2, h3, bind, Except.bind, pure, Except.pure]

/-- Witness: a run in eV, THz and degrees Celsius succeeds and its weights are usable. -/
example : (∃ r : Results 1 1, run codata ⟨c!"eV", c!"THz", c!"C", fun _ => 25⟩
    (⟨fun _ => -3, fun j m _ => 2 + j + m, ![1, 3]⟩ : Input 2 3 1) = .ok r) ∧
    totalQPoints (![1, 3] : Fin 2 → ℝ) ≠ 0 ∧
    convertTemperature [25] c!"C" c!"K" = .ok [298.15] := by
  refine ⟨C14_selectable_units _ _ _ (by simp) (by simp) (by simp), ?_, ?_⟩
  · simp [totalQPoints, Fin.sum_univ_two]; norm_num
  · refine (C01_faithful.ok_iff _ _ _ _).2 ⟨⟨[c!"celsius", c!"°c", c!"c"], 1, 273.15⟩,
      ⟨[c!"kelvin", c!"k"], 1, 0⟩, ?_, means_K, ?_⟩
    · constructor <;> simp [temperatures, lower]
    · simp [Scale.toRef]; norm_num

end Verif.HA
