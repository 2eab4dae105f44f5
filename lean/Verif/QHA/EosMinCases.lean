/-
The theorems of `EosMin` and `EosMinBirch` applied to crystals whose frequencies do not depend on the volume, at 0 and
10 GPa and 0 and 300 K.
-/
import Verif.QHA.EosMinBirch
import Verif.QHA.Rigid

namespace Verif.QHA.EosMinCases
open Verif.Py Verif.Units Verif.HA Verif.QHA Verif.QHA.Spec Verif.StatMech Verif.EoS Verif.EoS.Spec

theorem formName_injective : Function.Injective formName := by
  intro a b h
  cases a <;> cases b <;> first | rfl | (exact absurd h (by decide))

/-- Routines that find a best fit whenever there is one exist. -/
theorem bestFits_exist : ∃ ext : Ext, BestFits ext := by
  classical
  obtain ⟨ext, -⟩ := numerics_exists
  refine ⟨{ ext with eosFit := fun {n} eos V F =>
    if h : ∃ f, formName f = eos ∧ ∃ q, Best f V F q then
      let q := Classical.choose (Classical.choose_spec h).2
      ![q.E0, q.K0, q.Kp, q.V0]
    else 0 }, ?_⟩
  intro f n V E hq
  have h : ∃ g, formName g = formName f ∧ ∃ q, Best g V E q := ⟨f, rfl, hq⟩
  have hb := Classical.choose_spec (Classical.choose_spec h).2
  have hg : Classical.choose h = f := formName_injective (Classical.choose_spec h).1
  simp only [fitted, dif_pos h]
  generalize Classical.choose (Classical.choose_spec h).2 = q at hb
  rw [hg] at hb
  exact hb

noncomputable def ext : Ext := Classical.choose bestFits_exist
theorem best : BestFits ext := Classical.choose_spec bestFits_exist

/-- 0 and 300 K, 0 and 10 GPa. -/
noncomputable def settings (f : EForm) : Settings 2 2 :=
  { scheme := .td, minimization := .eos, eos := formName f, edeg := 3, fdeg := 3,
    eunit := c!"Ha", vunit := c!"A", funit := c!"cm^-1", tunit := c!"K", punit := c!"GPa",
    kieffer := false, temperature := ![0, 300], pressure := ![0, 10] }

theorem units (f : EForm) : exUnits.Of (settings f) := ⟨rfl, rfl, rfl, rfl, rfl⟩

variable (k : Consts) (f : EForm) (q : EPars)

/-- A crystal with static energies on a curve, at volumes `V`. -/
noncomputable def crystal {n : ℕ} (V : Fin n → ℝ) : Input 1 1 n :=
  { U0 := fun m => energy f q.E0 q.K0 q.Kp q.V0 (V m), freq := fun _ _ _ => 100, weights := fun _ => 1, volume := V }

noncomputable def ha {n : ℕ} (V : Fin n → ℝ) : HA.Results 2 n := Classical.choose (harmonic_exists k (units f) (crystal f q V))

theorem hha {n : ℕ} (V : Fin n → ℝ) : HA.run k (harmonicSettings (settings f)) (crystal f q V).toInput = .ok (ha k f q V) :=
  Classical.choose_spec (harmonic_exists k (units f) (crystal f q V))

noncomputable def r {n : ℕ} (V : Fin n → ℝ) : Results 2 2 :=
  Classical.choose (eos_runs (k := k) (ext := ext) (x := crystal f q V) (units f) rfl rfl)

theorem hr {n : ℕ} (V : Fin n → ℝ) : run k ext (settings f) (crystal f q V) = .ok (r k f q V) :=
  Classical.choose_spec (eos_runs (k := k) (ext := ext) (x := crystal f q V) (units f) rfl rfl)

theorem energy_shift (f : EForm) (E0 K0 Kp V0 V c : ℝ) : energy f E0 K0 Kp V0 V + c = energy f (E0 + c) K0 Kp V0 V := by
  cases f <;> simp only [energy] <;> ring

/-- The free energies lie on the same curve, moved by the vibrational energy. -/
theorem free {n : ℕ} (V : Fin n → ℝ) (i : Fin 2) : ∃ c, ∀ m,
    (ha k f q V).F i m = energy f (q.E0 + c) q.K0 q.Kp q.V0 (V m) := by
  obtain ⟨c, hc⟩ := rigid_free (units f) (fun _ _ _ _ => rfl) (hha k f q V) i
  exact ⟨c, fun m => by rw [hc]; exact energy_shift f _ _ _ _ _ _⟩

/-- Five volumes, 17 to 21 cubed ångström. -/
noncomputable def five (n : Fin 5) : ℝ := n.val + 17

theorem five_injective : Function.Injective five := fun a b h => by
  simp only [five, add_left_inj, Nat.cast_inj] at h
  exact Fin.ext h

theorem five_pos (n : Fin 5) : 0 < five n := by simp only [five]; positivity

/-- A solid with `K0` = 0.04 hartree per cubed ångström (about 170 GPa). -/
noncomputable def solid : EPars := ⟨-270, 1 / 25, 4.2, 19⟩

theorem solid_solid : Solid f solid := by
  refine ⟨by norm_num [solid], by norm_num [solid], ?_⟩
  cases f <;> norm_num [ERegular, solid]

theorem moved (c : ℝ) : Solid f { solid with E0 := solid.E0 + c } := solid_solid f

theorem five_enough : enough f ≤ 5 := by cases f <;> decide

/-- At zero pressure, for every formulation and temperature. -/
example (i : Fin 2) : (r k f solid five).VT i 0 = 19 ∧
    (r k f solid five).KT i 0 * 10 ^ 9 = 1 / 25 * k.Ha / k.Angstrom ^ 3 ∧ (r k f solid five).Kp i 0 = 4.2 := by
  obtain ⟨c, hc⟩ := free k f solid five i
  exact C150_zero_pressure best (units f) rfl rfl (hr k f solid five) (hha k f solid five) i 0 rfl (moved f c)
    (five_enough f) five_injective five_pos hc

/-- A best fit exists, so the reported volume is an equilibrium. -/
example (i : Fin 2) := C150_equilibrium best (units f) rfl rfl (hr k f solid five) (hha k f solid five) i 0 (by
  obtain ⟨c, hc⟩ := free k f solid five i
  refine ⟨_, (C104_recovered f (moved f c) (five_enough f) five_injective five_pos (fun n => ?_) _).2 rfl⟩
  show loaded k exUnits (settings f) (crystal f solid five) ((ha k f solid five).F i) 0 n = _
  rw [loaded, hc, show (settings f).pressure 0 = 0 from rfl]
  simp)

/-- At 10 GPa, for the Murnaghan formulation: `K = K0 + 4.2 · 10 GPa`. -/
example (i : Fin 2) (j : Fin 2) : (r k .murnaghan solid five).KT i j * 10 ^ 9 =
    1 / 25 * k.Ha / k.Angstrom ^ 3 + 4.2 * ((![0, 10] : Fin 2 → ℝ) j * 10 ^ 9) := by
  obtain ⟨c, hc⟩ := free k .murnaghan solid five i
  refine (C150_murnaghan best (units .murnaghan) rfl rfl (hr k .murnaghan solid five) (hha k .murnaghan solid five) i j
    (moved .murnaghan c) (by decide) five_injective five_pos hc ?_).2.2.2.1
  have h1 : 0 < solid.K0 * exUnits.e.joule k / exUnits.v.m3 k :=
    div_pos (mul_pos (solid_solid .murnaghan).1 (joule_pos k _)) (m3_pos k _)
  have h2 : 0 ≤ solid.Kp * ((settings .murnaghan).pressure j * exUnits.p.pascal) := by
    have : 0 ≤ (settings .murnaghan).pressure j := by fin_cases j <;> norm_num [settings]
    have := mul_nonneg this (pascal_pos exUnits.p).le
    refine mul_nonneg ?_ this
    norm_num [solid]
  exact add_pos_of_pos_of_nonneg h1 h2

/-- The Birch–Murnaghan example at 10 GPa: volumes about 10 cubed ångström. -/
noncomputable def birch : EPars := exBirch 0 (10 * 10 ^ 9 * exUnits.v.m3 k / exUnits.e.joule k) 10

example (i : Fin 2) : (r k .birchMurnaghan (birch k) (exVolumes 10)).VT i 1 = 10 ∧ ∃ c,
    pressureOf k exUnits (fun V => energy .birchMurnaghan ((birch k).E0 + c) (birch k).K0 (birch k).Kp (birch k).V0 V *
      exUnits.e.joule k) 10 ≠ 10 * 10 ^ 9 := by
  obtain ⟨c, hc⟩ := free k .birchMurnaghan (birch k) (exVolumes 10) i
  have h := C150_birch_murnaghan_violated (e := c) (w := 10) (q := { birch k with E0 := (birch k).E0 + c }) best
    (units .birchMurnaghan) rfl rfl (hr k .birchMurnaghan (birch k) (exVolumes 10))
    (hha k .birchMurnaghan (birch k) (exVolumes 10)) i 1 (by norm_num [settings]) (by norm_num) rfl (by
      simp only [birch, exBirch, settings, Matrix.cons_val_one, Matrix.cons_val_zero, exUnits, PressureUnit.pascal]
      ext <;> simp <;> ring) hc
  obtain ⟨-, h1, -, h3⟩ := h
  refine ⟨h1, c, ?_⟩
  rw [h1] at h3
  exact h3

end Verif.QHA.EosMinCases
