/- What `_finalize_run` and the two schemes compute, once the units are known to be valid. -/
import Verif.QHA.Lemmas
import Verif.Poly.LeastSquares

namespace Verif.QHA
open Verif.Py Verif.Units Verif.HA Verif.QHA.Spec Verif.StatMech

variable {nt np nb nf nv : ℕ}

theorem setPotential_eq {k : Consts} {s : Settings nt np} {u : Choice} (hu : u.Of s) (kernel)
    (V E : Fin nt → Fin np → ℝ) (p : Fin np → ℝ) :
    setPotential k kernel s V p E = .ok fun i j =>
      kernel (fun i j => V i j * u.v.m3 k) (fun j => p j * u.p.pascal)
        (fun i j => E i j * u.e.joule k / (1000 / k.N)) i j * (1000 / k.N) / u.e.joule k := by
  simp only [setPotential, hu.e, hu.v, hu.p, volumeMap_to, pressureMap_to, energyMap_to,
    energyMap_from, bind, Except.bind, pure, Except.pure]

/-- Fields common to both branches. -/
structure Kept (r0 r : Results nt np) : Prop where
  Uzp : r.Uzp = r0.Uzp
  Uth : r.Uth = r0.Uth
  Utot : r.Utot = r0.Utot
  S : r.S = r0.S
  F : r.F = r0.F
  Fvib : r.Fvib = r0.Fvib
  Cv : r.Cv = r0.Cv
  VT : r.VT = r0.VT
  KT : r.KT = r0.KT
  Kp : r.Kp = r0.Kp

theorem finalize_kept {k : Consts} {s : Settings nt np} {u : Choice} (hu : u.Of s)
    (r0 : Results nt np) : ∃ r, finalizeRun k s r0 = .ok r ∧ Kept r0 r ∧
      (∀ i j, r.H i j * u.e.joule k = r0.Utot i j * u.e.joule k +
        (s.pressure j * u.p.pascal) * (r0.VT i j * u.v.m3 k)) ∧
      (∀ i j, r.G i j * u.e.joule k = r0.F i j * u.e.joule k +
        (s.pressure j * u.p.pascal) * (r0.VT i j * u.v.m3 k)) := by
  have hj := (joule_pos k u.e).ne'
  have hN := k.N_pos.ne'
  unfold finalizeRun
  rw [setPotential_eq hu, setPotential_eq hu]
  simp only [bind, Except.bind]
  split
  · refine ⟨_, rfl, ⟨rfl, rfl, rfl, rfl, rfl, rfl, rfl, rfl, rfl, rfl⟩, fun i j => ?_, fun i j => ?_⟩
    · simp only [enthalpy]; field_simp
    · simp only [gibbs]; field_simp
  · simp only [hu.e, hu.v, hu.p, hu.t, volumeMap_to, pressureMap_to, energyMap_to,
      energyMap_from, temperatureMap_to, pressureMap_from, pure, Except.pure]
    refine ⟨_, rfl, ⟨rfl, rfl, rfl, rfl, rfl, rfl, rfl, rfl, rfl, rfl⟩, fun i j => ?_, fun i j => ?_⟩
    · simp only [enthalpy]; field_simp
    · simp only [gibbs]; field_simp

theorem finalize_short {k : Consts} {s : Settings nt np} {u : Choice} (hu : u.Of s)
    {r0 r : Results nt np} (hn : nt < 50) (h : finalizeRun k s r0 = .ok r) :
    r.alphaV = (fun _ _ => 0) ∧ r.CpmCv = (fun _ _ => 0) ∧ r.Cp = (fun _ _ => 0) ∧
      r.gruneisen = (fun _ _ => 0) ∧ r.KS = r0.KT := by
  unfold finalizeRun at h
  rw [setPotential_eq hu, setPotential_eq hu] at h
  simp only [bind, Except.bind, if_pos hn, pure, Except.pure, Except.ok.injEq] at h
  subst h
  exact ⟨rfl, rfl, rfl, rfl, rfl⟩

theorem finalize_long {k : Consts} {s : Settings nt np} {u : Choice} (hu : u.Of s)
    {r0 r : Results nt np} (hn : 50 ≤ nt) (h : finalizeRun k s r0 = .ok r) :
    let T := fun i => u.t.kelvin (s.temperature i)
    (∀ i j, r.alphaV i j = alphaColumn T (fun i => r0.VT i j) i) ∧
    (∀ i j, r.CpmCv i j * u.e.joule k = r.alphaV i j ^ 2 * (r0.KT i j * u.p.pascal) *
      (r0.VT i j * u.v.m3 k) * T i * 1000) ∧
    (∀ i j, r.Cp i j = r0.Cv i j + r.CpmCv i j) ∧
    (∀ i j, T i = 0 ∨ r0.Cv i j = 0 → r.KS i j = r0.KT i j) ∧
    (∀ i j, T i ≠ 0 → r0.Cv i j ≠ 0 → (r.KS i j - r0.KT i j) * u.p.pascal =
      r.alphaV i j ^ 2 * (r0.KT i j * u.p.pascal) ^ 2 * (r0.VT i j * u.v.m3 k) * T i * 1000 /
        (r0.Cv i j * u.e.joule k)) ∧
    (∀ i j, r0.Cv i j = 0 → r.gruneisen i j = 0) ∧
    (∀ i j, r0.Cv i j ≠ 0 → r.gruneisen i j =
      r.alphaV i j * (r0.KT i j * u.p.pascal) * (r0.VT i j * u.v.m3 k) * 1000 /
        (r0.Cv i j * u.e.joule k)) := by
  have hj := (joule_pos k u.e).ne'
  have hN := k.N_pos.ne'
  have hp := (pascal_pos u.p).ne'
  unfold finalizeRun at h
  rw [setPotential_eq hu, setPotential_eq hu] at h
  simp only [bind, Except.bind, if_neg (by omega : ¬ nt < 50), pure, Except.pure, hu.e, hu.v, hu.p,
    hu.t, volumeMap_to, pressureMap_to, energyMap_to, energyMap_from, temperatureMap_to,
    pressureMap_from, Except.ok.injEq] at h
  subst h
  intro T
  have hz : ∀ x : ℝ, x * u.e.joule k / (1000 / k.N) = 0 ↔ x = 0 := fun x => by
    rw [div_eq_zero_iff, mul_eq_zero]
    have : (1000 / k.N : ℝ) ≠ 0 := by positivity
    tauto
  refine ⟨fun _ _ => rfl, fun i j => ?_, fun _ _ => rfl, fun i j h0 => ?_, fun i j h1 h2 => ?_,
    fun i j h0 => ?_, fun i j h0 => ?_⟩
  · simp only [tmat_eq]; field_simp; rfl
  · have : T i = 0 ∨ r0.Cv i j * u.e.joule k / (1000 / k.N) = 0 := h0.imp_right (hz _).2
    simp only [adiabaticBulkModulus]
    rw [if_pos this]
    field_simp
  · have : ¬ (T i = 0 ∨ r0.Cv i j * u.e.joule k / (1000 / k.N) = 0) := by
      rw [hz]; tauto
    simp only [adiabaticBulkModulus]
    rw [if_neg this]
    field_simp
    ring_nf
    rfl
  · simp only [gruneisenParameter]
    rw [if_pos ((hz _).2 h0)]
  · simp only [gruneisenParameter]
    rw [if_neg (fun h => h0 ((hz _).1 h))]
    field_simp

end Verif.QHA
