/-
C152: unit conversions keep the order of the values in the arithmetic of the computer.
-/
import Verif.StatMech.RoundMono
import Verif.Units.BinaryProps

noncomputable section

namespace Verif.Units.Rounded
open Verif.Py Verif.Units Verif.Units.Spec
open Spec (u Accurate Within)

variable {m : Machine}

theorem rnd_nonneg (hm : Accurate m) {x : ℝ} (hx : 0 ≤ x) : 0 ≤ m.rnd x := by
  have h := hm.rnd x
  rw [abs_of_nonneg hx] at h
  have hu : u ≤ 1 := by norm_num [u]
  have := (abs_le.1 h).1
  nlinarith

theorem pow_nonneg' (hm : Accurate m) {x : ℝ} (hx : 0 ≤ x) (n : ℕ) : 0 ≤ m.pow x n := by
  have h := hm.pow x n
  have hp := pow_nonneg hx n
  rw [abs_of_nonneg hp] at h
  have hu : 2 * u ≤ 1 := by norm_num [u]
  have := (abs_le.1 h).1
  nlinarith

/-- A chain of branches whose functions are all monotone. -/
def AllMono (f : Str → Except PyErr (ℝ → ℝ)) : Prop := ∀ s g, f s = .ok g → Monotone g

theorem AllMono.ite {s : Str} {p : Str → Prop} [DecidablePred p] {g : ℝ → ℝ} {r : Except PyErr (ℝ → ℝ)} (hg : Monotone g)
    (hr : ∀ g, r = .ok g → Monotone g) : ∀ g', (if p s then .ok g else r) = .ok g' → Monotone g' := by
  intro g' h
  split at h
  · cases h
    exact hg
  · exact hr g' h

theorem convert_mono {f g : Str → Except PyErr (ℝ → ℝ)} (hf : AllMono f) (hg : AllMono g) {v w : List ℝ} {a b : Str}
    (h : convert f g v a b = .ok w) : ∃ F : ℝ → ℝ, Monotone F ∧ w = v.map F := by
  unfold convert at h
  cases hf' : f a with
  | error e => rw [hf'] at h; cases h
  | ok F =>
    rw [hf'] at h
    cases hg' : g b with
    | error e => rw [hg'] at h; cases h
    | ok G =>
      rw [hg'] at h
      have e : ((v.map F).map G) = w := by injection h
      refine ⟨G ∘ F, (hg _ _ hg').comp (hf _ _ hf'), ?_⟩
      rw [← e, List.map_map]

theorem mul_mono (hr : Monotone m.rnd) {c : ℝ} (hc : 0 ≤ c) : Monotone fun v => m.rnd (v * c) :=
  fun _ _ h => hr (mul_le_mul_of_nonneg_right h hc)

theorem mul_mono' (hr : Monotone m.rnd) {c : ℝ} (hc : 0 ≤ c) : Monotone fun v => m.rnd (c * v) :=
  fun _ _ h => hr (mul_le_mul_of_nonneg_left h hc)

theorem div_mono (hr : Monotone m.rnd) {c : ℝ} (hc : 0 ≤ c) : Monotone fun v => m.rnd (v / c) :=
  fun _ _ h => hr (div_le_div_of_nonneg_right h hc)

theorem add_mono (hr : Monotone m.rnd) (c : ℝ) : Monotone fun v => m.rnd (v + c) := fun _ _ h => hr (by linarith)

theorem sub_mono (hr : Monotone m.rnd) (c : ℝ) : Monotone fun v => m.rnd (v - c) := fun _ _ h => hr (by linarith)

theorem tempTo_mono (hr : Monotone m.rnd) : AllMono (tempToKelvin m) := by
  intro s
  unfold tempToKelvin
  refine AllMono.ite (p := fun s => lower s ∈ _) (add_mono hr _) (AllMono.ite (p := fun s => lower s ∈ _) monotone_id
    (AllMono.ite (p := fun s => lower s ∈ _) ?_ (AllMono.ite (p := fun s => lower s ∈ _) ?_ (by simp))))
  · exact (add_mono hr _).comp ((div_mono hr (by norm_num)).comp ((mul_mono hr (by norm_num)).comp (sub_mono hr _)))
  · exact (div_mono hr (by norm_num)).comp (mul_mono hr (by norm_num))

theorem tempFrom_mono (hr : Monotone m.rnd) : AllMono (tempFromKelvin m) := by
  intro s
  unfold tempFromKelvin
  refine AllMono.ite (p := fun s => lower s ∈ _) (sub_mono hr _) (AllMono.ite (p := fun s => lower s ∈ _) monotone_id
    (AllMono.ite (p := fun s => lower s ∈ _) ?_ (AllMono.ite (p := fun s => lower s ∈ _) ?_ (by simp))))
  · exact (add_mono hr _).comp ((div_mono hr (by norm_num)).comp ((mul_mono hr (by norm_num)).comp (sub_mono hr _)))
  · exact (div_mono hr (by norm_num)).comp (mul_mono hr (by norm_num))

theorem energyTo_mono (hm : Accurate m) (hr : Monotone m.rnd) (k : Consts) : AllMono (energyToHartree m k) := by
  have := k.eV_pos.le; have := k.Ha_pos.le; have := k.Ry_pos.le; have := k.N_pos.le
  have r := fun x => rnd_nonneg hm (x := x)
  intro s
  unfold energyToHartree
  refine AllMono.ite (p := fun s => lower s ∈ _) monotone_id (AllMono.ite (p := fun s => lower s ∈ _) (mul_mono hr (r _ (by positivity)))
    (AllMono.ite (p := fun s => lower s ∈ _) (mul_mono hr (r _ (by positivity)))
      (AllMono.ite (p := fun s => lower s ∈ _) (mul_mono hr (r _ ?_)) (by simp))))
  exact div_nonneg (r _ (by positivity)) (by positivity)

theorem energyFrom_mono (hm : Accurate m) (hr : Monotone m.rnd) (k : Consts) : AllMono (energyFromHartree m k) := by
  have := k.eV_pos.le; have := k.Ha_pos.le; have := k.Ry_pos.le; have := k.N_pos.le
  have r := fun x => rnd_nonneg hm (x := x)
  intro s
  unfold energyFromHartree
  refine AllMono.ite (p := fun s => lower s ∈ _) monotone_id (AllMono.ite (p := fun s => lower s ∈ _) (mul_mono hr (r _ (by positivity)))
    (AllMono.ite (p := fun s => lower s ∈ _) (mul_mono hr (r _ (by positivity)))
      (AllMono.ite (p := fun s => lower s ∈ _) (mul_mono hr (r _ ?_)) (by simp))))
  exact div_nonneg (r _ (by positivity)) (by norm_num)

theorem pressureTo_mono (hm : Accurate m) (hr : Monotone m.rnd) : AllMono (pressureToPa m) := by
  have r := fun n => mul_mono hr (pow_nonneg' hm (x := 10) (by norm_num) n)
  intro s
  unfold pressureToPa
  refine AllMono.ite (p := fun s => lower s ∈ _) (r 9) (AllMono.ite (p := fun s => lower s ∈ _) (r 6)
    (AllMono.ite (p := fun s => lower s ∈ _) (r 3) (AllMono.ite (p := fun s => lower s ∈ _) monotone_id
      (AllMono.ite (p := fun s => lower s ∈ _) (r 14) (AllMono.ite (p := fun s => lower s ∈ _) (r 11)
        (AllMono.ite (p := fun s => lower s ∈ _) (r 8) (AllMono.ite (p := fun s => lower s ∈ _) (r 5) (by simp))))))))

theorem pressureFrom_mono (hm : Accurate m) (hr : Monotone m.rnd) : AllMono (pressureFromPa m) := by
  have r := fun n => div_mono hr (pow_nonneg' hm (x := 10) (by norm_num) n)
  intro s
  unfold pressureFromPa
  refine AllMono.ite (p := fun s => lower s ∈ _) (r 9) (AllMono.ite (p := fun s => lower s ∈ _) (r 6)
    (AllMono.ite (p := fun s => lower s ∈ _) (r 3) (AllMono.ite (p := fun s => lower s ∈ _) monotone_id
      (AllMono.ite (p := fun s => lower s ∈ _) (r 14) (AllMono.ite (p := fun s => lower s ∈ _) (r 11)
        (AllMono.ite (p := fun s => lower s ∈ _) (r 8) (AllMono.ite (p := fun s => lower s ∈ _) (r 5) (by simp))))))))

theorem freqTo_mono (hm : Accurate m) (hr : Monotone m.rnd) (k : Consts) : AllMono (freqToCm m k) := by
  have := k.c_pos.le
  have d : 0 ≤ m.rnd (k.c * 100) := rnd_nonneg hm (by positivity)
  intro s
  unfold freqToCm
  exact AllMono.ite (p := fun s => lower s ∈ _) monotone_id (AllMono.ite (p := fun s => lower s ∈ _) (div_mono hr d)
    (AllMono.ite (p := fun s => lower s ∈ _) ((div_mono hr d).comp (mul_mono' hr (pow_nonneg' hm (by norm_num) 12))) (by simp)))

theorem freqFrom_mono (hm : Accurate m) (hr : Monotone m.rnd) (k : Consts) : AllMono (freqFromCm m k) := by
  have := k.c_pos.le
  have d : 0 ≤ m.rnd (k.c * 100) := rnd_nonneg hm (by positivity)
  intro s
  unfold freqFromCm
  exact AllMono.ite (p := fun s => lower s ∈ _) monotone_id (AllMono.ite (p := fun s => lower s ∈ _) (mul_mono hr d)
    (AllMono.ite (p := fun s => lower s ∈ _) ((div_mono hr (pow_nonneg' hm (by norm_num) 12)).comp (mul_mono hr d)) (by simp)))

theorem lengthTo_mono (hr : Monotone m.rnd) (k : Consts) : AllMono (lengthToM m k) := by
  intro s
  unfold lengthToM
  exact AllMono.ite (p := fun s => lower s ∈ _) monotone_id (AllMono.ite (p := fun s => lower s ∈ _) (mul_mono hr k.Angstrom_pos.le)
    (AllMono.ite (p := fun s => lower s ∈ _) (mul_mono hr k.Bohr_pos.le) (by simp)))

theorem lengthFrom_mono (hr : Monotone m.rnd) (k : Consts) : AllMono (lengthFromM m k) := by
  intro s
  unfold lengthFromM
  exact AllMono.ite (p := fun s => lower s ∈ _) monotone_id (AllMono.ite (p := fun s => lower s ∈ _) (div_mono hr k.Angstrom_pos.le)
    (AllMono.ite (p := fun s => lower s ∈ _) (div_mono hr k.Bohr_pos.le) (by simp)))

theorem volumeTo_mono (hm : Accurate m) (hr : Monotone m.rnd) (k : Consts) : AllMono (volumeToM3 m k) := by
  intro s
  unfold volumeToM3
  exact AllMono.ite (p := fun s => lower s ∈ _) monotone_id
    (AllMono.ite (p := fun s => lower s ∈ _) (mul_mono hr (pow_nonneg' hm k.Angstrom_pos.le 3))
      (AllMono.ite (p := fun s => lower s ∈ _) (mul_mono hr (pow_nonneg' hm k.Bohr_pos.le 3)) (by simp)))

theorem volumeFrom_mono (hm : Accurate m) (hr : Monotone m.rnd) (k : Consts) : AllMono (volumeFromM3 m k) := by
  intro s
  unfold volumeFromM3
  exact AllMono.ite (p := fun s => lower s ∈ _) monotone_id
    (AllMono.ite (p := fun s => lower s ∈ _) (div_mono hr (pow_nonneg' hm k.Angstrom_pos.le 3))
      (AllMono.ite (p := fun s => lower s ∈ _) (div_mono hr (pow_nonneg' hm k.Bohr_pos.le 3)) (by simp)))

/-- **C152 (order).**  A conversion never reverses the order of two values, and equal values stay equal: if rounding is monotone, as
that of IEEE 754 is (`C152_computer_order`), the results are in the order of the arguments.  Sorted volumes, temperatures and
pressures stay sorted. -/
theorem C152_order (hm : Accurate m) (hr : Monotone m.rnd) (k : Consts) {conv : List ℝ → Str → Str → Except PyErr (List ℝ)}
    (hc : conv ∈ [convertTemperature m, convertEnergy m k, convertPressure m, convertFrequency m k, convertLength m k,
      convertVolume m k]) {v w : List ℝ} {a b : Str} (h : conv v a b = .ok w) :
    w.length = v.length ∧ (∀ (i j : ℕ) (x y x' y' : ℝ), v[i]? = some x → v[j]? = some y → w[i]? = some x' → w[j]? = some y' →
      x ≤ y → x' ≤ y') ∧ (v.Pairwise (· ≤ ·) → w.Pairwise (· ≤ ·)) := by
  have key : ∃ F : ℝ → ℝ, Monotone F ∧ w = v.map F := by
    simp only [List.mem_cons, List.not_mem_nil, or_false] at hc
    rcases hc with rfl | rfl | rfl | rfl | rfl | rfl
    · exact convert_mono (tempTo_mono hr) (tempFrom_mono hr) h
    · exact convert_mono (energyTo_mono hm hr k) (energyFrom_mono hm hr k) h
    · exact convert_mono (pressureTo_mono hm hr) (pressureFrom_mono hm hr) h
    · exact convert_mono (freqTo_mono hm hr k) (freqFrom_mono hm hr k) h
    · exact convert_mono (lengthTo_mono hr k) (lengthFrom_mono hr k) h
    · exact convert_mono (volumeTo_mono hm hr k) (volumeFrom_mono hm hr k) h
  obtain ⟨F, hF, rfl⟩ := key
  refine ⟨by simp, fun i j x y x' y' h1 h2 h3 h4 hxy => ?_, fun hs => ?_⟩
  · rw [List.getElem?_map, h1] at h3
    rw [List.getElem?_map, h2] at h4
    cases h3
    cases h4
    exact hF hxy
  · exact List.Pairwise.map F (fun _ _ h => hF h) hs

/-- **C152 (order on the computer).**  Rounding to the nearest double is monotone. -/
theorem C152_computer_order : Monotone computer.rnd := StatMech.roundBinary_mono

end Verif.Units.Rounded
