/-
Property C18 in the arithmetic of the computer: the local fine grid (/repo/quantas/qha/qha.py:936-959, 571-572, 841-842) with every
operation rounded to binary64.
-/
import Verif.Grid.Float
import Verif.Grid.Model

namespace Verif.Grid.Binary
open Verif.Grid (intArange)

/-! ### The code -/

/-- `fine_grid` (qha.py:936-959): `separation` is a decimal of the source, rounded when it is read. -/
def fineGrid64 (npoints : ℕ) (separation : ℚ) : List ℚ × ℕ :=
  let spacing := rnd (rnd separation / 100)
  let maximum : ℤ := -(((npoints / 2 : ℕ) : ℤ) - npoints)
  let minimum : ℤ := maximum - npoints
  let expansion := (intArange minimum maximum).map fun (m : ℤ) => rnd ((m : ℚ) * spacing)
  let index := expansion.length / 2
  (expansion, index)

/-- The volumes built from it (qha.py:571-572, 841-842): `volume + volume * grid`. -/
def volumeGrid64 (volume : ℚ) (grid : List ℚ) : List ℚ := grid.map fun g => rnd (volume + rnd (volume * g))

/-! ### Lemmas -/

theorem abs_rnd {a A c : ℚ} (hc0 : 0 ≤ c) (hc : c ≤ 10) (h : |a - A| ≤ c * u * |A|) :
    |rnd a - A| ≤ (c + 1 + 1 / 1000) * u * |A| := by
  have h1 := rnd_err a
  have h2 : |a| ≤ |A| + c * u * |A| := by
    have := abs_sub_abs_le_abs_sub a A
    linarith
  have h3 : |rnd a - A| ≤ |rnd a - a| + |a - A| := by
    have := abs_add_le (rnd a - a) (a - A)
    simpa using this
  have hu := u_pos
  have hu2 := u_small
  have h4 : u * |a| ≤ u * (|A| + c * u * |A|) := mul_le_mul_of_nonneg_left h2 hu.le
  have h5 : c * u ≤ 1 / 1000 := by nlinarith
  have h6 : c * u * (u * |A|) ≤ 1 / 1000 * (u * |A|) := mul_le_mul_of_nonneg_right h5 (by positivity)
  linarith

theorem abs_scale {a A c : ℚ} (m : ℚ) (h : |a - A| ≤ c * u * |A|) : |m * a - m * A| ≤ c * u * |m * A| := by
  rw [← mul_sub, abs_mul, abs_mul]
  calc |m| * |a - A| ≤ |m| * (c * u * |A|) := mul_le_mul_of_nonneg_left h (abs_nonneg _)
    _ = _ := by ring

theorem fineGrid64_eq (n : ℕ) (sep : ℚ) :
    fineGrid64 n sep = ((List.range n).map (fun (i : ℕ) => rnd (((i : ℚ) - (n / 2 : ℕ)) * rnd (rnd sep / 100))), n / 2) := by
  have h : (-((((n / 2 : ℕ) : ℤ)) - (n : ℤ))) - (-((((n / 2 : ℕ) : ℤ)) - (n : ℤ)) - n) = n := by ring
  simp only [fineGrid64, intArange, h, Int.toNat_natCast, List.map_map, List.length_map,
    List.length_range, Prod.mk.injEq, and_true]
  refine List.map_congr_left fun i _ => ?_
  simp only [Function.comp]
  have : ((-(((n / 2 : ℕ) : ℤ) - (n : ℤ)) - n + i : ℤ)) = (i : ℤ) - ((n / 2 : ℕ) : ℤ) := by ring
  rw [this, Int.cast_sub, Int.cast_natCast, Int.cast_natCast]

/-- A node. -/
theorem fine_node {V sep d : ℚ} (hV : 0 < V) (hd : |d * (sep / 100)| ≤ 1 / 2) :
    |rnd (V + rnd (V * rnd (d * rnd (rnd sep / 100)))) - V * (1 + d * (sep / 100))| ≤ 4 / 2 ^ 53 * V := by
  have h1 : |rnd sep - sep| ≤ 1 * u * |sep| := by simpa using rnd_err sep
  have h2 := abs_scale (1 / 100) h1
  have e : ∀ a : ℚ, 1 / 100 * a = a / 100 := fun a => by ring
  rw [e, e] at h2
  have h3 := abs_rnd (by norm_num) (by norm_num) h2
  have h4 := abs_rnd (by norm_num) (by norm_num) (abs_scale d h3)
  have h5 := abs_rnd (by norm_num) (by norm_num) (abs_scale V h4)
  set w := rnd (V * rnd (d * rnd (rnd sep / 100))) with hw
  set t := d * (sep / 100) with ht
  have hu := u_pos
  have hu2 := u_small
  have a1 : |V * t| ≤ V / 2 := by
    rw [abs_mul, abs_of_pos hV]
    have := mul_le_mul_of_nonneg_left hd hV.le
    linarith
  have a2 : |w - V * t| ≤ (4 + 3 / 1000) * u * (V / 2) := by
    refine h5.trans ?_
    calc _ ≤ (1 + 1 + 1 / 1000 + 1 + 1 / 1000 + 1 + 1 / 1000) * u * (V / 2) :=
          mul_le_mul_of_nonneg_left a1 (by positivity)
      _ = _ := by ring
  have a3 := rnd_err (V + w)
  have small : (4 + 3 / 1000) * u * (V / 2) ≤ 1 / 1000 * V := by nlinarith
  have a4 : |V + w| ≤ (3 / 2 + 1 / 1000) * V := by
    have l1 := abs_le.1 a1
    have l2 := abs_le.1 a2
    rw [abs_le]
    constructor <;> linarith [l1.1, l1.2, l2.1, l2.2]
  have a5 : |rnd (V + w) - V * (1 + t)| ≤ |rnd (V + w) - (V + w)| + |w - V * t| := by
    have := abs_add_le (rnd (V + w) - (V + w)) (w - V * t)
    have e : rnd (V + w) - (V + w) + (w - V * t) = rnd (V + w) - V * (1 + t) := by ring
    rwa [e] at this
  have a6 : u * |V + w| ≤ u * ((3 / 2 + 1 / 1000) * V) := mul_le_mul_of_nonneg_left a4 hu.le
  have hu3 : u = 1 / 2 ^ 53 := rfl
  calc _ ≤ _ := a5
    _ ≤ u * ((3 / 2 + 1 / 1000) * V) + (4 + 3 / 1000) * u * (V / 2) := add_le_add (a3.trans a6) a2
    _ = (3 / 2 + 1 / 1000 + (4 + 3 / 1000) / 2) * (1 / 2 ^ 53) * V := by rw [hu3]; ring
    _ ≤ 4 / 2 ^ 53 * V := mul_le_mul_of_nonneg_right (by norm_num) hV.le

/-! ### C18 -/

/-- C18 in binary64: for a positive volume that is a binary64 number and a separation of at least `2^(-40)` percent such that the
grid spans no more than the volume, there are as many volumes as requested, the one at the reported index is the requested volume
exactly, they increase, are positive and each is the exact one up to four units of `2^(-53)` of the volume. -/
theorem C18_binary {n : ℕ} (hn : 1 ≤ n) {V sep : ℚ} (hV : 0 < V) (hVr : rnd V = V) (hsep : 1 / 2 ^ 40 ≤ sep)
    (hspan : n * sep ≤ 100) :
    let volumes := volumeGrid64 V (fineGrid64 n sep).1
    volumes.length = n ∧ volumes[(fineGrid64 n sep).2]? = some V ∧ volumes.Pairwise (· < ·) ∧ (∀ v ∈ volumes, 0 < v) ∧
    ∀ i (h : i < volumes.length), |volumes[i] - V * (1 + ((i : ℚ) - (n / 2 : ℕ)) * (sep / 100))| ≤ 4 / 2 ^ 53 * V := by
  intro volumes
  have hlen : volumes.length = n := by simp [volumes, volumeGrid64, fineGrid64_eq]
  have hget : ∀ i (h : i < volumes.length), volumes[i] =
      rnd (V + rnd (V * rnd (((i : ℚ) - (n / 2 : ℕ)) * rnd (rnd sep / 100)))) := by
    intro i h
    simp [volumes, volumeGrid64, fineGrid64_eq]
  have hsep0 : 0 < sep := lt_of_lt_of_le (by norm_num) hsep
  have hspan' : ∀ i, i < n → |((i : ℚ) - (n / 2 : ℕ)) * (sep / 100)| ≤ 1 / 2 := by
    intro i hi
    have hm : |(i : ℚ) - (n / 2 : ℕ)| ≤ (n : ℚ) / 2 := by
      have h1 : 2 * ((n / 2 : ℕ) : ℚ) ≤ n := by
        have : 2 * (n / 2) ≤ n := by omega
        exact_mod_cast this
      have h2 : (n : ℚ) ≤ 2 * (n / 2 : ℕ) + 1 := by
        have : n ≤ 2 * (n / 2) + 1 := by omega
        exact_mod_cast this
      have h3 : (i : ℚ) + 1 ≤ n := by exact_mod_cast hi
      have h4 : (0 : ℚ) ≤ i := Nat.cast_nonneg i
      rw [abs_le]
      constructor <;> linarith
    rw [abs_mul, abs_of_pos (by positivity : 0 < sep / 100)]
    calc _ ≤ (n : ℚ) / 2 * (sep / 100) := mul_le_mul_of_nonneg_right hm (by positivity)
      _ ≤ 1 / 2 := by linarith
  have near : ∀ i (h : i < volumes.length), |volumes[i] - V * (1 + ((i : ℚ) - (n / 2 : ℕ)) * (sep / 100))| ≤ 4 / 2 ^ 53 * V := by
    intro i h
    rw [hget]
    exact fine_node hV (hspan' i (by omega))
  refine ⟨hlen, ?_, List.pairwise_iff_getElem.2 fun i j hi hj hij => ?_, fun v hv => ?_, near⟩
  · have hi : (fineGrid64 n sep).2 < volumes.length := by
      rw [hlen]
      simp only [fineGrid64_eq]
      omega
    rw [List.getElem?_eq_getElem hi, hget]
    simp only [fineGrid64_eq, sub_self, zero_mul]
    have z : rnd 0 = 0 := by simp [rnd, nearest]
    rw [z, mul_zero, z, add_zero, hVr]
  · have h1 := (abs_le.1 (near i hi)).2
    have h2 := (abs_le.1 (near j hj)).1
    have hij' : (i : ℚ) + 1 ≤ j := by exact_mod_cast hij
    have h3 : V * (sep / 100) ≤ V * (((j : ℚ) - i) * (sep / 100)) :=
      mul_le_mul_of_nonneg_left (le_mul_of_one_le_left (by positivity) (by linarith)) hV.le
    have h4 : 8 / 2 ^ 53 * V < V * (sep / 100) := by
      rw [mul_comm]
      refine mul_lt_mul_of_pos_left ?_ hV
      norm_num at hsep ⊢
      linarith
    linarith
  · obtain ⟨i, hi, rfl⟩ := List.mem_iff_getElem.1 hv
    have h1 := (abs_le.1 (near i hi)).1
    have h2 := (abs_le.1 (hspan' i (by omega))).1
    have h3 : V * (1 / 2) ≤ V * (1 + ((i : ℚ) - (n / 2 : ℕ)) * (sep / 100)) := mul_le_mul_of_nonneg_left (by linarith) hV.le
    norm_num at h1
    linarith

/-- The grid of the program, five volumes 0.05 % apart, around 41.5. -/
example := C18_binary (n := 5) (by decide) (V := 41.5) (sep := 0.05) (by norm_num) (by decide +kernel) (by norm_num) (by norm_num)

end Verif.Grid.Binary
