/-
Proof work: the oscillator functions of the code are Planck's, and the sums over q-points and bands are means.
-/
import Verif.Chain.PhononSpec

noncomputable section

namespace Verif.Chain
open Verif.Py Verif.Units Verif.StatMech

/-! ### One oscillator -/

theorem planck_zero (k : Consts) (T : ℝ) {ν : ℝ} (h : 0 < ν) :
    1000 / k.N * hoZpe k T ν = Spec.zeroPoint k ν := by
  have := k.N_pos.ne'
  rw [hoZpe_pos k T h, Spec.zeroPoint]
  field_simp
  ring

theorem planck_thermal (k : Consts) {T ν : ℝ} (hT : T ≠ 0) (h : 0 < ν) :
    1000 / k.N * hoEth k T ν = Spec.thermal k T ν := by
  have h1 := k.N_pos.ne'
  have h2 := k.kB_pos.ne'
  rw [hoEth_pos k hT h, Spec.thermal, Spec.quanta, x_eq]
  have : k.h * ν = k.kB * einstein k ν := by rw [einstein]; field_simp
  rw [this]
  field_simp

theorem partition_sum {x : ℝ} (hx : 0 < x) :
    Real.log (∑' n : ℕ, Real.exp (-((n + 1 / 2) * x))) = -(x / 2) - Real.log (1 - Real.exp (-x)) := by
  have e : ∀ n : ℕ, Real.exp (-((n + 1 / 2) * x)) = Real.exp (-(x / 2)) * Real.exp (-x) ^ n := by
    intro n
    rw [← Real.exp_nat_mul, ← Real.exp_add]
    congr 1
    ring
  simp only [e]
  have h1 : Real.exp (-x) < 1 := by have := one_sub_exp_neg_pos hx; linarith
  rw [tsum_mul_left, tsum_geometric_of_lt_one (Real.exp_pos _).le h1,
    Real.log_mul (Real.exp_pos _).ne' (inv_ne_zero (one_sub_exp_neg_pos hx).ne'), Real.log_exp, Real.log_inv]
  ring

theorem planck_free (k : Consts) {T ν : ℝ} (hT : 0 < T) (h : 0 < ν) :
    1000 / k.N * hoF k T ν = Spec.free k T ν := by
  have h1 := k.N_pos.ne'
  have h2 := k.kB_pos.ne'
  have hx : 0 < einstein k ν / T := div_pos (einstein_pos k h) hT
  have e : ∀ n : ℕ, ((n : ℝ) + 1 / 2) * (k.h * ν) / (k.kB * T) = (n + 1 / 2) * (einstein k ν / T) := by
    intro n; rw [mul_div_assoc, x_eq]
  rw [hoF_pos k hT.ne' h, Spec.free]
  simp only [e]
  rw [partition_sum hx]
  have := hT.ne'
  field_simp
  ring

theorem planck_entropy (k : Consts) {T ν : ℝ} (hT : 0 < T) (h : 0 < ν) :
    1000 / k.N * hoS k T ν / 1000 = Spec.entropyOf k T ν := by
  have h1 := k.N_pos.ne'
  have := hT.ne'
  rw [Spec.entropyOf, ← planck_zero k T h, ← planck_thermal k hT.ne' h, ← planck_free k hT h, hoF_eq k T ν]
  field_simp
  ring

theorem planck_heat (k : Consts) {T ν : ℝ} (hT : 0 < T) (h : 0 < ν) :
    1000 / k.N * hoCv k T ν / 1000 = Spec.heatCapacity k T ν := by
  have h1 := ((hasDerivAt_hoEth k hT ν).const_mul (1000 / k.N))
  have h2 : HasDerivAt (fun t => Spec.thermal k t ν) (1000 / k.N * (hoCv k T ν / 1000)) T :=
    h1.congr_of_eventuallyEq ((eventually_ne_zero hT).mono fun t ht => (planck_thermal k ht h).symm)
  rw [Spec.heatCapacity, h2.deriv]
  ring

/-! ### Sums -/

theorem sum_fin {α : Type} {L : List α} {n : ℕ} (hn : L.length = n) {H : α → ℝ} {G : Fin n → ℝ}
    (hG : ∀ (i : Fin n) a, L[(i : ℕ)]? = some a → G i = H a) : ∑ i, G i = (L.map H).sum := by
  subst hn
  rw [← List.sum_ofFn]
  congr 1
  refine List.ext_getElem (by simp) fun i h1 h2 => ?_
  simp only [List.length_ofFn] at h1
  simp only [List.getElem_ofFn, List.getElem_map]
  exact hG ⟨i, h1⟩ _ (List.getElem?_eq_getElem h1)

theorem sum_positive (g : ℚ → ℝ) (h : ∀ ν, ν ≤ 0 → g ν = 0) (L : List ℚ) :
    (L.map g).sum = ((L.filter (0 < ·)).map g).sum := by
  induction L with
  | nil => rfl
  | cons x L ih =>
    by_cases hx : 0 < x
    · simp [hx, ih]
    · simp [hx, ih, h x (not_lt.1 hx)]

/-- A sum over q-points and bands with the weights of the code is the mean over the points. -/
theorem sum_mean {nb nf : ℕ} {points : List (ℚ × List ℚ)} (hb : points.length = nb)
    (hf : ∀ p ∈ points, p.2.length = nf) {g : ℝ → ℝ} {f : ℝ → ℝ} {unit c : ℝ} (hu : 0 < unit)
    (h0 : ∀ ω, ω ≤ 0 → g ω = 0) (hg : ∀ ω, 0 < ω → c * g ω = f ω)
    {ω : Fin nb → Fin nf → ℝ} {w : Fin nb → ℝ}
    (hω : ∀ (j : Fin nb) p, points[(j : ℕ)]? = some p → ∀ (m : Fin nf) ν, p.2[(m : ℕ)]? = some ν →
      ω j m = unit * ν)
    (hw : ∀ (j : Fin nb) p, points[(j : ℕ)]? = some p → w j = p.1) :
    c * ∑ j, ∑ m, g (ω j m) * HA.usedWeights w j = Spec.cellMean f unit points := by
  have ht : HA.totalQPoints w = (points.map fun p => (p.1 : ℝ)).sum := sum_fin hb hw
  have hs : ∑ j, w j * ∑ m, c * g (ω j m) =
      (points.map fun p => (p.1 : ℝ) * ((p.2.filter (0 < ·)).map fun ν : ℚ => f (unit * ν)).sum).sum := by
    refine sum_fin hb fun j p hp => ?_
    rw [hw j p hp]
    congr 1
    rw [sum_fin (hf p (List.mem_of_getElem? hp)) (H := fun ν : ℚ => c * g (unit * ν))
      (fun m ν hν => by rw [hω j p hp m ν hν]), sum_positive]
    · congr 1
      refine List.map_congr_left fun ν hν => ?_
      have hpos : 0 < ν := by simpa using (List.mem_filter.1 hν).2
      exact hg _ (mul_pos hu (by exact_mod_cast hpos))
    · intro ν hν
      rw [h0 _ (mul_nonpos_of_nonneg_of_nonpos hu.le (by exact_mod_cast hν)), mul_zero]
  rw [Spec.cellMean, ← hs, ← ht, Finset.mul_sum, Finset.sum_div]
  refine Finset.sum_congr rfl fun j _ => ?_
  rw [HA.usedWeights, Finset.mul_sum, Finset.mul_sum, Finset.sum_div]
  refine Finset.sum_congr rfl fun m _ => ?_
  ring

end Verif.Chain
