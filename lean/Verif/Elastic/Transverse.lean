/-
Property C178: the Poisson's ratios of a stable crystal keep within the bounds that stability sets on them.
-/
import Verif.Elastic.Relations
import Verif.Tac

namespace Verif.Elastic
open Verif.Py Spec

/-- The angles of `x` describe the pair of directions `a`, `b`. -/
def Spec.Describes (x : ℝ × ℝ × ℝ) (a b : V3) : Prop := vector x.1 x.2.1 = a ∧ vectorChi x.1 x.2.1 x.2.2 = b

/-! ### Stresses along three perpendicular directions -/

/-- Stresses `x`, `y` and `z` along three directions, as the six components of the Voigt notation. -/
noncomputable def three (a b c : V3) (x y z : ℝ) : Fin 6 → ℝ := fun I => x * dyad a a I + y * dyad b b I + z * dyad c c I

/-- The component of a stress along a direction. -/
def normalPart (u : Fin 6 → ℝ) (n : V3) : ℝ :=
  u 0 * n 0 ^ 2 + u 1 * n 1 ^ 2 + u 2 * n 2 ^ 2 + 2 * (u 3 * (n 1 * n 2) + u 4 * (n 0 * n 2) + u 5 * (n 0 * n 1))

theorem normalPart_three (a b c n : V3) (x y z : ℝ) :
    normalPart (three a b c x y z) n = x * dot a n ^ 2 + y * dot b n ^ 2 + z * dot c n ^ 2 := by
  simp only [normalPart, three, dyad, dot, Fin.sum_univ_three, Matrix.cons_val]
  ring

theorem dot_comm' (a b : V3) : dot a b = dot b a := by
  simp only [dot, mul_comm]

theorem three_ne_zero {a b c : V3} (h : Triad a b c) {x y z : ℝ} (hz : z ≠ 0) : three a b c x y z ≠ 0 := by
  intro h0
  have := normalPart_three a b c c x y z
  obtain ⟨⟨-, -, -⟩, ⟨-, hc, hbc⟩, ⟨-, -, hac⟩⟩ := h
  rw [h0, hbc, hac, show dot c c = 1 from hc] at this
  apply hz
  simp [normalPart] at this
  exact this.symm

theorem quad_three (S : M6) (hS : S.IsSymm) (a b c : V3) (x y z : ℝ) :
    quad S (three a b c x y z) (three a b c x y z) =
      x ^ 2 * contract4 (sTensor S) a a a a + y ^ 2 * contract4 (sTensor S) b b b b + z ^ 2 * contract4 (sTensor S) c c c c +
      2 * (x * y * contract4 (sTensor S) a a b b + x * z * contract4 (sTensor S) a a c c +
        y * z * contract4 (sTensor S) b b c c) := by
  have e : quad S (three a b c x y z) (three a b c x y z) =
      x ^ 2 * contract4 (sTensor S) a a a a + y ^ 2 * contract4 (sTensor S) b b b b + z ^ 2 * contract4 (sTensor S) c c c c +
      (x * y * contract4 (sTensor S) a a b b + x * z * contract4 (sTensor S) a a c c + y * z * contract4 (sTensor S) b b c c) +
      (x * y * contract4 (sTensor S) b b a a + x * z * contract4 (sTensor S) c c a a +
        y * z * contract4 (sTensor S) c c b b) := by
    simp only [contract4_voigt, quad, three, Finset.mul_sum, ← Finset.sum_add_distrib]
    refine Finset.sum_congr rfl fun I _ => Finset.sum_congr rfl fun J _ => by ring
  rw [e, contract4_symm hS b a, contract4_symm hS c a, contract4_symm hS c b]
  ring

/-- The energies of the three stresses and their couplings form a positive definite matrix. -/
theorem gram {C : M6} (hC : C.PosDef) {a b c : V3} (h : Triad a b c) {p q r u v w : ℝ}
    (hp : contract4 (sTensor C⁻¹) a a a a = p) (hq : contract4 (sTensor C⁻¹) b b b b = q)
    (hr : contract4 (sTensor C⁻¹) c c c c = r) (hu : contract4 (sTensor C⁻¹) a a b b = u)
    (hv : contract4 (sTensor C⁻¹) a a c c = v) (hw : contract4 (sTensor C⁻¹) b b c c = w)
    (x y z : ℝ) (hz : z ≠ 0) :
    0 < x ^ 2 * p + y ^ 2 * q + z ^ 2 * r + 2 * (x * y * u + x * z * v + y * z * w) := by
  have := quad_posDef hC.inv (three_ne_zero h (x := x) (y := y) hz)
  rw [quad_three _ (posDef_symm hC.inv), hp, hq, hr, hu, hv, hw] at this
  exact this

/-- A third direction. -/
theorem third {a b : V3} (h : Orthonormal a b) : ∃ c, Triad c b a := by
  obtain ⟨t, p, c, ha, hb⟩ := C35_complete a b h
  have := vectorChi_triad t p c
  rw [← ha, ← hb] at this
  obtain ⟨⟨h1, h2, h3⟩, ⟨-, h5, h6⟩, ⟨-, -, h9⟩⟩ := this
  exact ⟨_, ⟨h5, h2, by rw [dot_comm']; exact h6⟩, ⟨h2, h1, by rw [dot_comm']; exact h3⟩, ⟨h5, h1, by rw [dot_comm']; exact h9⟩⟩

theorem gram_two {C : M6} (hC : C.PosDef) {a b : V3} (h : Orthonormal a b) :
    contract4 (sTensor C⁻¹) a a b b ^ 2 < contract4 (sTensor C⁻¹) a a a a * contract4 (sTensor C⁻¹) b b b b := by
  obtain ⟨c, hc⟩ := third h
  have hq := young_denominator_pos hC h.2.1
  have := gram hC hc rfl rfl rfl rfl rfl rfl 0 (-contract4 (sTensor C⁻¹) b b a a) (contract4 (sTensor C⁻¹) b b b b) hq.ne'
  rw [contract4_symm (posDef_symm hC.inv) b a] at this
  have h2 : 0 < contract4 (sTensor C⁻¹) b b b b *
      (contract4 (sTensor C⁻¹) a a a a * contract4 (sTensor C⁻¹) b b b b - contract4 (sTensor C⁻¹) a a b b ^ 2) := by
    linarith
  have := (mul_pos_iff_of_pos_left hq).1 h2
  linarith

theorem gram_three {C : M6} (hC : C.PosDef) {a b c : V3} (h : Triad a b c) {p q r u v w : ℝ}
    (hp : contract4 (sTensor C⁻¹) a a a a = p) (hq : contract4 (sTensor C⁻¹) b b b b = q)
    (hr : contract4 (sTensor C⁻¹) c c c c = r) (hu : contract4 (sTensor C⁻¹) a a b b = u)
    (hv : contract4 (sTensor C⁻¹) a a c c = v) (hw : contract4 (sTensor C⁻¹) b b c c = w) :
    0 < p * q * r + 2 * u * v * w - p * w ^ 2 - q * v ^ 2 - r * u ^ 2 := by
  have h2 := gram_two hC h.1
  rw [hp, hq, hu] at h2
  have hz : 0 < p * q - u ^ 2 := by linarith
  have := gram hC h hp hq hr hu hv hw (u * w - v * q) (u * v - p * w) (p * q - u ^ 2) hz.ne'
  have e : (u * w - v * q) ^ 2 * p + (u * v - p * w) ^ 2 * q + (p * q - u ^ 2) ^ 2 * r +
      2 * ((u * w - v * q) * (u * v - p * w) * u + (u * w - v * q) * (p * q - u ^ 2) * v +
        (u * v - p * w) * (p * q - u ^ 2) * w) =
      (p * q - u ^ 2) * (p * q * r + 2 * u * v * w - p * w ^ 2 - q * v ^ 2 - r * u ^ 2) := by
    ring
  rw [e] at this
  exact (mul_pos_iff_of_pos_left hz).1 this

/-! ### C178 -/

/-- C178: in a stable crystal the square of a Poisson's ratio is below the ratio of the Young's moduli along the two
directions, and the product of the two ratios of a pair of directions lies between 0 and 1. -/
theorem C178_pair (C : M6) (hC : C.PosDef) (density : ℝ) (s : Soec) (h : soec C density = .ok s) (a b : V3)
    (x y : ℝ × ℝ × ℝ) (hx : Describes x a b) (hy : Describes y b a) :
    s.poissonRatio x ^ 2 < s.youngModulus (x.1, x.2.1) / s.youngModulus (y.1, y.2.1) ∧
    0 ≤ s.poissonRatio x * s.poissonRatio y ∧ s.poissonRatio x * s.poissonRatio y < 1 := by
  obtain ⟨-, rfl⟩ := soec_ok h
  obtain ⟨rfl, rfl⟩ := hx
  obtain ⟨hy1, hy2⟩ := hy
  have on : Orthonormal (vector x.1 x.2.1) (vectorChi x.1 x.2.1 x.2.2) := C35_orthonormal _ _ _
  have ha := young_denominator_pos hC on.1
  have hb := young_denominator_pos hC on.2.1
  have hg := gram_two hC on
  have hsy := contract4_symm (posDef_symm hC.inv) (vectorChi x.1 x.2.1 x.2.2) (vector x.1 x.2.1)
  show poissonAlong _ _ _ ^ 2 < youngAlong _ _ / youngAlong _ (vector y.1 y.2.1) ∧
    0 ≤ poissonAlong _ _ _ * poissonAlong _ (vector y.1 y.2.1) (vectorChi y.1 y.2.1 y.2.2) ∧
    poissonAlong _ _ _ * poissonAlong _ (vector y.1 y.2.1) (vectorChi y.1 y.2.1 y.2.2) < 1
  rw [hy1, hy2, poissonAlong_eq, poissonAlong_eq, hsy]
  unfold youngAlong
  generalize contract4 (sTensor C⁻¹) (vector x.1 x.2.1) (vector x.1 x.2.1) (vector x.1 x.2.1) (vector x.1 x.2.1) = p at *
  generalize contract4 (sTensor C⁻¹) (vectorChi x.1 x.2.1 x.2.2) (vectorChi x.1 x.2.1 x.2.2) (vectorChi x.1 x.2.1 x.2.2)
    (vectorChi x.1 x.2.1 x.2.2) = q at *
  generalize contract4 (sTensor C⁻¹) (vector x.1 x.2.1) (vector x.1 x.2.1) (vectorChi x.1 x.2.1 x.2.2)
    (vectorChi x.1 x.2.1 x.2.2) = u at *
  have e : -u / p * (-u / q) = u ^ 2 / (p * q) := by field_simp
  refine ⟨?_, ?_, ?_⟩
  · rw [div_pow, neg_sq, show 1 / p / (1 / q) = q / p by field_simp, div_lt_div_iff₀ (by positivity) ha]
    nlinarith
  · rw [e]
    positivity
  · rw [e, div_lt_one (by positivity)]
    exact hg

/-- C178: the six Poisson's ratios among three perpendicular directions satisfy the stability condition of elasticity
theory, whatever the symmetry of the crystal and the choice of the directions. -/
theorem C178_triad (C : M6) (hC : C.PosDef) (density : ℝ) (s : Soec) (h : soec C density = .ok s) (a b c : V3)
    (ht : Triad a b c) (ab ba bc cb ca ac : ℝ × ℝ × ℝ) (hab : Describes ab a b) (hba : Describes ba b a)
    (hbc : Describes bc b c) (hcb : Describes cb c b) (hca : Describes ca c a) (hac : Describes ac a c) :
    s.poissonRatio ab * s.poissonRatio ba + s.poissonRatio bc * s.poissonRatio cb + s.poissonRatio ca * s.poissonRatio ac +
      2 * (s.poissonRatio ab * s.poissonRatio bc * s.poissonRatio ca) < 1 := by
  obtain ⟨-, rfl⟩ := soec_ok h
  have key : ∀ {x : ℝ × ℝ × ℝ} {a b : V3}, Describes x a b →
      ({ C := C, density := density, S := C⁻¹, Smat := sTensor C⁻¹, Cmat := cTensor C } : Soec).poissonRatio x =
        -contract4 (sTensor C⁻¹) a a b b / contract4 (sTensor C⁻¹) a a a a := by
    rintro x a b ⟨rfl, rfl⟩
    exact poissonAlong_eq _ _ _
  have hsy := contract4_symm (posDef_symm hC.inv)
  have hg := gram_three hC ht rfl rfl rfl rfl rfl rfl
  have ha := young_denominator_pos hC ht.1.1
  have hb := young_denominator_pos hC ht.1.2.1
  have hc := young_denominator_pos hC ht.2.1.2.1
  rw [key hab, key hba, key hbc, key hcb, key hca, key hac, hsy b a, hsy c b, hsy c a]
  generalize contract4 (sTensor C⁻¹) a a a a = p at *
  generalize contract4 (sTensor C⁻¹) b b b b = q at *
  generalize contract4 (sTensor C⁻¹) c c c c = r at *
  generalize contract4 (sTensor C⁻¹) a a b b = u at *
  generalize contract4 (sTensor C⁻¹) a a c c = v at *
  generalize contract4 (sTensor C⁻¹) b b c c = w at *
  have e : -u / p * (-u / q) + -w / q * (-w / r) + -v / r * (-v / p) + 2 * (-u / p * (-w / q) * (-v / r)) =
      1 - (p * q * r + 2 * u * v * w - p * w ^ 2 - q * v ^ 2 - r * u ^ 2) / (p * q * r) := by
    field_simp
    ring
  rw [e]
  have := div_pos hg (mul_pos (mul_pos ha hb) hc)
  linarith

/-- C178: the two bisectors of a pair of directions: their Young's moduli follow from the Young's moduli, the shear modulus
and the Poisson's ratio of the pair. -/
theorem C178_bisectors (C : M6) (hC : C.PosDef) (density : ℝ) (s : Soec) (h : soec C density = .ok s) (a b : V3)
    (x y : ℝ × ℝ × ℝ) (hx : Describes x a b) (hy : Describes y b a) (plus minus : ℝ × ℝ)
    (hp : ∀ i, vector plus.1 plus.2 i = (a i + b i) / √2) (hm : ∀ i, vector minus.1 minus.2 i = (a i - b i) / √2) :
    1 / s.youngModulus plus + 1 / s.youngModulus minus =
      (1 / s.youngModulus (x.1, x.2.1) + 1 / s.youngModulus (y.1, y.2.1) + 1 / s.shearModulus x) / 2 -
        s.poissonRatio x / s.youngModulus (x.1, x.2.1) := by
  obtain ⟨-, rfl⟩ := soec_ok h
  obtain ⟨rfl, rfl⟩ := hx
  obtain ⟨hy1, -⟩ := hy
  have on : Orthonormal (vector x.1 x.2.1) (vectorChi x.1 x.2.1 x.2.2) := C35_orthonormal _ _ _
  have ha := (young_denominator_pos hC on.1).ne'
  show 1 / youngAlong _ (vector plus.1 plus.2) + 1 / youngAlong _ (vector minus.1 minus.2) =
    (1 / youngAlong _ (vector x.1 x.2.1) + 1 / youngAlong _ (vector y.1 y.2.1) +
      1 / shearAlong _ (vector x.1 x.2.1) (vectorChi x.1 x.2.1 x.2.2)) / 2 -
    poissonAlong _ (vector x.1 x.2.1) (vectorChi x.1 x.2.1 x.2.2) / youngAlong _ (vector x.1 x.2.1)
  rw [hy1, funext hp, funext hm, shearAlong_eq, poissonAlong_eq]
  have hsy := contract4_symm (posDef_symm hC.inv) (vectorChi x.1 x.2.1 x.2.2) (vector x.1 x.2.1)
  generalize vector x.1 x.2.1 = a at *
  generalize vectorChi x.1 x.2.1 x.2.2 = b at *
  unfold youngAlong
  simp only [one_div_one_div]
  have h2 : ∀ u : V3, contract4 (sTensor C⁻¹) (fun i => u i / √2) (fun i => u i / √2) (fun i => u i / √2) (fun i => u i / √2) =
      1 / 4 * contract4 (sTensor C⁻¹) u u u u := by
    intro u
    simp only [contract4, Finset.mul_sum]
    refine Finset.sum_congr rfl fun i _ => Finset.sum_congr rfl fun j _ => Finset.sum_congr rfl fun k _ =>
      Finset.sum_congr rfl fun l _ => ?_
    have h4 : (√2 : ℝ) ^ 4 = 4 := by
      rw [show (4 : ℕ) = 2 * 2 from rfl, pow_mul, Real.sq_sqrt (by norm_num)]
      norm_num
    have : sTensor C⁻¹ i j k l * (u i / √2) * (u j / √2) * (u k / √2) * (u l / √2) =
        sTensor C⁻¹ i j k l * u i * u j * u k * u l / (√2) ^ 4 := by
      field_simp
    rw [this, h4]
    ring
  rw [h2, h2]
  have hsum : contract4 (sTensor C⁻¹) (fun i => a i + b i) (fun i => a i + b i) (fun i => a i + b i) (fun i => a i + b i) +
      contract4 (sTensor C⁻¹) (fun i => a i - b i) (fun i => a i - b i) (fun i => a i - b i) (fun i => a i - b i) =
      2 * (contract4 (sTensor C⁻¹) a a a a + contract4 (sTensor C⁻¹) b b b b + contract4 (sTensor C⁻¹) a a b b +
        contract4 (sTensor C⁻¹) b b a a + 4 * contract4 (sTensor C⁻¹) a b a b) := by
    have e1 : ∀ I, dyad (fun i => a i + b i) (fun i => a i + b i) I = dyad a a I + dyad b b I + 2 * dyad a b I := by
      intro I
      fin_cases I <;> simp [dyad] <;> ring
    have e2 : ∀ I, dyad (fun i => a i - b i) (fun i => a i - b i) I = dyad a a I + dyad b b I - 2 * dyad a b I := by
      intro I
      fin_cases I <;> simp [dyad] <;> ring
    simp only [contract4_voigt, e1, e2, Finset.mul_sum, ← Finset.sum_add_distrib]
    refine Finset.sum_congr rfl fun I _ => Finset.sum_congr rfl fun J _ => by ring
  rw [hsy] at hsum
  generalize contract4 (sTensor C⁻¹) a a a a = p at *
  generalize contract4 (sTensor C⁻¹) a a b b = u at *
  have e : -u / p / (1 / p) = -u := by field_simp
  rw [e]
  linear_combination hsum / 4

end Verif.Elastic
