/-
Model of the phase velocities of /repo/quantas/soec/utils/soec_obj.py and /repo/quantas/seismic/utils/seismic_obj.py in the
arithmetic of the computer: every operation is rounded, and `sin`, `cos` and the eigenvalues are those of the libraries.
Simplification: exponents are not limited, so nothing overflows or underflows; the square root of a negative number, `nan` in the
code, is 0.
-/
import Verif.Elastic.BinaryModel
import Verif.Seismic.Model

noncomputable section

namespace Verif.Seismic.Rounded
open Verif.Elastic Verif.Elastic.Rounded

variable (m : Machine)

/-- `r` is the sum of the products of the pairs of the list, added in some order with rounded additions: `np.dot` and `np.matmul`
do not fix the order, and may (`fused`) or may not round a product before they add it. -/
inductive Dot : List (ℝ × ℝ) → ℝ → Prop
  | one (a b : ℝ) : Dot [(a, b)] (m.rnd (a * b))
  | both {l l' : List (ℝ × ℝ)} {x y : ℝ} : Dot l x → Dot l' y → Dot (l ++ l') (m.rnd (x + y))
  | fused {l : List (ℝ × ℝ)} {x : ℝ} (a b : ℝ) : Dot l x → Dot (l ++ [(a, b)]) (m.rnd (x + a * b))
  | perm {l l' : List (ℝ × ℝ)} {x : ℝ} : l.Perm l' → Dot l x → Dot l' x

/-- `r` is a possible value of the sum of `a[i] * b[i]`. -/
def Sums {k : ℕ} (a b : Fin k → ℝ) (r : ℝ) : Prop := Dot m ((List.finRange k).map fun i => (a i, b i)) r

/-- `R` is a possible value of `np.matmul(A, B)`. -/
def Matmul {p k q : ℕ} (A : Matrix (Fin p) (Fin k) ℝ) (B : Matrix (Fin k) (Fin q) ℝ) (R : Matrix (Fin p) (Fin q) ℝ) : Prop :=
  ∀ i j, Sums m (A i) (fun k => B k j) (R i j)

/-- `np.linalg.eigh` reads the lower triangle (its default `UPLO='L'`). -/
def lower (A : M3) : M3 := Matrix.of fun i j => if j ≤ i then A i j else A j i

/-- `v` is a possible value of `SOEC.phase_velocity(angles)` (soec_obj.py:359-400), for the eigenvalues `eigh` of the library. -/
def ElasticVelocities (eigh : M3 → V3) (C : M6) (density theta phi : ℝ) (v : V3) : Prop :=
  let C' : M6 := Matrix.of fun i j => m.rnd (C i j * 1e9)
  let d := divop (Rounded.vector m theta phi)
  ∃ mult A, Matmul m C' d.transpose mult ∧ Matmul m d mult A ∧
    v = fun i => m.rnd (m.rnd (√(m.rnd (eigh (lower A) i / density))) / 1000)

/-- `self.Cmat` of the seismic calculator (seismic_obj.py:141-146). -/
def cmat (C : M6) (density : ℝ) : T4 := fun i j k l => m.rnd (cTensor C i j k l * m.rnd (1000 / density))

/-- `v` is a possible value of `Seismic.phase_velocity` after `spherical_direction(theta, phi)` (seismic_obj.py:391-414, 454-490), for
the eigenvalues `eigh` of the library. -/
def SeismicVelocities (eigh : M3 → V3) (C : M6) (density theta phi : ℝ) (v : V3) : Prop :=
  let q := Rounded.vector m theta phi
  ∃ (T : Fin 3 → Fin 3 → Fin 3 → ℝ) (M : M3), (∀ a b d, Sums m q (fun c => cmat m C density a b c d) (T a b d)) ∧
    (∀ a d, Sums m q (fun b => T a b d) (M a d)) ∧
    let w := eigh (lower M)
    let eigenval := w ∘ Tuple.sort w
    v = fun i => m.rnd (Real.sign (eigenval i) * m.rnd (√|eigenval i|))

end Verif.Seismic.Rounded
