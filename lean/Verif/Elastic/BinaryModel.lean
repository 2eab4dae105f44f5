/-
Model of the directional properties and averages of /repo/quantas/soec/utils/soec_obj.py in the arithmetic of the computer: every
operation is rounded, and `sin` and `cos` are those of the library.  The compliance matrix is the one that `linalg.inv` returned.
Simplification: exponents are not limited, so nothing overflows or underflows.
-/
import Verif.Elastic.Model

noncomputable section

namespace Verif.Elastic.Rounded
open Verif.Elastic

/-- The rounding of the results of `+ - * /`, and `np.sin`, `np.cos`. -/
structure Machine where
  rnd : ℝ → ℝ
  sin : ℝ → ℝ
  cos : ℝ → ℝ

variable (m : Machine)

/-- `vector(theta, phi)` (soec_obj.py:41-44, 49). -/
def vector (theta phi : ℝ) : V3 :=
  ![m.rnd (m.sin theta * m.cos phi), m.rnd (m.sin theta * m.sin phi), m.cos theta]

/-- `vector(theta, phi, chi)` (soec_obj.py:45-49). -/
def vectorChi (theta phi chi : ℝ) : V3 :=
  ![m.rnd (m.rnd (m.rnd (m.cos theta * m.cos phi) * m.cos chi) - m.rnd (m.sin phi * m.sin chi)),
    m.rnd (m.rnd (m.rnd (m.cos theta * m.sin phi) * m.cos chi) + m.rnd (m.cos phi * m.sin chi)),
    m.rnd (-m.sin theta * m.cos chi)]

/-- `S_ijkl` (soec_obj.py:126-147).  The factor is 1, 1/2 or 1/4. -/
def sTensor (S : M6) : T4 := fun i j k l => m.rnd (sc (vm i j) (vm k l) * S (vm i j) (vm k l))

/-- `it.product((0, 1, 2), repeat=3)` (soec_obj.py:206). -/
def triples : List (Fin 3 × Fin 3 × Fin 3) :=
  (List.finRange 3).flatMap fun i => (List.finRange 3).flatMap fun j => (List.finRange 3).map fun k => (i, j, k)

/-- `it.product((0, 1, 2), repeat=4)` (soec_obj.py:182, 232, 259). -/
def quads : List (Fin 3 × Fin 3 × Fin 3 × Fin 3) := (List.finRange 3).flatMap fun i => triples.map fun t => (i, t)

/-- `r = 0`, then `r += …` for each entry of the list (soec_obj.py:181-183, 205-207, 231-233, 257-261). -/
def accumulate {ι : Type} (L : List ι) (term : ι → ℝ) : ℝ := L.foldl (fun r t => m.rnd (r + term t)) 0

/-- `young_modulus` for given components of the direction (soec_obj.py:181-184). -/
def youngAlong (S : T4) (a : V3) : ℝ :=
  m.rnd (1 / accumulate m quads fun t =>
    m.rnd (m.rnd (m.rnd (m.rnd (S t.1 t.2.1 t.2.2.1 t.2.2.2 * a t.1) * a t.2.1) * a t.2.2.1) * a t.2.2.2))

/-- `linear_compressibility` for given components of the direction (soec_obj.py:205-208). -/
def compressibilityAlong (S : T4) (a : V3) : ℝ :=
  m.rnd (1000 * accumulate m triples fun t => m.rnd (m.rnd (a t.1 * a t.2.1) * S t.1 t.2.1 t.2.2 t.2.2))

/-- `a[i]*b[j]*c[k]*d[l] * S[i][j][k][l]` (soec_obj.py:233, 260-261). -/
def product (S : T4) (a b c d : V3) (t : Fin 3 × Fin 3 × Fin 3 × Fin 3) : ℝ :=
  m.rnd (m.rnd (m.rnd (m.rnd (a t.1 * b t.2.1) * c t.2.2.1) * d t.2.2.2) * S t.1 t.2.1 t.2.2.1 t.2.2.2)

/-- `shear_modulus` for given components of the directions (soec_obj.py:231-234). -/
def shearAlong (S : T4) (a b : V3) : ℝ := m.rnd (1 / m.rnd (4 * accumulate m quads (product m S a b a b)))

/-- `poisson_ratio` for given components of the directions (soec_obj.py:257-262). -/
def poissonAlong (S : T4) (a b : V3) : ℝ :=
  m.rnd (-accumulate m quads (product m S a a b b) / accumulate m quads (product m S a a a a))

/-- `SOEC.young_modulus(angles)` (soec_obj.py:163-184). -/
def youngModulus (S : M6) (theta phi : ℝ) : ℝ := youngAlong m (sTensor m S) (vector m theta phi)

/-- `SOEC.linear_compressibility(angles)` (soec_obj.py:186-208). -/
def linearCompressibility (S : M6) (theta phi : ℝ) : ℝ := compressibilityAlong m (sTensor m S) (vector m theta phi)

/-- `SOEC.shear_modulus(angles)` (soec_obj.py:210-234). -/
def shearModulus (S : M6) (theta phi chi : ℝ) : ℝ :=
  shearAlong m (sTensor m S) (vector m theta phi) (vectorChi m theta phi chi)

/-- `SOEC.poisson_ratio(x)` (soec_obj.py:236-262). -/
def poissonRatio (S : M6) (theta phi chi : ℝ) : ℝ :=
  poissonAlong m (sTensor m S) (vector m theta phi) (vectorChi m theta phi chi)

/-! ### Averages -/

/-- `r` is the sum of the numbers of the list, added pair by pair in some order with rounded additions: numpy does not fix the
order in which `np.einsum` adds. -/
inductive Adds : List ℝ → ℝ → Prop
  | one (x : ℝ) : Adds [x] x
  | both {l l' : List ℝ} {x y : ℝ} : Adds l x → Adds l' y → Adds (l ++ l') (m.rnd (x + y))
  | perm {l l' : List ℝ} {x : ℝ} : l.Perm l' → Adds l x → Adds l' x

/-- The terms of `np.einsum('iijj', T)` (soec_obj.py:308-309). -/
def traces (T : T4) : List ℝ := (List.finRange 3).flatMap fun i => (List.finRange 3).map fun j => T i i j j

/-- Voigt shear modulus (soec_obj.py:313-316). -/
def voigtG (C : M6) : ℝ :=
  m.rnd (m.rnd (m.rnd (m.rnd (m.rnd (C 0 0 + C 1 1) + C 2 2) - m.rnd (m.rnd (C 0 1 + C 0 2) + C 1 2)) +
    m.rnd (3 * m.rnd (m.rnd (C 3 3 + C 4 4) + C 5 5))) / 15)

/-- Reuss shear modulus (soec_obj.py:317-320). -/
def reussG (S : M6) : ℝ :=
  m.rnd (15 / m.rnd (m.rnd (m.rnd (4 * m.rnd (m.rnd (S 0 0 + S 1 1) + S 2 2)) -
    m.rnd (4 * m.rnd (m.rnd (S 0 1 + S 0 2) + S 1 2))) + m.rnd (3 * m.rnd (m.rnd (S 3 3 + S 4 4) + S 5 5))))

/-- One row of the returned list (soec_obj.py:324-326). -/
def averageRow (K G : ℝ) : Average :=
  { K := K
    E := m.rnd (1 / m.rnd (m.rnd (1 / m.rnd (3 * G)) + m.rnd (1 / m.rnd (9 * K))))
    G := G
    nu := m.rnd (m.rnd (1 - m.rnd (m.rnd (3 * G) / m.rnd (m.rnd (3 * K) + G))) / 2) }

/-- `SOEC.averages()` (soec_obj.py:264-327), for sums `traceC`, `traceS` that `np.einsum` may return. -/
def averages (C S : M6) (traceC traceS : ℝ) : Averages :=
  let KV := m.rnd (traceC / 9)
  let KR := m.rnd (1 / traceS)
  let KH := m.rnd (0.5 * m.rnd (KV + KR))
  let GV := voigtG m C
  let GR := reussG m S
  let GH := m.rnd (0.5 * m.rnd (GV + GR))
  { voigt := averageRow m KV GV, reuss := averageRow m KR GR, hill := averageRow m KH GH }

end Verif.Elastic.Rounded
