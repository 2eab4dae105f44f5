/-
Model of the second-order elastic constant object: /repo/quantas/soec/utils/soec_obj.py, and of
the parts of /repo/quantas/seismic/utils/seismic_obj.py that share its formulas.

Matrices and tensors are functions on `Fin`; floats are reals.  numpy divisions by zero give
`inf`/`nan` instead of an exception: the model's `1 / 0` is Lean's `0`, so every theorem about a
quotient states that its denominator is not zero (or derives it).
-/
import Mathlib.Analysis.SpecialFunctions.Trigonometric.Basic
import Mathlib.LinearAlgebra.Matrix.NonsingularInverse
import Mathlib.Algebra.BigOperators.Fin
import Verif.Tac
import Verif.Py.Basic

namespace Verif.Elastic
open Verif.Py

/-- A Cartesian vector. -/
abbrev V3 := Fin 3 → ℝ

/-- A 6×6 matrix in Voigt's notation. -/
abbrev M6 := Matrix (Fin 6) (Fin 6) ℝ

/-- A fourth-rank tensor (numpy array of shape `(3,3,3,3)`). -/
abbrev T4 := Fin 3 → Fin 3 → Fin 3 → Fin 3 → ℝ

/-- `vector(theta, phi)` (soec_obj.py:41-44, 49). -/
noncomputable def vector (theta phi : ℝ) : V3 :=
  ![Real.sin theta * Real.cos phi, Real.sin theta * Real.sin phi, Real.cos theta]

/-- `vector(theta, phi, chi)` (soec_obj.py:45-49). -/
noncomputable def vectorChi (theta phi chi : ℝ) : V3 :=
  ![Real.cos theta * Real.cos phi * Real.cos chi - Real.sin phi * Real.sin chi,
    Real.cos theta * Real.sin phi * Real.cos chi + Real.cos phi * Real.sin chi,
    -Real.sin theta * Real.cos chi]

/-- `vector(theta, phi)` of the seismic module (seismic_obj.py:21-42). -/
noncomputable def seismicVector (theta phi : ℝ) : V3 :=
  let a := Real.sin theta * Real.cos phi
  let b := Real.sin theta * Real.sin phi
  let c := Real.cos theta
  ![a, b, c]

/-- `vector` of the compiled helpers (fast_math.pyx:109-115): the array of zeros with its three
entries overwritten. -/
noncomputable def fastVector (theta phi : ℝ) : V3 :=
  let v : V3 := fun _ => 0
  let v := Function.update v 0 (Real.sin theta * Real.cos phi)
  let v := Function.update v 1 (Real.sin theta * Real.sin phi)
  Function.update v 2 (Real.cos theta)

/-- The Voigt index table `vm` (soec_obj.py:122, 144). -/
def vm : Fin 3 → Fin 3 → Fin 6 := ![![0, 5, 4], ![5, 1, 3], ![4, 3, 2]]

/-- `C_ijkl` (soec_obj.py:104-124; seismic_obj.py:150-170). -/
def cTensor (C : M6) : T4 := fun i j k l => C (vm i j) (vm k l)

/-- `sc(p, q)` (soec_obj.py:146; seismic_obj.py:192). -/
noncomputable def sc (p q : Fin 6) : ℝ :=
  1 / ((1 + ((p.val / 3 : ℕ) : ℝ)) * (1 + ((q.val / 3 : ℕ) : ℝ)))

/-- `S_ijkl` (soec_obj.py:126-147; seismic_obj.py:172-193). -/
noncomputable def sTensor (S : M6) : T4 :=
  fun i j k l => sc (vm i j) (vm k l) * S (vm i j) (vm k l)

/-- The attributes of a `SOEC` object. -/
structure Soec where
  C : M6
  density : ℝ
  S : M6
  Smat : T4
  Cmat : T4

open Classical in
/-- `SOEC.__init__` (soec_obj.py:80-102): `linalg.inv` fails exactly on singular matrices (exact
arithmetic), and the failure becomes a `ValueError`. -/
noncomputable def soec (C : M6) (density : ℝ) : Except PyErr Soec :=
  if C.det = 0 then .error .valueError
  else .ok { C := C, density := density, S := C⁻¹, Smat := sTensor C⁻¹, Cmat := cTensor C }

/-- The fourfold contraction loop of `young_modulus` (soec_obj.py:181-183). -/
def contract4 (S : T4) (a b c d : V3) : ℝ :=
  ∑ i, ∑ j, ∑ k, ∑ l, S i j k l * a i * b j * c k * d l

/-- `young_modulus` for a given direction vector (soec_obj.py:180-184). -/
noncomputable def youngAlong (S : T4) (a : V3) : ℝ := 1 / contract4 S a a a a

/-- `linear_compressibility` for a given direction vector (soec_obj.py:204-208). -/
def compressibilityAlong (S : T4) (a : V3) : ℝ :=
  1000 * ∑ i, ∑ j, ∑ k, a i * a j * S i j k k

/-- `shear_modulus` for given direction vectors (soec_obj.py:229-234). -/
noncomputable def shearAlong (S : T4) (a b : V3) : ℝ :=
  1 / (4 * ∑ i, ∑ j, ∑ k, ∑ l, a i * b j * a k * b l * S i j k l)

/-- `poisson_ratio` for given direction vectors (soec_obj.py:255-262). -/
noncomputable def poissonAlong (S : T4) (a b : V3) : ℝ :=
  let r1 := ∑ i, ∑ j, ∑ k, ∑ l, a i * a j * b k * b l * S i j k l
  let r2 := ∑ i, ∑ j, ∑ k, ∑ l, a i * a j * a k * a l * S i j k l
  let r := -r1 / r2
  r

/-- `SOEC.young_modulus(angles)` (soec_obj.py:163-184). -/
noncomputable def Soec.youngModulus (s : Soec) (x : ℝ × ℝ) : ℝ :=
  youngAlong s.Smat (vector x.1 x.2)

/-- `SOEC.linear_compressibility(angles)` (soec_obj.py:186-208). -/
noncomputable def Soec.linearCompressibility (s : Soec) (x : ℝ × ℝ) : ℝ :=
  compressibilityAlong s.Smat (vector x.1 x.2)

/-- `SOEC.shear_modulus(angles)` (soec_obj.py:210-234). -/
noncomputable def Soec.shearModulus (s : Soec) (x : ℝ × ℝ × ℝ) : ℝ :=
  shearAlong s.Smat (vector x.1 x.2.1) (vectorChi x.1 x.2.1 x.2.2)

/-- `SOEC.poisson_ratio(x)` (soec_obj.py:236-262). -/
noncomputable def Soec.poissonRatio (s : Soec) (x : ℝ × ℝ × ℝ) : ℝ :=
  poissonAlong s.Smat (vector x.1 x.2.1) (vectorChi x.1 x.2.1 x.2.2)

/-- `np.einsum('iijj', T)`. -/
def einsum_iijj (T : T4) : ℝ := ∑ i, ∑ j, T i i j j

/-- One row of `averages`: bulk, Young's and shear moduli, Poisson's ratio. -/
structure Average where
  K : ℝ
  E : ℝ
  G : ℝ
  nu : ℝ

/-- One row of the returned list (soec_obj.py:324-326). -/
noncomputable def averageRow (K G : ℝ) : Average :=
  { K := K, E := 1 / (1 / (3 * G) + 1 / (9 * K)), G := G, nu := (1 - 3 * G / (3 * K + G)) / 2 }

/-- Voigt shear modulus (soec_obj.py:313-316; seismic_obj.py:286-289). -/
noncomputable def voigtG (C : M6) : ℝ :=
  (C 0 0 + C 1 1 + C 2 2 - (C 0 1 + C 0 2 + C 1 2) + 3 * (C 3 3 + C 4 4 + C 5 5)) / 15

/-- Reuss shear modulus (soec_obj.py:317-320; seismic_obj.py:291-294). -/
noncomputable def reussG (S : M6) : ℝ :=
  15 / (4 * (S 0 0 + S 1 1 + S 2 2) - 4 * (S 0 1 + S 0 2 + S 1 2) + 3 * (S 3 3 + S 4 4 + S 5 5))

/-- The value of `SOEC.averages()`: Voigt, Reuss and Hill rows. -/
structure Averages where
  voigt : Average
  reuss : Average
  hill : Average

/-- `SOEC.averages()` (soec_obj.py:264-327). -/
noncomputable def Soec.averages (s : Soec) : Averages :=
  let KV := einsum_iijj s.Cmat / 9
  let KR := 1 / einsum_iijj s.Smat
  let KH := 0.5 * (KV + KR)
  let GV := voigtG s.C
  let GR := reussG s.S
  let GH := 0.5 * (GV + GR)
  { voigt := averageRow KV GV, reuss := averageRow KR GR, hill := averageRow KH GH }

/-- `SOEC.isotropic_velocities()` (soec_obj.py:329-339): the list `[Vs, Vs, Vp]`. -/
noncomputable def Soec.isotropicVelocities (s : Soec) : V3 :=
  let B := s.averages.hill.K
  let G := s.averages.hill.G
  let Vp := Real.sqrt (1000 * (B + 4 * G / 3) / s.density)
  let Vs := Real.sqrt (1000 * G / s.density)
  ![Vs, Vs, Vp]

/-- `SOEC.polar_compressibility` at one node (soec_obj.py:435-444). -/
noncomputable def Soec.polarCompressibility (s : Soec) (x : ℝ × ℝ) : ℝ × ℝ :=
  (max 0 (s.linearCompressibility x), max 0 (-s.linearCompressibility x))

/-! ### The orthorhombic fast path (soec_obj.py:482-580) -/

/-- The nine compliances read by the closed forms, e.g. soec_obj.py:504-512. -/
structure OrthoS where
  s11 : ℝ
  s22 : ℝ
  s33 : ℝ
  s44 : ℝ
  s55 : ℝ
  s66 : ℝ
  s12 : ℝ
  s13 : ℝ
  s23 : ℝ

/-- Reading of the nine compliances (soec_obj.py:504-512, 518-523, 537-545, 564-572). -/
noncomputable def orthoS (S : T4) : OrthoS :=
  { s11 := S 0 0 0 0, s22 := S 1 1 1 1, s33 := S 2 2 2 2, s44 := 4 * S 1 2 1 2,
    s55 := 4 * S 0 2 0 2, s66 := 4 * S 0 1 0 1, s12 := S 0 0 1 1, s13 := S 0 0 2 2,
    s23 := S 1 1 2 2 }

/-- `SOECOrtho.young_modulus` (soec_obj.py:499-513). -/
noncomputable def orthoYoung (S : T4) (x : ℝ × ℝ) : ℝ :=
  let ct2 := Real.cos x.1 ^ 2
  let st2 := 1 - ct2
  let cf2 := Real.cos x.2 ^ 2
  let sf2 := 1 - cf2
  let ⟨s11, s22, s33, s44, s55, s66, s12, s13, s23⟩ := orthoS S
  1 / (ct2 ^ 2 * s33 + 2 * cf2 * ct2 * s13 * st2 + cf2 * ct2 * s55 * st2 + 2 * ct2 * s23 * sf2 * st2
    + ct2 * s44 * sf2 * st2 + cf2 ^ 2 * s11 * st2 ^ 2 + 2 * cf2 * s12 * sf2 * st2 ^ 2
    + cf2 * s66 * sf2 * st2 ^ 2 + s22 * sf2 ^ 2 * st2 ^ 2)

/-- `SOECOrtho.linear_compressibility` (soec_obj.py:515-524). -/
noncomputable def orthoCompressibility (S : T4) (x : ℝ × ℝ) : ℝ :=
  let ct2 := Real.cos x.1 ^ 2
  let cf2 := Real.cos x.2 ^ 2
  let ⟨s11, s22, s33, _, _, _, s12, s13, s23⟩ := orthoS S
  1000 * (ct2 * (s13 + s23 + s33)
    + (cf2 * (s11 + s12 + s13) + (s12 + s22 + s23) * (1 - cf2)) * (1 - ct2))

/-- `SOECOrtho.shear_modulus` (soec_obj.py:526-554). -/
noncomputable def orthoShear (S : T4) (x : ℝ × ℝ × ℝ) : ℝ :=
  let ct := Real.cos x.1
  let ct2 := ct * ct
  let st2 := 1 - ct2
  let cf := Real.cos x.2.1
  let sf := Real.sin x.2.1
  let sf2 := sf * sf
  let cx := Real.cos x.2.2
  let cx2 := cx * cx
  let sx := Real.sin x.2.2
  let sx2 := 1 - cx2
  let ⟨s11, s22, s33, s44, s55, s66, s12, s13, s23⟩ := orthoS S
  let r :=
    ct2 * ct2 * cx2 * s44 * sf2 + cx2 * s44 * sf2 * st2 * st2
      + 4 * cf ^ 3 * ct * cx * (-2 * s11 + 2 * s12 + s66) * sf * st2 * sx
      + 2 * cf * ct * cx * sf * (ct2 * (s44 - s55)
          + (4 * s13 - 4 * s23 - s44 + s55 - 4 * s12 * sf2 + 4 * s22 * sf2 - 2 * s66 * sf2) * st2) * sx
      + s66 * sf2 * sf2 * st2 * sx2 + cf ^ 4 * st2 * (4 * ct2 * cx2 * s11 + s66 * sx2)
      + ct2 * (2 * cx2 * (2 * s33 + sf2 * (-4 * s23 - s44 + 2 * s22 * sf2)) * st2 + s55 * sf2 * sx2)
      + cf ^ 2 * (ct2 * ct2 * cx2 * s55
          + ct2 * (-2 * cx2 * (4 * s13 + s55 - 2 * (2 * s12 + s66) * sf2) * st2 + s44 * sx2)
          + st2 * (cx2 * s55 * st2 + 2 * (2 * s11 - 4 * s12 + 2 * s22 - s66) * sf2 * sx2))
  1 / r

/-- `SOECOrtho.poisson_ratio` (soec_obj.py:556-580). -/
noncomputable def orthoPoisson (S : T4) (x : ℝ × ℝ × ℝ) : ℝ :=
  let ct := Real.cos x.1
  let ct2 := ct * ct
  let st2 := 1 - ct2
  let cf := Real.cos x.2.1
  let sf := Real.sin x.2.1
  let cx := Real.cos x.2.2
  let sx := Real.sin x.2.2
  let ⟨s11, s22, s33, s44, s55, s66, s12, s13, s23⟩ := orthoS S
  (-(ct ^ 2 * cx ^ 2 * s33 * st2) - cf ^ 2 * cx ^ 2 * s13 * st2 * st2
      - cx ^ 2 * s23 * sf ^ 2 * st2 * st2 + ct * cx * s44 * sf * st2 * (ct * cx * sf + cf * sx)
      - ct ^ 2 * s23 * (ct * cx * sf + cf * sx) ^ 2 - cf ^ 2 * s12 * st2 * (ct * cx * sf + cf * sx) ^ 2
      - s22 * sf ^ 2 * st2 * (ct * cx * sf + cf * sx) ^ 2
      + cf * ct * cx * s55 * st2 * (cf * ct * cx - sf * sx)
      - cf * s66 * sf * st2 * (ct * cx * sf + cf * sx) * (cf * ct * cx - sf * sx)
      - ct ^ 2 * s13 * (cf * ct * cx - sf * sx) ^ 2 - cf ^ 2 * s11 * st2 * (cf * ct * cx - sf * sx) ^ 2
      - s12 * sf ^ 2 * st2 * (cf * ct * cx - sf * sx) ^ 2) /
    (ct ^ 4 * s33 + 2 * cf ^ 2 * ct ^ 2 * s13 * st2 + cf ^ 2 * ct ^ 2 * s55 * st2
      + 2 * ct ^ 2 * s23 * sf ^ 2 * st2 + ct ^ 2 * s44 * sf ^ 2 * st2 + cf ^ 4 * s11 * st2 * st2
      + 2 * cf ^ 2 * s12 * sf ^ 2 * st2 * st2 + cf ^ 2 * s66 * sf ^ 2 * st2 * st2
      + s22 * sf ^ 4 * st2 * st2)

/-! ### The seismic object's tensors and averages -/

/-- The attributes set by `Seismic.__init__` (seismic_obj.py:123-148). -/
structure Seismic where
  C : M6
  density : ℝ
  S : M6
  Smat : T4
  /-- stiffness tensor times `1000 / density` -/
  Cmat : T4
  hessM : T4

/-- `hessian_christoffel_matrix` (seismic_obj.py:342-368). -/
def hessianChristoffel (C : T4) : T4 := fun i j k l => C k i j l + C k j i l

open Classical in
/-- `Seismic.__init__` (seismic_obj.py:123-148). -/
noncomputable def seismic (C : M6) (density : ℝ) : Except PyErr Seismic :=
  if C.det = 0 then .error .valueError
  else
    let Cmat : T4 := fun i j k l => cTensor C i j k l * (1000 / density)
    .ok { C := C, density := density, S := C⁻¹, Smat := sTensor C⁻¹, Cmat := Cmat,
          hessM := hessianChristoffel Cmat }

/-- `Seismic.bulk_modulus` (seismic_obj.py:217-255). -/
noncomputable def Seismic.bulkModulus (s : Seismic) : ℝ :=
  let KV := einsum_iijj (fun i j k l => s.Cmat i j k l * s.density / 1000) / 9
  let KR := 1 / einsum_iijj s.Smat
  (KV + KR) / 2

/-- `Seismic.shear_modulus` (seismic_obj.py:257-296). -/
noncomputable def Seismic.shearModulus (s : Seismic) : ℝ :=
  0.5 * (voigtG s.C + reussG s.S)

/-- `Seismic.isotropic_velocity` (seismic_obj.py:298-316). -/
noncomputable def Seismic.isotropicVelocity (s : Seismic) : V3 :=
  let K := s.bulkModulus
  let G := s.shearModulus
  let VP := Real.sqrt (1000 * (K + 4 * G / 3) / s.density)
  let VS := Real.sqrt (1000 * G / s.density)
  ![VS, VS, VP]

end Verif.Elastic
