/-
Model of `normalize` of the P(V) classes (/repo/quantas/eosfit/utils/pv_eos.py): strain and normalised
pressure for f-F plots.  Where numpy divides zero by zero (at a volume equal to the reference volume) and
returns nan, the model returns zero; every theorem excludes these volumes.
-/
import Verif.EoS.Model

namespace Verif.EoS
open Verif.Py

/-- The six arrays returned by `normalize`. -/
structure Normalized where
  fCalc : List ℝ
  NPcalc : List ℝ
  fObs : List ℝ
  NPobs : List ℝ
  sigf : List ℝ
  sigNP : List ℝ

/-- `pars` after the lines on linearity (pv_eos.py:391-401, 601-609, 791-803).  `pars = p[:]` is a view of the
array `p`, so this is also what the caller's array holds after the call.  The second block of the Vinet class
is the one of the natural strain. -/
noncomputable def normPars (f : Formulation) (p : Pars) (order : ℕ) (linear : Bool) : Pars :=
  if order = 2 ∧ linear = true then
    match f with
    | .birchMurnaghan => { p with Kp := 4, Kpp := (-1 / p.K0) * ((3 - 4) * (4 - 4) + 35 / 9) }
    | .naturalStrain => { p with Kp := 2, Kpp := (-1 / p.K0) * (1 + (2 - 2) + (2 - 2) ^ 2) }
    | .vinet => { p with Kp := 2, Kpp := (-1 / p.K0) * (1 + (2 - 2) + (2 - 2) ^ 2) }
    | _ => p
  else p

/-- The strain at a volume (pv_eos.py:404, 412, 612, 620, 806, 814). -/
noncomputable def normStrain : Formulation → (V0 V : ℝ) → ℝ
  | .birchMurnaghan, V0, V => 0.5 * ((V0 / V) ^ ((2:ℝ) / 3) - 1)
  | .naturalStrain, V0, V => 1 / 3 * Real.log (V0 / V)
  | .vinet, V0, V => 1 - (V / V0) ^ ((1:ℝ) / 3)
  | _, _, _ => 0

/-- The normalised pressure of the curve (pv_eos.py:405-406, 613-614, 807-808). -/
noncomputable def normCalc (f : Formulation) (q : Pars) (V : ℝ) (order : ℕ) (linear : Bool) : ℝ :=
  let s := normStrain f q.V0 V
  match f with
  | .birchMurnaghan => (eos f q V order linear false).1 / (3 * s * (1 + 2 * s) ^ (2.5 : ℝ))
  | .naturalStrain => (eos f q V order linear false).1 / (3 * (q.V0 / V) * s)
  | .vinet => q.K0 * Real.exp (1.5 * (q.Kp - 1) * s)
  | _ => 0

/-- The normalised pressure of a datum, `V_0` being the first volume (pv_eos.py:410-415, 618-623, 812-816). -/
noncomputable def normObs (f : Formulation) (V_0 V P : ℝ) : ℝ :=
  let s := normStrain f V_0 V
  match f with
  | .birchMurnaghan => P / (3 * s * (1 + 2 * s) ^ (2.5 : ℝ))
  | .naturalStrain => P / (3 * (V_0 / V) * s)
  | .vinet => P * (1 - s) ^ 2 / (3 * s)
  | _ => 0

/-- `sig_eta` (pv_eos.py:431-432, 639-640, 832-833). -/
noncomputable def sigEta (V_0 sigV_0 V sigV : ℝ) : ℝ := sigV / V + sigV_0 / V_0

/-- The error of the strain (pv_eos.py:434, 642, 835). -/
noncomputable def sigStrain (f : Formulation) (V_0 sigV_0 V sigV : ℝ) : ℝ :=
  let eta := V / V_0
  let s := sigEta V_0 sigV_0 V sigV
  match f with
  | .birchMurnaghan => 1 / 3 * eta ^ (-(5:ℝ) / 3) * s
  | .naturalStrain => 1 / 3 * eta⁻¹ * s
  | .vinet => 1 / 3 * eta ^ (-(2:ℝ) / 3) * s
  | _ => 0

/-- The error of the normalised pressure (pv_eos.py:436-439, 644-646, 837-838). -/
noncomputable def sigNormObs (f : Formulation) (V_0 sigV_0 V sigV P sigP : ℝ) : ℝ :=
  let eta := V / V_0
  let s := sigEta V_0 sigV_0 V sigV
  let np := normObs f V_0 V P
  match f with
  | .birchMurnaghan =>
    let prime := (7 * eta ^ (-(2:ℝ) / 3) - 5) * s / (3 * eta * (1 - eta ^ (-(2:ℝ) / 3)))
    np * √((sigP / P) ^ 2 + prime ^ 2)
  | .naturalStrain =>
    let prime := (1 - (Real.log eta)⁻¹) * s / eta
    np * √((sigP / P) ^ 2 + prime ^ 2)
  | .vinet => np * √((sigP / P) ^ 2 + s / (3 * eta ^ ((2:ℝ) / 3) - 1))
  | _ => 0

/-- `normalize(p, V, P, sigmaV, sigmaP, order, linear)` and the array `p` after the call (pv_eos.py:225-237,
342-444, 552-651, 743-843, 945-956).  `V[0]` of an empty array raises IndexError (`np.zeros(-1)`, for the dummy
methods, ValueError). -/
noncomputable def normalize (f : Formulation) (p : Pars) (V P : List ℝ) (sigma : Option (List ℝ × List ℝ))
    (order : ℕ) (linear : Bool) : Except PyErr (Normalized × Pars) :=
  match V with
  | [] => .error (if f = .murnaghan ∨ f = .tait then .valueError else .indexError)
  | V_0 :: rest =>
    let q := normPars f p order linear
    let zeros := rest.map fun _ => (0 : ℝ)
    let fObs := rest.map (normStrain f V_0)
    let NPobs := List.zipWith (normObs f V_0) rest P.tail
    let errors := match sigma with
      | some (sv, sp) =>
        (List.zipWith (sigStrain f V_0 (sv.headD 0)) rest sv.tail,
         List.zipWith (fun (x : ℝ × ℝ) (y : ℝ × ℝ) => sigNormObs f V_0 (sv.headD 0) x.1 x.2 y.1 y.2)
           (List.zip rest sv.tail) (List.zip P.tail sp.tail))
      | none => (zeros, zeros)
    .ok (⟨V.map (normStrain f q.V0), V.map fun v => normCalc f q v order linear, fObs, NPobs,
      errors.1, errors.2⟩, q)

end Verif.EoS
