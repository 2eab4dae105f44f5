/-
Model of /repo/quantas/utils/physics/thermodynamics.pyx and of the quasi-harmonic calculator
/repo/quantas/qha/qha.py (class QHACalculator), on top of the unit converters, the
statistical-mechanics kernels and the polynomial helpers.  numpy's `polyfit` and `roots` and
scipy's `curve_fit` are parameters of the model.  The per-cell parallel loops of
thermodynamics.pyx write each cell once, so they are written elementwise.
-/
import Verif.HA.Model
import Verif.Grid.Model
import Verif.Poly.Model

namespace Verif.QHA
open Verif.Py Verif.Units Verif.StatMech Verif.HA

variable {nt np nb nf nv : ℕ}

/-! ### thermodynamics.pyx -/

/-- `enthalpy` (thermodynamics.pyx:21-57); volumes in m^3, pressures in Pa, energies in kJ/mol. -/
noncomputable def enthalpy (k : Consts) (V : Fin nt → Fin np → ℝ) (p : Fin np → ℝ)
    (U : Fin nt → Fin np → ℝ) : Fin nt → Fin np → ℝ :=
  fun i j => U i j + p j * V i j * k.N / 1000

/-- `gibbs` (thermodynamics.pyx:61-97). -/
noncomputable def gibbs (k : Consts) (V : Fin nt → Fin np → ℝ) (p : Fin np → ℝ)
    (F : Fin nt → Fin np → ℝ) : Fin nt → Fin np → ℝ :=
  fun i j => F i j + p j * V i j * k.N / 1000

/-- `adiabatic_bulk_modulus` (thermodynamics.pyx:103-155). -/
noncomputable def adiabaticBulkModulus (k : Consts) (T : Fin nt → ℝ) (V KT alpha Cv : Fin nt → Fin np → ℝ)
    (factor : ℝ) : Fin nt → Fin np → ℝ :=
  open Classical in
  fun i j =>
    if T i = 0 ∨ Cv i j = 0 then KT i j
    else KT i j + (alpha i j * alpha i j * (factor * KT i j * factor * KT i j) *
      V i j * T i / (Cv i j / k.N)) / factor

/-- `gruneisen_parameter` (thermodynamics.pyx:161-206). -/
noncomputable def gruneisenParameter (k : Consts) (V KT alpha Cv : Fin nt → Fin np → ℝ) :
    Fin nt → Fin np → ℝ :=
  open Classical in
  fun i j => if Cv i j = 0 then 0 else V i j * KT i j * alpha i j / (Cv i j / k.N)

/-! ### Elementwise converters -/

/-- `convert_volume` elementwise (units.py:561-613). -/
noncomputable def volumeMap (k : Consts) (old new : Str) : Except PyErr (ℝ → ℝ) := do
  let f ← volumeToM3 k old
  let g ← volumeFromM3 k new
  return fun x => g (f x)

/-- `convert_pressure` elementwise (units.py:180-257). -/
noncomputable def pressureMap (old new : Str) : Except PyErr (ℝ → ℝ) := do
  let f ← pressureToPa old
  let g ← pressureFromPa new
  return fun x => g (f x)

/-- Three chains of in-place operations on a fresh buffer, as a function (units.py:314-352,
409-447 with a scalar or freshly computed argument). -/
def chain3 (t1 t2 t3 : List (List Str × (ℝ → ℝ))) (s1 s2 s3 : Str) : Except PyErr (ℝ → ℝ) :=
  match chain t1 s1, chain t2 s2, chain t3 s3 with
  | some f, some g, some h => .ok fun x => h (g (f x))
  | _, _, _ => .error .notImplemented

/-- `pressure_to_energy` elementwise (units.py:355-448). -/
noncomputable def p2eMap (k : Consts) (es vs ps : Str) : Except PyErr (ℝ → ℝ) :=
  chain3 p2ePressure (p2eVolume k) (p2eEnergy k) ps vs es

/-- `energy_to_pressure` elementwise (units.py:260-353). -/
noncomputable def e2pMap (k : Consts) (es vs ps : Str) : Except PyErr (ℝ → ℝ) :=
  chain3 (e2pEnergy k) (e2pVolume k) e2pPressure es vs ps

/-- Run a fallible computation for each index in increasing order, stopping at the first
exception (the Python loops over temperatures and pressures). -/
def seqFin {α : Type*} : {n : ℕ} → (Fin n → Except PyErr α) → Except PyErr (Fin n → α)
  | 0, _ => .ok Fin.elim0
  | _ + 1, f => do
    let a ← f 0
    let as ← seqFin fun i => f i.succ
    return Fin.cons a as

/-! ### The calculator -/

/-- External numerical routines. -/
structure Ext where
  /-- `np.polynomial.polynomial.polyfit(X, Y, deg)`; `polyfit` (polynomials.py:17-23) applies it to each row -/
  polyfit : {n : ℕ} → (X Y : Fin n → ℝ) → (deg : ℕ) → Fin (deg + 1) → ℝ
  /-- `Polynomial.roots` -/
  roots : List ℝ → List ℂ
  /-- `EnergyEOS.fit(eos, V, F)` parameters (E0, K0, K', V0); ev_eos.py:67-101 -/
  eosFit : {n : ℕ} → (eos : Str) → (V F : Fin n → ℝ) → Fin 4 → ℝ

inductive Scheme | td | freq
  deriving DecidableEq
inductive Minimization | poly | eos
  deriving DecidableEq

/-- Settings (qha.py:144-183). -/
structure Settings (nt np : ℕ) where
  scheme : Scheme
  minimization : Minimization
  eos : Str
  edeg : ℕ
  fdeg : ℕ
  eunit : Str
  vunit : Str
  funit : Str
  tunit : Str
  punit : Str
  kieffer : Bool
  temperature : Fin nt → ℝ
  pressure : Fin np → ℝ

/-- Input data (qha_reader.py:115-164). -/
structure Input (nb nf nv : ℕ) extends HA.Input nb nf nv where
  volume : Fin nv → ℝ

/-- The `_results` dictionary (qha.py:199-217). -/
structure Results (nt np : ℕ) where
  Uzp : Fin nt → Fin np → ℝ
  Uth : Fin nt → Fin np → ℝ
  Utot : Fin nt → Fin np → ℝ
  S : Fin nt → Fin np → ℝ
  F : Fin nt → Fin np → ℝ
  Fvib : Fin nt → Fin np → ℝ
  Cv : Fin nt → Fin np → ℝ
  CpmCv : Fin nt → Fin np → ℝ
  Cp : Fin nt → Fin np → ℝ
  VT : Fin nt → Fin np → ℝ
  KT : Fin nt → Fin np → ℝ
  KS : Fin nt → Fin np → ℝ
  Kp : Fin nt → Fin np → ℝ
  alphaV : Fin nt → Fin np → ℝ
  H : Fin nt → Fin np → ℝ
  G : Fin nt → Fin np → ℝ
  gruneisen : Fin nt → Fin np → ℝ

/-- `init_results` (qha.py:185-218). -/
def initResults (nt np : ℕ) : Results nt np :=
  let z : Fin nt → Fin np → ℝ := fun _ _ => 0
  ⟨z, z, z, z, z, z, z, z, z, z, z, z, z, z, z, z, z⟩

/-- Value at `x` of a fitted polynomial (`interpolate` with one row of coefficients,
polynomials.py:44-47). -/
def evalFit {d : ℕ} (c : Fin d → ℝ) (x : ℝ) : ℝ := Poly.polyval (List.ofFn c) x

/-- `minimize_volume` (qha.py:1010-1063): (volume, KT, K'). `find_eos_minimum` (qha.py:961-987) and
`set_target_pressure` (qha.py:989-1008) are inlined. -/
noncomputable def minimizeVolume (k : Consts) (ext : Ext) (s : Settings nt np) (volume free : Fin nv → ℝ)
    (pressure : ℝ) (parameters : Option (Fin (s.edeg + 1) → ℝ)) : Except PyErr (ℝ × ℝ × ℝ) :=
  match s.minimization with
  | .poly => do
    let pars := parameters.getD (ext.polyfit volume free s.edeg)
    let p2e ← p2eMap k s.eunit s.vunit s.punit
    match Poly.findPolynomialMinimum ext.roots (List.ofFn pars) (some (p2e pressure)) with
    | [] => .error .indexError
    | v :: _ => .ok (v, 0, 0)
  | .eos => do
    let p2e ← p2eMap k s.eunit s.vunit s.punit
    let P0 := p2e pressure
    let pars := ext.eosFit s.eos volume (fun n => free n + P0 * volume n)
    let e2p ← e2pMap k s.eunit s.vunit s.punit
    .ok (pars 3, e2p (pars 1), pars 2)

/-- `numerical_bulk_modulus` (qha.py:1065-1111). -/
noncomputable def numericalBulkModulus {n : ℕ} (ext : Ext) (edeg : ℕ) (e2p : ℝ → ℝ)
    (V F : Fin n → ℝ) (idx : Fin n) : ℝ × ℝ :=
  let f := List.ofFn (ext.polyfit V F edeg)
  let df := Poly.polyder f
  let d2f := Poly.polyder (Poly.polyder f)
  let pressures := fun m => -(e2p (Poly.polyval df (V m)))
  let KTs := fun m => e2p (V m * Poly.polyval d2f (V m))
  let dp := Poly.polyder (List.ofFn (ext.polyfit pressures KTs 2))
  (KTs idx, Poly.polyval dp (pressures idx))

/-- The default fine grid as an array of five factors (qha.py:453, 937-959). -/
noncomputable def grid5 : Fin 5 → ℝ := fun m => (Grid.fineGrid 5 0.05).1.getD m 0

/-- The central index reported by `fine_grid` (qha.py:958), as an index into `grid5`. -/
noncomputable def idx5 : Fin 5 := Fin.ofNat 5 (Grid.fineGrid 5 0.05).2

/-- `run_thermodynamics_interpolation` (qha.py:627-849) with Kieffer's correction off; `T` in
kelvin, `phonons` in hertz. -/
noncomputable def runTd (k : Consts) (ext : Ext) (s : Settings nt np) (x : Input nb nf nv)
    (T : Fin nt → ℝ) (phonons : Fin nb → Fin nf → Fin nv → ℝ) : Except PyErr (Results nt np) := do
  let w := usedWeights x.weights
  let ce ← energyMap k c!"kjmol" s.eunit
  let Uzp_ha := fun (i : Fin 1) n => ce (zeroPointEnergy k (fun _ => 0) phonons w i n)
  let Uth_ha := fun i n => ce (thermalEnergy k T phonons w i n)
  let S_ha := fun i n => ce (entropy k T phonons w i n)
  let Cv_ha := fun i n => ce (isochoricHeatCapacity k T phonons w i n)
  let Fvib_ha := fun i n => ce (vibrationalFreeEnergy k T phonons w i n)
  let U_ha := internalEnergy x.U0 (Uzp_ha 0) Uth_ha
  let F_ha := freeEnergy x.U0 Fvib_ha
  let fit := fun (Y : Fin nv → ℝ) => ext.polyfit x.volume Y s.edeg
  let Uzp_pars := fit (Uzp_ha 0)
  let Uth_pars := fun i => fit (Uth_ha i)
  let S_pars := fun i => fit (S_ha i)
  let Cv_pars := fun i => fit (Cv_ha i)
  let Fvib_pars := fun i => fit (Fvib_ha i)
  let U_pars := fun i => fit (U_ha i)
  let F_pars := fun i => fit (F_ha i)
  let m ← seqFin fun (i : Fin nt) => seqFin fun (j : Fin np) =>
    minimizeVolume k ext s x.volume (F_ha i) (s.pressure j) (some (F_pars i))
  let VT := fun i j => (m i j).1
  let e2p ← e2pMap k s.eunit s.vunit s.punit
  let KK := fun i j => match s.minimization with
    | .eos => (m i j).2
    | .poly =>
      let V_grid := fun g => VT i j + VT i j * grid5 g
      numericalBulkModulus ext s.edeg e2p V_grid (fun g => evalFit (F_pars i) (V_grid g)) idx5
  return { initResults nt np with
    VT
    Uzp := fun i j => evalFit Uzp_pars (VT i j)
    Uth := fun i j => evalFit (Uth_pars i) (VT i j)
    S := fun i j => evalFit (S_pars i) (VT i j)
    Cv := fun i j => evalFit (Cv_pars i) (VT i j)
    Fvib := fun i j => evalFit (Fvib_pars i) (VT i j)
    Utot := fun i j => evalFit (U_pars i) (VT i j)
    F := fun i j => evalFit (F_pars i) (VT i j)
    KT := fun i j => (KK i j).1
    Kp := fun i j => (KK i j).2 }

/-- `run_frequency_interpolation` (qha.py:480-625); `T` in kelvin, `phonons` in hertz. -/
noncomputable def runFreq (k : Consts) (ext : Ext) (s : Settings nt np) (x : Input nb nf nv)
    (T : Fin nt → ℝ) (phonons : Fin nb → Fin nf → Fin nv → ℝ) : Except PyErr (Results nt np) := do
  let fpars := fun q b => ext.polyfit x.volume (phonons q b) s.fdeg
  let energy_pars := ext.polyfit x.volume x.U0 s.edeg
  let w := usedWeights x.weights
  let ce ← energyMap k c!"kjmol" s.eunit
  let F_ha := freeEnergy x.U0 (fun i n => ce (vibrationalFreeEnergy k T phonons w i n))
  let m ← seqFin fun (i : Fin nt) => seqFin fun (j : Fin np) =>
    minimizeVolume k ext s x.volume (F_ha i) (s.pressure j) none
  let VT := fun i j => (m i j).1
  let V_grid := fun i j g => VT i j + VT i j * grid5 g
  let phon := fun i j q => Poly.multiInterpolateArray (V_grid i j) (fpars q)
  let U0g := fun i j g => evalFit energy_pars (V_grid i j g)
  let Uzpg := fun i j g => ce (zeroPointEnergy k (fun _ : Fin 1 => 0) (phon i j) w 0 g)
  let Uthg := fun i j g => ce (thermalEnergy k (fun _ : Fin 1 => T i) (phon i j) w 0 g)
  let Sg := fun i j g => ce (entropy k (fun _ : Fin 1 => T i) (phon i j) w 0 g)
  let Cvg := fun i j g => ce (isochoricHeatCapacity k (fun _ : Fin 1 => T i) (phon i j) w 0 g)
  let Fvibg := fun i j g => ce (vibrationalFreeEnergy k (fun _ : Fin 1 => T i) (phon i j) w 0 g)
  let Ug := fun i j g => U0g i j g + Uzpg i j g + Uthg i j g
  let Fg := fun i j g => U0g i j g + Fvibg i j g
  let e2p ← e2pMap k s.eunit s.vunit s.punit
  let KK := fun i j => match s.minimization with
    | .eos => (m i j).2
    | .poly => numericalBulkModulus ext s.edeg e2p (V_grid i j) (Fg i j) idx5
  return { initResults nt np with
    VT
    Uzp := fun i j => Uzpg i j idx5
    Uth := fun i j => Uthg i j idx5
    S := fun i j => Sg i j idx5
    Cv := fun i j => Cvg i j idx5
    Fvib := fun i j => Fvibg i j idx5
    Utot := fun i j => Ug i j idx5
    F := fun i j => Fg i j idx5
    KT := fun i j => (KK i j).1
    Kp := fun i j => (KK i j).2 }

/-- Thermal expansion loop (qha.py:895-900): forward differences, and the backward difference
`(V[-1] - V[-2])/(T[-1] - T[-2])` in the last row.  Only reached with at least 50 rows. -/
noncomputable def alphaColumn (T V : Fin nt → ℝ) : Fin nt → ℝ := fun i =>
  (if h : i.val + 1 < nt then (V ⟨i + 1, h⟩ - V i) / (T ⟨i + 1, h⟩ - T i)
   else (V i - V ⟨i - 1, by omega⟩) / (T i - T ⟨i - 1, by omega⟩)) / V i

/-- `Tmat` (qha.py:905-906): `np.repeat(T, m, axis=0)` is the flat array whose element `l` is
`T[l // m]`; `reshape(n, m)` reads element `i*m + j` at `(i, j)`. -/
def tmat (T : Fin nt → ℝ) : Fin nt → Fin np → ℝ := fun i j =>
  T ⟨(i.val * np + j.val) / np, by
    have hj := j.isLt
    rw [Nat.div_lt_iff_lt_mul (by omega)]
    calc i.val * np + j.val < i.val * np + np := by omega
      _ = (i.val + 1) * np := by ring
      _ ≤ nt * np := Nat.mul_le_mul_right _ i.isLt⟩

/-- `set_enthalpy` and `set_gibbs_free_energy` (qha.py:1113-1173) differ only in the kernel. -/
noncomputable def setPotential (k : Consts) (kernel : (Fin nt → Fin np → ℝ) → (Fin np → ℝ) →
    (Fin nt → Fin np → ℝ) → Fin nt → Fin np → ℝ) (s : Settings nt np) (volume : Fin nt → Fin np → ℝ)
    (pressure : Fin np → ℝ) (energy : Fin nt → Fin np → ℝ) : Except PyErr (Fin nt → Fin np → ℝ) := do
  let cv ← volumeMap k s.vunit c!"m"
  let cp ← pressureMap s.punit c!"Pa"
  let ce ← energyMap k s.eunit c!"kjmol"
  let res := kernel (fun i j => cv (volume i j)) (fun j => cp (pressure j)) (fun i j => ce (energy i j))
  let back ← energyMap k c!"kjmol" s.eunit
  return fun i j => back (res i j)

/-- `_finalize_run` (qha.py:851-934). -/
noncomputable def finalizeRun (k : Consts) (s : Settings nt np) (r : Results nt np) :
    Except PyErr (Results nt np) := do
  let H ← setPotential k (enthalpy k) s r.VT s.pressure r.Utot
  let G ← setPotential k (gibbs k) s r.VT s.pressure r.F
  if nt < 50 then
    return { r with H, G, alphaV := fun _ _ => 0, CpmCv := fun _ _ => 0, Cp := fun _ _ => 0,
                    gruneisen := fun _ _ => 0, KS := r.KT }
  else
    let tK ← temperatureMap s.tunit c!"K"
    let T := fun i => tK (s.temperature i)
    let alphaV := fun i j => alphaColumn T (fun i => r.VT i j) i
    let cp ← pressureMap s.punit c!"Pa"
    let cv ← volumeMap k s.vunit c!"m"
    let toE ← energyMap k c!"kjmol" s.eunit
    let CpmCv := fun i j =>
      toE (alphaV i j ^ 2 * cp (r.KT i j) * cv (r.VT i j) * (k.N * tmat (np := np) T i j))
    let Cp := fun i j => r.Cv i j + CpmCv i j
    let fromE ← energyMap k s.eunit c!"kjmol"
    let V_m := fun i j => cv (r.VT i j)
    let KT_Pa := fun i j => cp (r.KT i j)
    let Cv_J := fun i j => fromE (r.Cv i j)
    let KS := adiabaticBulkModulus k T V_m KT_Pa alphaV Cv_J 1
    let fromPa ← pressureMap c!"Pa" s.punit
    return { r with H, G, alphaV, CpmCv, Cp, KS := fun i j => fromPa (KS i j),
                    gruneisen := gruneisenParameter k V_m KT_Pa alphaV Cv_J }

/-- `QHACalculator.run` (qha.py:438-478).  With `--acoustic` the property `acoustic`
(qha.py:254-262) asks the reader for an attribute it does not have (qha_reader.py). -/
noncomputable def run (k : Consts) (ext : Ext) (s : Settings nt np) (x : Input nb nf nv) :
    Except PyErr (Results nt np) := do
  let tK ← temperatureMap s.tunit c!"K"
  let T := fun i => tK (s.temperature i)
  let hz ← frequencyMap k s.funit c!"Hz"
  let phonons := fun q b n => hz (x.freq q b n)
  if s.kieffer then .error .attributeError
  else
    let r ← match s.scheme with
      | .freq => runFreq k ext s x T phonons
      | .td => runTd k ext s x T phonons
    finalizeRun k s r

end Verif.QHA
