/-
Model of the quantities derived at the end of a quasi-harmonic run in the arithmetic of the computer: every operation is rounded.
Simplification: exponents are not limited, and the C compiler does not fuse multiplications and additions.
-/
import Verif.QHA.Model
import Verif.EoS.BinaryModel

noncomputable section

namespace Verif.QHA.Rounded
open Verif.QHA Verif.Units
open Verif.EoS.Rounded (Machine)

variable {nt np : ℕ} (m : Machine)

/-- `p*V*NA/1000` added to an energy: `enthalpy` and `gibbs` (thermodynamics.pyx:21-57, 61-97). -/
def potential (k : Consts) (V : Fin nt → Fin np → ℝ) (p : Fin np → ℝ) (E : Fin nt → Fin np → ℝ) : Fin nt → Fin np → ℝ :=
  fun i j => m.rnd (E i j + m.rnd (m.rnd (m.rnd (p j * V i j) * k.N) / 1000))

/-- Thermal expansion loop (qha.py:895-900). -/
def alphaColumn (T V : Fin nt → ℝ) : Fin nt → ℝ := fun i =>
  m.rnd ((if h : i.val + 1 < nt then m.rnd (m.rnd (V ⟨i + 1, h⟩ - V i) / m.rnd (T ⟨i + 1, h⟩ - T i))
   else m.rnd (m.rnd (V i - V ⟨i - 1, by omega⟩) / m.rnd (T i - T ⟨i - 1, by omega⟩))) / V i)

/-- `Cp_corr` in J/mol (qha.py:905-910), from moduli in Pa and volumes in m^3. -/
def capacityDifference (k : Consts) (T : Fin nt → ℝ) (V KT alpha : Fin nt → Fin np → ℝ) : Fin nt → Fin np → ℝ :=
  fun i j => m.rnd (m.rnd (m.rnd (m.npow (alpha i j) 2 * KT i j) * V i j) * m.rnd (k.N * tmat (np := np) T i j))

/-- `adiabatic_bulk_modulus` (thermodynamics.pyx:103-155). -/
def adiabaticBulkModulus (k : Consts) (T : Fin nt → ℝ) (V KT alpha Cv : Fin nt → Fin np → ℝ) (factor : ℝ) : Fin nt → Fin np → ℝ :=
  open Classical in
  fun i j =>
    if T i = 0 ∨ Cv i j = 0 then KT i j
    else m.rnd (KT i j + m.rnd (m.rnd (m.rnd (m.rnd (m.rnd (m.rnd (alpha i j * alpha i j) *
      m.rnd (m.rnd (m.rnd (factor * KT i j) * factor) * KT i j)) * V i j) * T i) / m.rnd (Cv i j / k.N)) / factor))

/-- `gruneisen_parameter` (thermodynamics.pyx:161-206). -/
def gruneisenParameter (k : Consts) (V KT alpha Cv : Fin nt → Fin np → ℝ) : Fin nt → Fin np → ℝ :=
  open Classical in
  fun i j => if Cv i j = 0 then 0 else m.rnd (m.rnd (m.rnd (V i j * KT i j) * alpha i j) / m.rnd (Cv i j / k.N))

end Verif.QHA.Rounded
