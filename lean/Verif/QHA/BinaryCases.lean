/-
C163 on the computer: periclase near room temperature.
-/
import Verif.QHA.BinaryProps
import Verif.EoS.BinaryCases

noncomputable section

namespace Verif.QHA.Rounded
open Verif.QHA Verif.QHA.Rounded.Spec Verif.Units
open Verif.EoS.Rounded (computer C162_computer computer_ordered round_exact)
open Verif.Elastic.Rounded.Spec (u)

/-- Three temperatures. -/
def caseT : Fin 3 → ℝ := ![300, 310, 320]

/-- Volumes of the cell (Å^3). -/
def caseV : Fin 3 → ℝ := ![75, 75.03, 75.07]

/-- The thermal expansion at 300 K is 4e-5 per kelvin. -/
example : |alphaColumn computer caseT caseV 0 - 4e-5| ≤ 1e-19 := by
  have h := C163_expansion C162_computer caseT caseV 0 (by norm_num [partner, caseT]) (by norm_num [caseV])
  have e : QHA.alphaColumn caseT caseV 0 = 4e-5 := by
    rw [alpha_exact]
    norm_num [partner, caseT, caseV]
  rw [e] at h
  refine h.trans ?_
  norm_num [u, abs_of_pos]

/-- In the last row the difference is taken backwards. -/
example : 0 < alphaColumn computer caseT caseV 2 := by
  have e : partner (2 : Fin 3) = 1 := rfl
  have t : caseT 1 = 310 ∧ caseT 2 = 320 := ⟨rfl, rfl⟩
  have v : caseV 1 = 75.03 ∧ caseV 2 = 75.07 := ⟨rfl, rfl⟩
  refine (C163_expansion_sign C162_computer caseT caseV 2 ?_ ?_).2.2 ?_
  · rw [e, t.1, t.2]
    norm_num
  · rw [v.2]
    norm_num
  · rw [e, t.1, t.2, v.1, v.2]
    norm_num

/-- Volumes that are off by one part in 10^9 give a thermal expansion that is off by 2.1e-10 per kelvin. -/
example (V : Fin 3 → ℝ) (h : ∀ i, |V i - caseV i| ≤ 1e-9 * caseV i) : |alphaColumn computer caseT V 0 - 4e-5| ≤ 2.1e-10 := by
  have e : QHA.alphaColumn caseT caseV 0 = 4e-5 := by
    rw [alpha_exact]
    norm_num [partner, caseT, caseV]
  have := C163_volumes C162_computer caseT V caseV 0 (by norm_num [partner, caseT])
    (fun i => by fin_cases i <;> norm_num [caseV]) (by norm_num) h
  rw [e] at this
  refine this.trans ?_
  norm_num [u, partner, caseT, caseV, abs_of_pos]

/-- Tables of one pressure: volumes (m^3), bulk moduli (Pa), thermal expansions and heat capacities (J/mol/K). -/
def tabV : Fin 3 → Fin 1 → ℝ := fun i _ => caseV i * 1e-30
def tabK : Fin 3 → Fin 1 → ℝ := fun _ _ => 160000000000
def tabA : Fin 3 → Fin 1 → ℝ := fun _ _ => 4e-5
def tabC : Fin 3 → Fin 1 → ℝ := fun _ _ => 37

theorem all_self (x : Fin 3 → Fin 1 → ℝ) : NearAll 8 x x := fun i j => (self _).mono (by norm_num)

theorem tabV_pos (i : Fin 3) (j : Fin 1) : 0 ≤ tabV i j := by fin_cases i <;> norm_num [tabV, caseV]

theorem caseT_pos (i : Fin 3) : 0 ≤ caseT i := by fin_cases i <;> norm_num [caseT]

example (k : Consts) :=
  C163_gruneisen (k := k) C162_computer (all_self tabV) (all_self tabK) (all_self tabA) (all_self tabC)

example (k : Consts) :=
  C163_capacity (k := k) C162_computer (fun i => (self (caseT i)).mono (by norm_num)) (all_self tabV) (all_self tabK) (all_self tabA)

example (k : Consts) :=
  C163_adiabatic (k := k) C162_computer (fun i => (self (caseT i)).mono (by norm_num)) (all_self tabV) (all_self tabK) (all_self tabA)
    (all_self tabC) caseT_pos tabV_pos (fun _ _ => by norm_num [tabK]) (fun _ _ => by norm_num [tabC])

/-- On the computer the adiabatic modulus of periclase is not below 160 GPa, and its isobaric heat capacity not below 37 J/mol/K. -/
example (k : Consts) :
    160000000000 ≤ adiabaticBulkModulus computer k caseT tabV tabK tabA tabC 1 0 0 ∧
    37 ≤ computer.rnd (37 + Rounded.capacityDifference computer k caseT tabV tabK tabA 0 0) :=
  C163_order (k := k) C162_computer computer_ordered.rnd caseT tabV tabK tabA tabC 0 0 (caseT_pos 0) (tabV_pos 0 0)
    (by norm_num [tabK]) (by norm_num [tabC])
    (round_exact 160000000000 37 (160000000000 * 2 ^ 15) (by norm_num) (by norm_num) (by norm_num [zpow_neg]))
    (round_exact 37 5 (37 * 2 ^ 47) (by norm_num) (by norm_num) (by norm_num [zpow_neg]))

example (k : Consts) :=
  C163_ratio (k := k) C162_computer caseT tabV tabK tabA tabC caseT_pos tabV_pos (fun _ _ => by norm_num [tabK])
    (fun _ _ => by norm_num [tabC]) 0 0

/-- At 10 GPa. -/
example (k : Consts) := C163_potential (k := k) C162_computer tabV (fun _ => 10000000000) (fun _ _ => -700000) 0 0

end Verif.QHA.Rounded
