/-
Property C137 for the quasi-harmonic command: what the size of the angstrom does to the bulk modulus.
-/
import Verif.QHA.Witness
import Verif.Units.SI

namespace Verif.QHA
open Verif.Py Verif.Units Verif.HA Verif.QHA.Spec Verif.StatMech Verif.Poly.Spec

variable {nt np nb nf nv : ℕ} {ext : Ext} {s : Settings nt np} {x : Input nb nf nv}
  {u : Choice} {r : Results nt np}

/-- **C137, violated (bulk modulus).** With volumes in angstrom, the unit the command assumes, every isothermal bulk modulus is
smaller than the curvature `V F''(V)` of the fitted free energy by more than 4.4 parts in 10^5. -/
theorem C137_bulk_modulus_violated (hext : Numerics ext) (hu : u.Of s) (hv : u.v = .A) (hmin : s.minimization = .poly)
    (hs : s.scheme = .td) (hdeg : s.edeg ≤ 4) (hrun : run codata ext s x = .ok r) {ha : HA.Results nt nv}
    (hha : HA.run codata (harmonicSettings s) x.toInput = .ok ha) (i : Fin nt) (j : Fin np) (hV : 0 < r.VT i j) :
    r.KT i j * u.p.pascal < (1 - 0.000044) *
      (r.VT i j * deriv (deriv (value (ext.polyfit x.volume (ha.F i) s.edeg))) (r.VT i j) * u.e.joule codata /
        SI.angstrom ^ 3) := by
  obtain ⟨h1, h2⟩ := C69_bulk_modulus hext hu hmin hs hdeg hrun hha i j hV
  have hp := pascal_pos u.p
  have hk : 0 < r.KT i j * u.p.pascal := by positivity
  have ha3 : u.v.m3 codata = 1.00001495 ^ 3 * SI.angstrom ^ 3 := by
    rw [hv]
    simp only [LengthUnit.m3, codata, SI.angstrom]
    norm_num
  have hs0 : SI.angstrom ^ 3 ≠ 0 := by norm_num [SI.angstrom]
  rw [ha3] at h1
  set X := r.VT i j * deriv (deriv (value (ext.polyfit x.volume (ha.F i) s.edeg))) (r.VT i j) * u.e.joule codata
  have e : X / SI.angstrom ^ 3 = 1.00001495 ^ 3 * (r.KT i j * u.p.pascal) := by
    rw [h1]
    field_simp
  rw [e]
  norm_num
  linarith

/-- Witness: a run with volumes in angstrom that ends with a positive volume. -/
example : ∃ (ext : Ext) (ha : HA.Results 3 3) (r : Results 3 1), Numerics ext ∧ exUnits.v = .A ∧
    run codata ext (exSettings 3) exInput = .ok r ∧
    HA.run codata (harmonicSettings (exSettings 3)) exInput.toInput = .ok ha ∧ ∀ i j, 0 < r.VT i j := by
  obtain ⟨ext, ha, r, hext, hha, hr, h⟩ := witness codata 3
  exact ⟨ext, ha, r, hext, rfl, hr, hha, fun i j => by rw [(h i j).1]; norm_num⟩

end Verif.QHA
