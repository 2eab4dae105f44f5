/-
Property C160: a crystal between two isotropic media has its wave velocities between theirs.
-/
import Verif.Elastic.Sandwich
import Verif.Seismic.Stiffer
import Verif.Tac

namespace Verif.Seismic
open Verif.Py Verif.Elastic Verif.Elastic.Spec Spec

/-- The velocities (km/s) of the slow, the middle and the fast wave of an isotropic medium of bulk modulus `K` and shear
modulus `G` (GPa) and density `density` (kg/m^3): `sqrt (G / ρ)` twice and `sqrt ((K + 4 G / 3) / ρ)`. -/
noncomputable def Spec.isotropicWaves (K G density : ℝ) : V3 :=
  let vs := Real.sqrt (10 ^ 9 * G / density) / 1000
  let vp := Real.sqrt (10 ^ 9 * (K + 4 * G / 3) / density) / 1000
  ![vs, vs, vp]

/-- C160, waves: in every direction each wave of a crystal between two isotropic media is at least as fast as that of the
softer and at most as fast as that of the stiffer medium, in both elastic calculators. -/
theorem C160_waves (num : Numerics) (hn : EighCorrect num) {C : M6} (hC : C.PosDef) {K G K' G' : ℝ} (hK : 0 < K) (hG : 0 < G)
    (hK' : 0 < K') (hG' : 0 < G') (h : Stiffer (isotropic K G) C) (h' : Stiffer C (isotropic K' G')) {density : ℝ}
    (hd : 0 < density) {s : Soec} (hs : soec C density = .ok s) {o : Seismic} (ho : seismic C density = .ok o)
    (theta phi : ℝ) (st : State) :
    (∀ i, isotropicWaves K G density i ≤ Soec.phaseVelocity num s theta phi i ∧
      Soec.phaseVelocity num s theta phi i ≤ isotropicWaves K' G' density i) ∧
    ∃ V, (step num o (.read .phaseVelocity) (step num o (.spherical theta phi) st).2).1 = .ok (.vec V) ∧
      ∀ i, isotropicWaves K G density i ≤ V i ∧ V i ≤ isotropicWaves K' G' density i := by
  have hp := isotropic_posDef hK hG
  have hp' := isotropic_posDef hK' hG'
  obtain ⟨s1, h1⟩ := soec_of_det (posDef_det hp) density
  obtain ⟨s2, h2⟩ := soec_of_det (posDef_det hp') density
  obtain ⟨o1, g1⟩ : ∃ o, seismic (isotropic K G) density = .ok o := ⟨_, if_neg (posDef_det hp)⟩
  obtain ⟨o2, g2⟩ : ∃ o, seismic (isotropic K' G') density = .ok o := ⟨_, if_neg (posDef_det hp')⟩
  obtain ⟨a1, V1, V, b1, b2, b3⟩ := C129_waves num hn hp hC h hd le_rfl h1 hs g1 ho theta phi st st
  obtain ⟨c1, W, W2, d1, d2, d3⟩ := C129_waves num hn hC hp' h' hd le_rfl hs h2 ho g2 theta phi st st
  obtain ⟨i1, i2, -⟩ := C38_isotropic num hn K G density hK hG hd s1 h1 o1 g1 theta phi
  obtain ⟨j1, j2, -⟩ := C38_isotropic num hn K' G' density hK' hG' hd s2 h2 o2 g2 theta phi
  obtain rfl : V = W := by
    have e := b2.symm.trans d1
    simpa using e
  refine ⟨fun i => ⟨?_, ?_⟩, V, b2, fun i => ⟨?_, ?_⟩⟩
  · have e := a1 i
    rwa [i1] at e
  · have e := c1 i
    rwa [j1] at e
  · have e := (i2 st).symm.trans b1
    simp only [Except.ok.injEq, Value.vec.injEq] at e
    have f := b3 i
    rwa [← e] at f
  · have e := (j2 st).symm.trans d2
    simp only [Except.ok.injEq, Value.vec.injEq] at e
    have f := d3 i
    rwa [← e] at f

/-- C160, cubic crystals: the waves travel, in every direction, between the velocities of the two isotropic media that
share the bulk modulus and have the smaller and the larger of the two shear constants. -/
theorem C160_cubic_waves (num : Numerics) (hn : EighCorrect num) {C : M6} (hC : Cubic C) (hp : C.PosDef) {density : ℝ}
    (hd : 0 < density) {s : Soec} (hs : soec C density = .ok s) {o : Seismic} (ho : seismic C density = .ok o)
    (theta phi : ℝ) (st : State) :
    let lo := isotropicWaves (cubicBulk C) (min (C 3 3) (faceShear C)) density
    let hi := isotropicWaves (cubicBulk C) (max (C 3 3) (faceShear C)) density
    (∀ i, lo i ≤ Soec.phaseVelocity num s theta phi i ∧ Soec.phaseVelocity num s theta phi i ≤ hi i) ∧
    ∃ V, (step num o (.read .phaseVelocity) (step num o (.spherical theta phi) st).2).1 = .ok (.vec V) ∧
      ∀ i, lo i ≤ V i ∧ V i ≤ hi i := by
  obtain ⟨h1, h2, h3⟩ := cubic_positive hC hp
  obtain ⟨b1, b2⟩ := cubic_between hC
  exact C160_waves num hn hp h1 (lt_min h3 h2) h1 (lt_max_of_lt_left h3) b1 b2 hd hs ho theta phi st

end Verif.Seismic
