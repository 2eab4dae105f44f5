/- Concrete cases for C175. -/
import Verif.Elastic.BinaryCases
import Verif.Polar.Binary

noncomputable section

namespace Verif.Polar
open Verif.Elastic Verif.Elastic.Rounded Verif.Elastic.Rounded.Spec Verif.Polar.Spec

theorem steel_plane (k : Plane) (t : ℝ) : young (Elastic.sTensor steelS) (direction k t) = 200 := by
  obtain ⟨θ, φ, e⟩ : ∃ θ φ, direction k t = Elastic.vector θ φ := by
    cases k
    · exact ⟨Real.pi / 2, t, by simp [direction, Elastic.vector]⟩
    · exact ⟨t, 0, by simp [direction, Elastic.vector]⟩
    · exact ⟨t, Real.pi / 2, by simp [direction, Elastic.vector]⟩
  rw [e, steel_young]

/-- The 360 rows of each section of an isotropic steel hold 200 GPa up to the tenth decimal. -/
example (k : Plane) (i : ℕ) (hi : i < 360) : ∃ d e, (young64 computer steelS 360 k)[i]? = some [d, e] ∧ |e - 200| ≤ 1e-10 := by
  obtain ⟨-, d, e, h1, -, h2⟩ := C175_young computer C154_computer steelS 360 (by decide) (by decide) k i hi 200
    (steel_plane k _).symm (by norm_num) (by rw [steel_size]; norm_num)
  refine ⟨d, e, h1, h2.trans ?_⟩
  rw [steel_size]
  norm_num [u]

example := C175_compressibility computer C154_computer steelS 360 (by decide) (by decide) .yz 90 (by decide) _ rfl

end Verif.Polar
