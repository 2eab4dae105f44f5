/-
Specification of an elastic analysis from the output of an ab initio program to the reported extremes: what the elastic
properties along directions are (Hooke's law only), and what their ranges over all directions are.
-/
import Verif.Elastic.Sensitivity
import Verif.Elastic.RunProps
import Verif.IO.SoecProps
import Verif.Interfaces.SoecProps

namespace Verif.Chain.Spec
open Verif.Elastic Verif.Elastic.Spec

/-- `E` is Young's modulus along `n`: pulling along `n` with stress 1 stretches the crystal along `n` by `1 / E`. -/
def YoungIs (C : M6) (n : V3) (E : ℝ) : Prop :=
  ∃ ε, Hooke C ε (uniaxial 1 n) ∧ along ε n n ≠ 0 ∧ E = 1 / along ε n n

/-- `b` is the linear compressibility along `n` (per TPa for moduli in GPa): a pressure of 1 shortens the crystal along `n` by
`b / 1000`. -/
def CompressibilityIs (C : M6) (n : V3) (b : ℝ) : Prop :=
  ∃ ε, Hooke C ε (hydrostatic 1) ∧ b = 1000 * -along ε n n

/-- `G` is the shear modulus on the pair `a`, `b`: shear stress over engineering shear strain. -/
def ShearIs (C : M6) (a b : V3) (G : ℝ) : Prop :=
  ∃ ε, Hooke C ε (shear 1 a b) ∧ along ε a b ≠ 0 ∧ G = 1 / (2 * along ε a b)

/-- `ν` is Poisson's ratio for pulling along `a` and shrinking along `b`. -/
def PoissonIs (C : M6) (a b : V3) (ν : ℝ) : Prop :=
  ∃ ε, Hooke C ε (uniaxial 1 a) ∧ along ε a a ≠ 0 ∧ ν = -along ε b b / along ε a a

/-- `lo` and `hi` are the smallest and the largest value over all directions. -/
def Range (P : V3 → ℝ → Prop) (lo hi : ℝ) : Prop :=
  (∀ n x, UnitVector n → P n x → lo ≤ x ∧ x ≤ hi) ∧ (∃ n, UnitVector n ∧ P n lo) ∧ ∃ n, UnitVector n ∧ P n hi

/-- The same over all pairs of perpendicular directions. -/
def PairRange (P : V3 → V3 → ℝ → Prop) (lo hi : ℝ) : Prop :=
  (∀ a b x, Orthonormal a b → P a b x → lo ≤ x ∧ x ≤ hi) ∧ (∃ a b, Orthonormal a b ∧ P a b lo) ∧
    ∃ a b, Orthonormal a b ∧ P a b hi

/-- The reported extremes of the four directional properties are those of the crystal `C` up to the errors that an error `t` of
the moduli can cause in a crystal that resists every strain with at least `l`; without error (`t = 0`) they are exact. -/
def Reports (C : M6) (l t : ℝ) (E LC G Nu : Variation) : Prop :=
  ∃ Elo Ehi Llo Lhi Glo Ghi Nlo Nhi, Range (YoungIs C) Elo Ehi ∧ Range (CompressibilityIs C) Llo Lhi ∧
    PairRange (ShearIs C) Glo Ghi ∧ PairRange (PoissonIs C) Nlo Nhi ∧
    (Within (6 * t / l) Elo E.minimum ∧ Within (6 * t / l) Ehi E.maximum) ∧
    (Within (6 * t / l) Glo G.minimum ∧ Within (6 * t / l) Ghi G.maximum) ∧
    (|LC.minimum - Llo| ≤ 6 * t / (l - 6 * t) * (1000 * √3 / l) ∧
      |LC.maximum - Lhi| ≤ 6 * t / (l - 6 * t) * (1000 * √3 / l)) ∧
    (|Nu.minimum - Nlo| ≤ 6 * t / (l - 6 * t) * (1 + 6 * t / l) * √(Ehi / Elo) + 6 * t / l * max |Nlo| |Nhi| ∧
      |Nu.maximum - Nhi| ≤ 6 * t / (l - 6 * t) * (1 + 6 * t / l) * √(Ehi / Elo) + 6 * t / l * max |Nlo| |Nhi|)

/-- A run is completed and its Voigt, Reuss and Hill moduli are those of the crystal `C` up to errors `t` of the moduli. -/
def AccurateAverages (C : M6) (l t : ℝ) (r : Report) : Prop :=
  r.completed = true ∧
  ∀ s density, soec C density = .ok s → ∀ f, f = Averages.voigt ∨ f = Averages.reuss ∨ f = Averages.hill →
    Within (6 * t / l) (f s.averages).K (f r.averages).K ∧ Within (6 * t / l) (f s.averages).G (f r.averages).G ∧
    Within (6 * t / l) (f s.averages).E (f r.averages).E

/-- The report of a run is right for the crystal `C` up to errors `t` of the moduli: the run is completed, the Voigt, Reuss and
Hill moduli and the extremes over all directions are those of `C`. -/
def Accurate (C : M6) (l t : ℝ) (r : Report) : Prop :=
  AccurateAverages C l t r ∧ ∃ E LC G Nu, r.variations = some (E, LC, G, Nu) ∧ Reports C l t E LC G Nu

/-- The largest error made by writing the moduli: none when they have at most four decimals, half a unit of the fourth decimal
otherwise. -/
def WriteError (m : Fin 6 → Fin 6 → ℚ) (t : ℝ) : Prop := t = 1 / 20000 ∨ t = 0 ∧ ∀ i j, ∃ n : ℤ, m i j = n / 10 ^ 4

/-- The moduli outside the upper left block and the diagonal, which vanish in orthorhombic crystals, are either all negligible or
not all below the tolerance of the classifier. -/
def Clear (m : Fin 6 → Fin 6 → ℚ) : Prop :=
  (∀ i j, i ≠ j → (3 ≤ i.val ∨ 3 ≤ j.val) → |m i j| < 1 / 20000) ∨
  ∃ i j, i ≠ j ∧ (3 ≤ i.val ∨ 3 ≤ j.val) ∧ 11 / 10000 ≤ |m i j|

/-- The error of the moduli that the way through the input file can cause: 0.0021 in any case, and only the error of writing when
no modulus is so small that the classifier neglects it. -/
def ChainError (m : Fin 6 → Fin 6 → ℚ) (t : ℝ) : Prop := t = 21 / 10000 ∨ Clear m ∧ WriteError m t

/-- `C` (GPa) holds the moduli of VASP's table `m` (kBar) in Voigt's order. -/
def Printed (m C : Fin 6 → Fin 6 → ℚ) : Prop :=
  ∀ p q, C (Interfaces.Spec.voigt p) (Interfaces.Spec.voigt q) = m (Interfaces.Spec.vasp p) (Interfaces.Spec.vasp q) / 10

/-- The same moduli when the names of the shears `yz` and `xz` are exchanged. -/
def Exchanged (C X : Fin 6 → Fin 6 → ℚ) : Prop :=
  ∀ p q, X (Interfaces.Spec.voigt p) (Interfaces.Spec.voigt q) =
    C (Interfaces.Spec.voigt (Interfaces.Spec.exchange p)) (Interfaces.Spec.voigt (Interfaces.Spec.exchange q))

/-- A title the file format can carry: it starts with a visible character other than a digit, has one line and does not end in
white space. -/
def GoodTitle (t : Py.Str) : Prop :=
  IO.Spec.Title t ∧ '\n' ∉ t ∧ ∀ c, t.getLast? = some c → c ∉ [' ', '\t', '\n', '\r', '\x0b', '\x0c']

end Verif.Chain.Spec
