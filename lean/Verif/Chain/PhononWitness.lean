/-
Concrete outputs that meet the hypotheses of C144.
-/
import Verif.Chain.PhononProps
import Verif.Interfaces.CrystalWitness

noncomputable section

namespace Verif.Chain
open Verif.Py Verif.IO Verif.IO.Spec Verif.Interfaces Verif.Interfaces.Spec Verif.Phonon Verif.Phonon.Spec Verif.Units
  Verif.Units.Spec Spec

/-- The table of frequencies of periclase in a larger cell. -/
def softTable : List Str :=
  [c!"    1-   3    0.0000E+00      0.0000    0.0000  (F1u)   A (    0.00)   I",
    c!"    4-   6    0.3300E-05    398.2500   11.9390  (F1u)   A ( 1000.00)   I", c!"  "]

/-- The lines as a text. -/
def textOf (ls : List Str) : Str := (ls.map (· ++ ['\n'])).flatten

/-- Two outputs and the list of them. -/
def mgoDisk (f : Str) : Option Str :=
  if f = c!"a.out" then some (textOf (mgoHead ++ mgoTable))
  else if f = c!"b.out" then some (textOf (mgoHead ++ softTable))
  else if f = c!"list" then some c!"a.out\nb.out\n"
  else none

theorem mgo_lattice_ne : mgoLattice ≠ 0 := fun h => by
  have := congrFun (congrFun h 0) 1
  norm_num [mgoLattice] at this

theorem mgo_output : GammaOutput (textOf (mgoHead ++ mgoTable))
    ⟨2, mgoLattice.det, -275.25, [0, 0, 0, 405.75, 405.75, 405.75]⟩ := by
  refine ⟨_, mgoAtoms, mgoLattice, 21, [(1, 3, 0), (4, 6, 405.75)], mgo_text, mgo_cell mgoTable (by decide +kernel),
    by norm_num, mgo_lattice_ne, mgo_title _, mgo_modes, rfl, rfl, rfl, rfl, ?_⟩
  intro ν hν
  simp only [List.mem_cons, List.not_mem_nil, or_false] at hν
  rcases hν with rfl | rfl | rfl | rfl | rfl | rfl
  iterate 3 exact ⟨0, by norm_num⟩
  iterate 3 exact ⟨4057500000000, by norm_num⟩

theorem soft_output : GammaOutput (textOf (mgoHead ++ softTable))
    ⟨2, mgoLattice.det, -275.25, [0, 0, 0, 398.25, 398.25, 398.25]⟩ := by
  refine ⟨_, mgoAtoms, mgoLattice, 21, [(1, 3, 0), (4, 6, 398.25)], isText_join _ (by decide +kernel),
    mgo_cell softTable (by decide +kernel), by norm_num, mgo_lattice_ne, mgo_title _, ?_, rfl, rfl, rfl, rfl, ?_⟩
  · exact ⟨softTable.take 2, c!"  ", [], rfl,
      .cons (modeLine_of (by decide) (by decide +kernel) (by decide +kernel) (by decide +kernel) (by decide +kernel))
        (.cons (modeLine_of (by decide) (by decide +kernel) (by decide +kernel) (by decide +kernel)
          (by decide +kernel)) .nil), blank_of (by decide)⟩
  · intro ν hν
    simp only [List.mem_cons, List.not_mem_nil, or_false] at hν
    rcases hν with rfl | rfl | rfl | rfl | rfl | rfl
    iterate 3 exact ⟨0, by norm_num⟩
    iterate 3 exact ⟨3982500000000, by norm_num⟩

/-- `C144_crystal` applies to the list, at 25 °C: the zero point energy of the second output is that of its three optical
vibrations. -/
example : ∃ fuel s text doc,
    inpgen (crystalFiles fuel mgoDisk) ⟨[]⟩ c!"list" c!"mgo" true 0 c!"crystal" c!"periclase" =
      (s, .written c!"mgo.yaml" text) ∧ Denotes text doc ∧
    ∃ res : HA.Results 1 2, harmonic codata ⟨c!"Ha", c!"cm^-1", c!"C", fun _ => 25⟩ (.tree doc) = .ok (.ok ⟨2, res⟩) ∧
      codata.Ha * res.Uzp 0 1 = 3 * (codata.h * (100 * codata.c * 398.25) / 2) := by
  have hC : Means temperatures c!"C" ⟨[c!"celsius", c!"°c", c!"c"], 1, 273.15⟩ := by
    constructor <;> simp [temperatures, lower]
  obtain ⟨fuel, h⟩ := C144_crystal (nt := 1) codata (disk := mgoDisk) (filename := c!"list") (isList := true)
    (files := [c!"a.out", c!"b.out"]) (ref := 0) (n := 2)
    (os := [⟨2, mgoLattice.det, -275.25, [0, 0, 0, 405.75, 405.75, 405.75]⟩,
      ⟨2, mgoLattice.det, -275.25, [0, 0, 0, 398.25, 398.25, 398.25]⟩])
    (.inr ⟨rfl, c!"a.out\nb.out\n", rfl,
      .cons ⟨['\n'], rfl, by simp, fun c hc => by obtain rfl := Option.some.inj hc; decide⟩
        (.cons ⟨['\n'], rfl, by simp, fun c hc => by obtain rfl := Option.some.inj hc; decide⟩ .nil)⟩)
    (.cons ⟨_, rfl, mgo_output⟩ (.cons ⟨_, rfl, soft_output⟩ .nil)) (by decide) (by simp) (by simp)
    (job := c!"periclase") ⟨⟨_, _, rfl, by decide⟩, by decide, by decide, by decide⟩ c!"mgo" (t := c!"C") (by simp) hC
    (fun _ => 25)
  obtain ⟨s, text, doc, h1, h2, -, ⟨nv, res⟩, h3, h4, h5⟩ := h fuel le_rfl
  simp only [List.length_cons, List.length_nil] at h4
  subst h4
  refine ⟨fuel, s, text, doc, h1, h2, res, h3, ?_⟩
  have := (h5 0 1 _ (by norm_num [Scale.toRef]) rfl).zeroPoint
  rw [this]
  norm_num [cellMean, Spec.zeroPoint, List.filter]
  ring

end Verif.Chain
