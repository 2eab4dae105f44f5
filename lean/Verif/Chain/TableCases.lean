/-
Concrete files that meet the hypotheses of C153.
-/
import Verif.Chain.TableProps
import Verif.Chain.PhononWitness
import Verif.Chain.PhonopyCases

noncomputable section

namespace Verif.Chain
open Verif.Py Verif.IO Verif.IO.Spec Verif.Interfaces Verif.Interfaces.Spec Verif.Phonon Verif.Phonon.Spec Verif.Units
  Verif.Units.Spec Spec
open Verif.Export (HaRun)

theorem near_rat {ε : ℝ} (hε : 0 < ε) (y : ℝ) : ∃ q : ℚ, |q - y| ≤ ε * |y| := by
  by_cases hy : y = 0
  · exact ⟨0, by simp [hy]⟩
  · obtain ⟨q, hq⟩ := exists_rat_near y (mul_pos hε (abs_pos.2 hy))
    exact ⟨q, by rw [abs_sub_comm]; exact hq.le⟩

/-- Every result can be held by a file, with any relative error. -/
theorem holds_exists {nt nv : ℕ} {ε : ℝ} (hε : 0 < ε) (T : Fin nt → ℝ) (res : HA.Results nt nv) :
    ∃ r, Holds ε r T res := by
  choose q hq using fun y => near_rat hε y
  let z (c : Tabulated) (i j : ℕ) : ℚ := if h : i < nt ∧ j < nv then q (c.result res ⟨i, h.1⟩ ⟨j, h.2⟩) else 0
  let m (c : Tabulated) : Export.Values := .mat ((List.range nt).map fun i => (List.range nv).map (z c i))
  refine ⟨⟨List.replicate nv 70, (List.finRange nt).map fun i => q (T i), List.replicate nv (-275), fun p =>
    if p = c!"Uth" then m .thermal else if p = c!"Utot" then m .total else if p = c!"S" then m .entropy
    else if p = c!"Fvib" then m .vibrational else if p = c!"F" then m .free else m .heat⟩, ?_, ?_, ?_, ?_⟩
  · simp
  · intro i p hp
    rw [List.getElem?_map, List.getElem?_eq_getElem (by simp)] at hp
    simp only [List.getElem_finRange, Option.map_some, Option.some.injEq] at hp
    rw [← hp]
    exact hq _
  · simp
  · intro c
    refine ⟨z c, ?_, fun i v => ?_⟩
    · cases c <;> rfl
    · simp only [z, i.2, v.2, and_self, dif_pos]
      exact hq _

/-- The two outputs of `PhononWitness`, at 25 °C and 1000 °C, saved with eleven correct digits: the table of the heat capacity
has the line of 1000 °C, and in the column of the second output three times the heat capacity of its oscillator. -/
example : ∃ fuel s text doc,
    inpgen (crystalFiles fuel mgoDisk) ⟨[]⟩ c!"list" c!"mgo" true 0 c!"crystal" c!"periclase" =
      (s, .written c!"mgo.yaml" text) ∧ Denotes text doc ∧
    ∃ res : HA.Results 2 2, harmonic codata ⟨c!"Ha", c!"cm^-1", c!"C", ![25, 1000]⟩ (.tree doc) = .ok (.ok ⟨2, res⟩) ∧
      ∃ r, Holds (1 / 10 ^ 11) r ![25, 1000] res ∧
        ∃ e table, Export.Generic.readInput c!"mgo.hdf5" (haFile c!"periclase" c!"Ha" c!"A" c!"cm^-1" c!"C" r) = .ok (none, e) ∧
          Export.Generic.Spec.Saves e (haFile c!"periclase" c!"Ha" c!"A" c!"cm^-1" c!"C" r) c!"Cv" table ∧
          ∃ t x : ℚ, Shows table 1 1 t x ∧ |(t : ℝ) - 1000| ≤ 1 / 100 ∧
            |(x : ℝ) - 1000 * (3 * heatCapacity codata 1273.15 (100 * codata.c * 398.25)) / codata.Ha| ≤
              2 / 10 ^ 11 * (|1000 * (3 * heatCapacity codata 1273.15 (100 * codata.c * 398.25)) / codata.Ha| + 276) := by
  obtain ⟨fuel, h⟩ := C153_crystal (nt := 2) codata (disk := mgoDisk) (filename := c!"list") (isList := true)
    (files := [c!"a.out", c!"b.out"]) (ref := 0) (n := 2)
    (os := [⟨2, mgoLattice.det, -275.25, [0, 0, 0, 405.75, 405.75, 405.75]⟩,
      ⟨2, mgoLattice.det, -275.25, [0, 0, 0, 398.25, 398.25, 398.25]⟩])
    (.inr ⟨rfl, c!"a.out\nb.out\n", rfl,
      .cons ⟨['\n'], rfl, by simp, fun c hc => by obtain rfl := Option.some.inj hc; decide⟩
        (.cons ⟨['\n'], rfl, by simp, fun c hc => by obtain rfl := Option.some.inj hc; decide⟩ .nil)⟩)
    (.cons ⟨_, rfl, mgo_output⟩ (.cons ⟨_, rfl, soft_output⟩ .nil)) (by decide) (by simp) (by simp)
    (job := c!"periclase") ⟨⟨_, _, rfl, by decide⟩, by decide, by decide, by decide⟩ (by decide) c!"mgo" (t := c!"C")
    (by simp) means_celsius ![25, 1000] (vol := c!"A") (by simp)
  obtain ⟨s, text, doc, h1, h2, res, h3, h4⟩ := h fuel le_rfl
  obtain ⟨r, hr⟩ := holds_exists (ε := 1 / 10 ^ 11) (by norm_num) ![25, 1000] res
  refine ⟨fuel, s, text, doc, h1, h2, res, h3, r, hr, ?_⟩
  obtain ⟨e, e1, e2⟩ := h4 r (1 / 10 ^ 11) (by norm_num) (by norm_num) hr c!"mgo.hdf5"
  obtain ⟨table, t1, t2⟩ := e2 .heat
  obtain ⟨t, x, k1, k2, k3⟩ := t2 1 1 (by norm_num [Scale.toRef])
  refine ⟨e, table, e1, t1, t, x, k1, ?_, ?_⟩
  · simp only [Matrix.cons_val_one, Matrix.cons_val_zero, Matrix.cons_val_fin_one] at k2
    refine k2.trans ?_
    norm_num
  · have hT : (⟨[c!"celsius", c!"°c", c!"c"], 1, 273.15⟩ : Scale).toRef ((![25, 1000] : Fin 2 → ℝ) 1) = 1273.15 := by
      norm_num [Scale.toRef]
    have hm : cellMean (heatCapacity codata 1273.15) (100 * codata.c) [(1, [0, 0, 0, 398.25, 398.25, 398.25])] =
        3 * heatCapacity codata 1273.15 (100 * codata.c * 398.25) := by
      norm_num [cellMean, List.filter]
      ring
    have k4 := k3
    simp only [hT, Tabulated.true] at k4
    have e0 : ([⟨2, mgoLattice.det, -275.25, [0, 0, 0, 405.75, 405.75, 405.75]⟩,
      ⟨2, mgoLattice.det, -275.25, [0, 0, 0, 398.25, 398.25, 398.25]⟩] : List Vibrations)[(1 : Fin 2)] =
        ⟨2, mgoLattice.det, -275.25, [0, 0, 0, 398.25, 398.25, 398.25]⟩ := rfl
    erw [e0] at k4
    simp only [hm] at k4
    refine k4.trans (mul_le_mul (by norm_num) ?_ (by positivity) (by norm_num))
    have : |((-275.25 : ℚ) : ℝ)| ≤ 276 := by norm_num [abs_le]
    linarith

/-- `C153_phonopy_partial` applies: the table of the free energy of four phonopy calculations at 300 K. -/
example : ∃ s text doc, inpgen (phonopyFiles codata mgFolder) ⟨[]⟩ c!"files" c!"mg" true 1 c!"phonopy" c!"magnesium" =
      (s, .written c!"mg.yaml" text) ∧ Denotes text doc ∧
    ∃ (res : HA.Results 1 4) (pts : Fin 4 → List (ℚ × List ℚ)),
      harmonic codata ⟨c!"eV", c!"cm^-1", c!"C", fun _ => 25⟩ (.tree doc) = .ok (.ok ⟨4, res⟩) ∧
      Sampled codata (longData 4) (longData 6) (pts 3) ∧
      ∃ r, Holds (1 / 10 ^ 12) r (fun _ => 25) res ∧
        Exports codata codata.eV (100 * codata.c) (1 / 10 ^ 12) (haFile c!"magnesium" c!"eV" c!"A" c!"cm^-1" c!"C" r)
          (fun _ : Fin 1 => 25) (fun _ => 298.15) (fun _ => -3 / 2) pts := by
  obtain ⟨s, text, doc, h1, h2, res, pts, h3, h4, h5⟩ := C153_phonopy_partial (nt := 1) (k := codata) rfl (d := mgFolder)
    (filename := c!"files") (.inr ⟨rfl, _, rfl, mg_listed⟩) mg_files (ref := 1) rfl (by decide) mg_same plain_mg (by decide)
    c!"mg" mg_weights (t := c!"C") (by simp) means_celsius (fun _ => 25) (vol := c!"A") (by simp)
  obtain ⟨r, hr⟩ := holds_exists (ε := 1 / 10 ^ 12) (by norm_num) (fun _ => 25) res
  refine ⟨s, text, doc, h1, h2, res, pts, h3, h4 3, r, hr, ?_⟩
  have h := h5 r _ (by norm_num) (by norm_num) hr
  have e1 : (fun _ : Fin 1 => (298.15 : ℝ)) = fun i => (⟨[c!"celsius", c!"°c", c!"c"], 1, 273.15⟩ : Scale).toRef ((fun _ => 25) i) := by
    funext
    norm_num [Scale.toRef]
  have e2 : (fun _ : Fin 4 => (-3 / 2 : ℝ)) = fun v => (([longData 3, longData 4, longData 5, longData 6][v].energy : ℚ) : ℝ) := by
    funext v
    fin_cases v <;> norm_num [longData]
  rw [e1, e2]
  exact h

/-- `C153_dispersion` applies: the tables of one output with the dispersion of the phonons. -/
example : ∃ fuel s text doc,
    inpgen (crystalFiles fuel dispDisk) ⟨[]⟩ c!"disp.out" c!"disp" false 0 c!"crystal" c!"periclase" =
      (s, .written c!"disp.yaml" text) ∧ Denotes text doc ∧
    ∃ res : HA.Results 1 1, harmonic codata ⟨c!"Ha", c!"cm^-1", c!"C", fun _ => 25⟩ (.tree doc) = .ok (.ok ⟨1, res⟩) ∧
      ∃ r, Holds (1 / 10 ^ 12) r (fun _ => 25) res ∧
        Exports codata codata.Ha (100 * codata.c) (1 / 10 ^ 12) (haFile c!"periclase" c!"Ha" c!"bohr" c!"cm^-1" c!"C" r)
          (fun _ : Fin 1 => 25) (fun _ => 298.15) (fun _ : Fin 1 => dispData.energy)
          (fun _ => pointsOf dispData dispData) := by
  obtain ⟨fuel, h⟩ := C153_dispersion (nt := 1) codata (disk := dispDisk) (filename := c!"disp.out") (isList := false)
    (files := [c!"disp.out"]) (ref := 0) (os := [dispData]) (.inl ⟨rfl, rfl⟩) (.cons ⟨_, rfl, dispersion_output⟩ .nil)
    (r := dispData) rfl (by decide) (by simp) (job := c!"periclase") ⟨⟨_, _, rfl, by decide⟩, by decide, by decide, by decide⟩
    (by decide) c!"disp" (t := c!"C") (by simp) means_celsius (fun _ => 25) (by decide) (vol := c!"bohr") (by simp)
  obtain ⟨s, text, doc, h1, h2, res, h3, h4⟩ := h fuel le_rfl
  obtain ⟨r, hr⟩ := holds_exists (ε := 1 / 10 ^ 12) (by norm_num) (fun _ => 25) res
  refine ⟨fuel, s, text, doc, h1, h2, res, h3, r, hr, ?_⟩
  have h := h4 r _ (by norm_num) (by norm_num) hr
  have e1 : (fun _ : Fin 1 => (298.15 : ℝ)) = fun i => (⟨[c!"celsius", c!"°c", c!"c"], 1, 273.15⟩ : Scale).toRef ((fun _ => 25) i) := by
    funext
    norm_num [Scale.toRef]
  have e2 (v : Fin 1) : [dispData][v] = dispData := by
    fin_cases v
    rfl
  rw [e1]
  simpa only [List.length_cons, List.length_nil, e2] using h

end Verif.Chain
