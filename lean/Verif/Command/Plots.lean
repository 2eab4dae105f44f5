/-
C92 and C93: the figures drawn, and the commands there are.
-/
import Verif.Command.RunProps

namespace Verif.Command
open Verif.Py Verif.Export Spec

/-! ### Model -/

/-- The key `suffix` of the entries of `SeismicPlotter.datasets` (seismic_plotter.py:101-219). -/
def quantities : List Str :=
  [c!"Vp", c!"Vp_rel", c!"Vg", c!"Vg_rel", c!"pf_angle", c!"enhancement_factor"]

/-- The waves of the figures (seismic_plotter.py:490). -/
def waves : List Str := [c!"ssecondary", c!"fsecondary", c!"primary"]

/-- Figures saved so far, and the exception that stopped the drawing, if any. -/
abbrev Drawing := List Str × Option PyErr

/-- `make_3D_plot` (seismic_plotter.py:472-534): the names of the figures it saves. -/
def spheres (base q : Str) : List Str := waves.map fun p => base ++ c!"_" ++ q ++ c!"_3D_" ++ p ++ c!".png"

/-- `make_2D_plot` (seismic_plotter.py:639-642). -/
def disc (base q projection : Str) : Str := base ++ c!"_" ++ q ++ c!"_2D_" ++ projection ++ c!".png"

/-- `make_2D_plot_ratios` and `make_2D_plot_polarization` (seismic_plotter.py:645-865): both need
matplotlib, whose names are undefined without it. -/
def ratiosAndPolarization (s : PlotSettings) (base : Str) : Drawing :=
  if s.mpl then
    ([base ++ c!"_ratios_2D.png", base ++ c!"_Vp_2D_" ++ s.projection ++ c!"_polarization.png"], none)
  else ([], some .nameError)

/-- `SeismicPlotter.run` (seismic_plotter.py:419-443).  `base` is the name of the results without `.hdf5` and
`_SEISMIC`. -/
def seismicFigures (s : PlotSettings) (base : Str) : Drawing :=
  let perQuantity := quantities.flatMap fun q =>
    (if s.plotly && s.three then spheres base q else []) ++
    (if s.mpl && s.two then [disc base q s.projection] else [])
  let last := ratiosAndPolarization s base
  (perQuantity ++ last.1, last.2)

/-- The figures of the elastic calculator (soec.py:277-297); `mpl` tells whether matplotlib is there. -/
def elasticFigures (polar plotting mpl hasDensity : Bool) (base : Str) : List Str :=
  if polar && plotting && mpl then
    (if hasDensity then [c!"E", c!"LC", c!"G", c!"Nu", c!"waves"] else [c!"E", c!"LC", c!"G", c!"Nu"]).map fun p =>
      base ++ c!"_" ++ p ++ c!".png"
  else []

/-! ### Specification -/

/-- The name of a figure: the results, the quantity and the kind. -/
def Spec.figure (base : Str) (parts : List Str) : Str := base ++ (parts.flatMap fun p => '_' :: p) ++ c!".png"

/-- The quantities of which there are figures. -/
def Spec.plottedQuantities : List Str :=
  [c!"Vp", c!"Vp_rel", c!"Vg", c!"Vg_rel", c!"pf_angle", c!"enhancement_factor"]

/-- The commands the documentation uses (commands.rst, the tutorials and input_generator.rst). -/
def Spec.documented : List (List Str) :=
  [[c!"ha"], [c!"qha"], [c!"soec"], [c!"seismic"], [c!"eosfit"], [c!"inpgen", c!"ha"], [c!"inpgen", c!"soec"],
    [c!"export", c!"ha"], [c!"export", c!"qha"], [c!"export", c!"soec"], [c!"export", c!"seismic"]]

/-! ### Figures of the seismic command -/

/-- The last parts of the names of the figures. -/
def tails (two three : Bool) (pr : Str) : List Str :=
  (quantities.flatMap fun q =>
    (if three then waves.map fun p => c!"_" ++ q ++ c!"_3D_" ++ p ++ c!".png" else []) ++
    (if two then [c!"_" ++ q ++ c!"_2D_" ++ pr ++ c!".png"] else [])) ++
  [c!"_ratios_2D.png", c!"_Vp_2D_" ++ pr ++ c!"_polarization.png"]

theorem seismicFigures_eq (s : PlotSettings) (base : Str) (h : s.mpl = true) :
    seismicFigures s base = ((tails s.two (s.plotly && s.three) s.projection).map (base ++ ·), none) := by
  obtain ⟨mpl, plotly, dpi, two, three, pr⟩ := s
  simp only at h
  subst h
  cases plotly <;> cases two <;> cases three <;>
    simp [seismicFigures, tails, quantities, spheres, waves, disc, ratiosAndPolarization]

theorem mem_tails {base x : Str} {l : List Str} : base ++ x ∈ l.map (base ++ ·) ↔ x ∈ l := by
  simp

/-- C92, in part: with matplotlib, the figures are saved under different names, named after the results; the
option --no-3D decides on those on the sphere, which need plotly, and --no-2D on those in the plane of single
quantities.  Missing: the other figures in the plane, and processes without matplotlib, see below. -/
theorem C92_seismic_partial (s : PlotSettings) (base : Str) (hm : s.mpl = true)
    (hp : s.projection = c!"eqar" ∨ s.projection = c!"stereo") :
    let f := seismicFigures s base
    f.2 = none ∧ f.1.Nodup ∧
    (∀ q ∈ plottedQuantities,
      (figure base [q, c!"2D", s.projection] ∈ f.1 ↔ s.two = true) ∧
      ∀ p ∈ [c!"ssecondary", c!"fsecondary", c!"primary"],
        (figure base [q, c!"3D", p] ∈ f.1 ↔ s.plotly = true ∧ s.three = true)) := by
  intro f
  have hf : f = _ := seismicFigures_eq s base hm
  rw [hf]
  refine ⟨rfl, ?_, ?_⟩
  · refine List.Nodup.map (fun a b h => List.append_cancel_left h) ?_
    rcases hp with h | h <;> rw [h] <;> cases s.two <;> cases (s.plotly && s.three) <;> decide
  · intro q hq
    have h3 : (s.plotly = true ∧ s.three = true) ↔ (s.plotly && s.three) = true := by simp
    simp only [figure, List.append_assoc, mem_tails, h3]
    generalize s.two = two
    generalize (s.plotly && s.three) = three
    rcases hp with h | h <;> rw [h] <;> clear h hf <;> revert q two three <;> decide

/-- Settings the theorem covers, and the number of figures: six quantities of three waves on the sphere, six
in the plane, and two more. -/
example : (seismicFigures ⟨true, true, 80, true, true, c!"eqar"⟩ c!"hydroxylapatite").1.length = 26 := by decide

/-- C92 fails for --no-2D: the ratios of the velocities and the polarization are drawn in the plane all the
same. -/
theorem C92_no_2D_violated (s : PlotSettings) (base : Str) (hm : s.mpl = true) :
    figure base [c!"ratios", c!"2D"] ∈ (seismicFigures s base).1 ∧
    figure base [c!"Vp", c!"2D", s.projection, c!"polarization"] ∈ (seismicFigures s base).1 := by
  rw [seismicFigures_eq s base hm]
  simp [figure, tails]

/-- C92 fails without matplotlib: the plots on the sphere, which do not need it, are drawn, and then the
command stops with NameError, also with --no-2D. -/
theorem C92_plotly_only_violated (s : PlotSettings) (base : Str) (hm : s.mpl = false) :
    (seismicFigures s base).2 = some .nameError := by
  simp [seismicFigures, ratiosAndPolarization, hm]

/-! ### Figures of the elastic command -/

/-- C92, in part: the elastic command with --polar draws figures if and only if it is asked to; they have
different names.  The velocities are drawn if there is a density.  Missing: runs without --polar. -/
theorem C92_elastic_partial (plotting hasDensity : Bool) (base : Str) :
    let f := elasticFigures true plotting true hasDensity base
    f.Nodup ∧ (∀ p ∈ [c!"E", c!"LC", c!"G", c!"Nu"], figure base [p] ∈ f ↔ plotting = true) ∧
    (figure base [c!"waves"] ∈ f ↔ plotting = true ∧ hasDensity = true) := by
  cases plotting <;> cases hasDensity <;> simp [elasticFigures, figure]

/-- C92 fails for the option -p of the elastic command without --polar: nothing is drawn. -/
theorem C92_elastic_violated (hasDensity : Bool) (base : Str) : elasticFigures false true true hasDensity base = [] := rfl

/-! ### The seismic command -/

section
variable {t : Texts} {prog : Calculator} {o : Options} {s : PlotOptions} {mpl plotly ow : Bool} {p p' : Process}
  {w w' : World} {r : Plotted} {stem : Str}

/-- C92, in part: the seismic command with -p in a new process draws the results it saved, with the settings
given; with --only-plot it draws the results of the file given.  Missing: see the next theorem. -/
theorem C92_command_partial (hb : Base o.filename stem) (ho : ∀ x ∈ o.outfile, HasName x)
    (hl : o.filename ≠ logName c!"_SEISMIC" stem o.outfile) {content : Str} (hc : w.disk o.filename = some content)
    (hs : s.plotting = true) (hm : mpl = true ∨ plotly = true) :
    (seismic t prog o s true mpl plotly ow p w).2.2 =
      .figures ⟨mpl, plotly, s.dpi, s.two, s.three, s.projection⟩ o.filename ∧
    ((calculate c!"_SEISMIC" false t prog o ow w).2 = .saved →
      (seismic t prog o s false mpl plotly ow p w).2.2 =
        .figures ⟨mpl, plotly, s.dpi, s.two, s.three, s.projection⟩ (resultsName c!"_SEISMIC" stem o.outfile)) := by
  have hf : filesOf c!"_SEISMIC" o.filename o.outfile =
      ⟨resultsName c!"_SEISMIC" stem o.outfile, logName c!"_SEISMIC" stem o.outfile⟩ :=
    filesOf_eq (isSuffix (by decide)) hb ho
  have hm' : (mpl || plotly) = true := by simpa using hm
  have hcr : Seismic.create mpl plotly s p =
      ({ p with plotting := true }, { plotSettings := some ⟨mpl, plotly, s.dpi, s.two, s.three, s.projection⟩ }) := by
    simp [Seismic.create, hs, hm']
  refine ⟨?_, fun h => ?_⟩
  · simp only [seismic, hcr, hf, if_true, opened_other hl, hc]
    rfl
  · rcases hcalc : calculate c!"_SEISMIC" false t prog o ow w with ⟨wc, rc⟩
    rw [hcalc] at h
    simp only at h
    subst h
    simp only [seismic, hcr, hf, hcalc]
    rfl

/-- C92 fails for --only-plot without -p, and for -p when the user does not want an earlier file to be
overwritten: the command stops with AttributeError instead of drawing. -/
theorem C92_command_violated (hb : Base o.filename stem) (ho : ∀ x ∈ o.outfile, HasName x)
    (hl : o.filename ≠ logName c!"_SEISMIC" stem o.outfile) {content : Str} (hc : w.disk o.filename = some content) :
    (s.plotting = false → (seismic t prog o s true mpl plotly ow p w).2.2 = .crashed .attributeError) ∧
    (s.plotting = true → mpl = true ∨ plotly = true → (calculate c!"_SEISMIC" false t prog o ow w).2 = .declined →
      (seismic t prog o s false mpl plotly ow p w).2.2 = .crashed .attributeError) := by
  have hf : filesOf c!"_SEISMIC" o.filename o.outfile =
      ⟨resultsName c!"_SEISMIC" stem o.outfile, logName c!"_SEISMIC" stem o.outfile⟩ :=
    filesOf_eq (isSuffix (by decide)) hb ho
  refine ⟨fun hs => ?_, fun hs hm h => ?_⟩
  · simp only [seismic, Seismic.create, hs, hf, if_true, opened_other hl, hc]
    rfl
  · have hm' : (mpl || plotly) = true := by simpa using hm
    rcases hcalc : calculate c!"_SEISMIC" false t prog o ow w with ⟨wc, rc⟩
    rw [hcalc] at h
    simp only at h
    subst h
    simp only [seismic, Seismic.create, hs, hm', hf, hcalc, if_true]
    rfl

/-- C67 at the level of the command: after a run with -p in the same process, a run without -p saves its
results and then stops with AttributeError. -/
theorem C67_command_violated (hs : s.plotting = false) (hp : p.plotting = true)
    (h : (calculate c!"_SEISMIC" false t prog o ow w).2 = .saved) :
    (seismic t prog o s false mpl plotly ow p w).2.2 = .crashed .attributeError := by
  rcases hcalc : calculate c!"_SEISMIC" false t prog o ow w with ⟨wc, rc⟩
  rw [hcalc] at h
  simp only at h
  subst h
  simp only [seismic, Seismic.create, hs, hcalc, Seismic.plotting, Bool.false_eq_true, if_false, hp, if_true]
  rfl

/-- C66: the seismic command, too, changes the results and the log only, apart from the figures. -/
theorem C66_seismic_files (onlyPlot : Bool) (hb : Base o.filename stem) (ho : ∀ x ∈ o.outfile, HasName x)
    (hrun : seismic t prog o s onlyPlot mpl plotly ow p w = (p', w', r)) :
    ∀ f, f ≠ resultsName c!"_SEISMIC" stem o.outfile → f ≠ logName c!"_SEISMIC" stem o.outfile →
      w'.disk f = w.disk f := by
  intro f hf1 hf2
  have hf : filesOf c!"_SEISMIC" o.filename o.outfile =
      ⟨resultsName c!"_SEISMIC" stem o.outfile, logName c!"_SEISMIC" stem o.outfile⟩ :=
    filesOf_eq (isSuffix (by decide)) hb ho
  have hcon : ∀ wx : World, (conclude (logName c!"_SEISMIC" stem o.outfile) o.silent t wx).disk f = wx.disk f :=
    fun wx => (extends_conclude _ _ _ _).other f hf2
  have hc : (calculate c!"_SEISMIC" false t prog o ow w).1.disk f = w.disk f := by
    rcases hcalc : calculate c!"_SEISMIC" false t prog o ow w with ⟨wc, rc⟩
    have := calculate_shape hcalc
    simp only [hf] at this
    rcases this with ⟨-, h2⟩ | ⟨-, w1, w2, bytes, h2, -, -, -, -, h7⟩
    · rw [h2.other f hf2, opened_other hf2]
    · rw [h7.other f hf2, show (withFile _ bytes w1).disk f = w1.disk f from Function.update_of_ne hf1 _ _,
        h2.other f hf2, opened_other hf2]
  cases onlyPlot
  · rcases hcalc : calculate c!"_SEISMIC" false t prog o ow w with ⟨wc, rc⟩
    rw [hcalc] at hc
    simp only at hc
    simp only [seismic, hf, hcalc] at hrun
    have : ∀ (x : Process × World × Plotted), x = (p', w', r) → x.2.1.disk f = w.disk f → w'.disk f = w.disk f := by
      rintro _ rfl h
      exact h
    refine this _ hrun ?_
    cases rc <;> simp only [Bool.false_eq_true, if_false] <;> repeat' split
    all_goals first | exact hc | exact (hcon _).trans hc
  · have hop : (prog.created.foldl (say (logName c!"_SEISMIC" stem o.outfile) o.silent o.debug)
        (echo t.settings (some (logName c!"_SEISMIC" stem o.outfile)) o.silent
          (opened (logName c!"_SEISMIC" stem o.outfile) t o.silent w))).disk f = w.disk f := by
      rw [((extends_echo _ _ _ _).trans (extends_says _ _ _ _ _)).other f hf2, opened_other hf2]
    simp only [seismic, hf, if_true] at hrun
    have : ∀ (x : Process × World × Plotted), x = (p', w', r) → x.2.1.disk f = w.disk f → w'.disk f = w.disk f := by
      rintro _ rfl h
      exact h
    refine this _ hrun ?_
    repeat' split
    · rw [((extends_echoError _ _ _).trans (extends_echoError _ _ _)).other f hf2, opened_other hf2]
    · exact hop
    · exact (hcon _).trans hop

end

/-! ### Commands -/

/-- C93, in part: the documented commands exist, apart from those for seismic velocities. -/
theorem C93_commands_partial : ∀ c ∈ documented, c!"seismic" ∉ c → c ∈ commands := by decide

/-- C93 fails for the seismic command and its export: the program has neither, though there is code for
both. -/
theorem C93_seismic_violated : ∀ c ∈ documented, c!"seismic" ∈ c → c ∉ commands := by decide

example : ∃ c ∈ documented, c!"seismic" ∈ c := ⟨[c!"seismic"], by decide, by decide⟩

end Verif.Command
