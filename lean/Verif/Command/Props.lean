/-
C66: the files of a command and its settings.
-/
import Verif.Command.Lemmas
import Verif.QHA.Spec

namespace Verif.Command
open Verif.Py Verif.Export Spec

/-- The suffixes of the four commands with results. -/
def Spec.suffixes : List Str := [c!"_HA", c!"_QHA", c!"_SOEC", c!"_SEISMIC"]

theorem isSuffix {s : Str} (h : s ∈ suffixes) : IsSuffix s := by
  simp only [suffixes, List.mem_cons, List.not_mem_nil, or_false] at h
  rcases h with rfl | rfl | rfl | rfl <;> exact ⟨by decide, by decide, by decide⟩

theorem results_ne_log (suffix stem : Str) (o : Option Str) : resultsName suffix stem o ≠ logName suffix stem o := by
  cases o <;> exact fun h => absurd (List.append_cancel_left h) (by decide)

theorem calculate_notFile {suffix : Str} {b : Bool} {t : Texts} {prog : Calculator} {o : Options} {ow : Bool} {w : World}
    (h : (opened (filesOf suffix o.filename o.outfile).log t o.silent w).disk o.filename = none) :
    (calculate suffix b t prog o ow w).2 = .notFile := by
  simp only [calculate, h]

theorem command_outcome (suffix : Str) (b : Bool) (t : Texts) (prog : Calculator) (o : Options) (ow : Bool) (w : World) :
    (command suffix b t prog o ow w).2 = (calculate suffix b t prog o ow w).2 := by
  rw [command]
  rcases calculate suffix b t prog o ow w with ⟨w', r⟩
  cases r <;> rfl

theorem attempt_outcome {files : Files} {b : Bool} {t : Texts} {prog : Calculator} {o : Options} {ow : Bool} {w : World}
    {content : Str} (hf : w.disk o.filename = some content) (h1 : o.filename ≠ files.log)
    (h2 : files.results ≠ files.log) :
    (attempt files b t prog o ow w).2 =
      match (prog.read content).2 with
      | some e => .badInput e
      | none => match (prog.run content).2 with
        | .error e => .failed e
        | .ok _ => if (w.disk files.results).isSome ∧ ¬ ow then .declined else .saved := by
  simp only [attempt]
  set wa := prog.created.foldl (say files.log o.silent o.debug) (echo t.settings (some files.log) o.silent w) with ha
  have hwa : Extends files.log w wa := (extends_echo _ _ _ _).trans (extends_says _ _ _ _ _)
  have hc : (wa.disk o.filename).getD [] = content := by rw [hwa.other _ h1, hf]; rfl
  rw [hc]
  cases (prog.read content).2 with
  | some e => rfl
  | none =>
    cases (prog.run content).2 with
    | error e => rfl
    | ok bytes =>
      simp only [save]
      have key : ∀ wd : World, Extends files.log w wd →
          (if (wd.disk files.results).isSome = true ∧ ¬ ow = true
            then (echo c!"Results not saved" (some files.log) false wd, Outcome.declined)
            else ((prog.exported content).foldl (say files.log o.silent o.debug)
              { wd with disk := Function.update wd.disk files.results (some bytes) }, Outcome.saved)).2 =
          if (w.disk files.results).isSome = true ∧ ¬ ow = true then .declined else .saved := by
        intro wd hwd
        rw [hwd.other _ h2]
        split <;> rfl
      apply key
      have hwc := hwa.trans ((extends_says files.log o.silent o.debug (prog.read content).1 _).trans
        ((extends_says files.log o.silent o.debug (prog.report content) _).trans
          (extends_says files.log o.silent o.debug (prog.run content).1 _)))
      split
      · exact hwc.trans (extends_says _ _ _ _ _)
      · exact hwc

section
variable {suffix stem : Str} {b : Bool} {t : Texts} {prog : Calculator} {o : Options} {ow : Bool} {w w' : World} {r : Outcome}

/-- C66: the harmonic, quasi-harmonic and elastic commands write two files, the results and the log, named
after the input or as given with -o; no other file changes.  The results are the ones calculated from the
input. -/
theorem C66_files (hs : suffix ∈ suffixes) (hb : Base o.filename stem) (ho : ∀ x ∈ o.outfile, HasName x)
    (hrun : command suffix b t prog o ow w = (w', r)) :
    let results := resultsName suffix stem o.outfile
    let log := logName suffix stem o.outfile
    (∀ p, p ≠ results → p ≠ log → w'.disk p = w.disk p) ∧
    (∃ text, w'.disk log = some text) ∧
    (r ≠ .saved → w'.disk results = w.disk results) ∧
    (r = .saved → o.filename ≠ log → ∃ content bytes, w.disk o.filename = some content ∧
      (prog.run content).2 = .ok bytes ∧ w'.disk results = some bytes) := by
  intro results log
  have hf : filesOf suffix o.filename o.outfile = ⟨results, log⟩ := filesOf_eq (isSuffix hs) hb ho
  have hne : results ≠ log := results_ne_log _ _ _
  have hout : r = (calculate suffix b t prog o ow w).2 := by
    rw [← command_outcome, hrun]
  have := command_shape hrun
  simp only [hf] at this
  rcases this with ⟨h1, h2⟩ | ⟨h1, w1, w2, bytes, h2, h3, h4, h5, h6, h7⟩
  · refine ⟨fun p _ hp => by rw [h2.other p hp, opened_other hp], ?_, fun _ => ?_, fun h => absurd h h1⟩
    · obtain ⟨rest, hr⟩ := h2.log _ opened_log
      exact ⟨_, hr⟩
    · rw [h2.other _ hne, opened_other hne]
  · refine ⟨fun p hp hp' => ?_, ?_, fun h => absurd h1 h, fun _ hl => ?_⟩
    · rw [h7.other p hp', show (withFile results bytes w1).disk p = w1.disk p from Function.update_of_ne hp _ _, h2.other p hp', opened_other hp']
    · obtain ⟨rest, hr⟩ := h2.log _ opened_log
      have : (withFile results bytes w1).disk log = w1.disk log := Function.update_of_ne hne.symm _ _
      obtain ⟨rest', hr'⟩ := h7.log _ (this.trans hr)
      exact ⟨_, hr'⟩
    · have hc : w2.disk o.filename = w.disk o.filename := by rw [h3.other _ hl, opened_other hl]
      cases hw : w.disk o.filename with
      | none =>
        rw [calculate_notFile (by rw [hf]; simp only []; rw [opened_other hl, hw])] at hout
        rw [hout] at h1
        simp at h1
      | some content =>
        refine ⟨content, bytes, rfl, ?_, ?_⟩
        · rw [← h5, hc, hw]; rfl
        · rw [h7.other _ hne, withFile]
          exact Function.update_self _ _ _

/-- C66: a run that reads its input and completes saves the results, unless there is a file of that name
and the user does not want it overwritten. -/
theorem C66_saved (hs : suffix ∈ suffixes) (hb : Base o.filename stem) (ho : ∀ x ∈ o.outfile, HasName x)
    (hl : o.filename ≠ logName suffix stem o.outfile) {content bytes : Str} (hc : w.disk o.filename = some content)
    (hread : (prog.read content).2 = none) (hbytes : (prog.run content).2 = .ok bytes) :
    (command suffix b t prog o ow w).2 =
      if (w.disk (resultsName suffix stem o.outfile)).isSome ∧ ¬ ow then .declined else .saved := by
  have hf : filesOf suffix o.filename o.outfile = ⟨resultsName suffix stem o.outfile, logName suffix stem o.outfile⟩ :=
    filesOf_eq (isSuffix hs) hb ho
  have hne := results_ne_log suffix stem o.outfile
  have hc' : (opened (logName suffix stem o.outfile) t o.silent w).disk o.filename = some content := by
    rw [opened_other hl, hc]
  rw [command_outcome, calculate, hf]
  simp only [hc']
  rw [attempt_outcome (content := content) hc' hl hne]
  simp only [hread, hbytes, opened_other hne]

end

/-- C66: the default names, for an input `dir/stem.ext`. -/
theorem C66_default_names (suffix dir stem ext : Str) (hs : suffix ∈ suffixes)
    (hd : dir = [] ∨ ∃ d, dir = d ++ ['/']) (hstem : '/' ∉ stem ∧ ∃ c ∈ stem, c ≠ '.') (h1 : '.' ∉ ext) (h2 : '/' ∉ ext) :
    (filesOf suffix (dir ++ stem ++ '.' :: ext) none).results = dir ++ stem ++ suffix ++ c!".hdf5" ∧
    (filesOf suffix (dir ++ stem ++ '.' :: ext) none).log = dir ++ stem ++ suffix ++ c!".txt" ∧
    eosLog (dir ++ stem ++ '.' :: ext) none = .ok (dir ++ stem ++ c!".log") ∧
    elasticInputName (dir ++ stem ++ '.' :: ext) none = dir ++ stem ++ c!"_soec_input.dat" := by
  have hb : Base (dir ++ stem ++ '.' :: ext) (dir ++ stem) :=
    .extension _ _ ⟨dir, stem, ⟨rfl, hstem.1, hd⟩, hstem.2⟩ h1 h2
  rw [filesOf_eq (isSuffix hs) hb (by simp)]
  refine ⟨rfl, rfl, ?_, ?_⟩
  · rw [eosLog, splitext_base hb]
  · rw [elasticInputName, splitext_base hb]

/-- C66: the names given with -o, and the default name of the phonon inputs. -/
theorem C66_given_names (suffix filename o : Str) (ho : HasName o) :
    (filesOf suffix filename (some o)).results = o ++ c!".hdf5" ∧
    (filesOf suffix filename (some o)).log = o ++ c!".txt" ∧
    elasticInputName filename (some o) = o ++ c!".dat" ∧
    phononInputName filename (some o) = o ++ c!".yaml" ∧
    phononInputName filename none = c!"quantas_ha.yaml" := by
  refine ⟨rfl, ?_, rfl, rfl, rfl⟩
  have : o ++ c!".hdf5" = o ++ '.' :: c!"hdf5" := rfl
  simp only [filesOf]
  rw [this, splitext_extension ho (by decide) (by decide)]

/-- A case with a directory and points in the name. -/
example : (filesOf c!"_QHA" c!"runs.old/mgo.b3lyp.yaml" none).results = c!"runs.old/mgo.b3lyp_QHA.hdf5" ∧
    (filesOf c!"_QHA" c!"runs.old/mgo.b3lyp.yaml" none).log = c!"runs.old/mgo.b3lyp_QHA.txt" ∧
    (filesOf c!"_QHA" c!"mgo.yaml" (some c!"out.1/res")).log = c!"out.1/res.txt" := by
  refine ⟨?_, ?_, ?_⟩ <;> decide

/-- C66 fails for a name given with -o that is a directory, or whose name has only points: the log gets the
extensions of both. -/
theorem C66_directory_violated (suffix filename dir points : Str) (hp : ∀ c ∈ points, c = '.')
    (hd : dir = [] ∨ ∃ d, dir = d ++ ['/']) :
    (filesOf suffix filename (some (dir ++ points))).log = dir ++ points ++ c!".hdf5.txt" := by
  have h : splitext (dir ++ points ++ c!".hdf5") = dir ++ points ++ c!".hdf5" := by
    refine splitext_plain (dir := dir) (points := points ++ ['.']) (rest := c!"hdf5") ⟨by simp, ?_, hd⟩ ?_ (by decide)
    · intro h
      simp only [List.mem_append, List.mem_singleton] at h
      rcases h with (h | h) | h
      · exact absurd (hp _ h) (by decide)
      · exact absurd h (by decide)
      · exact absurd h (by decide)
    · intro c hc
      rw [List.mem_append, List.mem_singleton] at hc
      exact hc.elim (hp c) id
  simp only [filesOf]
  rw [h]
  simp

/-- C66 fails for the EoS command with the option -o: it stops at once, whatever the name. -/
theorem C66_eosfit_violated (t : Texts) (prog : Calculator) (filename o : Str) (w : World) :
    eosCommand t prog filename (some o) w = .error .unboundLocal := rfl

/-! ### Settings -/

/-- C66, in part: the number of azimuths is the one chosen, or four times the number of polar points.
Missing: the choice of 720 azimuths, see the next theorem. -/
theorem C66_azimuths_partial (ntheta nphi : Option ℤ) (h : nphi ≠ some 720) :
    (angularPoints ntheta nphi).1 = ntheta.getD 180 ∧
    (angularPoints ntheta nphi).2 = nphi.getD (4 * ntheta.getD 180) := by
  refine ⟨rfl, ?_⟩
  cases nphi with
  | none =>
    by_cases h1 : ntheta.getD 180 = 180
    · simp [angularPoints, h1]
    · simp [angularPoints, h1]
  | some n =>
    have : n ≠ 720 := fun e => h (by rw [e])
    by_cases h1 : ntheta.getD 180 = 180
    · simp [angularPoints, h1]
    · simp [angularPoints, h1, this]

/-- C66 fails for 720 azimuths, chosen with another number of polar points than 180: the choice is not
respected. -/
theorem C66_azimuths_violated (n : ℤ) (h : n ≠ 180) :
    angularPoints (some n) (some 720) = (n, 4 * n) ∧ 4 * n ≠ 720 := by
  refine ⟨by simp [angularPoints, h], fun e => h (by omega)⟩

open Verif.QHA.Spec in
/-- C66: with every combination of the units offered, the settings name units the calculators know, and
every combination of the units they know can be asked for. -/
theorem C66_units :
    (∀ eunit vunit funit tunit punit e v f t p, unitsOf eunit vunit funit tunit punit = some (e, v, f, t, p) →
      ∃ u : Choice, e = u.e.name ∧ v = u.v.name ∧ f = u.f.name ∧ t = u.t.name ∧ p = u.p.name) ∧
    (∀ u : Choice, ∃ funit, unitsOf (some u.e.name) (some u.v.name) (some funit) (some u.t.name) (some u.p.name) =
      some (u.e.name, u.v.name, u.f.name, u.t.name, u.p.name)) ∧
    unitsOf none none none none none = some (c!"Ha", c!"A", c!"cm^-1", c!"K", c!"GPa") := by
  have mem : ∀ {offered : List Str} {d x : Str} {v : Option Str}, d ∈ offered → choice offered d v = some x → x ∈ offered := by
    intro offered d x v hd h
    cases v with
    | none => simp only [choice, Option.some.injEq] at h; exact h ▸ hd
    | some y =>
      simp only [choice] at h
      split at h
      · simp only [Option.some.injEq] at h; subst h; assumption
      · simp at h
  refine ⟨?_, ?_, by decide⟩
  · intro eunit vunit funit tunit punit e v f t p h
    simp only [unitsOf, Option.bind_eq_some_iff, Option.map_eq_some_iff] at h
    obtain ⟨e', he, v', hv, f', hf, t', ht, p', hp, heq⟩ := h
    simp only [Prod.mk.injEq] at heq
    obtain ⟨rfl, rfl, rfl, rfl, rfl⟩ := heq
    have he := mem (by decide) he
    have hv := mem (by decide) hv
    have hf := mem (by decide) hf
    have ht := mem (by decide) ht
    have hp := mem (by decide) hp
    simp only [List.mem_cons, List.not_mem_nil, or_false] at he hv hf ht hp
    obtain ⟨ue, hue⟩ : ∃ ue : EnergyUnit, e' = ue.name := by
      rcases he with rfl | rfl | rfl
      exacts [⟨.Ha, rfl⟩, ⟨.eV, rfl⟩, ⟨.Ry, rfl⟩]
    obtain ⟨uv, huv⟩ : ∃ uv : LengthUnit, v' = uv.name := by
      rcases hv with rfl | rfl
      exacts [⟨.A, rfl⟩, ⟨.bohr, rfl⟩]
    obtain ⟨uf, huf⟩ : ∃ uf : FrequencyUnit, (if f' = c!"cm-1" then c!"cm^-1" else f') = uf.name := by
      rcases hf with rfl | rfl | rfl
      exacts [⟨.cm, rfl⟩, ⟨.THz, rfl⟩, ⟨.Hz, rfl⟩]
    obtain ⟨ut, hut⟩ : ∃ ut : TemperatureUnit, t' = ut.name := by
      rcases ht with rfl | rfl
      exacts [⟨.K, rfl⟩, ⟨.C, rfl⟩]
    obtain ⟨up, hup⟩ : ∃ up : PressureUnit, p' = up.name := by
      rcases hp with rfl | rfl
      exacts [⟨.GPa, rfl⟩, ⟨.kbar, rfl⟩]
    exact ⟨⟨ue, uv, up, ut, uf⟩, hue, huv, huf, hut, hup⟩
  · rintro ⟨e, v, p, t, f⟩
    refine ⟨match f with | .cm => c!"cm-1" | .THz => c!"THz" | .Hz => c!"Hz", ?_⟩
    cases e <;> cases v <;> cases p <;> cases t <;> cases f <;> decide

/-- C66 fails for the documented name of the wavenumbers: the option does not accept it. -/
theorem C66_wavenumber_violated (eunit vunit tunit punit : Option Str) :
    unitsOf eunit vunit (some c!"cm^-1") tunit punit = none := by
  have : choice [c!"cm-1", c!"THz", c!"Hz"] c!"cm-1" (some c!"cm^-1") = none := by decide
  simp [unitsOf, this]

/-- The equations of state as the manual lists them. -/
def Spec.eosChoices : List (Str × EoS.EForm × Str) :=
  [(c!"M", .murnaghan, c!"Murnaghan"), (c!"BM", .birchMurnaghan, c!"3rd-order Birch-Murnaghan"),
    (c!"PT", .pourierTarantola, c!"3rd-order Poirier-Tarantola"), (c!"V", .vinet, c!"3rd-order Vinet")]

/-- C66: the energies are fitted with the equation of state that was chosen, which is also the one that is
printed; other choices are refused, and the default is Birch-Murnaghan. -/
theorem C66_eos (e : Option Str) :
    (∀ c ∈ eosChoices, e = some c.1 → (eosOf e).bind eosType = some c.2.1 ∧ (c.1, c.2.2) ∈ eosFormulations) ∧
    (e = none → (eosOf e).bind eosType = some .birchMurnaghan) ∧
    (∀ s, e = some s → s ∉ eosChoices.map Prod.fst → eosOf e = none) := by
  refine ⟨?_, ?_, ?_⟩
  · rintro c hc rfl
    simp only [eosChoices, List.mem_cons, List.not_mem_nil, or_false] at hc
    rcases hc with rfl | rfl | rfl | rfl <;> exact ⟨by decide, by decide⟩
  · rintro rfl
    decide
  · rintro s rfl hs
    have : s ∉ [c!"M", c!"BM", c!"PT", c!"V"] := hs
    simp only [eosOf, choice, if_neg this]
    rfl

end Verif.Command
