/-
C67 and C89 to C93: what a run does to its input, to earlier files and to the screen, and what runs leave
behind for later ones.
-/
import Verif.Command.Props

namespace Verif.Command
open Verif.Py Verif.Export Spec

/-! ### The input -/

section
variable {suffix stem : Str} {b : Bool} {t : Texts} {prog : Calculator} {o : Options} {ow : Bool} {w w' : World} {r : Outcome}

/-- C89, in part: without -o, the harmonic, quasi-harmonic and elastic commands leave their input as it
is.  Missing: the option -o, see the next theorem. -/
theorem C89_default_partial (hs : suffix ∈ suffixes) (hb : Base o.filename stem) (ho : o.outfile = none)
    (hrun : command suffix b t prog o ow w = (w', r)) : w'.disk o.filename = w.disk o.filename := by
  have := (C66_files hs hb (by simp [ho]) hrun).1 o.filename
  rw [ho] at this
  have hne := default_ne (isSuffix hs) hb
  exact this hne.1 hne.2

/-- C89, in part: with -o too, if the name is not that of the input with the extension txt or hdf5. -/
theorem C89_given_partial (hs : suffix ∈ suffixes) (hb : Base o.filename stem) {x : Str} (ho : o.outfile = some x)
    (hx : HasName x) (h1 : o.filename ≠ x ++ c!".txt") (h2 : o.filename ≠ x ++ c!".hdf5")
    (hrun : command suffix b t prog o ow w = (w', r)) : w'.disk o.filename = w.disk o.filename := by
  have := (C66_files hs hb (by simp [ho, hx]) hrun).1 o.filename
  rw [ho] at this
  exact this h2 h1

/-- C89 fails for an input `x.txt` with the option `-o x`: the log takes the place of the input, before the
input was read. -/
theorem C89_given_violated (hs : suffix ∈ suffixes) {x : Str} (hx : HasName x) (hf : o.filename = x ++ c!".txt")
    (ho : o.outfile = some x) (hrun : command suffix b t prog o ow w = (w', r)) :
    ∃ rest, w'.disk o.filename = some (c!"\n" ++ t.title ++ c!"\n" ++ rest) := by
  have hb : Base o.filename x := by
    rw [hf]
    exact .extension x c!"txt" hx (by decide) (by decide)
  have hfiles : filesOf suffix o.filename o.outfile = ⟨x ++ c!".hdf5", o.filename⟩ := by
    rw [filesOf_eq (isSuffix hs) hb (by simp [ho, hx]), ho, hf]
    rfl
  have := command_shape hrun
  simp only [hfiles] at this
  rcases this with ⟨h1, h2⟩ | ⟨h1, w1, w2, bytes, h2, h3, h4, h5, h6, h7⟩
  · exact h2.log _ opened_log
  · obtain ⟨rest, hr⟩ := h2.log _ opened_log
    have hne : o.filename ≠ x ++ c!".hdf5" := by
      rw [hf]
      exact fun h => absurd (List.append_cancel_left h) (by decide)
    have : (withFile (x ++ c!".hdf5") bytes w1).disk o.filename = w1.disk o.filename := Function.update_of_ne hne _ _
    obtain ⟨rest', hr'⟩ := h7.log _ (this.trans hr)
    exact ⟨rest ++ rest', by rw [hr', List.append_assoc]⟩

end

theorem eosCommand_shape {t : Texts} {prog : Calculator} {filename log : Str} {w w' : World}
    (hl : eosLog filename none = .ok log) (h : eosCommand t prog filename none w = .ok w') :
    Extends log (opened log t false w) w' := by
  simp only [eosCommand, hl, Except.map, Except.ok.injEq] at h
  split at h
  · subst h
    exact (extends_echoError _ _ _).trans (extends_echoError _ _ _)
  · set wa := prog.created.foldl (say log false false) (echo t.settings (some log) false (opened log t false w)) with ha
    have hwa : Extends log (opened log t false w) wa := (extends_echo _ _ _ _).trans (extends_says _ _ _ _ _)
    split at h
    · subst h
      exact hwa.trans ((extends_says _ _ _ _ _).trans ((extends_echoError_none _ _ _).trans (extends_echoError _ _ _)))
    · subst h
      exact hwa.trans ((extends_says _ _ _ _ _).trans ((extends_says _ _ _ _ _).trans
        ((extends_says _ _ _ _ _).trans (extends_conclude _ _ _ _))))

/-- C89, in part: the EoS command leaves an input whose extension is not log as it is; it writes its log
beside it and changes no other file. -/
theorem C89_eosfit_partial {t : Texts} {prog : Calculator} {filename stem : Str} {w w' : World}
    (hb : Base filename stem) (hl : filename ≠ stem ++ c!".log") (h : eosCommand t prog filename none w = .ok w') :
    w'.disk filename = w.disk filename ∧ ∀ p, p ≠ stem ++ c!".log" → w'.disk p = w.disk p := by
  have hlog : eosLog filename none = .ok (stem ++ c!".log") := by rw [eosLog, splitext_base hb]
  have := eosCommand_shape hlog h
  have key : ∀ p, p ≠ stem ++ c!".log" → w'.disk p = w.disk p := fun p hp => by
    rw [this.other p hp, opened_other hp]
  exact ⟨key _ hl, key⟩

/-- C89 fails for the EoS command and an input with the extension log: the log takes the place of the
input, before the input was read. -/
theorem C89_eosfit_violated {t : Texts} {prog : Calculator} {stem : Str} {w w' : World} (hs : HasName stem)
    (h : eosCommand t prog (stem ++ c!".log") none w = .ok w') :
    ∃ rest, w'.disk (stem ++ c!".log") = some (c!"\n" ++ t.title ++ c!"\n" ++ rest) := by
  have hb : Base (stem ++ c!".log") stem := .extension stem c!"log" hs (by decide) (by decide)
  have hlog : eosLog (stem ++ c!".log") none = .ok (stem ++ c!".log") := by rw [eosLog, splitext_base hb]
  exact (eosCommand_shape hlog h).log _ opened_log

/-! ### The screen -/

/-- The files are the same, and what is on the one screen is also on the other, in the same order. -/
structure Quieter (q l : World) : Prop where
  disk : q.disk = l.disk
  screen : q.screen.Sublist l.screen

theorem quieter_append {q l : World} (h : Quieter q l) (msg : Str) (log : Option Str) :
    Quieter (appendLine msg log q) (appendLine msg log l) := by
  cases log with
  | none => exact h
  | some f => exact ⟨by simp [appendLine, h.disk], h.screen⟩

theorem quieter_secho {q l : World} (h : Quieter q l) (msg : Str) : Quieter (secho msg q) (secho msg l) :=
  ⟨h.disk, h.screen.append (List.Sublist.refl _)⟩

theorem quieter_echo {q l : World} (h : Quieter q l) (msg : Str) (log : Option Str) :
    Quieter (echo msg log true q) (echo msg log false l) :=
  quieter_append (⟨h.disk, h.screen.trans (List.sublist_append_left _ _)⟩ : Quieter q (secho msg l)) msg log

theorem quieter_loud {q l : World} (h : Quieter q l) (msg : Str) (log : Option Str) :
    Quieter (echo msg log false q) (echo msg log false l) := quieter_append (quieter_secho h msg) msg log

theorem quieter_echoError {q l : World} (h : Quieter q l) (msg : Str) (log : Option Str) :
    Quieter (echoError msg log q) (echoError msg log l) := quieter_append (quieter_secho h msg) msg log

theorem quieter_says {q l : World} (h : Quieter q l) (log : Str) (debug : Bool) (ms : List (Channel × Str)) :
    Quieter (ms.foldl (say log true debug) q) (ms.foldl (say log false debug) l) := by
  induction ms generalizing q l with
  | nil => exact h
  | cons m ms ih =>
    refine ih ?_
    obtain ⟨ch, s⟩ := m
    cases ch
    · exact quieter_echo h s _
    · exact quieter_loud h s _
    · exact quieter_echoError h s _
    · cases debug
      · exact h
      · exact quieter_echo h (c!"Debug: " ++ s) (some log)
    · exact quieter_secho h s

theorem quieter_opened {q l : World} (h : Quieter q l) (log : Str) (t : Texts) :
    Quieter (opened log t true q) (opened log t false l) :=
  quieter_echo (⟨by simp [initLogfile, h.disk], h.screen⟩ : Quieter (initLogfile (some log) q) (initLogfile (some log) l)) _ _

theorem quieter_conclude {q l : World} (h : Quieter q l) (log : Str) (t : Texts) :
    Quieter (conclude log true t q) (conclude log false t l) := by
  unfold conclude
  induction t.ending generalizing q l with
  | nil => exact h
  | cons m ms ih => exact ih (quieter_echo h _ _)

theorem attempt_quieter {q l : World} (h : Quieter q l) (files : Files) (b : Bool) (t : Texts) (prog : Calculator)
    (o : Options) (ow : Bool) :
    Quieter (attempt files b t prog { o with silent := true } ow q).1 (attempt files b t prog { o with silent := false } ow l).1 ∧
    (attempt files b t prog { o with silent := true } ow q).2 = (attempt files b t prog { o with silent := false } ow l).2 := by
  simp only [attempt]
  have ha := quieter_says (quieter_echo h t.settings (some files.log)) files.log o.debug prog.created
  rw [ha.disk]
  generalize ((List.foldl (say files.log false o.debug) (echo t.settings (some files.log) false l) prog.created).disk
    o.filename).getD [] = content
  cases (prog.read content).2 with
  | some e =>
    dsimp only
    exact ⟨quieter_echoError (quieter_echoError (quieter_says ha _ _ _) _ _) _ _, rfl⟩
  | none =>
    have hc := quieter_says (quieter_says (quieter_says ha files.log o.debug (prog.read content).1) files.log o.debug
      (prog.report content)) files.log o.debug (prog.run content).1
    cases (prog.run content).2 with
    | error e =>
      dsimp only
      exact ⟨quieter_echoError (quieter_echoError hc _ _) _ _, rfl⟩
    | ok bytes =>
      have key : ∀ q l : World, Quieter q l →
          Quieter (save files { o with silent := true } prog content bytes ow q).1
            (save files { o with silent := false } prog content bytes ow l).1 ∧
          (save files { o with silent := true } prog content bytes ow q).2 =
            (save files { o with silent := false } prog content bytes ow l).2 := by
        intro q l h
        simp only [save]
        rw [h.disk]
        split
        · dsimp only
          exact ⟨quieter_loud h _ _, rfl⟩
        · dsimp only
          refine ⟨quieter_says ?_ _ _ _, rfl⟩
          exact ⟨rfl, h.screen⟩
      refine key _ _ ?_
      cases b
      · exact hc
      · exact quieter_says hc _ _ _

/-- C90: the option -q changes neither the results, nor the log, nor how the run ends, and all it prints
would be printed without it, in the same order. -/
theorem C90_quiet_files (suffix : Str) (b : Bool) (t : Texts) (prog : Calculator) (o : Options) (ow : Bool) (w : World) :
    let q := command suffix b t prog { o with silent := true } ow w
    let l := command suffix b t prog { o with silent := false } ow w
    q.2 = l.2 ∧ q.1.disk = l.1.disk ∧ q.1.screen.Sublist l.1.screen := by
  intro q l
  have h0 : Quieter w w := ⟨rfl, List.Sublist.refl _⟩
  have hcalc : Quieter (calculate suffix b t prog { o with silent := true } ow w).1
      (calculate suffix b t prog { o with silent := false } ow w).1 ∧
      (calculate suffix b t prog { o with silent := true } ow w).2 =
        (calculate suffix b t prog { o with silent := false } ow w).2 := by
    simp only [calculate]
    have h1 := quieter_opened h0 (filesOf suffix o.filename o.outfile).log t
    rw [h1.disk]
    split
    · dsimp only
      exact ⟨quieter_echoError (quieter_echoError h1 _ _) _ _, rfl⟩
    · exact attempt_quieter h1 _ _ _ _ _ _
  have hcon : ∀ log, Quieter (conclude log true t (calculate suffix b t prog { o with silent := true } ow w).1)
      (conclude log false t (calculate suffix b t prog { o with silent := false } ow w).1) :=
    fun log => quieter_conclude hcalc.1 log t
  obtain ⟨hw, hr⟩ := hcalc
  have : Quieter q.1 l.1 ∧ q.2 = l.2 := by
    simp only [q, l, command]
    rcases hq : calculate suffix b t prog { o with silent := true } ow w with ⟨wq, rq⟩
    rcases hl : calculate suffix b t prog { o with silent := false } ow w with ⟨wl, rl⟩
    rw [hq, hl] at hw hr hcon
    simp only at hw hr hcon
    subst hr
    cases rq
    case saved => exact ⟨hcon _, rfl⟩
    case declined => exact ⟨hcon _, rfl⟩
    all_goals exact ⟨hw, rfl⟩
  exact ⟨this.2, this.1.disk, this.1.screen⟩

/-- The calculator says nothing that goes to the screen of a quiet run. -/
def Discreet (l : List (Channel × Str)) : Prop := ∀ m ∈ l, m.1 = .normal ∨ m.1 = .debug

theorem discreet_screen {l : List (Channel × Str)} (h : Discreet l) (log : Str) (debug : Bool) (w : World) :
    (l.foldl (say log true debug) w).screen = w.screen := by
  induction l generalizing w with
  | nil => rfl
  | cons m l ih =>
    simp only [List.foldl_cons]
    rw [ih fun x hx => h x (by simp [hx])]
    obtain ⟨ch, s⟩ := m
    rcases h (ch, s) (by simp) with rfl | rfl
    · rfl
    · cases debug <;> rfl

theorem conclude_screen (log : Str) (t : Texts) (w : World) : (conclude log true t w).screen = w.screen := by
  unfold conclude
  induction t.ending generalizing w with
  | nil => rfl
  | cons m ms ih => rw [List.foldl_cons, ih]; rfl

/-- C90, in part: a quiet run that saves its results prints nothing, if the calculator only speaks with
`echo`.  Missing: other ways of speaking, see the next theorem. -/
theorem C90_quiet_screen_partial {suffix : Str} {b : Bool} {t : Texts} {prog : Calculator} {o : Options} {ow : Bool}
    {w w' : World} (hq : o.silent = true) (h0 : Discreet prog.created) (h1 : ∀ c, Discreet (prog.read c).1)
    (h2 : ∀ c, Discreet (prog.report c)) (h3 : ∀ c, Discreet (prog.run c).1) (h4 : ∀ c, Discreet (prog.results c))
    (h5 : ∀ c, Discreet (prog.exported c)) (hrun : command suffix b t prog o ow w = (w', .saved)) :
    w'.screen = w.screen := by
  have hcalc : ∀ wc r, calculate suffix b t prog o ow w = (wc, r) → r = .saved → wc.screen = w.screen := by
    intro wc r hc hr
    simp only [calculate] at hc
    split at hc
    · simp only [Prod.mk.injEq] at hc
      rw [hr] at hc
      simp at hc
    · simp only [attempt, hq] at hc
      generalize ((List.foldl (say (filesOf suffix o.filename o.outfile).log true o.debug)
        (echo t.settings (some (filesOf suffix o.filename o.outfile).log) true
          (opened (filesOf suffix o.filename o.outfile).log t true w)) prog.created).disk o.filename).getD [] = content at hc
      split at hc
      · simp only [Prod.mk.injEq] at hc
        rw [hr] at hc
        simp at hc
      · split at hc
        · simp only [Prod.mk.injEq] at hc
          rw [hr] at hc
          simp at hc
        · have hb : ∀ wx : World, (if b = true then (prog.results content).foldl
              (say (filesOf suffix o.filename o.outfile).log true o.debug) wx else wx).screen = wx.screen := by
            intro wx
            split
            · exact discreet_screen (h4 content) _ _ _
            · rfl
          specialize hb ((prog.run content).1.foldl (say (filesOf suffix o.filename o.outfile).log true o.debug)
            ((prog.report content).foldl (say (filesOf suffix o.filename o.outfile).log true o.debug)
              ((prog.read content).1.foldl (say (filesOf suffix o.filename o.outfile).log true o.debug)
                (prog.created.foldl (say (filesOf suffix o.filename o.outfile).log true o.debug)
                  (echo t.settings (some (filesOf suffix o.filename o.outfile).log) true
                    (opened (filesOf suffix o.filename o.outfile).log t true w))))))
          generalize (if b = true then _ else _ : World) = wd at hb hc
          rw [save] at hc
          split at hc
          · simp only [Prod.mk.injEq] at hc
            rw [hr] at hc
            simp at hc
          · simp only [Prod.mk.injEq, hq] at hc
            rw [← hc.1, discreet_screen (h5 content)]
            simp only
            rw [hb, discreet_screen (h3 content), discreet_screen (h2 content), discreet_screen (h1 content),
              discreet_screen h0]
            rfl
  rw [command] at hrun
  rcases hc : calculate suffix b t prog o ow w with ⟨wc, rc⟩
  rw [hc] at hrun
  cases rc
  case saved =>
    simp only [Prod.mk.injEq, and_true] at hrun
    rw [← hrun, hq, conclude_screen]
    exact hcalc wc _ hc rfl
  all_goals simp at hrun

theorem says_shows {l : List (Channel × Str)} {m : Channel × Str} (hm : m ∈ l)
    (hch : m.1 = .override ∨ m.1 = .warning ∨ m.1 = .bar) (log : Str) (silent debug : Bool) (w : World) :
    m.2 ∈ (l.foldl (say log silent debug) w).screen := by
  induction l generalizing w with
  | nil => simp at hm
  | cons x l ih =>
    rw [List.foldl_cons]
    rcases List.mem_cons.1 hm with rfl | h
    · refine (extends_says log silent debug l _).screen.subset ?_
      obtain ⟨ch, s⟩ := m
      rcases hch with rfl | rfl | rfl <;> simp [say, echo, echoError, appendLine, secho]
    · exact ih h _

/-- C90 fails for whatever the calculator says with `echo_override`, as a warning or with a progress bar:
a quiet run prints it.  So does a run whose results are not saved. -/
theorem C90_quiet_screen_violated {suffix stem : Str} {b : Bool} {t : Texts} {prog : Calculator} {o : Options} {ow : Bool}
    {w w' : World} {r : Outcome} {content : Str} (hs : suffix ∈ suffixes) (hb : Base o.filename stem)
    (ho : ∀ x ∈ o.outfile, HasName x) (hl : o.filename ≠ logName suffix stem o.outfile)
    (hc : w.disk o.filename = some content) (hread : (prog.read content).2 = none)
    (hrun : command suffix b t prog o ow w = (w', r)) :
    (∀ m ∈ (prog.run content).1, m.1 = .override ∨ m.1 = .warning ∨ m.1 = .bar → m.2 ∈ w'.screen) ∧
    (r = .declined → c!"Results not saved" ∈ w'.screen) := by
  have hf : filesOf suffix o.filename o.outfile = ⟨resultsName suffix stem o.outfile, logName suffix stem o.outfile⟩ :=
    filesOf_eq (isSuffix hs) hb ho
  have hcalc : ∀ wc rc, calculate suffix b t prog o ow w = (wc, rc) →
      (∀ m ∈ (prog.run content).1, m.1 = .override ∨ m.1 = .warning ∨ m.1 = .bar → m.2 ∈ wc.screen) ∧
      (rc = .declined → c!"Results not saved" ∈ wc.screen) := by
    intro wc rc h
    simp only [calculate, hf] at h
    rw [opened_other hl, hc] at h
    simp only [attempt] at h
    set log := logName suffix stem o.outfile
    set wa := prog.created.foldl (say log o.silent o.debug)
      (echo t.settings (some log) o.silent (opened log t o.silent w)) with ha
    have hwa : Extends log (opened log t o.silent w) wa := (extends_echo _ _ _ _).trans (extends_says _ _ _ _ _)
    have hcc : (wa.disk o.filename).getD [] = content := by rw [hwa.other _ hl, opened_other hl, hc]; rfl
    rw [hcc, hread] at h
    simp only at h
    set wx := (prog.run content).1.foldl (say log o.silent o.debug) ((prog.report content).foldl
      (say log o.silent o.debug) ((prog.read content).1.foldl (say log o.silent o.debug) wa)) with hx
    have hwx : ∀ m ∈ (prog.run content).1, m.1 = .override ∨ m.1 = .warning ∨ m.1 = .bar → m.2 ∈ wx.screen :=
      fun m hm hch => says_shows hm hch _ _ _ _
    split at h
    · simp only [Prod.mk.injEq] at h
      refine ⟨fun m hm hch => ?_, fun hd => by rw [hd] at h; simp at h⟩
      rw [← h.1]
      exact ((extends_echoError log _ _).trans (extends_echoError log _ _)).screen.subset (hwx m hm hch)
    · have hwd : Extends log wx (if b = true then (prog.results content).foldl (say log o.silent o.debug) wx else wx) := by
        split
        · exact extends_says _ _ _ _ _
        · exact Extends.refl _ _
      generalize (if b = true then _ else _ : World) = wd at hwd h
      rw [save] at h
      split at h
      · simp only [Prod.mk.injEq] at h
        refine ⟨fun m hm hch => ?_, fun _ => ?_⟩
        · rw [← h.1]
          exact (hwd.trans (extends_echo log _ _ _)).screen.subset (hwx m hm hch)
        · rw [← h.1]
          simp [echo, appendLine, secho]
      · simp only [Prod.mk.injEq] at h
        refine ⟨fun m hm hch => ?_, fun hd => by rw [hd] at h; simp at h⟩
        rw [← h.1]
        exact (extends_says log _ _ _ _).screen.subset (hwd.screen.subset (hwx m hm hch))
  rw [command] at hrun
  rcases hcc : calculate suffix b t prog o ow w with ⟨wc, rc⟩
  obtain ⟨h1, h2⟩ := hcalc wc rc hcc
  rw [hcc] at hrun
  have hcon := extends_conclude (filesOf suffix o.filename o.outfile).log o.silent t wc
  cases rc
  case saved =>
    simp only [Prod.mk.injEq] at hrun
    rw [← hrun.1, ← hrun.2]
    exact ⟨fun m hm hch => hcon.screen.subset (h1 m hm hch), by simp⟩
  case declined =>
    simp only [Prod.mk.injEq] at hrun
    rw [← hrun.1, ← hrun.2]
    exact ⟨fun m hm hch => hcon.screen.subset (h1 m hm hch), fun _ => hcon.screen.subset (h2 rfl)⟩
  all_goals
    simp only [Prod.mk.injEq] at hrun
    rw [← hrun.1, ← hrun.2]
    exact ⟨h1, by simp⟩

/-! ### Earlier results -/

section
variable {suffix stem : Str} {b : Bool} {t : Texts} {prog : Calculator} {o : Options} {ow : Bool} {w w' : World} {r : Outcome}

/-- C91, in part: earlier results are only replaced by those of a completed run, and only if the user agrees.
Missing: the earlier log, see the next theorem. -/
theorem C91_results_partial (hs : suffix ∈ suffixes) (hb : Base o.filename stem) (ho : ∀ x ∈ o.outfile, HasName x)
    {old : Str} (hold : w.disk (resultsName suffix stem o.outfile) = some old)
    (hrun : command suffix b t prog o ow w = (w', r)) :
    (r ≠ .saved ∨ ow = false → w'.disk (resultsName suffix stem o.outfile) = some old) ∧
    (ow = false → r ≠ .saved) := by
  have h := C66_files hs hb ho hrun
  have hsh := command_shape hrun
  rw [filesOf_eq (isSuffix hs) hb ho] at hsh
  have hne := results_ne_log suffix stem o.outfile
  have key : ow = false → r ≠ .saved := by
    intro hf
    rcases hsh with ⟨h1, -⟩ | ⟨-, w1, w2, bytes, h2, -, -, -, h6, -⟩
    · exact h1
    · have : (w1.disk (resultsName suffix stem o.outfile)).isSome = true := by
        rw [h2.other _ hne, opened_other hne, hold]; rfl
      rw [h6 this] at hf
      simp at hf
  refine ⟨fun hr => ?_, key⟩
  rw [h.2.2.1 (hr.elim id key), hold]

/-- C91 fails for the log of the earlier run: every run replaces it, also one that the user then declines to
save, or that fails.  The earlier results are then accompanied by the log of another run. -/
theorem C91_log_violated (hs : suffix ∈ suffixes) (hb : Base o.filename stem) (ho : ∀ x ∈ o.outfile, HasName x)
    (hrun : command suffix b t prog o ow w = (w', r)) :
    ∃ rest, w'.disk (logName suffix stem o.outfile) = some (c!"\n" ++ t.title ++ c!"\n" ++ rest) := by
  have hsh := command_shape hrun
  rw [filesOf_eq (isSuffix hs) hb ho] at hsh
  rcases hsh with ⟨-, h2⟩ | ⟨-, w1, w2, bytes, h2, -, -, -, -, h7⟩
  · exact h2.log _ opened_log
  · obtain ⟨rest, hr⟩ := h2.log _ opened_log
    have : (withFile (resultsName suffix stem o.outfile) bytes w1).disk (logName suffix stem o.outfile) =
        w1.disk (logName suffix stem o.outfile) := Function.update_of_ne (results_ne_log _ _ _).symm _ _
    obtain ⟨rest', hr'⟩ := h7.log _ (this.trans hr)
    exact ⟨rest ++ rest', by rw [hr', List.append_assoc]⟩

end

/-! ### Plotting -/

/-- The process after seismic calculators were created with these settings. -/
def Process.after (mpl plotly : Bool) (history : List PlotOptions) : Process :=
  history.foldl (fun p s => (Seismic.create mpl plotly s p).1) {}

theorem create_plotting (mpl plotly : Bool) (s : PlotOptions) (p : Process) :
    (Seismic.create mpl plotly s p).1.plotting = (p.plotting || (s.plotting && (mpl || plotly))) := by
  obtain ⟨pl⟩ := p
  unfold Seismic.create
  cases hs : s.plotting <;> cases mpl <;> cases plotly <;> cases pl <;> rfl

theorem after_plotting (mpl plotly : Bool) (history : List PlotOptions) :
    (Process.after mpl plotly history).plotting = history.any fun s => s.plotting && (mpl || plotly) := by
  have key : ∀ (p : Process), (history.foldl (fun p s => (Seismic.create mpl plotly s p).1) p).plotting =
      (p.plotting || history.any fun s => s.plotting && (mpl || plotly)) := by
    induction history with
    | nil => simp
    | cons s l ih =>
      intro p
      rw [List.foldl_cons, ih, create_plotting, List.any_cons, Bool.or_assoc]
  simpa [Process.after] using key {}

/-- C67, in part: a seismic calculator plots if it was asked to and a package is there, and does not plot if
no calculator of the process was asked to.  What it plots depends on its own settings only.  Missing:
processes with calculators of both kinds, see the next theorem. -/
theorem C67_seismic_partial (mpl plotly : Bool) (before later : List PlotOptions) (s : PlotOptions) :
    let c := (Seismic.create mpl plotly s (Process.after mpl plotly before)).2
    let now := Process.after mpl plotly (before ++ s :: later)
    (s.plotting = true → mpl = true ∨ plotly = true → c.plotting now = true) ∧
    ((∀ x ∈ before ++ s :: later, x.plotting = false) → c.plotting now = false) ∧
    (c.plotSettings = if s.plotting ∧ (mpl ∨ plotly) then some ⟨mpl, plotly, s.dpi, s.two, s.three, s.projection⟩
      else none) := by
  refine ⟨fun h1 h2 => ?_, fun h => ?_, ?_⟩
  · rw [Seismic.plotting, after_plotting, List.any_eq_true]
    exact ⟨s, by simp, by rw [h1]; rcases h2 with rfl | rfl <;> simp⟩
  · rw [Seismic.plotting, after_plotting, List.any_eq_false]
    intro x hx
    rw [h x hx]
    simp
  · unfold Seismic.create
    cases hs : s.plotting <;> cases mpl <;> cases plotly <;> simp

/-- C67 fails in a process in which one calculator was asked to plot: all others, created before or after it
without being asked to, are then said to plot, and the attempt raises AttributeError. -/
theorem C67_seismic_violated (mpl plotly : Bool) (before later : List PlotOptions) (s s' : PlotOptions)
    (hs : s.plotting = false) (hs' : s' ∈ before ++ s :: later) (hp : s'.plotting = true)
    (hm : mpl = true ∨ plotly = true) :
    let c := (Seismic.create mpl plotly s (Process.after mpl plotly before)).2
    c.plotting (Process.after mpl plotly (before ++ s :: later)) = true ∧
    ∀ f, c.plot f = .error .attributeError := by
  refine ⟨?_, fun f => ?_⟩
  · rw [Seismic.plotting, after_plotting, List.any_eq_true]
    exact ⟨s', hs', by rw [hp]; rcases hm with rfl | rfl <;> simp⟩
  · simp [Seismic.create, hs, Seismic.plot]

/-- C67: an elastic calculator plots if and only if it was asked to, under its own name and with its own
resolution, whatever calculators were created before or afterwards. -/
theorem C67_elastic (history : List (Bool × Str × ℤ)) (i : ℕ) (hi : i < history.length) :
    let p := history.foldl (fun p s => ElasticProcess.create p s.1 s.2.1 s.2.2) {}
    p.plotting i = some history[i].1 ∧
    p.figures i = some (if history[i].1 then history[i].2 else ([], 80)) := by
  intro p
  have key : ∀ (l : List (Bool × Str × ℤ)) (q : ElasticProcess),
      (l.foldl (fun p s => ElasticProcess.create p s.1 s.2.1 s.2.2) q).cls = q.cls ∧
      (l.foldl (fun p s => ElasticProcess.create p s.1 s.2.1 s.2.2) q).made = q.made ++ l.map fun s =>
        if s.1 then (⟨some true, some s.2.1, some s.2.2⟩ : PlotAttributes) else {} := by
    intro l
    induction l with
    | nil => intro q; simp
    | cons s l ih =>
      intro q
      obtain ⟨h1, h2⟩ := ih (ElasticProcess.create q s.1 s.2.1 s.2.2)
      rw [List.foldl_cons]
      refine ⟨h1.trans rfl, h2.trans ?_⟩
      simp [ElasticProcess.create]
  obtain ⟨h1, h2⟩ := key history {}
  have h3 : p.made[i]? = some (if history[i].1 then ⟨some true, some history[i].2.1, some history[i].2.2⟩ else {}) := by
    rw [show p.made = _ from h2]
    simp [hi]
  have h4 : p.cls = ⟨some false, some [], some 80⟩ := h1
  simp only [ElasticProcess.plotting, ElasticProcess.figures, h3, h4]
  cases history[i].1 <;> simp

/-- Two seismic calculators, the first of which is asked to plot. -/
example : (Seismic.create true false { plotting := false } (Process.after true false [{ plotting := true }])).2.plotting
    (Process.after true false [{ plotting := true }, { plotting := false }]) = true := rfl

end Verif.Command
