/-
Properties C53 and C84 of the generator of phonon inputs (quantas/IO/qha_writer.py,
quantas/harmonic/commands/cmd_inpgen.py), and what becomes of the description (C85).
-/
import Verif.Phonon.WriterProps

namespace Verif.Phonon
open Verif.Py Verif.IO Verif.IO.Spec Verif.Interfaces Spec

/-! ### Specification -/

/-- The calculations in the files: every file exists and is read completely. -/
def Spec.Calculations {ε : Type} (fs : Files ε) (i : Interface) (files : List Str) (cs : List Calc) : Prop :=
  List.Forall₂ (fun f c => fs.existing f = true ∧ fs.single i f = .ok (.done c)) files cs

/-- The lines of a list of files: one name per line, which blanks and a newline may follow. -/
def Spec.Listed (lines files : List Str) : Prop :=
  List.Forall₂ (fun l f => ∃ b, l = f ++ b ∧ (∀ c ∈ b, c = ' ' ∨ c = '\t' ∨ c = '\r' ∨ c = '\n') ∧
    ∀ c, f.getLast? = some c → isSpace c = false) lines files

/-- The files of a request: one file, or a list of files. -/
def Spec.Requested {ε : Type} (fs : Files ε) (filename : Str) (isList : Bool) (files : List Str) : Prop :=
  isList = false ∧ files = [filename] ∨ isList = true ∧ Listed (fs.lines filename) files

/-- The interfaces with one calculation per file. -/
def Spec.OnePerFile (flag : Str) (i : Interface) : Prop :=
  flag = c!"crystal" ∧ i = .crystal ∨ flag = c!"phonopy" ∧ i = .phonopy

/-! ### Lemmas -/

theorem listed_files {lines files : List Str} (h : Listed lines files) : lines.map rstrip = files := by
  induction h with
  | nil => rfl
  | cons h _ ih =>
    obtain ⟨b, rfl, hb, hf⟩ := h
    rw [List.map_cons, ih, rstrip_append, rstrip_eq hf]
    · intro c hc
      rcases hb c hc with rfl | rfl | rfl | rfl <;> decide

theorem requested_files {ε : Type} {fs : Files ε} {filename : Str} {isList : Bool} {files : List Str}
    (h : Requested fs filename isList files) :
    (if isList then filesFromList fs filename else [filename]) = files := by
  rcases h with ⟨rfl, rfl⟩ | ⟨rfl, h⟩
  · rfl
  · simpa [filesFromList] using listed_files h

theorem interface_one {flag : Str} {i : Interface} (h : OnePerFile flag i) :
    interfaceOf flag = .ok i ∧ flag ≠ c!"crystal-qha" := by
  rcases h with ⟨rfl, rfl⟩ | ⟨rfl, rfl⟩ <;> exact ⟨by decide, by decide⟩

theorem readEach_append {ε : Type} {fs : Files ε} {flag : Str} {i : Interface}
    (hi : interfaceOf flag = .ok i) {files : List Str} {cs : List Calc} (h : Calculations fs i files cs)
    (rest : List Str) (s : State) :
    readEach fs flag (files ++ rest) s = readEach fs flag rest ⟨s.shared ++ cs⟩ := by
  induction h generalizing s with
  | nil => simp
  | cons hab _ ih =>
    rw [List.cons_append, readEach, if_pos hab.1, hi, ok_bind, hab.2]
    simp only
    rw [ih]
    simp

theorem readEach_all {ε : Type} {fs : Files ε} {flag : Str} {i : Interface}
    (hi : interfaceOf flag = .ok i) {files : List Str} {cs : List Calc} (h : Calculations fs i files cs)
    (s : State) : readEach fs flag files s = (⟨s.shared ++ cs⟩, .ok none) := by
  have := readEach_append hi h [] s
  rwa [List.append_nil, readEach] at this

theorem inpgen_one {ε : Type} {fs : Files ε} {flag : Str} (hq : flag ≠ c!"crystal-qha") {filename : Str}
    {isList : Bool} {files : List Str} (hr : Requested fs filename isList files) (s : State)
    (outfile : Str) (ref : ℤ) (job : Str) :
    inpgen fs s filename outfile isList ref flag job =
      match readEach fs flag files s with
      | (s, .error .keyError) => (s, .notValid)
      | (s, .error e) => (s, .crashed e)
      | (s, .ok (some e)) => (s, .reported e)
      | (s, .ok none) => (s, finish ε { flag := flag } s (outfile ++ c!".yaml") job ref) := by
  have hread : Generator.read fs { flag := flag } s filename isList =
      ({ flag := flag }, (readEach fs flag files s).1, (readEach fs flag files s).2) := by
    simp only [Generator.read, if_neg hq, requested_files hr]
  unfold inpgen
  rw [hread]
  rcases readEach fs flag files s with ⟨s', e | e⟩
  · cases e <;> rfl
  · cases e <;> rfl

theorem inpgen_all {ε : Type} {fs : Files ε} {flag : Str} {i : Interface} (hf : OnePerFile flag i)
    {filename : Str} {isList : Bool} {files : List Str} (hr : Requested fs filename isList files)
    {cs : List Calc} (h : Calculations fs i files cs) (s : State) (outfile : Str) (ref : ℤ) (job : Str) :
    inpgen fs s filename outfile isList ref flag job =
      (⟨s.shared ++ cs⟩, if ((s.shared ++ cs).length : ℤ) < ref then .invalidReference else
        match writeMultiple (s.shared ++ cs) job ref with
        | .ok text => .written (outfile ++ c!".yaml") text
        | .error e => .crashed e) := by
  obtain ⟨hi, hq⟩ := interface_one hf
  rw [inpgen_one hq hr, readEach_all hi h]
  simp only [finish, Generator.write, ne_eq, hq, not_false_eq_true, true_and, if_false]
  rfl

theorem index_lt {α : Type} {l : List α} {k : ℕ} {x : α} (h : l[k]? = some x) : k < l.length := by
  by_contra hc
  rw [List.getElem?_eq_none (by omega)] at h
  simp at h

theorem inpgen_missing {ε : Type} {fs : Files ε} {flag : Str} {i : Interface}
    (hf : OnePerFile flag i) {filename : Str} {isList : Bool} {files rest : List Str} {f : Str}
    (hr : Requested fs filename isList (files ++ f :: rest)) {old : List Calc}
    (h : Calculations fs i files old) (hm : fs.existing f = false) (s : State) (outfile : Str) (ref : ℤ)
    (job : Str) :
    inpgen fs s filename outfile isList ref flag job = (⟨s.shared ++ old⟩, .reported (.missing f)) := by
  obtain ⟨hi, hq⟩ := interface_one hf
  rw [inpgen_one hq hr, readEach_append hi h, readEach]
  simp [hm]

/-! ### C53 -/

/-- C53, for a generator used in a new process: the generated input contains exactly the calculations of the
request, in its order.  Missing: it holds for the first request of a process only, see
`C53_history_violated`. -/
theorem C53_fresh_partial {ε : Type} {fs : Files ε} {flag : Str} {i : Interface} (hf : OnePerFile flag i)
    {filename : Str} {isList : Bool} {files : List Str} (hr : Requested fs filename isList files)
    {cs : List Calc} (h : Calculations fs i files cs) {k : ℕ} {ref : Calc} (hk : cs[k]? = some ref)
    {d : Content} (hd : Provides cs ref d) (hc : Complete d) {job : Str} (hj : Plain job) (outfile : Str) :
    ∃ s text doc, inpgen fs ⟨[]⟩ filename outfile isList k flag job =
      (s, .written (outfile ++ c!".yaml") text) ∧ Denotes text doc ∧ IsInput (.str job) d doc := by
  obtain ⟨text, doc, h1, h2, h3⟩ := C85_multiple hk hd hc hj
  refine ⟨⟨cs⟩, text, doc, ?_, h2, h3⟩
  have hlt := index_lt hk
  rw [inpgen_all hf hr h, List.nil_append, h1, if_neg (by omega)]

/-- C53 fails for every later request of the process: after a request for the calculations `old`, of which
there is at least one, the input generated for the calculations `cs` has the volumes of all of them, those of
`old` first. -/
theorem C53_history_violated {ε : Type} {fs : Files ε} {flag flag' : Str} {i i' : Interface}
    (hf : OnePerFile flag i) (hf' : OnePerFile flag' i') {filename filename' : Str} {isList isList' : Bool}
    {files files' : List Str} (hr : Requested fs filename isList files)
    (hr' : Requested fs filename' isList' files') {old cs : List Calc} (ho : old ≠ [])
    (h : Calculations fs i files old) (h' : Calculations fs i' files' cs) {k : ℕ} {ref : Calc}
    (hk : (old ++ cs)[k]? = some ref) {d : Content} (hd : Provides (old ++ cs) ref d) (hc : Complete d)
    {job : Str} (hj : Plain job) (outfile outfile' : Str) (ref' : ℤ) (job' : Str) :
    ∃ s text doc vs, inpgen fs (inpgen fs ⟨[]⟩ filename outfile isList ref' flag job').1 filename' outfile'
        isList' k flag' job = (s, .written (outfile' ++ c!".yaml") text) ∧ Denotes text doc ∧
      Entry doc c!"volume" (.list vs) ∧ FloatsFixed 8 ((old ++ cs).map fun c => c.volume) (.list vs) ∧
      vs.length ≠ cs.length := by
  obtain ⟨text, doc, h1, h2, h3⟩ := C85_multiple hk hd hc hj
  obtain ⟨v, hv, ys, rfl, hy⟩ := h3.volume
  rw [hd.volumes] at hy
  refine ⟨⟨old ++ cs⟩, text, doc, _, ?_, h2, hv, ⟨ys, rfl, hy⟩, ?_⟩
  · have hlt := index_lt hk
    rw [inpgen_all hf hr h, inpgen_all hf' hr' h']
    simp only [List.nil_append]
    rw [h1, if_neg (by omega)]
  · have := hy.length_eq
    have h0 := List.length_pos_iff.2 ho
    simp only [List.length_map, List.length_append] at this ⊢
    omega

/-- C53 fails even after a request that was refused because a file was missing: the calculations `old` read
before the missing file are part of the next input. -/
theorem C53_refused_violated {ε : Type} {fs : Files ε} {flag flag' : Str} {i i' : Interface}
    (hf : OnePerFile flag i) (hf' : OnePerFile flag' i') {filename filename' : Str} {isList isList' : Bool}
    {files rest files' : List Str} {f : Str} (hr : Requested fs filename isList (files ++ f :: rest))
    (hr' : Requested fs filename' isList' files') {old cs : List Calc} (ho : old ≠ [])
    (h : Calculations fs i files old) (hm : fs.existing f = false) (h' : Calculations fs i' files' cs)
    {k : ℕ} {ref : Calc} (hk : (old ++ cs)[k]? = some ref) {d : Content} (hd : Provides (old ++ cs) ref d)
    (hc : Complete d) {job : Str} (hj : Plain job) (outfile outfile' : Str) (ref' : ℤ) (job' : Str) :
    ∃ s s' text doc vs,
      inpgen fs ⟨[]⟩ filename outfile isList ref' flag job' = (s, .reported (.missing f)) ∧
      inpgen fs s filename' outfile' isList' k flag' job = (s', .written (outfile' ++ c!".yaml") text) ∧
      Denotes text doc ∧ Entry doc c!"volume" (.list vs) ∧ vs.length ≠ cs.length := by
  obtain ⟨text, doc, h1, h2, h3⟩ := C85_multiple hk hd hc hj
  obtain ⟨v, hv, ys, rfl, hy⟩ := h3.volume
  rw [hd.volumes] at hy
  refine ⟨⟨old⟩, ⟨old ++ cs⟩, text, doc, _, inpgen_missing hf hr h hm _ _ _ _, ?_, h2, hv, ?_⟩
  · have hlt := index_lt hk
    rw [inpgen_all hf' hr' h']
    simp only
    rw [h1, if_neg (by omega)]
  · have := hy.length_eq
    have h0 := List.length_pos_iff.2 ho
    simp only [List.length_map, List.length_append] at this ⊢
    omega

/-- C53 for the quasi-harmonic interface: whatever was generated before, the input contains exactly the
calculation of the file. -/
theorem C53_quasi_harmonic {ε : Type} {fs : Files ε} {filename : Str} (he : fs.existing filename = true)
    {c : QhaCalc} (hf : fs.qha filename = .ok (.done c)) {d : Content} (hd : ProvidesQha c d)
    (hc : Complete d) {job : Str} (hj : Plain job) (s : State) (outfile : Str) (ref : ℤ) :
    ∃ text doc, inpgen fs s filename outfile false ref c!"crystal-qha" job =
      (s, .written (outfile ++ c!".yaml") text) ∧ Denotes text doc ∧ IsInput (.str job) d doc := by
  obtain ⟨text, doc, h1, h2, h3⟩ := C85_single hd hc hj
  refine ⟨text, doc, ?_, h2, h3⟩
  simp [inpgen, Generator.read, he, hf, finish, Generator.write, h1]

/-- C53: whatever was generated before, the first missing file of a request is named in an error and no
input is written. -/
theorem C53_missing {ε : Type} {fs : Files ε} {flag : Str} {i : Interface} (hf : OnePerFile flag i)
    {filename : Str} {isList : Bool} {files rest : List Str} {f : Str}
    (hr : Requested fs filename isList (files ++ f :: rest)) {cs : List Calc}
    (h : Calculations fs i files cs) (hm : fs.existing f = false) (s : State) (outfile : Str) (ref : ℤ)
    (job : Str) :
    (inpgen fs s filename outfile isList ref flag job).2 = .reported (.missing f) := by
  rw [inpgen_missing hf hr h hm]

/-- C53: whatever was generated before, the error of the first file that cannot be read is reported and no
input is written. -/
theorem C53_unreadable {ε : Type} {fs : Files ε} {flag : Str} {i : Interface} (hf : OnePerFile flag i)
    {filename : Str} {isList : Bool} {files rest : List Str} {f : Str}
    (hr : Requested fs filename isList (files ++ f :: rest)) {cs : List Calc}
    (h : Calculations fs i files cs) (he : fs.existing f = true) {e : ε}
    (hm : fs.single i f = .ok (.failed e)) (s : State) (outfile : Str) (ref : ℤ) (job : Str) :
    (inpgen fs s filename outfile isList ref flag job).2 = .reported (.reader e) := by
  obtain ⟨hi, hq⟩ := interface_one hf
  rw [inpgen_one hq hr, readEach_append hi h, readEach, if_pos he, hi, ok_bind, hm]

/-- C53: whatever was generated before, a list of files with the quasi-harmonic interface, a missing or
unreadable quasi-harmonic file, and an unknown interface are reported, and no input is written. -/
theorem C53_unsupported {ε : Type} (fs : Files ε) (s : State) (filename outfile : Str) (ref : ℤ)
    (job : Str) :
    (inpgen fs s filename outfile true ref c!"crystal-qha" job).2 = .reported .oneFileOnly ∧
    (fs.existing filename = false →
      (inpgen fs s filename outfile false ref c!"crystal-qha" job).2 = .reported (.missing filename)) ∧
    (∀ e, fs.existing filename = true → fs.qha filename = .ok (.failed e) →
      (inpgen fs s filename outfile false ref c!"crystal-qha" job).2 = .reported (.reader e)) ∧
    (∀ flag, flag ∉ [c!"crystal", c!"crystal-qha", c!"phonopy"] → fs.existing filename = true →
      (inpgen fs s filename outfile false ref flag job).2 = .notValid) := by
  refine ⟨by simp [inpgen, Generator.read], fun h => by simp [inpgen, Generator.read, h],
    fun e h1 h2 => by simp [inpgen, Generator.read, h1, h2], fun flag hf he => ?_⟩
  simp only [List.mem_cons, not_or, List.not_mem_nil, not_false_eq_true, and_true] at hf
  obtain ⟨f1, f2, f3⟩ := hf
  have hi : interfaceOf flag = .error .keyError := by simp [interfaceOf, f1, f2, f3]
  rw [inpgen_one f2 (files := [filename]) (.inl ⟨rfl, rfl⟩), readEach, if_pos he, hi]
  rfl

/-! ### C84: the reference -/

/-- C84: a reference beyond the number of the files is reported and no input is written. -/
theorem C84_too_large {ε : Type} {fs : Files ε} {flag : Str} {i : Interface} (hf : OnePerFile flag i)
    {filename : Str} {isList : Bool} {files : List Str} (hr : Requested fs filename isList files)
    {cs : List Calc} (h : Calculations fs i files cs) {ref : ℤ} (hk : (cs.length : ℤ) < ref)
    (job outfile : Str) :
    (inpgen fs ⟨[]⟩ filename outfile isList ref flag job).2 = .invalidReference := by
  rw [inpgen_all hf hr h, List.nil_append, if_pos hk]

/-- C84 fails for the first position after the last file (files are counted from zero): it passes the test of
the command, which then ends with IndexError. -/
theorem C84_boundary_violated {ε : Type} {fs : Files ε} {flag : Str} {i : Interface}
    (hf : OnePerFile flag i) {filename : Str} {isList : Bool} {files : List Str}
    (hr : Requested fs filename isList files) {cs : List Calc} (h : Calculations fs i files cs)
    (job outfile : Str) :
    (inpgen fs ⟨[]⟩ filename outfile isList cs.length flag job).2 = .crashed .indexError := by
  rw [inpgen_all hf hr h, List.nil_append, if_neg (by omega)]
  simp [writeMultiple, Chemistry.pyIndex, Except.bind]

/-- C84 fails for negative references: `-1` to `-n` silently take the files counted from the last, and the
command ends with IndexError for others. -/
theorem C84_negative_violated {ε : Type} {fs : Files ε} {flag : Str} {i : Interface}
    (hf : OnePerFile flag i) {filename : Str} {isList : Bool} {files : List Str}
    (hr : Requested fs filename isList files) {cs : List Calc} (h : Calculations fs i files cs)
    (job outfile : Str) :
    (∀ k : ℕ, k < cs.length →
      inpgen fs ⟨[]⟩ filename outfile isList ((k : ℤ) - cs.length) flag job =
        inpgen fs ⟨[]⟩ filename outfile isList k flag job) ∧
    (∀ ref : ℤ, ref < -(cs.length : ℤ) →
      (inpgen fs ⟨[]⟩ filename outfile isList ref flag job).2 = .crashed .indexError) := by
  constructor
  · intro k hk
    rw [inpgen_all hf hr h, inpgen_all hf hr h, List.nil_append, if_neg (by omega), if_neg (by omega)]
    have : Chemistry.pyIndex cs ((k : ℤ) - cs.length) = Chemistry.pyIndex cs k := by
      have e1 : ¬ (0 ≤ (k : ℤ) - cs.length) := by omega
      have e2 : (cs.length : ℤ) + ((k : ℤ) - cs.length) = k := by omega
      rw [Chemistry.pyIndex, if_neg e1, e2, if_neg (by omega), Chemistry.pyIndex, if_pos (by omega)]
    simp only [writeMultiple, this]
  · intro ref hk
    rw [inpgen_all hf hr h, List.nil_append, if_neg (by omega)]
    have : Chemistry.pyIndex cs ref = .error .indexError := by
      rw [Chemistry.pyIndex, if_neg (by omega), if_pos (by omega)]
    simp [writeMultiple, this, Except.bind]

/-! ### C85: the description -/

/-- C85 fails for an empty description and for one that is a number: the generated input denotes no text for
it, and the reader, which accepts the input, raises AttributeError when asked for the description. -/
theorem C85_description_violated {cs : List Calc} {k : ℕ} {ref : Calc} (hk : cs[k]? = some ref)
    {d : Content} (hd : Provides cs ref d) (hc : Complete d) {job : Str}
    (hj : job = [] ∨ ∃ n : ℕ, job = showNat n) :
    ∃ text doc r, writeMultiple cs job k = .ok text ∧ Denotes text doc ∧
      Reader.load {} (.tree doc) = .ok r ∧ r.completed = true ∧ r.jobname = .error .attributeError := by
  obtain ⟨x, hx, hn⟩ : ∃ x : Node, Value job x ∧ ∀ s, x ≠ .str s := by
    rcases hj with rfl | ⟨n, rfl⟩
    · exact ⟨.null, plain_value .null, by simp⟩
    · exact ⟨.int n, plain_value (showNat_scalar n), by simp⟩
  obtain ⟨text, doc, h1, h2, h3⟩ := multiple_denotes hk hd hc hx
  obtain ⟨v, hv, -⟩ := h3.volume
  obtain ⟨e, he, -⟩ := h3.energy
  obtain ⟨p, hp, -⟩ := h3.phonon
  have hjob := h3.job
  refine ⟨text, doc, ⟨true, none, doc⟩, h1, h2, ?_, rfl, ?_⟩
  · obtain ⟨l, rfl, _⟩ := hv
    simp only [Reader.load]
    rw [check_map rfl]
    simp [checkKeys, contains_entry h3.volume.choose_spec.1, contains_entry he, contains_entry hp, Except.bind]
  · simp only [Reader.jobname, contains_entry hjob, get_entry hjob, ok_bind, if_true]

/-! ### Witnesses -/

/-- A calculation for one atom and one q-point. -/
def Witness.calc (v e f : ℚ) : Calc where
  natom := 1
  dim := fun i j => if i = j then 1 else 0
  qpoints := 1
  volume := v
  energy := e
  qcoords := [fun _ => 1]
  shrinkf := fun _ => 2
  weights := [1]
  nphonon := 3
  phonons := [[f, 2 * f, 3 * f]]

/-- The data of two such calculations. -/
def Witness.content (v e f v' e' f' : ℚ) : Content where
  natom := 1
  dim := fun i j => if i = j then 1 else 0
  volumes := [v, v']
  energies := [e, e']
  points := [⟨fun _ => 1 / 2, 1, [[f, f'], [2 * f, 2 * f'], [3 * f, 3 * f']]⟩]

theorem Witness.provides (v e f v' e' f' : ℚ) :
    Provides [Witness.calc v e f, Witness.calc v' e' f'] (Witness.calc v e f)
      (Witness.content v e f v' e' f') := by
  refine ⟨rfl, fun i j => ?_, rfl, rfl, rfl, ?_, ?_, ?_, ?_⟩
  · fin_cases i <;> fin_cases j <;> simp [Witness.calc, Witness.content]
  · intro i p hp
    match i, hp with
    | 0, hp =>
      obtain rfl := Option.some.inj hp
      exact ⟨_, rfl, fun k => rfl⟩
  · intro i p hp
    match i, hp with
    | 0, hp =>
      obtain rfl := Option.some.inj hp
      simp [Witness.calc]
  · intro p hp
    obtain rfl := List.mem_singleton.1 hp
    rfl
  · intro i p hp j g hg
    match i, hp with
    | 0, hp =>
      obtain rfl := Option.some.inj hp
      match j, hg with
      | 0, hg => obtain rfl := Option.some.inj hg; exact .cons ⟨_, rfl, rfl⟩ (.cons ⟨_, rfl, rfl⟩ .nil)
      | 1, hg => obtain rfl := Option.some.inj hg; exact .cons ⟨_, rfl, rfl⟩ (.cons ⟨_, rfl, rfl⟩ .nil)
      | 2, hg => obtain rfl := Option.some.inj hg; exact .cons ⟨_, rfl, rfl⟩ (.cons ⟨_, rfl, rfl⟩ .nil)

theorem Witness.complete (v e f v' e' f' : ℚ) : Complete (Witness.content v e f v' e' f') := by
  refine ⟨Nat.one_pos, by simp [Witness.content], rfl, by simp [Witness.content], ?_, ?_⟩
  · intro p hp
    obtain rfl := List.mem_singleton.1 hp
    rfl
  · intro p hp g hg
    obtain rfl := List.mem_singleton.1 hp
    simp only [List.mem_cons, List.not_mem_nil, or_false] at hg
    rcases hg with rfl | rfl | rfl <;> rfl

/-- A directory with two outputs and a list of them. -/
def Witness.files : Files Str where
  existing := fun f => f = c!"a.out" ∨ f = c!"b.out" ∨ f = c!"list"
  single := fun _ f => if f = c!"a.out" then .ok (.done (Witness.calc 10 (-5) 100))
    else if f = c!"b.out" then .ok (.done (Witness.calc 11 (-6) 90)) else .ok (.failed c!"not an output")
  qha := fun _ => .ok (.failed c!"not an output")
  lines := fun _ => [c!"a.out\n", c!"b.out\n"]

/-- `C53_fresh_partial` applies to the list of both files. -/
example : ∃ s text doc, inpgen Witness.files ⟨[]⟩ c!"list" c!"out" true 0 c!"crystal" c!"test" =
    (s, .written c!"out.yaml" text) ∧ Denotes text doc ∧
      IsInput (.str c!"test") (Witness.content 10 (-5) 100 11 (-6) 90) doc := by
  refine C53_fresh_partial (k := 0) (files := [c!"a.out", c!"b.out"]) (i := .crystal) (.inl ⟨rfl, rfl⟩)
    (.inr ⟨rfl, ?_⟩) (.cons ⟨by decide, by simp [Witness.files]⟩
      (.cons ⟨by decide, by simp [Witness.files]⟩ .nil)) rfl
    (Witness.provides _ _ _ _ _ _) (Witness.complete _ _ _ _ _ _) ?_ c!"out"
  · refine .cons ⟨['\n'], rfl, by simp, ?_⟩ (.cons ⟨['\n'], rfl, by simp, ?_⟩ .nil) <;>
      (intro c hc; obtain rfl := Option.some.inj hc; decide)
  · exact ⟨⟨_, _, rfl, by decide⟩, by decide, by decide, by decide⟩

/-- `C53_history_violated` applies to a request for `b.out` after one for `a.out`. -/
example : ∃ s text doc vs, inpgen Witness.files
      (inpgen Witness.files ⟨[]⟩ c!"a.out" c!"first" false 0 c!"crystal" c!"first").1 c!"b.out" c!"second"
      false (0 : ℕ) c!"crystal" c!"second" = (s, .written c!"second.yaml" text) ∧ Denotes text doc ∧
    Entry doc c!"volume" (.list vs) ∧
    FloatsFixed 8 (([Witness.calc 10 (-5) 100] ++ [Witness.calc 11 (-6) 90]).map fun c => c.volume)
      (.list vs) ∧ vs.length ≠ [Witness.calc 11 (-6) 90].length :=
  C53_history_violated (i := .crystal) (i' := .crystal) (files := [c!"a.out"]) (files' := [c!"b.out"])
    (.inl ⟨rfl, rfl⟩) (.inl ⟨rfl, rfl⟩) (.inl ⟨rfl, rfl⟩) (.inl ⟨rfl, rfl⟩) (by simp)
    (.cons ⟨by decide, by simp [Witness.files]⟩ .nil) (.cons ⟨by decide, by simp [Witness.files]⟩ .nil)
    rfl (Witness.provides _ _ _ _ _ _) (Witness.complete _ _ _ _ _ _)
    ⟨⟨_, _, rfl, by decide⟩, by decide, by decide, by decide⟩ c!"first" c!"second" 0 c!"first"

/-- A quasi-harmonic calculation with two volumes, for `C85_single` and `C53_quasi_harmonic`. -/
def Witness.qha : QhaCalc where
  points := 2
  natom := 1
  dim := fun i j => if i = j then 1 else 0
  qpoints := 1
  volume := [10, 11]
  energy := [-5, -6]
  qcoords := [fun _ => 1]
  shrinkf := fun _ => 2
  weights := [1]
  nphonon := 3
  phonons := [[[100, 90], [2 * 100, 2 * 90], [3 * 100, 3 * 90]]]

theorem Witness.provides_qha : ProvidesQha Witness.qha (Witness.content 10 (-5) 100 11 (-6) 90) := by
  refine ⟨rfl, fun i j => ?_, rfl, rfl, rfl, rfl, ?_, ?_, ?_, ?_⟩
  · fin_cases i <;> fin_cases j <;> simp [Witness.qha, Witness.content]
  · intro i p hp
    match i, hp with
    | 0, hp =>
      obtain rfl := Option.some.inj hp
      exact ⟨_, rfl, fun k => rfl⟩
  · intro i p hp
    match i, hp with
    | 0, hp =>
      obtain rfl := Option.some.inj hp
      simp [Witness.qha]
  · intro p hp
    obtain rfl := List.mem_singleton.1 hp
    rfl
  · intro i p hp
    match i, hp with
    | 0, hp => obtain rfl := Option.some.inj hp; rfl

end Verif.Phonon
