/-
C115: a command is found by its name, and other names are refused; C93 on what the words after `quantas` run.
-/
import Verif.Command.Group
import Verif.IO.SoecLemmas
import Verif.Tac

namespace Verif.Command.Spec
open Verif.Py

/-- The error for a name that is no command: with suggestions, one a line, or with the remark that there are none. -/
def IsRefusal (name : Str) (suggestions : List Str) (text : Str) : Prop :=
  (suggestions = [] → text = List.intercalate ['\n']
    [c!"'" ++ name ++ c!"' is not a Quantas command.", [], c!"No similar commands found."]) ∧
  (suggestions ≠ [] → text = List.intercalate ['\n']
    ([c!"'" ++ name ++ c!"' is not a Quantas command.", [], c!"The most similar commands are: "] ++
      suggestions.map ('\t' :: ·)))

end Verif.Command.Spec

namespace Verif.Command
open Verif.Py Verif.Command.Spec
open Verif.IO (joinLines)

theorem lookup_of_nodup {α : Type} {table : List (Str × α)} (h : (table.map Prod.fst).Nodup) {name : Str} {c : α}
    (hc : (name, c) ∈ table) : table.lookup name = some c := by
  induction table with
  | nil => simp at hc
  | cons p l ih =>
    obtain ⟨n, d⟩ := p
    rw [List.map_cons, List.nodup_cons] at h
    rw [List.lookup_cons]
    by_cases e : name = n
    · subst e
      rcases List.mem_cons.1 hc with e | e
      · simp [(Prod.mk.inj e).2]
      · exact absurd (List.mem_map_of_mem (f := Prod.fst) e) h.1
    · have : (name == n) = false := by simpa using e
      rw [this]
      exact ih h.2 ((List.mem_cons.1 hc).resolve_left fun he => e (Prod.mk.inj he).1)

theorem lookup_none {α : Type} {table : List (Str × α)} {name : Str} (h : name ∉ table.map Prod.fst) :
    table.lookup name = none := by
  induction table with
  | nil => rfl
  | cons p l ih =>
    obtain ⟨n, d⟩ := p
    simp only [List.map_cons, List.mem_cons, not_or] at h
    have : (name == n) = false := by simpa using h.1
    rw [List.lookup_cons, this]
    exact ih h.2

/-- C115: the name of a command runs that command. -/
theorem C115_exact {α : Type} (ratio : Str → Str → ℚ) {table : List (Str × α)} (h : (table.map Prod.fst).Nodup)
    {name : Str} {c : α} (hc : (name, c) ∈ table) : getCommand ratio table name = .command c := by
  simp only [getCommand, lookup_of_nodup h hc]

theorem larger_total : Std.Total Larger :=
  ⟨fun a b => by
    unfold Larger
    rcases lt_trichotomy a.1 b.1 with h | h | h
    · exact .inr (.inl h)
    · rcases le_total a.2 b.2 with h' | h'
      · exact .inr (.inr ⟨h, h'⟩)
      · exact .inl (.inr ⟨h.symm, h'⟩)
    · exact .inl (.inl h)⟩

theorem larger_trans : IsTrans (ℚ × Str) Larger :=
  ⟨fun a b c h1 h2 => by
    unfold Larger at *
    rcases h1 with h1 | ⟨h1, h1'⟩ <;> rcases h2 with h2 | ⟨h2, h2'⟩
    · exact .inl (h2.trans h1)
    · exact .inl (h2 ▸ h1)
    · exact .inl (h1 ▸ h2)
    · exact .inr ⟨h2.trans h1, h2'.trans h1'⟩⟩

theorem sortedTexts_perm (l : List Str) : (sortedTexts l).Perm l := List.perm_insertionSort _ _

theorem sortedTexts_pairwise {l : List Str} (h : l.Nodup) : (sortedTexts l).Pairwise (· < ·) := by
  have h1 : (sortedTexts l).Pairwise (· ≤ ·) := List.pairwise_insertionSort _ _
  have h2 : (sortedTexts l).Nodup := (sortedTexts_perm l).nodup_iff.2 h
  exact (h1.and h2).imp fun ⟨a, b⟩ => lt_of_le_of_ne a b

/-- The words that are similar, in the order of `nlargest`. -/
theorem closeMatches_spec (ratio : Str → Str → ℚ) (word : Str) {ps : List Str} (h : ps.Nodup) :
    (closeMatches ratio word ps).Nodup ∧ (closeMatches ratio word ps).length ≤ 3 ∧
    (∀ c ∈ closeMatches ratio word ps, c ∈ ps ∧ 1 / 2 ≤ ratio c word) ∧
    ∀ d ∈ ps, 1 / 2 ≤ ratio d word → d ∉ closeMatches ratio word ps → (closeMatches ratio word ps).length = 3 ∧
      ∀ c ∈ closeMatches ratio word ps, ratio d word ≤ ratio c word := by
  haveI := larger_total
  haveI := larger_trans
  set l := (ps.filter fun x => 1 / 2 ≤ ratio x word).map fun x => (ratio x word, x) with hl
  set s := l.insertionSort Larger with hs
  have hc : closeMatches ratio word ps = (s.take 3).map Prod.snd := rfl
  have hperm : s.Perm l := List.perm_insertionSort _ _
  have hsort : s.Pairwise Larger := List.pairwise_insertionSort _ _
  have hmem : ∀ p, p ∈ s ↔ p.2 ∈ ps ∧ 1 / 2 ≤ ratio p.2 word ∧ p.1 = ratio p.2 word := by
    rintro ⟨a, x⟩
    rw [hperm.mem_iff, hl, List.mem_map]
    constructor
    · rintro ⟨y, hy, e⟩
      obtain ⟨rfl, rfl⟩ := Prod.mk.inj e
      simpa using List.mem_filter.1 hy
    · rintro ⟨h1, h2, h3⟩
      exact ⟨x, List.mem_filter.2 ⟨h1, by simpa using h2⟩, by rw [← h3]⟩
  have hnd : (s.map Prod.snd).Nodup := by
    rw [(hperm.map Prod.snd).nodup_iff, hl, List.map_map]
    have : (Prod.snd ∘ fun x => (ratio x word, x)) = id := rfl
    rw [this, List.map_id]
    exact h.filter _
  rw [hc]
  refine ⟨(hnd.sublist ((List.take_sublist 3 s).map _)), by simp, ?_, ?_⟩
  · intro c hc
    obtain ⟨p, hp, rfl⟩ := List.mem_map.1 hc
    have := (hmem p).1 (List.mem_of_mem_take hp)
    exact ⟨this.1, this.2.1⟩
  · intro d hd hr hn
    have hds : (ratio d word, d) ∈ s := (hmem _).2 ⟨hd, hr, rfl⟩
    rw [← List.take_append_drop 3 s] at hds hsort
    have hnt : (ratio d word, d) ∉ s.take 3 := fun h => hn (List.mem_map_of_mem (f := Prod.snd) h)
    have hdd : (ratio d word, d) ∈ s.drop 3 := (List.mem_append.1 hds).resolve_left hnt
    constructor
    · have : 0 < (s.drop 3).length := List.length_pos_of_mem hdd
      rw [List.length_drop] at this
      rw [List.length_map, List.length_take]
      omega
    · intro c hc
      obtain ⟨p, hp, rfl⟩ := List.mem_map.1 hc
      have h1 := (List.pairwise_append.1 hsort).2.2 p hp _ hdd
      have h2 := ((hmem p).1 (List.mem_of_mem_take hp)).2.2
      rw [← h2]
      rcases h1 with h1 | h1
      · exact h1.le
      · exact h1.1.le

/-- C115: a name that is no command runs nothing: the program ends with an error that suggests at most three commands, in
order and without repetition.  When there are commands similar to the name, these are the most similar ones; otherwise they
are the first that begin with the name.  Nothing is suggested only when no command is similar or begins with the name. -/
theorem C115_unknown {α : Type} (ratio : Str → Str → ℚ) {table : List (Str × α)} (h : (table.map Prod.fst).Nodup)
    {name : Str} (hn : name ∉ table.map Prod.fst) :
    ∃ text s, getCommand ratio table name = .fail text ∧ IsRefusal name s text ∧ s.Pairwise (· < ·) ∧ s.length ≤ 3 ∧
      (∀ c ∈ s, c ∈ table.map Prod.fst) ∧
      ((∃ c ∈ table.map Prod.fst, 1 / 2 ≤ ratio c name) → s ≠ [] ∧ (∀ c ∈ s, 1 / 2 ≤ ratio c name) ∧
        ∀ d ∈ table.map Prod.fst, 1 / 2 ≤ ratio d name → d ∉ s → s.length = 3 ∧ ∀ c ∈ s, ratio d name ≤ ratio c name) ∧
      ((∀ c ∈ table.map Prod.fst, ratio c name < 1 / 2) → (∀ c ∈ s, name <+: c) ∧
        ∀ d ∈ table.map Prod.fst, name <+: d → d ∉ s → s.length = 3 ∧ ∀ c ∈ s, c < d) := by
  set names := table.map Prod.fst with hnames
  have hp := sortedTexts_perm names
  obtain ⟨c1, c2, c3, c4⟩ := closeMatches_spec ratio name (hp.nodup_iff.2 h)
  set close := closeMatches ratio name (sortedTexts names) with hclose
  set m := candidates ratio names name with hm
  have hmp : (sortedTexts m).Perm m := sortedTexts_perm m
  have hmem : ∀ x, x ∈ sortedTexts m ↔ x ∈ m := fun x => hmp.mem_iff
  have hnil : sortedTexts m = [] ↔ m = [] := by
    constructor <;> intro e
    · exact (e ▸ hmp).nil_eq.symm
    · rw [e]; rfl
  have hsome : (∃ c ∈ names, 1 / 2 ≤ ratio c name) → close ≠ [] := by
    rintro ⟨c, hc, hr⟩ e
    have := (c4 c (hp.mem_iff.2 hc) hr (by rw [e]; simp)).1
    rw [e] at this
    simp at this
  have hnone : (∀ c ∈ names, ratio c name < 1 / 2) → close = [] := by
    intro hr
    by_contra e
    obtain ⟨x, hx⟩ := List.exists_mem_of_ne_nil _ e
    exact absurd (c3 x hx).2 (not_le.2 (hr x (hp.mem_iff.1 (c3 x hx).1)))
  have hdef : m = if close = [] then ((sortedTexts (sortedTexts names)).filter fun c => startsWith c name).take 3
      else close := rfl
  have hp2 : (sortedTexts (sortedTexts names)).Perm names := (sortedTexts_perm _).trans hp
  have hpw : (sortedTexts (sortedTexts names)).Pairwise (· < ·) := sortedTexts_pairwise (hp.nodup_iff.2 h)
  have hpf : ((sortedTexts (sortedTexts names)).filter fun c => startsWith c name).Pairwise (· < ·) :=
    hpw.sublist List.filter_sublist
  have hmnd : m.Nodup := by
    rw [hdef]
    split_ifs
    · exact (hpf.imp fun h => ne_of_lt h).sublist (List.take_sublist _ _)
    · exact c1
  have hlen : m.length ≤ 3 := by
    rw [hdef]
    split_ifs
    · simp
    · exact c2
  have hreg : ∀ c ∈ m, c ∈ names := by
    rw [hdef]
    split_ifs
    · intro c hc
      exact hp2.mem_iff.1 (List.mem_filter.1 (List.mem_of_mem_take hc)).1
    · intro c hc
      exact hp.mem_iff.1 (c3 c hc).1
  refine ⟨_, sortedTexts m, by simp only [getCommand, lookup_none hn]; rw [← apply_ite], ⟨?_, ?_⟩,
    sortedTexts_pairwise hmnd, hmp.length_eq ▸ hlen, fun c hc => hreg c ((hmem c).1 hc), ?_, ?_⟩
  · intro e
    rw [hnil] at e
    rw [if_neg (by rw [← hnames, ← hm]; exact not_not.2 e)]
    simp [List.intercalate]
  · intro e
    rw [Ne, hnil] at e
    rw [if_pos (by rw [← hnames, ← hm]; exact e), Verif.IO.joinLines_eq]
    have : (sortedTexts m).map ('\t' :: ·) ≠ [] := by
      simpa [hnil] using e
    obtain ⟨a, r, hr⟩ := List.exists_cons_of_ne_nil this
    rw [← hnames, ← hm]
    rw [show (sortedTexts m).map (fun c => ['\t'] ++ c) = (sortedTexts m).map ('\t' :: ·) from rfl, hr]
    simp [List.intercalate]
  · intro hex
    have e := hsome hex
    rw [if_neg e] at hdef
    simp only [hmem]
    rw [Ne, hnil, hmp.length_eq, hdef]
    exact ⟨e, fun c hc => (c3 c hc).2, fun d hd hr hdn => c4 d (hp.mem_iff.2 hd) hr hdn⟩
  · intro hall
    have e := hnone hall
    rw [if_pos e] at hdef
    rw [hmp.length_eq]
    simp only [hmem]
    set f := (sortedTexts (sortedTexts names)).filter fun c => startsWith c name with hf
    constructor
    · intro c hc
      rw [hdef] at hc
      have := (List.mem_filter.1 (List.mem_of_mem_take hc)).2
      exact List.isPrefixOf_iff_prefix.1 this
    · intro d hd hpre hdn
      have hdf : d ∈ f := List.mem_filter.2 ⟨hp2.mem_iff.2 hd, List.isPrefixOf_iff_prefix.2 hpre⟩
      rw [← List.take_append_drop 3 f, ← hdef] at hdf hpf
      have hdd := (List.mem_append.1 hdf).resolve_left hdn
      constructor
      · have : 0 < (f.drop 3).length := List.length_pos_of_mem hdd
        rw [List.length_drop] at this
        rw [hdef, List.length_take]
        omega
      · exact fun c hc => (List.pairwise_append.1 hpf).2.2 c hc d hdd

/-- C93, in part: the commands of the harmonic, quasi-harmonic, elastic and equation of state calculators, of the exports and of the
input generators run under the names of the documentation. -/
theorem C93_run_partial (ratio : Str → Str → ℚ) :
    resolve ratio [c!"ha"] = some (.command .haCalculation) ∧ resolve ratio [c!"qha"] = some (.command .qhaCalculation) ∧
    resolve ratio [c!"soec"] = some (.command .soecCalculation) ∧
    resolve ratio [c!"eosfit"] = some (.command .eosCalculation) ∧
    (∀ rest, resolve ratio (c!"export" :: c!"ha" :: rest) = some (.command .haExport) ∧
      resolve ratio (c!"export" :: c!"qha" :: rest) = some (.command .qhaExport) ∧
      resolve ratio (c!"export" :: c!"soec" :: rest) = some (.command .soecExport) ∧
      resolve ratio (c!"inpgen" :: c!"ha" :: rest) = some (.command .haInpgen) ∧
      resolve ratio (c!"inpgen" :: c!"soec" :: rest) = some (.command .soecInpgen)) ∧
    ∀ name file rest, name ∈ [c!"ha", c!"qha", c!"soec", c!"eosfit"] →
      resolve ratio (name :: file :: rest) = resolve ratio [name] := by
  have hc : (cli.map Prod.fst).Nodup := by decide
  have he : (exportGroup.map Prod.fst).Nodup := by decide
  have hi : (inpgenGroup.map Prod.fst).Nodup := by decide
  have e1 := C115_exact ratio hc (name := c!"ha") (c := .haCalculation) (by decide)
  have e2 := C115_exact ratio hc (name := c!"qha") (c := .qhaCalculation) (by decide)
  have e3 := C115_exact ratio hc (name := c!"soec") (c := .soecCalculation) (by decide)
  have e4 := C115_exact ratio hc (name := c!"eosfit") (c := .eosCalculation) (by decide)
  have e5 := C115_exact ratio hc (name := c!"export") (c := .export) (by decide)
  have e6 := C115_exact ratio hc (name := c!"inpgen") (c := .inpgen) (by decide)
  refine ⟨by rw [resolve, e1], by rw [resolve, e2], by rw [resolve, e3], by rw [resolve, e4], fun rest => ?_, ?_⟩
  · refine ⟨?_, ?_, ?_, ?_, ?_⟩
    · simp only [resolve, e5]; rw [C115_exact ratio he (c := .haExport) (by decide)]
    · simp only [resolve, e5]; rw [C115_exact ratio he (c := .qhaExport) (by decide)]
    · simp only [resolve, e5]; rw [C115_exact ratio he (c := .soecExport) (by decide)]
    · simp only [resolve, e6]; rw [C115_exact ratio hi (c := .haInpgen) (by decide)]
    · simp only [resolve, e6]; rw [C115_exact ratio hi (c := .soecInpgen) (by decide)]
  · intro name file rest hn
    simp only [List.mem_cons, List.not_mem_nil, or_false] at hn
    rcases hn with rfl | rfl | rfl | rfl
    · simp only [resolve, e1]
    · simp only [resolve, e2]
    · simp only [resolve, e3]
    · simp only [resolve, e4]

/-- C93, violated: `quantas seismic` and `quantas export seismic`, which the documentation gives as the way to run the
seismic calculator and to export its results, are refused, whatever follows; no words run the seismic calculator or its
export. -/
theorem C93_run_violated (ratio : Str → Str → ℚ) (rest : List Str) :
    (∃ text, resolve ratio (c!"seismic" :: rest) = some (.fail text)) ∧
    (∃ text, resolve ratio (c!"export" :: c!"seismic" :: rest) = some (.fail text)) ∧
    ∀ ws, resolve ratio ws ≠ some (.command .seismicCalculation) ∧ resolve ratio ws ≠ some (.command .seismicExport) := by
  have hc : (cli.map Prod.fst).Nodup := by decide
  obtain ⟨t1, -, h1, -⟩ := C115_unknown ratio hc (name := c!"seismic") (by decide)
  obtain ⟨t2, -, h2, -⟩ := C115_unknown ratio (table := exportGroup) (by decide) (name := c!"seismic") (by decide)
  refine ⟨⟨t1, ?_⟩, ⟨t2, ?_⟩, ?_⟩
  · cases rest with
    | nil => simp only [resolve, h1]
    | cons v r => simp only [resolve, h1]
  · simp only [resolve, C115_exact ratio hc (name := c!"export") (c := .export) (by decide), h2]
  · have key : ∀ (table : List (Str × Callable)) (w : Str) (c : Callable), c ∉ table.map Prod.snd →
        getCommand ratio table w ≠ .command c := by
      intro table w c hc' hw
      simp only [getCommand] at hw
      split at hw
      · next d hd =>
        obtain rfl := Found.command.inj hw
        refine hc' ?_
        clear hw hc' h1 h2
        induction table with
        | nil => simp at hd
        | cons p l ih =>
          rw [List.lookup_cons] at hd
          split at hd
          · rw [← Option.some.inj hd]; simp
          · exact List.mem_cons_of_mem _ (ih hd)
      · split at hw <;> exact absurd hw (by simp)
    intro ws
    have hcases : ∀ c, c = Callable.seismicCalculation ∨ c = Callable.seismicExport →
        resolve ratio ws ≠ some (.command c) := by
      intro c hcc
      have n1 : c ∉ cli.map Prod.snd := by rcases hcc with rfl | rfl <;> decide
      have n2 : c ∉ exportGroup.map Prod.snd := by rcases hcc with rfl | rfl <;> decide
      have n3 : c ∉ inpgenGroup.map Prod.snd := by rcases hcc with rfl | rfl <;> decide
      match ws with
      | [] => simp [resolve]
      | [w] => simpa [resolve] using key cli w c n1
      | w :: v :: r =>
        simp only [resolve]
        split
        · simpa using key _ v c n2
        · simpa using key _ v c n3
        · simpa using key cli w c n1
    exact ⟨hcases _ (.inl rfl), hcases _ (.inr rfl)⟩

/-- A name that begins like a command, and one that is similar to one. -/
example : ∃ text, getCommand (fun _ _ => 0) cli c!"e" = .fail text ∧
    IsRefusal c!"e" [c!"eosfit", c!"export"] text := by
  refine ⟨c!"'e' is not a Quantas command.\n\nThe most similar commands are: \n\teosfit\n\texport", by decide +kernel,
    by intro h; simp at h, fun _ => by decide⟩

example : getCommand (fun a b => if a = c!"soec" ∧ b = c!"seismic" then 6 / 11 else 0) cli c!"seismic" = .fail
    c!"'seismic' is not a Quantas command.\n\nThe most similar commands are: \n\tsoec" := by
  decide +kernel

end Verif.Command
