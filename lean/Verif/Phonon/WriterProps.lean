/-
Property C85: what the generator of phonon inputs (quantas/IO/qha_writer.py) writes, and what the reader of
phonon inputs (quantas/IO/qha_reader.py) makes of it.
-/
import Verif.Phonon.PhonopyProps
import Verif.Phonon.YamlLemmas
import Verif.Phonon.WriterSpec

namespace Verif.Phonon
open Verif.Py Verif.IO Verif.IO.Spec Verif.Interfaces Spec

theorem ok_bind {α β : Type} (x : α) (f : α → Except PyErr β) : (Except.ok x).bind f = f x := rfl

theorem ok_map {α β : Type} (x : α) (f : α → β) : (Except.ok x : Except PyErr α).map f = .ok (f x) := rfl

/-- The lines of a q-point. -/
noncomputable def pointText (s : Fin 3 → ℚ) (t : (Fin 3 → ℚ) × ℚ × List (List ℚ)) : List Str :=
  pointHead t.1 s t.2.1 ++ (t.2.2.mapIdx bandLines).flatten ++ [[]]

theorem points_items (s : Fin 3 → ℚ) : ∀ (ts : List ((Fin 3 → ℚ) × ℚ × List (List ℚ))),
    (∀ t ∈ ts, t.2.2 ≠ [] ∧ ∀ f ∈ t.2.2, f ≠ []) →
    Items 0 ((ts.map (pointText s)).flatten) (ts.map fun t => qpointNode t.1 s t.2.1 t.2.2)
  | [], _ => by simpa using Items.nil
  | t :: ts, h => by
    have ih := points_items s ts fun t ht => h t (by simp [ht])
    have := point_items (x := t.1) (s := s) (w := t.2.1) (h t (by simp)).2 (h t (by simp)).1 ih
    simpa [pointText] using this

/-- The tree of an input. -/
noncomputable def docNode (job : Node) (natom : ℤ) (dim : Fin 3 → Fin 3 → ℚ) (qpoints : ℕ)
    (volumes energies : List ℚ) (s : Fin 3 → ℚ) (ts : List ((Fin 3 → ℚ) × ℚ × List (List ℚ))) : Node :=
  .map [(c!"job", job), (c!"natom", .int natom),
    (c!"supercell", .list [rowNode (dim 0), rowNode (dim 1), rowNode (dim 2)]),
    (c!"qpoints", .int qpoints), (c!"volume", fixedNode 8 volumes), (c!"energy", sciNode 12 energies),
    (c!"phonon", .list (ts.map fun t => qpointNode t.1 s t.2.1 t.2.2))]

theorem lines_denote {job : Str} {x : Node} (hj : Value job x) (natom : ℤ) (dim : Fin 3 → Fin 3 → ℚ)
    (qpoints : ℕ) {volumes energies : List ℚ} (hv : volumes ≠ []) (he : energies ≠ []) (s : Fin 3 → ℚ)
    {ts : List ((Fin 3 → ℚ) × ℚ × List (List ℚ))} (h0 : ts ≠ [])
    (hts : ∀ t ∈ ts, t.2.2 ≠ [] ∧ ∀ f ∈ t.2.2, f ≠ []) :
    Denotes (joinLines (headLines job natom dim qpoints ++ volumeLines volumes energies ++
      (ts.map (pointText s)).flatten)) (docNode x natom dim qpoints volumes energies s ts) := by
  have hp := points_items s ts hts
  obtain ⟨t, ts', rfl⟩ := List.exists_cons_of_ne_nil h0
  have k : ∀ k : Str, (∀ c ∈ k, c ∈ letters ∨ c = '-') → (∃ c r, k = c :: r ∧ c ∈ letters) →
      k ∉ reserved → Key k := fun k => key_of
  have b1 := Block.sequence (n := 0) (k := c!"phonon") (ls' := []) (es := [])
    (k _ (by decide) ⟨_, _, rfl, by decide⟩ (by decide)) hp .nil
  have b2 := Block.entry (n := 0) (k := c!"energy") (k _ (by decide) ⟨_, _, rfl, by decide⟩ (by decide))
    (items_value (f := energyItem) spaces_nil (writes_sci 20 12) he) b1
  have b3 := Block.entry (n := 0) (k := c!"volume") (k _ (by decide) ⟨_, _, rfl, by decide⟩ (by decide))
    (items_value (f := volumeItem) spaces_nil (writes_fixed 16 8) hv) b2
  have b4 := Block.entry (n := 0) (k := c!"qpoints") (k _ (by decide) ⟨_, _, rfl, by decide⟩ (by decide))
    (plain_value (showNat_scalar qpoints)) b3
  have b5 := Block.sequence (n := 0) (k := c!"supercell")
    (k _ (by decide) ⟨_, _, rfl, by decide⟩ (by decide))
    (dim_items (dim 0) (dim_items (dim 1) (dim_items (dim 2) .nil))) b4
  have b6 := Block.entry (n := 0) (k := c!"natom") (k _ (by decide) ⟨_, _, rfl, by decide⟩ (by decide))
    (left_value (g := [' ', ' ']) 7 (spaces_replicate 2) (showInt_scalar natom)) b5
  have b7 := Block.entry (n := 0) (k := c!"job") (k _ (by decide) ⟨_, _, rfl, by decide⟩ (by decide)) hj b6
  refine ⟨_, _, newline_block b7, ?_, b7, rfl⟩
  rw [joinLines_eq]
  simp [headLines, volumeLines, indent]

/-- The entries of a mapping with distinct keys. -/
theorem entry_mem {l : List (Str × Node)} {k : Str} {v : Node} (h : (k, v) ∈ l)
    (hn : (l.map Prod.fst).Nodup) : Entry (.map l) k v := ⟨l, rfl, h, hn⟩

theorem forall₂_self_map {α β : Type} {R : α → β → Prop} {f : α → β} (h : ∀ x, R x (f x)) :
    ∀ l : List α, List.Forall₂ R l (l.map f)
  | [] => .nil
  | x :: l => .cons (h x) (forall₂_self_map h l)

theorem fixed_floats (d : ℕ) (qs : List ℚ) : FloatsFixed d qs (fixedNode d qs) :=
  ⟨qs.map (printed d), by simp [fixedNode, Function.comp_def], forall₂_self_map (printed_rounded d) qs⟩

theorem sci_floats (d : ℕ) (qs : List ℚ) : FloatsSci d qs (sciNode d qs) :=
  ⟨qs.map (printedSci d), by simp [sciNode, Function.comp_def],
    forall₂_self_map (printedSci_significant d) qs⟩

/-- The q-points in the form in which the writers hold them. -/
def rawPoints (xs : List (Fin 3 → ℚ)) (ps : List Point) :
    List ((Fin 3 → ℚ) × ℚ × List (List ℚ)) :=
  List.zipWith (fun x p => (x, (p.weight : ℚ), p.bands)) xs ps

theorem point_is {x s : Fin 3 → ℚ} {p : Point} (h : ∀ k, p.coords k = x k / s k) :
    IsPoint p (qpointNode x s p.weight p.bands) := by
  have hnd : ∀ a b c : Node,
      ([(c!"q-position", a), (c!"weight", b), (c!"band", c)].map Prod.fst).Nodup := by
    intros
    simp only [List.map]
    decide
  refine ⟨⟨_, entry_mem (List.mem_cons_self) (hnd _ _ _), ?_⟩, ?_, ?_⟩
  · rw [h, h, h]
    exact fixed_floats 7 _
  · refine entry_mem ?_ (hnd _ _ _)
    rw [truncate_int]
    simp
  · refine ⟨p.bands.map bandNode, entry_mem (by simp) (hnd _ _ _), ?_⟩
    exact forall₂_self_map (fun f => ⟨_, entry_mem (List.mem_cons_self) (by simp), fixed_floats 10 f⟩) _

theorem points_are {s : Fin 3 → ℚ} {xs : List (Fin 3 → ℚ)} {ps : List Point}
    (h : List.Forall₂ (fun x (p : Point) => ∀ k, p.coords k = x k / s k) xs ps) :
    List.Forall₂ IsPoint ps ((rawPoints xs ps).map fun t => qpointNode t.1 s t.2.1 t.2.2) := by
  induction h with
  | nil => exact .nil
  | cons h1 _ ih => exact .cons (point_is h1) ih

theorem doc_is {job : Node} {natom : ℤ} {dim : Fin 3 → Fin 3 → ℚ} {d : Content} {s : Fin 3 → ℚ}
    {xs : List (Fin 3 → ℚ)} (hn : natom = d.natom) (hd : ∀ i j, dim i j = d.dim i j)
    (hx : List.Forall₂ (fun x (p : Point) => ∀ k, p.coords k = x k / s k) xs d.points) :
    IsInput job d (docNode job natom dim d.points.length d.volumes d.energies s
      (rawPoints xs d.points)) := by
  subst hn
  have hnd : ∀ a b c e f g h : Node, ([(c!"job", a), (c!"natom", b), (c!"supercell", c), (c!"qpoints", e),
      (c!"volume", f), (c!"energy", g), (c!"phonon", h)].map Prod.fst).Nodup := by
    intros
    simp only [List.map]
    decide
  refine ⟨entry_mem (by simp) (hnd _ _ _ _ _ _ _), entry_mem (by simp) (hnd _ _ _ _ _ _ _),
    entry_mem ?_ (hnd _ _ _ _ _ _ _), entry_mem (by simp) (hnd _ _ _ _ _ _ _),
    ⟨_, entry_mem (by simp) (hnd _ _ _ _ _ _ _), fixed_floats 8 _⟩,
    ⟨_, entry_mem (by simp) (hnd _ _ _ _ _ _ _), sci_floats 12 _⟩,
    ⟨_, entry_mem (by simp) (hnd _ _ _ _ _ _ _), points_are hx⟩⟩
  simp [rowNode, hd, truncate_int]

theorem forall₂_of_getElem? {α β : Type} {R : α → β → Prop} : ∀ {l : List α} {m : List β},
    l.length = m.length → (∀ (i : ℕ) a b, l[i]? = some a → m[i]? = some b → R a b) → List.Forall₂ R l m
  | [], [], _, _ => .nil
  | a :: l, b :: m, h, H => .cons (H 0 a b rfl rfl)
      (forall₂_of_getElem? (by simpa using h) fun i a b ha hb => H (i + 1) a b (by simpa using ha)
        (by simpa using hb))

/-- The list of the coordinates that are used. -/
theorem coords_list {qc : List (Fin 3 → ℚ)} {s : Fin 3 → ℚ} {ps : List Point}
    (h : ∀ (i : ℕ) (p : Point), ps[i]? = some p → ∃ x, qc[i]? = some x ∧ ∀ k, p.coords k = x k / s k) :
    ∃ xs, List.Forall₂ (fun (x : Fin 3 → ℚ) (p : Point) => ∀ k, p.coords k = x k / s k) xs ps ∧
      ∀ (i : ℕ) x, xs[i]? = some x → qc[i]? = some x := by
  have hlen : ps.length ≤ qc.length := by
    by_contra hc
    obtain ⟨x, hx, _⟩ := h qc.length (ps[qc.length]'(by omega)) (by simp)
    simp at hx
  refine ⟨qc.take ps.length, forall₂_of_getElem? (by simp [hlen]) ?_, ?_⟩
  · intro i a b ha hb
    obtain ⟨x, hx, hk⟩ := h i b hb
    rw [List.getElem?_take] at ha
    split at ha
    · rw [hx] at ha
      obtain rfl := Option.some.inj ha
      exact hk
    · simp at ha
  · intro i x hx
    rw [List.getElem?_take] at hx
    split at hx
    · exact hx
    · simp at hx

/-- The loop over the q-points. -/
theorem points_text {qc : List (Fin 3 → ℚ)} {s : Fin 3 → ℚ} {ws : List ℚ} {nphonon : ℕ}
    {band : ℕ → ℕ → Except PyErr (List ℚ)} {ps : List Point} {xs : List (Fin 3 → ℚ)}
    (hx : ∀ (i : ℕ) x, xs[i]? = some x → qc[i]? = some x) (hl : xs.length = ps.length)
    (hw : ∀ (i : ℕ) (p : Point), ps[i]? = some p → ws[i]? = some (p.weight : ℚ))
    (hn : ∀ p ∈ ps, p.bands.length = nphonon)
    (hb : ∀ (i : ℕ) (p : Point), ps[i]? = some p → ∀ (j : ℕ) f, p.bands[j]? = some f → band i j = .ok f) :
    each (pointLines qc s ws nphonon band) (List.range ps.length) =
      .ok ((rawPoints xs ps).map (pointText s)) := by
  have hlen : ((rawPoints xs ps).map (pointText s)).length = ps.length := by
    simp [rawPoints, hl]
  rw [← hlen]
  refine each_range fun i y hy => ?_
  rw [List.getElem?_map, rawPoints, List.getElem?_zipWith] at hy
  cases hxi : xs[i]? with
  | none => simp [hxi] at hy
  | some x =>
    cases hpi : ps[i]? with
    | none => simp [hxi, hpi] at hy
    | some p =>
      simp only [hxi, hpi, Option.map_some, Option.some.injEq] at hy
      subst hy
      have hbands : each (fun j => (band i j).map (bandLines j)) (List.range nphonon) =
          .ok (p.bands.mapIdx bandLines) := by
        rw [← hn p (List.mem_of_getElem? hpi), ← List.length_mapIdx (f := bandLines) (l := p.bands)]
        refine each_range fun j y hy => ?_
        rw [List.getElem?_mapIdx] at hy
        cases hf : p.bands[j]? with
        | none => simp [hf] at hy
        | some f =>
          simp only [hf, Option.map_some, Option.some.injEq] at hy
          rw [hb i p hpi j f hf, ← hy]
          rfl
      simp only [pointLines, at_, hx i x hxi, hw i p hpi, ok_bind, hbands, ok_map, pointText]

theorem raw_bands {xs : List (Fin 3 → ℚ)} {d : Content} (hc : Complete d) :
    ∀ t ∈ rawPoints xs d.points, t.2.2 ≠ [] ∧ ∀ f ∈ t.2.2, f ≠ [] := by
  intro t ht
  obtain ⟨x, p, -, hp, rfl⟩ : ∃ x p, x ∈ xs ∧ p ∈ d.points ∧ t = (x, (p.weight : ℚ), p.bands) := by
    rw [rawPoints, List.mem_iff_getElem?] at ht
    obtain ⟨i, hi⟩ := ht
    rw [List.getElem?_zipWith] at hi
    cases hxi : xs[i]? with
    | none => simp [hxi] at hi
    | some x =>
      cases hpi : d.points[i]? with
      | none => simp [hxi, hpi] at hi
      | some p =>
        simp only [hxi, hpi, Option.some.injEq] at hi
        exact ⟨x, p, List.mem_of_getElem? hxi, List.mem_of_getElem? hpi, hi.symm⟩
  have h1 := hc.bands p hp
  have h2 := hc.atoms
  refine ⟨fun h => ?_, fun f hf h => ?_⟩
  · simp only at h
    rw [h] at h1
    simp at h1
    omega
  · have h3 := hc.freqs p hp f hf
    rw [h] at h3
    exact hc.some_volume (List.length_eq_zero_iff.1 h3.symm)

theorem energies_ne {d : Content} (hc : Complete d) : d.energies ≠ [] := by
  intro h
  have := hc.energies
  rw [h] at this
  exact hc.some_volume (List.length_eq_zero_iff.1 this.symm)

theorem raw_ne {xs : List (Fin 3 → ℚ)} {d : Content} (hc : Complete d) (hl : xs.length = d.points.length) :
    rawPoints xs d.points ≠ [] := by
  intro h
  have : (rawPoints xs d.points).length = d.points.length := by simp [rawPoints, hl]
  rw [h] at this
  exact hc.some_point (List.length_eq_zero_iff.1 this.symm)

/-- The text for several calculations, whatever value YAML gives to the description. -/
theorem multiple_denotes {cs : List Calc} {k : ℕ} {ref : Calc} (hk : cs[k]? = some ref) {d : Content}
    (hd : Provides cs ref d) (hc : Complete d) {job : Str} {x : Node} (hj : Value job x) :
    ∃ text doc, writeMultiple cs job k = .ok text ∧ Denotes text doc ∧ IsInput x d doc := by
  obtain ⟨xs, hx, hqc⟩ := coords_list hd.coords
  have hl := hx.length_eq
  have hi : Chemistry.pyIndex cs k = .ok ref := by
    have h0 : ¬ (k : ℤ) < 0 := by omega
    simp [Chemistry.pyIndex, hk]
  have hpt := points_text (s := ref.shrinkf) hqc hl hd.weights hd.nphonon
    (band := fun i j => each (fun c : Calc => (at_ c.phonons i).bind fun b => at_ b j) cs)
    (fun i p hp j f hf => each_ok ((hd.freqs i p hp j f hf).imp fun c y hy => by
      obtain ⟨row, h1, h2⟩ := hy
      simp [at_, h1, h2, Except.bind]))
  refine ⟨_, _, ?_, lines_denote hj ref.natom ref.dim d.points.length hc.some_volume (energies_ne hc)
    ref.shrinkf (raw_ne hc hl) (raw_bands hc), doc_is hd.natom hd.dim hx⟩
  simp only [writeMultiple, hi, ok_bind, hd.qpoints, hpt, ok_map, hd.volumes, hd.energies]

/-- The text for a quasi-harmonic calculation, whatever value YAML gives to the description. -/
theorem single_denotes {c : QhaCalc} {d : Content} (hd : ProvidesQha c d) (hc : Complete d) {job : Str}
    {x : Node} (hj : Value job x) :
    ∃ text doc, writeSingle c job = .ok text ∧ Denotes text doc ∧ IsInput x d doc := by
  obtain ⟨xs, hx, hqc⟩ := coords_list hd.coords
  have hl := hx.length_eq
  have hv : formatArgs c.points c.volume = .ok d.volumes := by
    simp [formatArgs, hd.points, hd.volumes]
  have he : formatArgs c.points c.energy = .ok d.energies := by
    rw [formatArgs, hd.points, hd.energies, ← hc.energies]
    simp
  have hpt := points_text (s := c.shrinkf) hqc hl hd.weights hd.nphonon
    (band := fun i j => (at_ c.phonons i).bind fun b => (at_ b j).bind (formatArgs c.points))
    (fun i p hp j f hf => by
      have := hc.freqs p (List.mem_of_getElem? hp) f (List.mem_of_getElem? hf)
      simp [at_, hd.freqs i p hp, hf, Except.bind, formatArgs, hd.points, ← this])
  refine ⟨_, _, ?_, lines_denote hj c.natom c.dim d.points.length hc.some_volume (energies_ne hc)
    c.shrinkf (raw_ne hc hl) (raw_bands hc), doc_is hd.natom hd.dim hx⟩
  simp only [writeSingle, hv, he, ok_bind, hd.qpoints, hpt, ok_map]

/-! ### C85 -/

theorem plain_scalar {job : Str} (h : Plain job) : Value job (.str job) := plain_value (.text h)

/-- C85: the input generated from several calculations is a YAML text, with the description of the user,
with the volumes, energies and frequencies of all the calculations, in the order in which they were given and
as accurate as the formats, and with everything else from the reference calculation. -/
theorem C85_multiple {cs : List Calc} {k : ℕ} {ref : Calc} (hk : cs[k]? = some ref) {d : Content}
    (hd : Provides cs ref d) (hc : Complete d) {job : Str} (hj : Plain job) :
    ∃ text doc, writeMultiple cs job k = .ok text ∧ Denotes text doc ∧ IsInput (.str job) d doc :=
  multiple_denotes hk hd hc (plain_scalar hj)

/-- C85: the same for the input generated from one quasi-harmonic calculation. -/
theorem C85_single {c : QhaCalc} {d : Content} (hd : ProvidesQha c d) (hc : Complete d) {job : Str}
    (hj : Plain job) :
    ∃ text doc, writeSingle c job = .ok text ∧ Denotes text doc ∧ IsInput (.str job) d doc :=
  single_denotes hd hc (plain_scalar hj)

theorem gives_floats {l : List ℚ} : GivesList (.list (l.map Node.float)) l := by
  refine .inl ⟨_, rfl, ?_⟩
  rw [List.forall₂_map_left_iff]
  exact List.forall₂_same.2 fun x _ => .inl rfl

/-- The numbers of a list of lists, as rounded. -/
theorem forall₂_choose {α β γ : Type} {R : α → β → Prop} {S : α → γ → Prop} {T : β → γ → Prop}
    {l : List α} {m : List β} (h : List.Forall₂ R l m) (H : ∀ a b, a ∈ l → R a b → ∃ c, S a c ∧ T b c) :
    ∃ n, List.Forall₂ S l n ∧ List.Forall₂ T m n := by
  induction h with
  | nil => exact ⟨[], .nil, .nil⟩
  | cons hab _ ih =>
    obtain ⟨c, h1, h2⟩ := H _ _ (by simp) hab
    obtain ⟨n, h3, h4⟩ := ih fun a b ha => H a b (by simp [ha])
    exact ⟨c :: n, .cons h1 h3, .cons h2 h4⟩

/-- C85: an input for the data, read by Quantas, gives back the data: the description, the number of atoms
and q-points and the weights exactly, the volumes, the energies and the frequencies, each in its place, as
accurate as they were written. -/
theorem C85_read {job : Str} {d : Content} (hc : Complete d) {doc : Node}
    (h : IsInput (.str job) d doc) :
    ∃ r : Reader, Reader.load {} (.tree doc) = .ok r ∧ r.completed = true ∧ r.error = none ∧
      r.jobname = .ok (rstrip job) ∧ r.natoms = .ok d.natom ∧ r.qpoints = .ok d.points.length ∧
      r.weights = .ok (d.points.map fun p => some (p.weight : ℚ)) ∧
      (∃ vs, r.volume = .ok (.vec (vs.map some)) ∧ List.Forall₂ (Rounded 8) d.volumes vs) ∧
      (∃ es, r.energy = .ok (.vec (es.map some)) ∧ List.Forall₂ (Significant 12) d.energies es) ∧
      ∃ fs : List (List (List ℚ)), r.frequencies = .ok (fs.map fun b => b.map fun f => f.map some) ∧
        List.Forall₂ (fun (p : Point) b => List.Forall₂ (List.Forall₂ (Rounded 10)) p.bands b)
          d.points fs := by
  obtain ⟨hjob, hnat, -, hq, ⟨v, hv, vs, rfl, hvs⟩, ⟨e, he, es, rfl, hes⟩, ps, hps, hpp⟩ := h
  obtain ⟨pts, hp1, hp2⟩ : ∃ pts : List QPoint, List.Forall₂ (fun (p : Point) (q : QPoint) =>
      q.weight = p.weight ∧ List.Forall₂ (List.Forall₂ (Rounded 10)) p.bands q.bands) d.points pts ∧
      List.Forall₂ PointGiven ps pts := by
    refine forall₂_choose hpp fun p x _ hx => ?_
    obtain ⟨-, hw, bs, hbs, hb⟩ := hx
    obtain ⟨fs, h1, h2⟩ := forall₂_choose (S := List.Forall₂ (Rounded 10))
      (T := fun b freqs => ∃ v, Entry b c!"frequency" v ∧ GivesList v freqs) hb (by
        rintro f b - ⟨v, hv, ys, rfl, hy⟩
        exact ⟨ys, hy, _, hv, gives_floats⟩)
    exact ⟨⟨p.weight, fs⟩, ⟨rfl, h1⟩, ⟨_, hw, .inr (.inl ⟨_, rfl, rfl⟩)⟩, bs, hbs, h2⟩
  have hlp := hp1.length_eq
  have hin : PhononInput doc d.natom vs es pts := by
    refine ⟨hnat, by rw [← hlp]; exact hq, ⟨_, hv, gives_floats⟩, ⟨_, he, gives_floats⟩, ⟨ps, hps, hp2⟩, ?_, ?_⟩
    · intro q hq
      obtain ⟨i, hi⟩ := List.mem_iff_getElem?.1 hq
      obtain ⟨p, hp, -, hb⟩ := forall₂_getElem? hp1 hi
      rw [← hb.length_eq]
      exact hc.bands p (List.mem_of_getElem? hp)
    · intro q hq f hf
      obtain ⟨i, hi⟩ := List.mem_iff_getElem?.1 hq
      obtain ⟨p, hp, -, hb⟩ := forall₂_getElem? hp1 hi
      obtain ⟨j, hj⟩ := List.mem_iff_getElem?.1 hf
      obtain ⟨g, hg, hgf⟩ := forall₂_getElem? hb hj
      rw [← hgf.length_eq, ← hvs.length_eq]
      exact hc.freqs p (List.mem_of_getElem? hp) g (List.mem_of_getElem? hg)
  obtain ⟨r, h1, h2, h3, h4, h5, -, h7, h8, h9, h10⟩ := C52_complete hin
  refine ⟨r, h1, h2, h3, ?_, h4, by rw [h5, hlp], ?_, ⟨vs, h7, hvs⟩, ⟨es, h8, hes⟩,
    pts.map QPoint.bands, by rw [h9]; simp [Function.comp_def], ?_⟩
  · have hrd : r.data = doc := by
      obtain ⟨l, rfl, _⟩ := hjob
      have : Reader.load {} (.tree (.map l)) = .ok ⟨true, none, .map l⟩ := by
        simp only [Reader.load]
        rw [check_map rfl]
        simp [checkKeys, contains_entry hv, contains_entry he, contains_entry hps, Except.bind]
      rw [h1] at this
      rw [Except.ok.inj this]
    simp [Reader.jobname, hrd, contains_entry hjob, get_entry hjob, Except.bind]
  · rw [h10]
    congr 1
    have key : ∀ {l : List Point} {m : List QPoint}, List.Forall₂ (fun (p : Point) (q : QPoint) =>
        q.weight = p.weight ∧ List.Forall₂ (List.Forall₂ (Rounded 10)) p.bands q.bands) l m →
        (m.map fun q => some q.weight) = l.map fun p => some (p.weight : ℚ) := by
      intro l m h
      induction h with
      | nil => rfl
      | cons hab _ ih => simp [hab.1, ih]
    exact key hp1
  · rw [List.forall₂_map_right_iff]
    exact hp1.imp fun p q h => h.2

end Verif.Phonon
