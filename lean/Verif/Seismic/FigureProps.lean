/-
Property C132: what the seismic figures show.
-/
import Verif.Seismic.Figures
import Verif.Seismic.Plot
import Verif.Seismic.SumRules

namespace Verif.Seismic
open Verif.Py Verif.Elastic Verif.Elastic.Spec Spec

/-! ### Specification -/

/-- The names of the three waves, as written below the panels. -/
def Spec.waveTitle (p : Fin 3) : Str := ![c!"Slow Secondary", c!"Fast Secondary", c!"Primary"] p

/-- The quantities of which there are figures, the part of the file name that stands for each, and whether the anisotropy of the
velocity is written on the screen. -/
def Spec.catalogue : List (Str × Str × Bool) :=
  [(c!"phase velocity", c!"Vp", true), (c!"relative phase velocity", c!"Vp_rel", false),
   (c!"group velocity", c!"Vg", true), (c!"relative group velocity", c!"Vg_rel", false),
   (c!"powerflow angle", c!"pf_angle", false), (c!"enhancement factor", c!"enhancement_factor", false)]

/-- The symbol and unit (in TeX) of each quantity. -/
def Spec.symbols : List (Str × Str) :=
  [(c!"phase velocity", c!"v_p \\: (km \\: s^{-1})"), (c!"relative phase velocity", c!"v_p - v_{iso} \\: (\\%)"),
   (c!"group velocity", c!"v_g \\: (km \\: s^{-1})"), (c!"relative group velocity", c!"v_g - v_{iso} \\: (\\%)"),
   (c!"powerflow angle", c!"\\psi \\: (°)"), (c!"enhancement factor", c!"\\log_{10}(A)")]

/-- `x` is the quantity called `name` of wave `p`, where `look` answers what the wave properties are and `iso` are the velocities
of the isotropic medium. -/
def Spec.Quantity (look : Property → Except PyErr Value) (iso : V3) (p : Fin 3) (name : Str) (x : ℝ) : Prop :=
  (name = c!"phase velocity" → ∃ pv : V3, look .phaseVelocity = .ok (.vec pv) ∧ x = pv p) ∧
  (name = c!"relative phase velocity" → ∃ pv : V3, look .phaseVelocity = .ok (.vec pv) ∧ x = 100 * (pv p - iso p) / iso p) ∧
  (name = c!"group velocity" → ∃ ga : V3, look .groupAbs = .ok (.vec ga) ∧ x = ga p) ∧
  (name = c!"relative group velocity" → ∃ ga : V3, look .groupAbs = .ok (.vec ga) ∧ x = 100 * (ga p - iso p) / iso p) ∧
  (name = c!"powerflow angle" → ∃ pf : V3, look .powerflow = .ok (.vec pf) ∧ x = pf p * 180 / Real.pi) ∧
  (name = c!"enhancement factor" → ∃ en : V3, look .enhancement = .ok (.vec en) ∧ x = Real.log (en p) / Real.log 10)

/-- What an object answers that has been set to the direction `v`. -/
noncomputable def Spec.along (num : Numerics) (o : Seismic) (v : V3) (p : Property) : Except PyErr Value :=
  (step num o (.read p) (step num o (.cartesian v) {}).2).1

/-- The panel shows, at the image of every direction of the grid, a value for which `Is theta phi` holds, and nothing else; the
black square marks a direction where the value is largest, the white circle one where it is smallest. -/
def Spec.Shows (pr : Projection) (ntheta nphi : ℕ) (Is : ℝ → ℝ → ℝ → Prop) (d : Panel) : Prop :=
  d.values.length = ntheta * nphi ∧
  (∀ i, i < ntheta → ∀ j, j < nphi → ∃ x,
    d.values[i * nphi + j]? = some (pr.project (gridTheta ntheta i) (gridPhi nphi j), x) ∧
    Is (gridTheta ntheta i) (gridPhi nphi j) x) ∧
  (∃ i j x, i < ntheta ∧ j < nphi ∧ d.square = pr.project (gridTheta ntheta i) (gridPhi nphi j) ∧
    Is (gridTheta ntheta i) (gridPhi nphi j) x ∧ ∀ y ∈ d.values, y.2 ≤ x) ∧
  (∃ i j x, i < ntheta ∧ j < nphi ∧ d.circle = pr.project (gridTheta ntheta i) (gridPhi nphi j) ∧
    Is (gridTheta ntheta i) (gridPhi nphi j) x ∧ ∀ y ∈ d.values, x ≤ y.2)

/-- `m` is the smallest and `M` the largest value of the panel. -/
def Spec.Range (d : Panel) (m M : ℝ) : Prop :=
  (∃ y ∈ d.values, y.2 = m) ∧ (∃ y ∈ d.values, y.2 = M) ∧ ∀ y ∈ d.values, m ≤ y.2 ∧ y.2 ≤ M

/-! ### Lemmas -/

theorem plots_datasets : plots.map (fun q => (q.column, q.name)) = datasets := rfl

theorem plots_catalogue : plots.map (fun q => (q.name, q.suffix, q.anisotropy)) = catalogue := rfl

theorem argmaxFrom_spec (pre : List ℝ) (l : List ℝ) (best : ℕ × ℝ) (hb : pre[best.1]? = some best.2)
    (hm : ∀ y ∈ pre, y ≤ best.2) :
    (pre ++ l)[(argmaxFrom l pre.length best).1]? = some (argmaxFrom l pre.length best).2 ∧
      ∀ y ∈ pre ++ l, y ≤ (argmaxFrom l pre.length best).2 := by
  induction l generalizing pre best with
  | nil => simpa [argmaxFrom] using ⟨hb, hm⟩
  | cons x xs ih =>
    have e : pre ++ x :: xs = (pre ++ [x]) ++ xs := by simp
    have hl : (pre ++ [x]).length = pre.length + 1 := by simp
    rw [e, argmaxFrom, ← hl]
    apply ih
    · split_ifs with h
      · simp
      · obtain ⟨hlt, -⟩ := List.getElem?_eq_some_iff.1 hb
        rw [List.getElem?_append_left hlt, hb]
    · intro y hy
      split_ifs with h
      · rcases List.mem_append.1 hy with hy | hy
        · exact (hm y hy).trans h.le
        · rw [List.mem_singleton.1 hy]
      · rcases List.mem_append.1 hy with hy | hy
        · exact hm y hy
        · rw [List.mem_singleton.1 hy]; exact not_lt.1 h

theorem argmax_spec {z : List ℝ} (hz : z ≠ []) : ∃ m, argmax z = .ok m ∧ z[m.1]? = some m.2 ∧ ∀ y ∈ z, y ≤ m.2 := by
  cases z with
  | nil => exact absurd rfl hz
  | cons x xs =>
    refine ⟨_, rfl, ?_⟩
    exact argmaxFrom_spec [x] xs (0, x) rfl (by simp)

theorem argmin_spec {z : List ℝ} (hz : z ≠ []) : ∃ m, argmin z = .ok m ∧ z[m.1]? = some m.2 ∧ ∀ y ∈ z, m.2 ≤ y := by
  obtain ⟨m, hm, h1, h2⟩ := argmax_spec (z := z.map fun x => -x) (by simpa using hz)
  refine ⟨(m.1, -m.2), by simp only [argmin, hm, bind, Except.bind], ?_, fun y hy => ?_⟩
  · rw [List.getElem?_map] at h1
    obtain ⟨y, hy, e⟩ := Option.map_eq_some_iff.1 h1
    rw [hy, ← e, neg_neg]
  · have := h2 (-y) (List.mem_map_of_mem hy)
    show -m.2 ≤ y
    linarith

theorem grid_length {α : Type} (n m : ℕ) (f : ℕ → ℕ → α) :
    ((List.range n).flatMap fun i => (List.range m).map fun j => f i j).length = n * m := by
  simp [List.length_flatMap]

theorem grid_get {α : Type} (n m : ℕ) (f : ℕ → ℕ → α) {i j : ℕ} (hi : i < n) (hj : j < m) :
    ((List.range n).flatMap fun i => (List.range m).map fun j => f i j)[i * m + j]? = some (f i j) := by
  induction n generalizing i with
  | zero => omega
  | succ n ih =>
    rw [List.range_succ, List.flatMap_append, List.flatMap_singleton]
    rcases Nat.lt_succ_iff_lt_or_eq.1 hi with h | rfl
    · rw [List.getElem?_append_left (by rw [grid_length]; nlinarith), ih h]
    · rw [List.getElem?_append_right (by rw [grid_length]; omega), grid_length]
      simp [hj]

theorem mesh_eq (ntheta nphi i j : ℕ) : mesh ntheta nphi i j = (gridTheta ntheta i, gridPhi nphi j) := by
  simp only [mesh, gridTheta, gridPhi, Prod.mk.injEq]
  constructor <;> ring

/-- A panel made of the right number of values. -/
theorem panel_shows (pr : Projection) {ntheta nphi : ℕ} (h1 : 2 ≤ ntheta) (h2 : 2 ≤ nphi) (label bar : Str) (z : List ℝ)
    (hz : z.length = ntheta * nphi) (Is : ℝ → ℝ → ℝ → Prop)
    (his : ∀ i, i < ntheta → ∀ j, j < nphi → ∃ x, z[i * nphi + j]? = some x ∧ Is (gridTheta ntheta i) (gridPhi nphi j) x) :
    ∃ d hi lo, panel pr ntheta nphi label bar z = .ok d ∧ d.label = label ∧ d.bar = bar ∧ Shows pr ntheta nphi Is d ∧
      argmax z = .ok hi ∧ argmin z = .ok lo ∧ Range d lo.2 hi.2 ∧ d.values.map (·.2) = z := by
  have hpos : 0 < nphi := by omega
  have hne : z ≠ [] := by
    rintro rfl
    simp only [List.length_nil] at hz
    have : 0 < ntheta * nphi := by positivity
    omega
  obtain ⟨hi, ehi, ghi, mhi⟩ := argmax_spec hne
  obtain ⟨lo, elo, glo, mlo⟩ := argmin_spec hne
  have pl : (places pr ntheta nphi).length = z.length := by rw [places, grid_length, hz]
  have hsnd : ((places pr ntheta nphi).zip z).map (·.2) = z := List.map_snd_zip pl.ge
  have node : ∀ k x, z[k]? = some x → ∃ i j, i < ntheta ∧ j < nphi ∧ k = i * nphi + j ∧ i = k / nphi ∧ j = k % nphi ∧
      place pr ntheta nphi (k / nphi) (k % nphi) = pr.project (gridTheta ntheta i) (gridPhi nphi j) := by
    intro k x hk
    obtain ⟨hlt, -⟩ := List.getElem?_eq_some_iff.1 hk
    rw [hz] at hlt
    refine ⟨k / nphi, k % nphi, Nat.div_lt_of_lt_mul (by rwa [Nat.mul_comm] at hlt), Nat.mod_lt _ hpos,
      (Nat.div_add_mod' k nphi).symm, rfl, rfl, ?_⟩
    rw [place, mesh_eq]
  have val : ∀ k x, z[k]? = some x → ∀ i j, i < ntheta → j < nphi → k = i * nphi + j →
      Is (gridTheta ntheta i) (gridPhi nphi j) x := by
    rintro k x hk i j hi' hj' rfl
    obtain ⟨x', hx', h⟩ := his i hi' j hj'
    rw [hk] at hx'
    cases hx'
    exact h
  have memz : ∀ y ∈ (places pr ntheta nphi).zip z, y.2 ∈ z := fun y hy => (List.of_mem_zip (a := y.1) (b := y.2) hy).2
  have inz : ∀ x ∈ z, ∃ y ∈ (places pr ntheta nphi).zip z, y.2 = x := by
    intro x hx
    rw [← hsnd] at hx
    obtain ⟨y, hy, e⟩ := List.mem_map.1 hx
    exact ⟨y, hy, e⟩
  refine ⟨{ label := label, bar := bar, values := (places pr ntheta nphi).zip z
            square := place pr ntheta nphi (hi.1 / nphi) (hi.1 % nphi)
            circle := place pr ntheta nphi (lo.1 / nphi) (lo.1 % nphi) }, hi, lo, ?_, rfl, rfl, ⟨?_, ?_, ?_, ?_⟩, ehi, elo,
    ⟨inz _ (List.mem_of_getElem? glo), inz _ (List.mem_of_getElem? ghi), fun y hy => ⟨mlo _ (memz y hy), mhi _ (memz y hy)⟩⟩,
    hsnd⟩
  · simp only [panel, hz, ne_eq, not_true_eq_false, if_false, ehi, elo, bind, Except.bind]
  · simp [pl, hz]
  · intro i hi' j hj'
    obtain ⟨x, hx, h⟩ := his i hi' j hj'
    refine ⟨x, ?_, h⟩
    have hp : (places pr ntheta nphi)[i * nphi + j]? = some (pr.project (gridTheta ntheta i) (gridPhi nphi j)) := by
      rw [places, grid_get _ _ _ hi' hj', place, mesh_eq]
    rw [List.getElem?_zip_eq_some]
    exact ⟨hp, hx⟩
  · obtain ⟨i, j, a, b, c, -, -, e⟩ := node _ _ ghi
    exact ⟨i, j, hi.2, a, b, e, val _ _ ghi i j a b c, fun y hy => mhi _ (memz y hy)⟩
  · obtain ⟨i, j, a, b, c, -, -, e⟩ := node _ _ glo
    exact ⟨i, j, lo.2, a, b, e, val _ _ glo i j a b c, fun y hy => mlo _ (memz y hy)⟩

theorem quantity_announced (num : Numerics) (o : Seismic) (theta phi : ℝ) (p : Fin 3) (name : Str) (x : ℝ) :
    Announced num o theta phi p name x ↔ Quantity (lookAt num o theta phi) o.isotropicVelocity p name x := Iff.rfl

theorem waves_keys : waves = List.ofFn waveKey := rfl

theorem titleOf_key (p : Fin 3) : titleOf (waveKey p) = .ok (waveTitle p) := by
  fin_cases p <;> rfl


theorem wavePanel_ok (num : Numerics) (o : Seismic) (hiso : ∀ p, o.isotropicVelocity p ≠ 0) (ntheta nphi : ℕ)
    (h1 : 2 ≤ ntheta) (h2 : 2 ≤ nphi) (st : State) (t : Tables) (ht : scan num o ntheta nphi st = .ok t) (pr : Projection)
    (q : Plot) (hq : q ∈ plots) (p : Fin 3) :
    ∃ d m M, wavePanel (exported t) pr ntheta nphi q (waveKey p) =
        .ok (d, if q.anisotropy then [(waveTitle p, 200 * (M - m) / (M + m))] else []) ∧
      d.label = waveTitle p ∧ d.bar = q.title2D ∧ Range d m M ∧
      Shows pr ntheta nphi (fun theta phi x => Announced num o theta phi p q.name x) d := by
  have hk : (q.column, q.name) ∈ datasets := by
    rw [← plots_datasets]
    exact List.mem_map_of_mem (f := fun q : Plot => (q.column, q.name)) hq
  obtain ⟨l, hl, hlen, hv⟩ := C65_figures_partial num o hiso ntheta nphi h1 h2 st t ht q.column q.name hk p
  obtain ⟨d, hi, lo, e, e1, e2, e3, e4, e5, e6, -⟩ := panel_shows pr h1 h2 (waveTitle p) q.title2D l hlen
    (fun theta phi x => Announced num o theta phi p q.name x) hv
  refine ⟨d, lo.2, hi.2, ?_, e1, e2, e6, e3⟩
  simp only [wavePanel, hl, titleOf_key, e, e4, e5, bind, Except.bind]
  rfl

theorem mapM_waves {α : Type} (f : Str → Except PyErr α) (g : Fin 3 → α) (h : ∀ p, f (waveKey p) = .ok (g p)) :
    waves.mapM f = .ok [g 0, g 1, g 2] := by
  have h0 : f c!"ssecondary" = .ok (g 0) := h 0
  have h1 : f c!"fsecondary" = .ok (g 1) := h 1
  have h2 : f c!"primary" = .ok (g 2) := h 2
  simp only [waves, List.mapM_cons, List.mapM_nil, h0, h1, h2, bind, Except.bind, pure, Except.pure]

/-! ### Figures in the plane -/

/-- C132, figures in the plane: after a scan, for each of the six quantities there is a figure, in a file named after the quantity
and the projection.  It has three panels, called slow secondary, fast secondary and primary, in this order; each shows the
quantity of the wave it names, in all directions of the grid, and marks a largest and a smallest value.  For the phase and the
group velocity, and for no other quantity, the anisotropy `200 (max - min) / (max + min)` of each wave is written on the screen.
The colour bar carries the symbol of the quantity, except for the power flow angle.  Missing from the full property: the label of
that colour bar, see `C132_label_violated`. -/
theorem C132_discs_partial (num : Numerics) (o : Seismic) (hiso : ∀ p, o.isotropicVelocity p ≠ 0) (ntheta nphi : ℕ)
    (h1 : 2 ≤ ntheta) (h2 : 2 ≤ nphi) (st : State) (t : Tables) (ht : scan num o ntheta nphi st = .ok t) (pr : Projection)
    (base name suffix symbol : Str) (aniso : Bool) (hc : (name, suffix, aniso) ∈ catalogue) (hs : (name, symbol) ∈ symbols) :
    ∃ q ∈ plots, q.name = name ∧ ∃ fig, discFigure (exported t) pr ntheta nphi base q = .ok fig ∧
      (pr = .eqar → fig.name = base ++ c!"_" ++ suffix ++ c!"_2D_eqar.png") ∧
      (pr = .stereo → fig.name = base ++ c!"_" ++ suffix ++ c!"_2D_stereo.png") ∧
      fig.panels.length = 3 ∧ fig.echoed.length = (if aniso then 3 else 0) ∧
      ∀ p : Fin 3, ∃ d, fig.panels[(p : ℕ)]? = some d ∧ d.label = waveTitle p ∧
        (name ≠ c!"powerflow angle" → d.bar = c!"$" ++ symbol ++ c!"$") ∧
        Shows pr ntheta nphi (fun theta phi x => Announced num o theta phi p name x) d ∧
        (aniso → ∃ m M, Range d m M ∧ fig.echoed[(p : ℕ)]? = some (waveTitle p, 200 * (M - m) / (M + m))) := by
  rw [← plots_catalogue] at hc
  obtain ⟨q, hq, e⟩ := List.mem_map.1 hc
  simp only [Prod.mk.injEq] at e
  obtain ⟨rfl, rfl, rfl⟩ := e
  refine ⟨q, hq, rfl, ?_⟩
  choose d m M hd hl hb hr hsh using
    fun p => wavePanel_ok num o hiso ntheta nphi h1 h2 st t ht pr q hq p
  have hbar : q.name ≠ c!"powerflow angle" → q.title2D = c!"$" ++ symbol ++ c!"$" := by
    intro hne
    simp only [plots, List.mem_cons, List.not_mem_nil, or_false] at hq
    simp only [symbols, List.mem_cons, Prod.mk.injEq, List.not_mem_nil, or_false] at hs
    rcases hq with rfl | rfl | rfl | rfl | rfl | rfl <;>
      rcases hs with ⟨h, rfl⟩ | ⟨h, rfl⟩ | ⟨h, rfl⟩ | ⟨h, rfl⟩ | ⟨h, rfl⟩ | ⟨h, rfl⟩ <;>
      first
      | rfl
      | exact absurd h (by decide)
      | exact absurd rfl hne
  refine ⟨_, by simp only [discFigure, mapM_waves _ _ hd, bind, Except.bind]; rfl, ?_, ?_, rfl, ?_, fun p => ⟨d p, ?_, hl p,
    fun h => (hb p).trans (hbar h), hsh p, fun ha => ⟨m p, M p, hr p, ?_⟩⟩⟩
  · rintro rfl
    simp only [Projection.text, List.append_assoc]
    rfl
  · rintro rfl
    simp only [Projection.text, List.append_assoc]
    rfl
  · cases q.anisotropy <;> rfl
  · fin_cases p <;> rfl
  · simp only [ha]
    fin_cases p <;> rfl

/-- C132, label: false of the code.  The colour bars of the figure of the power flow angle do not carry the symbol of the quantity,
but a text with a closing brace that nothing opens. -/
theorem C132_label_violated (num : Numerics) (o : Seismic) (hiso : ∀ p, o.isotropicVelocity p ≠ 0) (ntheta nphi : ℕ)
    (h1 : 2 ≤ ntheta) (h2 : 2 ≤ nphi) (st : State) (t : Tables) (ht : scan num o ntheta nphi st = .ok t) (pr : Projection)
    (base : Str) :
    ∃ q ∈ plots, q.name = c!"powerflow angle" ∧ ∃ fig, discFigure (exported t) pr ntheta nphi base q = .ok fig ∧
      fig.panels.length = 3 ∧ ∀ d ∈ fig.panels, d.bar ≠ c!"$" ++ c!"\\psi \\: (°)" ++ c!"$" ∧
        d.bar.count '{' = 0 ∧ d.bar.count '}' = 1 := by
  have hq : (⟨12, c!"powerflow angle", c!"$\\huge{\\psi \\: (°)}$", c!"$\\psi \\: (°)}$", c!"pf_angle", false⟩ : Plot) ∈ plots := by
    simp only [plots, List.mem_cons, true_or, or_true]
  refine ⟨_, hq, rfl, ?_⟩
  choose d m M hd hl hb hr hsh using fun p => wavePanel_ok num o hiso ntheta nphi h1 h2 st t ht pr _ hq p
  refine ⟨_, by simp only [discFigure, mapM_waves _ _ hd, bind, Except.bind]; rfl, rfl, fun x hx => ?_⟩
  have : ∃ p, x = d p := by
    simp only [List.map_cons, List.map_nil, List.mem_cons, List.not_mem_nil, or_false] at hx
    rcases hx with rfl | rfl | rfl
    exacts [⟨0, rfl⟩, ⟨1, rfl⟩, ⟨2, rfl⟩]
  obtain ⟨p, rfl⟩ := this
  rw [hb]
  decide

/-- C132, names: for a stable medium, the three values that the figure of the phase velocity shows at the image of a direction are
the phase velocities of plane waves in this direction, slowest first: the panel called primary shows the fastest wave. -/
theorem C132_names (num : Numerics) (hn : EighCorrect num) (C : M6) (hC : C.PosDef) (density : ℝ) (hr : 0 < density)
    (o : Seismic) (ho : seismic C density = .ok o) (theta phi : ℝ) (x : V3)
    (hx : ∀ p, Announced num o theta phi p c!"phase velocity" (x p)) :
    PhaseVelocities C density (vector theta phi) x ∧ 0 < x 0 ∧ x 0 ≤ x 1 ∧ x 1 ≤ x 2 := by
  have hd := posDef_det hC
  obtain ⟨s, hs⟩ : ∃ s, soec C density = .ok s := ⟨_, if_neg hd⟩
  obtain ⟨hpv, hpos, hread⟩ := C37_velocities num hn C hC density hr s hs o ho theta phi
  have e : x = Soec.phaseVelocity num s theta phi := by
    funext p
    obtain ⟨pv, h, e⟩ := (hx p).1 rfl
    have := h.symm.trans (hread {})
    cases this
    exact e
  rw [← e] at hpv hpos
  obtain ⟨hnn, h01, h12, hrest⟩ := hpv
  refine ⟨⟨hnn, h01, h12, hrest⟩, hpos 0, ?_, ?_⟩
  · have := sq_le_sq.1 h01
    rw [abs_of_nonneg (mul_nonneg (by norm_num) (hnn 0)), abs_of_nonneg (mul_nonneg (by norm_num) (hnn 1))] at this
    linarith
  · have := sq_le_sq.1 h12
    rw [abs_of_nonneg (mul_nonneg (by norm_num) (hnn 1)), abs_of_nonneg (mul_nonneg (by norm_num) (hnn 2))] at this
    linarith

/-! ### Ratios -/

/-- C132, ratios: the figure of the ratios has three panels.  With the phase velocities of the direction, slow secondary, fast
secondary and primary, they show at its image the anisotropy of the two secondary waves in per cent, the ratio of the primary to
the fast secondary, and that of the primary to the slow secondary; each marks a largest and a smallest value. -/
theorem C132_ratios (num : Numerics) (o : Seismic) (ntheta nphi : ℕ) (h1 : 2 ≤ ntheta) (h2 : 2 ≤ nphi) (st : State) (t : Tables)
    (ht : scan num o ntheta nphi st = .ok t) (pr : Projection) (base : Str) :
    ∃ a b c, ratioFigure (exported t) pr ntheta nphi base = .ok ⟨base ++ c!"_ratios_2D.png", [a, b, c], []⟩ ∧
      a.bar = c!"S-wave anisotropy (%)" ∧ b.bar = c!"$v_P / v_{s1}$" ∧ c.bar = c!"$v_P / v_{s2}$" ∧
      Shows pr ntheta nphi (fun theta phi x => ∃ v : V3, lookAt num o theta phi .phaseVelocity = .ok (.vec v) ∧
        x = 200 * (v 1 - v 0) / (v 1 + v 0)) a ∧
      Shows pr ntheta nphi (fun theta phi x => ∃ v : V3, lookAt num o theta phi .phaseVelocity = .ok (.vec v) ∧
        x = v 2 / v 1) b ∧
      Shows pr ntheta nphi (fun theta phi x => ∃ v : V3, lookAt num o theta phi .phaseVelocity = .ok (.vec v) ∧
        x = v 2 / v 0) c := by
  obtain ⟨t', ht', hlen, hrow⟩ := C43_rows num o ntheta nphi h1 h2 st
  rw [ht] at ht'
  cases ht'
  have g : ∀ (p p' : Fin 3) (f : ℝ → ℝ → ℝ), (List.zipWith f (column (t.get p) 2) (column (t.get p') 2)).length = ntheta * nphi ∧
      ∀ i, i < ntheta → ∀ j, j < nphi → ∃ x,
        (List.zipWith f (column (t.get p) 2) (column (t.get p') 2))[i * nphi + j]? = some x ∧
        ∃ v : V3, lookAt num o (gridTheta ntheta i) (gridPhi nphi j) .phaseVelocity = .ok (.vec v) ∧ x = f (v p) (v p') := by
    intro p p' f
    refine ⟨by simp [column, hlen], fun i hi j hj => ?_⟩
    obtain ⟨r, hr, pv, -, -, -, -, -, e, -, -, -, -, -, -, -, r2, -⟩ := hrow i hi j hj p
    obtain ⟨r', hr', pv', -, -, -, -, -, e', -, -, -, -, -, -, -, r2', -⟩ := hrow i hi j hj p'
    rw [e] at e'
    cases e'
    refine ⟨f (r 2) (r' 2), ?_, pv, e, by rw [r2, r2']⟩
    simp only [List.getElem?_zipWith, column, List.getElem?_map, hr, hr', Option.map_some]
  obtain ⟨a, -, -, ea, -, ba, sa, -⟩ := panel_shows pr h1 h2 [] c!"S-wave anisotropy (%)" _ (g 0 1 anisotropyPercent).1
    (fun theta phi x => ∃ v : V3, lookAt num o theta phi .phaseVelocity = .ok (.vec v) ∧ x = anisotropyPercent (v 0) (v 1))
    (g 0 1 anisotropyPercent).2
  obtain ⟨b, -, -, eb, -, bb, sb, -⟩ := panel_shows pr h1 h2 [] c!"$v_P / v_{s1}$" _ (g 2 1 (· / ·)).1
    (fun theta phi x => ∃ v : V3, lookAt num o theta phi .phaseVelocity = .ok (.vec v) ∧ x = v 2 / v 1) (g 2 1 (· / ·)).2
  obtain ⟨c, -, -, ec, -, bc, sc, -⟩ := panel_shows pr h1 h2 [] c!"$v_P / v_{s2}$" _ (g 2 0 (· / ·)).1
    (fun theta phi x => ∃ v : V3, lookAt num o theta phi .phaseVelocity = .ok (.vec v) ∧ x = v 2 / v 0) (g 2 0 (· / ·)).2
  refine ⟨a, b, c, ?_, ba, bb, bc, sa, sb, sc⟩
  have k0 := column_ok t 0 2
  have k1 := column_ok t 1 2
  have k2 := column_ok t 2 2
  simp only [waveKey, Matrix.cons_val_zero, Matrix.cons_val_one, Matrix.cons_val] at k0 k1 k2
  simp only [ratioFigure, k0, k1, k2, ea, eb, ec, bind, Except.bind]

/-- C132, files: false of the code.  The two projections of the ratios go to the same file, so that one replaces the other; those
of the six quantities do not. -/
theorem C132_file_violated (num : Numerics) (o : Seismic) (ntheta nphi : ℕ) (h1 : 3 ≤ ntheta) (h2 : 2 ≤ nphi) (st : State)
    (t : Tables) (ht : scan num o ntheta nphi st = .ok t) (base : Str) :
    ∃ fig fig', ratioFigure (exported t) .eqar ntheta nphi base = .ok fig ∧
      ratioFigure (exported t) .stereo ntheta nphi base = .ok fig' ∧ fig.name = fig'.name ∧ fig.panels ≠ fig'.panels := by
  obtain ⟨a, b, c, e, -, -, -, sa, -⟩ := C132_ratios num o ntheta nphi (by omega) h2 st t ht .eqar base
  obtain ⟨a', b', c', e', -, -, -, sa', -⟩ := C132_ratios num o ntheta nphi (by omega) h2 st t ht .stereo base
  refine ⟨_, _, e, e', rfl, fun h => ?_⟩
  simp only [List.cons.injEq] at h
  obtain ⟨rfl, -⟩ := h
  obtain ⟨x, hx, -⟩ := sa.2.1 1 (by omega) 0 (by omega)
  obtain ⟨x', hx', -⟩ := sa'.2.1 1 (by omega) 0 (by omega)
  rw [hx] at hx'
  simp only [Option.some.injEq, Prod.mk.injEq, Projection.project] at hx'
  have hp : gridPhi nphi 0 = 0 := by simp [gridPhi]
  have h3 : (3 : ℝ) ≤ ntheta := by exact_mod_cast h1
  set u := 0.5 * gridTheta ntheta 1 with hu
  have hg : gridTheta ntheta 1 = Real.pi / 2 * (1 / ((ntheta : ℝ) - 1)) := by simp [gridTheta]
  have hpi := Real.pi_pos
  have hlt : 1 / ((ntheta : ℝ) - 1) ≤ 1 / 2 := one_div_le_one_div_of_le (by norm_num) (by linarith)
  have hpos : 0 < 1 / ((ntheta : ℝ) - 1) := one_div_pos.2 (by linarith)
  have u0 : 0 < u := by rw [hu, hg]; positivity
  have u1 : u ≤ Real.pi / 8 := by rw [hu, hg]; nlinarith
  have hsin : 0 < Real.sin u := Real.sin_pos_of_pos_of_lt_pi u0 (by linarith)
  have hcos : Real.cos (Real.pi / 4) < Real.cos u :=
    Real.cos_lt_cos_of_nonneg_of_le_pi_div_two u0.le (by linarith) (by linarith)
  rw [Real.cos_pi_div_four] at hcos
  have e1 := hx'.1.1
  rw [hp, Real.cos_zero, mul_one, mul_one, Real.tan_eq_sin_div_cos] at e1
  have hs2 : Real.sqrt 2 * Real.sqrt 2 = 2 := Real.mul_self_sqrt (by norm_num)
  have hs0 : 0 < Real.sqrt 2 := Real.sqrt_pos.2 (by norm_num)
  have hc0 : 0 < Real.cos u := lt_trans (by positivity) hcos
  rw [eq_div_iff hc0.ne'] at e1
  have : Real.sqrt 2 * Real.cos u = 1 := by
    apply mul_left_cancel₀ hsin.ne'
    linarith
  nlinarith

/-! ### Figures on the sphere -/

theorem seismicVector_norm (u v : ℝ) : norm (seismicVector u v) = 1 := by
  have : ∑ i, seismicVector u v i ^ 2 = 1 := by
    simp only [seismicVector, Fin.sum_univ_three, Matrix.cons_val_zero, Matrix.cons_val_one, Matrix.cons_val]
    nlinarith [Real.sin_sq_add_cos_sq u, Real.sin_sq_add_cos_sq v]
  rw [norm, this, Real.sqrt_one]

/-- The four properties the figures are made of are the same whether the direction is given by angles or by components. -/
theorem along_vector (num : Numerics) (o : Seismic) (u v : ℝ) (p : Property)
    (hp : p = .phaseVelocity ∨ p = .groupAbs ∨ p = .powerflow ∨ p = .enhancement) :
    along num o (seismicVector u v) p = lookAt num o u v p := by
  have hdir : (Op.cartesian (seismicVector u v)).dir = some ⟨seismicVector u v,
      arctan2 (Real.sqrt (seismicVector u v 1 ^ 2 + seismicVector u v 0 ^ 2)) (seismicVector u v 2),
      arctan2 (seismicVector u v 0) (seismicVector u v 1)⟩ := by
    simp only [Op.dir, seismicVector_norm, div_one]
  have g := set_good (num := num) (o := o) hdir {}
  have g' : Good num o ⟨seismicVector u v, u, v⟩ (step num o (.spherical u v) {}).2 :=
    set_good (num := num) (o := o) (op := .spherical u v) rfl {}
  rw [Spec.along, lookAt, step_read g, step_read g']
  rcases hp with rfl | rfl | rfl | rfl <;> rfl

theorem along_neg (num : Numerics) (o : Seismic) (v : V3) (p : Property)
    (hp : p = .phaseVelocity ∨ p = .groupAbs ∨ p = .powerflow ∨ p = .enhancement) :
    along num o (-v) p = along num o v p :=
  (C72_inversion num o v {} {}).1 p (by tauto)

theorem quantity_congr {look look' : Property → Except PyErr Value}
    (h : ∀ p, p = .phaseVelocity ∨ p = .groupAbs ∨ p = .powerflow ∨ p = .enhancement → look p = look' p)
    {iso : V3} {p : Fin 3} {name : Str} {x : ℝ} (hx : Quantity look iso p name x) : Quantity look' iso p name x := by
  unfold Quantity at hx ⊢
  rw [h .phaseVelocity (by simp), h .groupAbs (by simp), h .powerflow (by simp), h .enhancement (by simp)] at hx
  exact hx

/-- C132, figures on the sphere: after a scan, for each of the six quantities and each wave there is a figure, in a file named
after quantity and wave, with the name of the wave as its title.  It shows every direction of the grid and the opposite one, and
nothing else, and the value at every point is the quantity of this wave in the direction of this point. -/
theorem C132_spheres (num : Numerics) (o : Seismic) (hiso : ∀ p, o.isotropicVelocity p ≠ 0) (ntheta nphi : ℕ)
    (h1 : 2 ≤ ntheta) (h2 : 2 ≤ nphi) (st : State) (t : Tables) (ht : scan num o ntheta nphi st = .ok t)
    (base name suffix symbol : Str) (aniso : Bool) (hc : (name, suffix, aniso) ∈ catalogue) (hs : (name, symbol) ∈ symbols) :
    ∃ q ∈ plots, q.name = name ∧ ∃ figs, sphereFigures (exported t) ntheta nphi base q = .ok figs ∧ figs.length = 3 ∧
      ∀ p : Fin 3, ∃ fig, figs[(p : ℕ)]? = some fig ∧
        fig.name = base ++ c!"_" ++ suffix ++ c!"_3D_" ++ waveKey p ++ c!".png" ∧ fig.label = waveTitle p ∧
        fig.bar = c!"$\\huge{" ++ symbol ++ c!"}$" ∧ fig.values.length = 2 * (ntheta * nphi) ∧
        (∀ i, i < ntheta → ∀ j, j < nphi → ∃ x, (vector (gridTheta ntheta i) (gridPhi nphi j), x) ∈ fig.values ∧
          (-vector (gridTheta ntheta i) (gridPhi nphi j), x) ∈ fig.values) ∧
        ∀ y ∈ fig.values, (∃ i j, i < ntheta ∧ j < nphi ∧ (y.1 = vector (gridTheta ntheta i) (gridPhi nphi j) ∨
            y.1 = -vector (gridTheta ntheta i) (gridPhi nphi j))) ∧
          Quantity (along num o y.1) o.isotropicVelocity p name y.2 := by
  rw [← plots_catalogue] at hc
  obtain ⟨q, hq, e⟩ := List.mem_map.1 hc
  simp only [Prod.mk.injEq] at e
  obtain ⟨rfl, rfl, rfl⟩ := e
  have hk : (q.column, q.name) ∈ datasets := by
    rw [← plots_datasets]
    exact List.mem_map_of_mem (f := fun q : Plot => (q.column, q.name)) hq
  have hbar : q.title = c!"$\\huge{" ++ symbol ++ c!"}$" := by
    simp only [plots, List.mem_cons, List.not_mem_nil, or_false] at hq
    simp only [symbols, List.mem_cons, Prod.mk.injEq, List.not_mem_nil, or_false] at hs
    rcases hq with rfl | rfl | rfl | rfl | rfl | rfl <;>
      rcases hs with ⟨h, rfl⟩ | ⟨h, rfl⟩ | ⟨h, rfl⟩ | ⟨h, rfl⟩ | ⟨h, rfl⟩ | ⟨h, rfl⟩ <;>
      first
      | rfl
      | exact absurd h (by decide)
  refine ⟨q, hq, rfl, ?_⟩
  choose l hl hlen hv using fun p => C65_figures_partial num o hiso ntheta nphi h1 h2 st t ht q.column q.name hk p
  obtain ⟨G, hG⟩ : ∃ G : Fin 3 → Sphere, G = fun p =>
      { name := base ++ c!"_" ++ q.suffix ++ c!"_3D_" ++ waveKey p ++ c!".png", label := waveTitle p, bar := q.title,
        values := (sphereNodes ntheta nphi Prod.fst).zip (l p) ++ (sphereNodes ntheta nphi Prod.snd).zip (l p) } := ⟨_, rfl⟩
  have hf : ∀ p, sphereFigure (exported t) ntheta nphi base q (waveKey p) = .ok (G p) := by
    intro p
    subst hG
    simp only [sphereFigure, hl, hlen, titleOf_key, bind, Except.bind, ne_eq, not_true_eq_false, if_false]
  have nlen : ∀ side, (sphereNodes ntheta nphi side).length = ntheta * nphi := fun side => grid_length _ _ _
  have nget : ∀ side i j, i < ntheta → j < nphi → (sphereNodes ntheta nphi side)[i * nphi + j]? =
      some (side (spherePoints (gridTheta ntheta i) (gridPhi nphi j))) := by
    intro side i j hi hj
    rw [sphereNodes, grid_get _ _ _ hi hj, mesh_eq]
  have hpos : 0 < nphi := by omega
  have zipped : ∀ p side y, y ∈ (sphereNodes ntheta nphi side).zip (l p) → ∃ i j, i < ntheta ∧ j < nphi ∧
      y.1 = side (spherePoints (gridTheta ntheta i) (gridPhi nphi j)) ∧
      Announced num o (gridTheta ntheta i) (gridPhi nphi j) p q.name y.2 := by
    intro p side y hy
    obtain ⟨k, hk⟩ := List.getElem?_of_mem hy
    rw [List.getElem?_zip_eq_some] at hk
    obtain ⟨ka, kb⟩ := hk
    obtain ⟨hlt, -⟩ := List.getElem?_eq_some_iff.1 kb
    rw [hlen] at hlt
    have hi : k / nphi < ntheta := Nat.div_lt_of_lt_mul (by rwa [Nat.mul_comm] at hlt)
    have hj : k % nphi < nphi := Nat.mod_lt _ hpos
    refine ⟨k / nphi, k % nphi, hi, hj, ?_, ?_⟩
    · have := nget side _ _ hi hj
      rw [Nat.div_add_mod', ka] at this
      exact Option.some.inj this
    · obtain ⟨x, hx, hA⟩ := hv p _ hi _ hj
      rw [Nat.div_add_mod', kb] at hx
      cases hx
      exact hA
  refine ⟨_, mapM_waves _ _ hf, rfl, fun p => ⟨G p, by fin_cases p <;> rfl, ?_⟩⟩
  subst hG
  refine ⟨rfl, rfl, hbar, ?_, ?_, ?_⟩
  · simp only [List.length_append, List.length_zip, nlen, hlen, min_self]
    ring
  · intro i hi j hj
    obtain ⟨x, hx, -⟩ := hv p i hi j hj
    refine ⟨x, List.mem_append_left _ ?_, List.mem_append_right _ ?_⟩
    · exact List.mem_of_getElem? (List.getElem?_zip_eq_some.2 ⟨nget Prod.fst i j hi hj, hx⟩)
    · exact List.mem_of_getElem? (List.getElem?_zip_eq_some.2 ⟨nget Prod.snd i j hi hj, hx⟩)
  · intro y hy
    rcases List.mem_append.1 hy with hy | hy
    · obtain ⟨i, j, hi, hj, e, hA⟩ := zipped p _ y hy
      refine ⟨⟨i, j, hi, hj, Or.inl e⟩, ?_⟩
      refine quantity_congr (fun x hx => ?_) ((quantity_announced ..).1 hA)
      rw [e]
      exact (along_vector num o _ _ x hx).symm
    · obtain ⟨i, j, hi, hj, e, hA⟩ := zipped p _ y hy
      refine ⟨⟨i, j, hi, hj, Or.inr e⟩, ?_⟩
      refine quantity_congr (fun x hx => ?_) ((quantity_announced ..).1 hA)
      have e' : y.1 = -seismicVector (gridTheta ntheta i) (gridPhi nphi j) := e
      rw [e', along_neg num o _ x hx]
      exact (along_vector num o _ _ x hx).symm

/-- The theorems above cover a stable medium: a scan of an isotropic one, on a grid of 4 by 5 directions. -/
example : ∃ (num : Numerics) (o : Seismic) (t : Tables) (q : Plot) (fig : Disc), EighCorrect num ∧
    seismic (isotropic 160 80) 3200 = .ok o ∧ scan num o 4 5 {} = .ok t ∧ q.name = c!"group velocity" ∧
    discFigure (exported t) .eqar 4 5 c!"mgo" q = .ok fig ∧ fig.name = c!"mgo_Vg_2D_eqar.png" ∧ fig.echoed.length = 3 := by
  obtain ⟨num, hn, -⟩ := exists_numerics
  obtain ⟨o, ho⟩ : ∃ o, seismic (isotropic 160 80) 3200 = .ok o :=
    ⟨_, if_neg (iso_det (by norm_num) (by norm_num))⟩
  obtain ⟨s, hs⟩ : ∃ s, soec (isotropic 160 80) 3200 = .ok s :=
    ⟨_, if_neg (iso_det (by norm_num) (by norm_num))⟩
  obtain ⟨t, ht, -⟩ := C43_rows num o 4 5 (by norm_num) (by norm_num) {}
  have hiso : ∀ p, o.isotropicVelocity p ≠ 0 := by
    obtain ⟨-, -, hiso, -⟩ := C38_isotropic num hn 160 80 3200 (by norm_num) (by norm_num)
      (by norm_num) s hs o ho 0 0
    rw [hiso]
    intro p
    fin_cases p
    · show Real.sqrt _ / 1000 ≠ 0
      positivity
    · show Real.sqrt _ / 1000 ≠ 0
      positivity
    · show Real.sqrt _ / 1000 ≠ 0
      positivity
  obtain ⟨q, -, hq, fig, hf, hn1, -, -, he, -⟩ := C132_discs_partial num o hiso 4 5 (by norm_num) (by norm_num) {} t ht .eqar
    c!"mgo" c!"group velocity" c!"Vg" c!"v_g \\: (km \\: s^{-1})" true (by simp [catalogue]) (by simp [symbols])
  exact ⟨num, o, t, q, fig, hn, ho, ht, hq, hf, hn1 rfl, he⟩

end Verif.Seismic
