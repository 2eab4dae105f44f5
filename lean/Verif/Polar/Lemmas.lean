import Verif.Polar.Spec
import Verif.Elastic.Props
import Verif.Elastic.Symmetry
import Verif.Seismic.Waves

noncomputable section

namespace Verif.Polar
open Verif.Py Verif.Elastic Verif.Elastic.Spec Verif.Seismic Verif.Seismic.Spec Spec

/-- The angles of the node at `t` on a plane. -/
def node : Plane → ℝ → ℝ × ℝ
  | .xy, t => (Real.pi / 2, t)
  | .xz, t => (t, 0)
  | .yz, t => (t, Real.pi / 2)

theorem node_direction (k : Plane) (t : ℝ) : vector (node k t).1 (node k t).2 = direction k t := by
  cases k <;> funext i <;> fin_cases i <;> simp [node, vector, direction]

theorem linspace_get {a b : ℝ} {n i : ℕ} (h : i < n) :
    (linspace a b n)[i]? = some (a + i * ((b - a) / ((n - 1 : ℕ) : ℝ))) := by
  simp [linspace, h]

theorem linspace_length (a b : ℝ) (n : ℕ) : (linspace a b n).length = n := by simp [linspace]

/-- The rows of a table: the angle and the values at the node. -/
theorem rows_get {f : ℝ × ℝ → List ℝ} {angle theta phi : List ℝ} {i : ℕ} {a t p : ℝ}
    (ha : angle[i]? = some a) (ht : theta[i]? = some t) (hp : phi[i]? = some p) :
    (withDegrees angle (eachNode f theta phi))[i]? = some (degrees a :: f (t, p)) := by
  simp [withDegrees, eachNode, List.getElem?_zipWith, ha, ht, hp]

theorem rows_length {f : ℝ × ℝ → List ℝ} {angle theta phi : List ℝ} {n : ℕ}
    (ha : angle.length = n) (ht : theta.length = n) (hp : phi.length = n) :
    (withDegrees angle (eachNode f theta phi)).length = n := by
  simp [withDegrees, eachNode, ha, ht, hp]

/-- The values listed at a node. -/
def valuesAt (powell : Powell) (num : Numerics) (o : Solid) : Var → ℝ × ℝ → List ℝ
  | .E, x => [o.youngModulus x]
  | .LC, x => [max 0 (o.linearCompressibility x), max 0 (-o.linearCompressibility x)]
  | .G, x => shear2d powell o x
  | .Nu, x => poisson2d powell o x
  | .waves, x => let tmp := Soec.phaseVelocity num o.soec x.1 x.2; [tmp 0, tmp 1, tmp 2]

/-- `d[plane][var]`. -/
def Sections.table {α : Type} (s : Sections α) (k : Plane) (v : Var) : Option (List (List α)) :=
  (s.lookup k).bind fun vars => vars.lookup v

theorem table_eq (powell : Powell) (num : Numerics) (o : Solid) (n : ℕ) (k : Plane) (v : Var)
    (hv : v = .waves → 0 < o.soec.density) :
    ∃ theta phi, theta.length = n ∧ phi.length = n ∧
      (∀ (i : ℕ) (t : ℝ), (linspace 0 (2 * Real.pi) n)[i]? = some t →
        ∃ x y, theta[i]? = some x ∧ phi[i]? = some y ∧ (x, y) = node k t) ∧
      (calculatePolar powell num o n).table k v =
        some (withDegrees (linspace 0 (2 * Real.pi) n) (eachNode (valuesAt powell num o v) theta phi)) := by
  have hb : ∀ (i : ℕ) (t : ℝ), (linspace 0 (2 * Real.pi) n)[i]? = some t → i < n := by
    intro i t h
    have := (List.getElem?_eq_some_iff.1 h).1
    rwa [linspace_length] at this
  have hl := linspace_length 0 (2 * Real.pi) n
  have htab : ∀ theta phi, (sections powell num o (linspace 0 (2 * Real.pi) n) theta phi).lookup v =
      some (withDegrees (linspace 0 (2 * Real.pi) n) (eachNode (valuesAt powell num o v) theta phi)) := by
    intro theta phi
    unfold sections
    cases v with
    | waves =>
      rw [if_pos (hv rfl)]
      rfl
    | E => rfl
    | LC => rfl
    | G => rfl
    | Nu => rfl
  cases k with
  | xy =>
    exact ⟨List.replicate n (Real.pi / 2), linspace 0 (2 * Real.pi) n, by simp, hl,
      fun i t h => ⟨_, _, by simp [hb i t h], h, rfl⟩, htab _ _⟩
  | xz =>
    exact ⟨linspace 0 (2 * Real.pi) n, List.replicate n 0, hl, by simp,
      fun i t h => ⟨_, _, h, by simp [hb i t h], rfl⟩, htab _ _⟩
  | yz =>
    exact ⟨linspace 0 (2 * Real.pi) n, List.replicate n (Real.pi / 2), hl, by simp,
      fun i t h => ⟨_, _, h, by simp [hb i t h], rfl⟩, htab _ _⟩

/-- The angle of a node in radians. -/
theorem angle_radians {n i : ℕ} (hn : 2 ≤ n) :
    (0 : ℝ) + i * ((2 * Real.pi - 0) / ((n - 1 : ℕ) : ℝ)) = radians (angle n i) := by
  have h1 : ((n - 1 : ℕ) : ℝ) = (n : ℝ) - 1 := by
    rw [Nat.cast_sub (by omega)]; simp
  have h2 : (n : ℝ) - 1 ≠ 0 := by
    have : (2 : ℝ) ≤ n := by exact_mod_cast hn
    linarith
  rw [h1, radians, angle]
  field_simp
  ring

theorem degrees_radians (x : ℝ) : degrees (radians x) = x := by
  have := Real.pi_pos.ne'
  unfold degrees radians
  field_simp

/-- A row of a table. -/
theorem table_row (powell : Powell) (num : Numerics) (o : Solid) {n : ℕ} (hn : 2 ≤ n) (k : Plane) (v : Var)
    (hv : v = .waves → 0 < o.soec.density) :
    ∃ table, (calculatePolar powell num o n).table k v = some table ∧ table.length = n ∧
      ∀ i < n, table[i]? = some (angle n i :: valuesAt powell num o v (node k (radians (angle n i)))) := by
  obtain ⟨theta, phi, h1, h2, h3, h4⟩ := table_eq powell num o n k v hv
  refine ⟨_, h4, rows_length (linspace_length _ _ _) h1 h2, fun i hi => ?_⟩
  have hl := linspace_get (a := 0) (b := 2 * Real.pi) hi
  rw [angle_radians hn] at hl
  obtain ⟨x, y, hx, hy, hxy⟩ := h3 i _ hl
  rw [rows_get hl hx hy, hxy, degrees_radians]

/-- The object kept by the calculator. -/
theorem load_solid {C : M6} {density : ℝ} {sys : System} {o : Solid} (h : load C density = .ok (sys, o)) :
    soec C density = .ok o.soec ∧ o.ortho = decide (sys = .orthorhombic) ∧ o.soec.C = C ∧
      o.soec.S = C⁻¹ ∧ o.soec.density = density ∧ C.det ≠ 0 ∧ checkSymmetry C = .ok sys := by
  unfold load at h
  simp only [bind, Except.bind] at h
  split at h
  · cases h
  · rename_i s hs
    split at h
    · cases h
    · rename_i sy hsy
      simp only [pure, Except.pure, Except.ok.injEq, Prod.mk.injEq] at h
      obtain ⟨rfl, rfl⟩ := h
      obtain ⟨hd, rfl⟩ := soec_ok hs
      exact ⟨hs, rfl, rfl, rfl, rfl, hd, hsy⟩

/-- The properties of the object are those of the tensor. -/
theorem solid_generic {C : M6} {density : ℝ} {sys : System} {o : Solid} (h : load C density = .ok (sys, o))
    (ho : sys = .orthorhombic → OrthorhombicForm C) :
    (∀ x, o.youngModulus x = o.soec.youngModulus x) ∧
    (∀ x, o.linearCompressibility x = o.soec.linearCompressibility x) ∧
    (∀ x, o.shearModulus x = o.soec.shearModulus x) ∧
    (∀ x, o.poissonRatio x = o.soec.poissonRatio x) := by
  obtain ⟨hs, hor, -⟩ := load_solid h
  by_cases hsys : sys = .orthorhombic
  · exact C34_calculator C (ho hsys) density sys o h o.soec hs
  · have : o.ortho = false := by rw [hor]; simp [hsys]
    simp [Solid.youngModulus, Solid.linearCompressibility, Solid.shearModulus, Solid.poissonRatio, this]

theorem young_spec {C : M6} (hC : C.PosDef) {density : ℝ} {s : Soec} (h : soec C density = .ok s) (t p : ℝ) :
    IsYoung C (vector t p) (s.youngModulus (t, p)) := by
  obtain ⟨ε, hε, -⟩ := response_unique C (posDef_det hC) _ (symm_uniaxial 1 (vector t p))
  obtain ⟨h1, h2⟩ := C32_young C density s h t p 1 ε hε
  have hne := (h2 hC).2 one_ne_zero
  exact ⟨ε, hε, by rw [h1 hne, div_mul_cancel₀ _ hne]⟩

theorem compressibility_spec {C : M6} (hC : C.PosDef) {density : ℝ} {s : Soec} (h : soec C density = .ok s)
    (t p : ℝ) : ∃ β, IsCompressibility C (vector t p) β ∧ s.linearCompressibility (t, p) = 1000 * β := by
  obtain ⟨ε, hε, -⟩ := response_unique C (posDef_det hC) _ (symm_hydrostatic 1)
  refine ⟨_, ⟨ε, hε, rfl⟩, ?_⟩
  rw [C32_compressibility C density s h t p 1 one_ne_zero ε hε, div_one]

theorem shear_spec {C : M6} (hC : C.PosDef) {density : ℝ} {s : Soec} (h : soec C density = .ok s)
    (t p c : ℝ) : IsShear C (vector t p) (vectorChi t p c) (s.shearModulus (t, p, c)) := by
  obtain ⟨ε, hε, -⟩ := response_unique C (posDef_det hC) _ (symm_shear 1 (vector t p) (vectorChi t p c))
  obtain ⟨-, h1, h2⟩ := C33_shear C density s h t p c 1 ε hε
  have hne := (h2 hC).2 one_ne_zero
  exact ⟨ε, hε, by rw [h1 hne, div_mul_cancel₀ _ (mul_ne_zero two_ne_zero hne)]⟩

theorem poisson_spec {C : M6} (hC : C.PosDef) {density : ℝ} {s : Soec} (h : soec C density = .ok s)
    (t p c : ℝ) : IsPoisson C (vector t p) (vectorChi t p c) (s.poissonRatio (t, p, c)) := by
  obtain ⟨ε, hε, -⟩ := response_unique C (posDef_det hC) _ (symm_uniaxial 1 (vector t p))
  obtain ⟨-, h2⟩ := C32_young C density s h t p 1 ε hε
  have hne := (h2 hC).2 one_ne_zero
  exact ⟨ε, hε, by
    rw [C33_poisson C density (posDef_symm hC) s h t p c 1 ε hε hne, div_mul_cancel₀ _ hne]⟩

/-- The values at a node are those of the direction. -/
theorem listed_at {C : M6} (hC : C.PosDef) {density : ℝ} {sys : System} {o : Solid}
    (h : load C density = .ok (sys, o)) (ho : sys = .orthorhombic → OrthorhombicForm C)
    {powell : Powell} (hp : Descends powell) {num : Numerics} (hn : EighCorrect num) (v : Var)
    (hv : available density v) (t p : ℝ) :
    Listed C density (vector t p) v (valuesAt powell num o v (t, p)) := by
  obtain ⟨hs, -, -, -, hd, hdet, -⟩ := load_solid h
  obtain ⟨e1, e2, e3, e4⟩ := solid_generic h ho
  have hort : ∀ c, Orthonormal (vector t p) (vectorChi t p c) := C35_orthonormal t p
  cases v with
  | E => exact ⟨_, by simp only [valuesAt, e1], young_spec hC hs t p⟩
  | LC =>
    obtain ⟨β, h1, h2⟩ := compressibility_spec hC hs t p
    refine ⟨_, _, β, rfl, h1, le_max_left _ _, le_max_left _ _, ?_, ?_⟩
    · rw [e2]
      rcases le_total 0 (o.soec.linearCompressibility (t, p)) with h | h
      · exact .inr (max_eq_left (neg_nonpos.2 h))
      · exact .inl (max_eq_left h)
    · rw [e2, ← h2]
      rcases le_total 0 (o.soec.linearCompressibility (t, p)) with h | h
      · rw [max_eq_right h, max_eq_left (neg_nonpos.2 h), sub_zero]
      · rw [max_eq_left h, max_eq_right (neg_nonneg.2 h)]; ring
  | G =>
    obtain ⟨a1, a2⟩ := hp (fun z => o.shearModulus (t, p, z)) (Real.pi / 2)
    obtain ⟨b1, b2⟩ := hp (fun z => -o.shearModulus (t, p, z)) (Real.pi / 2)
    refine ⟨_, _, rfl, a2.trans ?_,
      ⟨_, hort (powell (fun z => o.shearModulus (t, p, z)) (Real.pi / 2)).point, ?_⟩,
      ⟨_, hort (powell (fun z => -o.shearModulus (t, p, z)) (Real.pi / 2)).point, ?_⟩⟩
    · exact le_neg_of_le_neg b2
    · show IsShear C _ _ (powell _ _).value
      rw [a1, e3]
      exact shear_spec hC hs t p _
    · show IsShear C _ _ (-(powell _ _).value)
      rw [b1, neg_neg, e3]
      exact shear_spec hC hs t p _
  | Nu =>
    obtain ⟨a1, a2⟩ := hp (fun z => o.poissonRatio (t, p, z)) (Real.pi / 2)
    obtain ⟨b1, b2⟩ := hp (fun z => -o.poissonRatio (t, p, z)) (Real.pi / 2)
    refine ⟨_, _, (powell (fun z => o.poissonRatio (t, p, z)) (Real.pi / 2)).value, _, rfl, min_le_left _ _,
      le_max_left _ _, ?_, ?_, a2.trans (le_neg_of_le_neg b2),
      ⟨_, hort (powell (fun z => o.poissonRatio (t, p, z)) (Real.pi / 2)).point, ?_⟩,
      ⟨_, hort (powell (fun z => -o.poissonRatio (t, p, z)) (Real.pi / 2)).point, ?_⟩⟩
    · rcases le_total 0 (powell (fun z => o.poissonRatio (t, p, z)) (Real.pi / 2)).value with h | h
      · exact .inl (min_eq_left h)
      · exact .inr (max_eq_left h)
    · have := min_add_max 0 (powell (fun z => o.poissonRatio (t, p, z)) (Real.pi / 2)).value
      rw [zero_add] at this
      exact this
    · rw [a1, e4]
      exact poisson_spec hC hs t p _
    · show IsPoisson C _ _ (-(powell _ _).value)
      rw [b1, neg_neg, e4]
      exact poisson_spec hC hs t p _
  | waves =>
    obtain ⟨s', hs'⟩ : ∃ s', seismic C density = .ok s' := by
      obtain ⟨-, h2⟩ := C31_both_modules C density
      obtain ⟨_, s', -, hs', -⟩ := h2 hdet
      exact ⟨s', hs'⟩
    exact ⟨_, (C37_velocities num hn C hC density (hv rfl) o.soec hs s' hs' t p).1, rfl⟩

end Verif.Polar
