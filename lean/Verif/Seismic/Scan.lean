/-
Property C43: the angular scan and the plot reader.
-/
import Verif.Seismic.Cache
import Verif.Tac

namespace Verif.Seismic
open Verif.Py Verif.Elastic

/-- What a fresh object answers about a property in a direction. -/
noncomputable def Spec.lookAt (num : Numerics) (o : Seismic) (theta phi : ℝ) (p : Property) :
    Except PyErr Value :=
  (step num o (.read p) (step num o (.spherical theta phi) {}).2).1

/-- `row` describes wave `p` (slow secondary, fast secondary, primary) in the direction `theta`,
`phi`: angles, phase velocity, its deviation in per cent from the isotropic velocity, polarisation,
group velocity, its deviation, its components, power-flow angle in degrees, enhancement factor. -/
def Spec.NodeRow (num : Numerics) (o : Seismic) (theta phi : ℝ) (p : Fin 3) (row : Row) : Prop :=
  ∃ (pv ga pf en : V3) (pol gv : M3),
    lookAt num o theta phi .phaseVelocity = .ok (.vec pv) ∧
    lookAt num o theta phi .eigenvec = .ok (.mat pol) ∧
    lookAt num o theta phi .groupVelocity = .ok (.mat gv) ∧
    lookAt num o theta phi .groupAbs = .ok (.vec ga) ∧
    lookAt num o theta phi .powerflow = .ok (.vec pf) ∧
    lookAt num o theta phi .enhancement = .ok (.vec en) ∧
    row 0 = theta ∧ row 1 = phi ∧
    row 2 = pv p ∧ row 3 = 100 * (pv p / o.isotropicVelocity p - 1) ∧
    row 4 = pol p 0 ∧ row 5 = pol p 1 ∧ row 6 = pol p 2 ∧
    row 7 = ga p ∧ row 8 = 100 * (ga p / o.isotropicVelocity p - 1) ∧
    row 9 = gv p 0 ∧ row 10 = gv p 1 ∧ row 11 = gv p 2 ∧
    row 12 = pf p * 180 / Real.pi ∧ row 13 = en p

/-- The polar angle of row `i` of the grid: equal steps from 0 to `π/2`. -/
noncomputable def Spec.gridTheta (ntheta i : ℕ) : ℝ := Real.pi / 2 * (i / ((ntheta : ℝ) - 1))

/-- The azimuth of column `j` of the grid: equal steps from 0 to `2π`. -/
noncomputable def Spec.gridPhi (nphi j : ℕ) : ℝ := 2 * Real.pi * (j / ((nphi : ℝ) - 1))

open Spec

/-- The data of a direction. -/
noncomputable def nodeOf (num : Numerics) (o : Seismic) (theta phi : ℝ) : Node :=
  let d : Dir := ⟨seismicVector theta phi, theta, phi⟩
  { theta := theta, phi := phi, velocity := d.phase num o, polarization := d.eigenvec num o
    groupVel := (d.group num o).velocity, groupAbs := (d.group num o).abs
    powerflow := (d.group num o).powerflow, enhancement := d.enhancement num o }

theorem visit_ok (num : Numerics) (o : Seismic) (theta phi : ℝ) (st : State) :
    ∃ st', visit num o theta phi st = .ok (nodeOf num o theta phi, st') := by
  set d : Dir := ⟨seismicVector theta phi, theta, phi⟩ with hd
  have g0 : Good num o d (sphericalDirection o theta phi st) :=
    set_good (num := num) (o := o) (op := .spherical theta phi) rfl st
  obtain ⟨s1, e1, g1, -⟩ := solve_good g0
  obtain ⟨s2, e2, g2, -⟩ := solveGroup_good g1
  obtain ⟨s3, e3, g3⟩ := gives_phase g2
  obtain ⟨s4, e4, g4⟩ := gives_eigenvec g3
  obtain ⟨s5, e5, g5⟩ := gives_velocity g4
  obtain ⟨s6, e6, g6⟩ := gives_abs g5
  obtain ⟨s7, e7, g7⟩ := gives_powerflow g6
  obtain ⟨s8, e8, g8⟩ := gives_enhancement g7
  refine ⟨s8, ?_⟩
  simp only [visit, e1, e2, e3, e4, e5, e6, e7, e8, g8.theta, g8.phi, need, bind, Except.bind]
  rfl

theorem nodeRow (num : Numerics) (o : Seismic) (theta phi : ℝ) (p : Fin 3) :
    NodeRow num o theta phi p (rowOf o.isotropicVelocity (nodeOf num o theta phi) p) := by
  set d : Dir := ⟨seismicVector theta phi, theta, phi⟩ with hd
  have g : Good num o d (step num o (.spherical theta phi) {}).2 :=
    set_good (num := num) (o := o) (op := .spherical theta phi) rfl {}
  refine ⟨_, _, _, _, _, _, step_read g .phaseVelocity, step_read g .eigenvec,
    step_read g .groupVelocity, step_read g .groupAbs, step_read g .powerflow,
    step_read g .enhancement, rfl, rfl, rfl, rfl, rfl, rfl, rfl, rfl, rfl, rfl, rfl, rfl, ?_, rfl⟩
  show _ * (180 / Real.pi) = _
  rw [mul_div_assoc]
  rfl

/-! ### The loop -/

/-- The first `k` rows are those of `F`; every table has `n` rows. -/
def Filled (F : ℕ → Fin 3 → Row) (n k : ℕ) (t : Tables) : Prop :=
  ∀ p, (t.get p).length = n ∧ ∀ r, r < k → (t.get p)[r]? = some (F r p)

theorem set_filled {l : List Row} {n k : ℕ} {G : ℕ → Row} (hk : k < n)
    (h : l.length = n ∧ ∀ r, r < k → l[r]? = some (G r)) :
    (l.set k (G k)).length = n ∧ ∀ r, r < k + 1 → (l.set k (G k))[r]? = some (G r) := by
  obtain ⟨h1, h2⟩ := h
  refine ⟨by rw [List.length_set, h1], fun r hr => ?_⟩
  by_cases hrk : r = k
  · subst hrk
    rw [List.getElem?_set_self (by omega)]
  · rw [List.getElem?_set_ne (fun h => hrk h.symm)]
    exact h2 r (by omega)

theorem setRow_ok {l : List Row} {c : ℕ} (row : Row) (h : c < l.length) :
    setRow l c row = .ok (l.set c row) := by simp [setRow, h]

variable (num : Numerics) (o : Seismic)

theorem body_ok {ntheta nphi i j n : ℕ} (h1 : 2 ≤ ntheta) (h2 : 2 ≤ nphi) {F : ℕ → Fin 3 → Row}
    {l : Loop} (hc : l.c < n)
    (hF : ∀ p, F l.c p = rowOf o.isotropicVelocity
      (nodeOf num o (0.5 * Real.pi * i / (ntheta - 1)) (2 * Real.pi * j / (nphi - 1))) p)
    (hl : Filled F n l.c l.tables) :
    ∃ l', body num o ntheta nphi i j l = .ok l' ∧ l'.c = l.c + 1 ∧ Filled F n l'.c l'.tables := by
  have d1 : divInt (0.5 * Real.pi * i) ((ntheta : ℤ) - 1) =
      .ok (0.5 * Real.pi * i / ((ntheta : ℝ) - 1)) := by
    rw [divInt, if_neg (by omega)]
    push_cast
    rfl
  have d2 : divInt (2 * Real.pi * j) ((nphi : ℤ) - 1) =
      .ok (2 * Real.pi * j / ((nphi : ℝ) - 1)) := by
    rw [divInt, if_neg (by omega)]
    push_cast
    rfl
  obtain ⟨st', hv⟩ := visit_ok num o (0.5 * Real.pi * i / ((ntheta : ℝ) - 1))
    (2 * Real.pi * j / ((nphi : ℝ) - 1)) l.st
  have l0 : l.c < l.tables.slow.length := hc.trans_eq (hl 0).1.symm
  have l1 : l.c < l.tables.fast.length := hc.trans_eq (hl 1).1.symm
  have l2 : l.c < l.tables.primary.length := hc.trans_eq (hl 2).1.symm
  refine ⟨⟨⟨l.tables.slow.set l.c (F l.c 0), l.tables.fast.set l.c (F l.c 1),
    l.tables.primary.set l.c (F l.c 2)⟩, l.c + 1, st'⟩, ?_, rfl, ?_⟩
  · simp only [body, d1, d2, hv, bind, Except.bind, setRow_ok _ l0, setRow_ok _ l1, setRow_ok _ l2,
      hF]
  · intro p
    fin_cases p
    · exact set_filled (G := fun r => F r 0) hc (hl 0)
    · exact set_filled (G := fun r => F r 1) hc (hl 1)
    · exact set_filled (G := fun r => F r 2) hc (hl 2)

theorem foldlM_range {α : Type} {f : α → ℕ → Except PyErr α} {P : ℕ → α → Prop} {n : ℕ}
    (step : ∀ k, k < n → ∀ a, P k a → ∃ b, f a k = .ok b ∧ P (k + 1) b) :
    ∀ m, m ≤ n → ∀ a, P 0 a → ∃ b, (List.range m).foldlM f a = .ok b ∧ P m b := by
  intro m
  induction m with
  | zero => intro _ a h; exact ⟨a, rfl, h⟩
  | succ m ih =>
    intro hm a h
    obtain ⟨b, hb, hP⟩ := ih (by omega) a h
    obtain ⟨c, hc, hQ⟩ := step m (by omega) b hP
    refine ⟨c, ?_, hQ⟩
    rw [List.range_succ, List.foldlM_append, hb]
    show List.foldlM f b [m] = _
    rw [List.foldlM_cons, hc]
    rfl

/-- The rows of the tables. -/
noncomputable def gridRow (ntheta nphi r : ℕ) (p : Fin 3) : Row :=
  rowOf o.isotropicVelocity
    (nodeOf num o (0.5 * Real.pi * ((r / nphi : ℕ) : ℝ) / (ntheta - 1))
      (2 * Real.pi * ((r % nphi : ℕ) : ℝ) / (nphi - 1))) p

theorem scan_ok {ntheta nphi : ℕ} (h1 : 2 ≤ ntheta) (h2 : 2 ≤ nphi) (st : State) :
    ∃ t, scan num o ntheta nphi st = .ok t ∧
      Filled (gridRow num o ntheta nphi) (ntheta * nphi) (ntheta * nphi) t := by
  set F := gridRow num o ntheta nphi with hFdef
  set N := ntheta * nphi with hN
  obtain ⟨l, hl, hc, hP⟩ := foldlM_range
    (f := fun l theta => (List.range nphi).foldlM (fun l phi => body num o ntheta nphi theta phi l) l)
    (P := fun k l => l.c = k * nphi ∧ Filled F N l.c l.tables) (n := ntheta) (by
      intro i hi l hl
      obtain ⟨l', h, hc, hP⟩ := foldlM_range
        (f := fun l phi => body num o ntheta nphi i phi l)
        (P := fun k l => l.c = i * nphi + k ∧ Filled F N l.c l.tables) (n := nphi) (by
          intro j hj l hl
          have hlt : i * nphi + j < N := by
            have : (i + 1) * nphi ≤ ntheta * nphi := Nat.mul_le_mul_right _ hi
            rw [Nat.add_mul, one_mul] at this
            omega
          obtain ⟨l', e, c, P⟩ := body_ok num o h1 h2 (i := i) (j := j) (by rw [hl.1]; exact hlt)
            (fun p => by
              rw [hl.1, hFdef, gridRow]
              have q1 : (i * nphi + j) / nphi = i := by
                rw [Nat.mul_comm, Nat.mul_add_div (by omega), Nat.div_eq_of_lt hj, add_zero]
              have q2 : (i * nphi + j) % nphi = j := by
                rw [Nat.mul_comm, Nat.mul_add_mod, Nat.mod_eq_of_lt hj]
              rw [q1, q2]) hl.2
          exact ⟨l', e, by rw [c, hl.1]; ring, P⟩) nphi le_rfl l ⟨by rw [hl.1, add_zero], hl.2⟩
      exact ⟨l', h, by rw [hc]; ring, hP⟩)
    ntheta le_rfl ⟨initData ntheta nphi, 0, st⟩ ⟨by simp, fun p => ⟨by
        fin_cases p <;> simp [Tables.get, initData, hN], fun r hr => absurd hr (Nat.not_lt_zero r)⟩⟩
  refine ⟨l.tables, ?_, ?_⟩
  · simp only [scan, hl, bind, Except.bind]
  · rw [hc] at hP
    exact hP

theorem theta_eq (ntheta i : ℕ) :
    0.5 * Real.pi * i / ((ntheta : ℝ) - 1) = gridTheta ntheta i := by
  unfold gridTheta; ring

theorem phi_eq (nphi j : ℕ) : 2 * Real.pi * j / ((nphi : ℝ) - 1) = gridPhi nphi j := by
  unfold gridPhi; ring

theorem gridRow_eq {ntheta nphi i j : ℕ} (hj : j < nphi) (p : Fin 3) :
    gridRow num o ntheta nphi (i * nphi + j) p =
      rowOf o.isotropicVelocity (nodeOf num o (gridTheta ntheta i) (gridPhi nphi j)) p := by
  have q1 : (i * nphi + j) / nphi = i := by
    rw [Nat.mul_comm, Nat.mul_add_div (by omega), Nat.div_eq_of_lt hj, add_zero]
  have q2 : (i * nphi + j) % nphi = j := by
    rw [Nat.mul_comm, Nat.mul_add_mod, Nat.mod_eq_of_lt hj]
  rw [gridRow, q1, q2, theta_eq, phi_eq]

theorem index_lt {ntheta nphi i j : ℕ} (hi : i < ntheta) (hj : j < nphi) :
    i * nphi + j < ntheta * nphi := by
  have : (i + 1) * nphi ≤ ntheta * nphi := Nat.mul_le_mul_right _ hi
  rw [Nat.add_mul, one_mul] at this
  omega

/-- C43, scan: a run over `ntheta` × `nphi` directions gives three tables of `ntheta*nphi` rows; row
`i*nphi + j` of each holds what a fresh object answers about the direction with the `i`-th polar
angle and the `j`-th azimuth, for the wave of that table.  What the object was used for before does
not matter. -/
theorem C43_rows (ntheta nphi : ℕ) (h1 : 2 ≤ ntheta) (h2 : 2 ≤ nphi) (st : State) :
    ∃ t, scan num o ntheta nphi st = .ok t ∧
      (∀ p, (t.get p).length = ntheta * nphi) ∧
      ∀ i, i < ntheta → ∀ j, j < nphi → ∀ p, ∃ row, (t.get p)[i * nphi + j]? = some row ∧
        NodeRow num o (gridTheta ntheta i) (gridPhi nphi j) p row := by
  obtain ⟨t, ht, hf⟩ := scan_ok num o h1 h2 st
  refine ⟨t, ht, fun p => (hf p).1, fun i hi j hj p => ⟨_, (hf p).2 _ (index_lt hi hj), ?_⟩⟩
  rw [gridRow_eq num o hj]
  exact nodeRow num o _ _ p

/-- C43, grid: the polar angles go in ascending order from 0 to `π/2` and the azimuths from 0 to
`2π`, both ends included. -/
theorem C43_ends (ntheta nphi : ℕ) (h1 : 2 ≤ ntheta) (h2 : 2 ≤ nphi) :
    gridTheta ntheta 0 = 0 ∧ gridTheta ntheta (ntheta - 1) = Real.pi / 2 ∧
    gridPhi nphi 0 = 0 ∧ gridPhi nphi (nphi - 1) = 2 * Real.pi ∧
    StrictMono (gridTheta ntheta) ∧ StrictMono (gridPhi nphi) := by
  have p1 : (0 : ℝ) < (ntheta : ℝ) - 1 := by
    have : (2 : ℝ) ≤ ntheta := by exact_mod_cast h1
    linarith
  have p2 : (0 : ℝ) < (nphi : ℝ) - 1 := by
    have : (2 : ℝ) ≤ nphi := by exact_mod_cast h2
    linarith
  refine ⟨by simp [gridTheta], ?_, by simp [gridPhi], ?_, ?_, ?_⟩
  · rw [gridTheta, Nat.cast_sub (by omega), Nat.cast_one, div_self p1.ne', mul_one]
  · rw [gridPhi, Nat.cast_sub (by omega), Nat.cast_one, div_self p2.ne', mul_one]
  · intro a b hab
    have : (a : ℝ) < b := by exact_mod_cast hab
    have hp := Real.pi_pos
    unfold gridTheta
    gcongr
  · intro a b hab
    have : (a : ℝ) < b := by exact_mod_cast hab
    have hp := Real.pi_pos
    unfold gridPhi
    gcongr

theorem countZeros_eq {l : List ℝ} {k n : ℕ} (h0 : ∀ r, r < k → l[r]? = some 0) {x : ℝ}
    (hx : l[k]? = some x) (hne : x ≠ 0) : countZeros l n = .ok (n + k) := by
  induction k generalizing l n with
  | zero =>
    cases l with
    | nil => simp at hx
    | cons a l =>
      simp only [List.getElem?_cons_zero, Option.some.injEq] at hx
      subst hx
      simp [countZeros, hne]
  | succ k ih =>
    cases l with
    | nil => simp at hx
    | cons a l =>
      have ha : a = 0 := by
        have := h0 0 (by omega)
        simpa using this
      have := ih (l := l) (n := n + 1) (fun r hr => by
        have := h0 (r + 1) (by omega)
        simpa using this) (by simpa using hx)
      rw [countZeros, if_neg (by simp [ha]), this]
      congr 1
      omega

/-- C43, reader: the plot reader recovers the numbers of polar angles and azimuths from the table
of a run. -/
theorem C43_reader (ntheta nphi : ℕ) (h1 : 2 ≤ ntheta) (h2 : 2 ≤ nphi) (st : State) (t : Tables)
    (ht : scan num o ntheta nphi st = .ok t) : readData t = .ok (ntheta, nphi) := by
  obtain ⟨t', ht', hf⟩ := scan_ok num o h1 h2 st
  rw [ht] at ht'
  cases ht'
  have hcol : ∀ i j, i < ntheta → j < nphi →
      (column t.primary 0)[i * nphi + j]? = some (gridTheta ntheta i) := by
    intro i j hi hj
    have := (hf 2).2 _ (index_lt hi hj)
    rw [gridRow_eq num o hj] at this
    simp only [column, List.getElem?_map]
    rw [show t.primary[i * nphi + j]? = _ from this]
    rfl
  have hp1 : (0 : ℝ) < (ntheta : ℝ) - 1 := by
    have : (2 : ℝ) ≤ ntheta := by exact_mod_cast h1
    linarith
  have hc : countZeros (column t.primary 0) 0 = .ok nphi := by
    have := countZeros_eq (l := column t.primary 0) (k := nphi) (n := 0) (x := gridTheta ntheta 1)
      (fun r hr => by
        have := hcol 0 r (by omega) hr
        simpa [gridTheta] using this)
      (by
        have := hcol 1 0 (by omega) (by omega)
        simpa using this)
      (by
        unfold gridTheta
        have := Real.pi_pos
        positivity)
    rw [this, zero_add]
  have hlen : (column t.primary 0).length = ntheta * nphi := by
    simp only [column, List.length_map]
    exact (hf 2).1
  simp only [readData, hc, bind, Except.bind]
  rw [if_neg (by omega), hlen, Nat.mul_div_cancel _ (by omega)]

/-- C43, mesh: the angles at which the plotter draws entry `[i, j]` of a reshaped column are those
stored in that row of the table. -/
theorem C43_mesh (ntheta nphi : ℕ) (h1 : 2 ≤ ntheta) (h2 : 2 ≤ nphi) (st : State) (t : Tables)
    (ht : scan num o ntheta nphi st = .ok t) (p : Fin 3) (i j : ℕ) (hi : i < ntheta)
    (hj : j < nphi) :
    reshaped t p 0 nphi i j = some (mesh ntheta nphi i j).1 ∧
    reshaped t p 1 nphi i j = some (mesh ntheta nphi i j).2 := by
  obtain ⟨t', ht', hf⟩ := scan_ok num o h1 h2 st
  rw [ht] at ht'
  cases ht'
  have := (hf p).2 _ (index_lt hi hj)
  rw [gridRow_eq num o hj] at this
  simp only [reshaped, column, List.getElem?_map, this, Option.map_some]
  constructor
  · show some (gridTheta ntheta i) = _
    congr 1
    simp only [gridTheta, mesh]
    ring
  · show some (gridPhi nphi j) = _
    congr 1
    simp only [gridPhi, mesh]
    ring

/-- With a single polar angle or a single azimuth the run stops with a division by zero. -/
theorem C43_single (ntheta nphi : ℕ) (h : ntheta = 1 ∧ 1 ≤ nphi ∨ nphi = 1 ∧ 1 ≤ ntheta)
    (st : State) : scan num o ntheta nphi st = .error .zeroDivision := by
  have first : ∀ l, body num o ntheta nphi 0 0 l = .error .zeroDivision := by
    intro l
    by_cases ht : ntheta = 1
    · simp [body, divInt, ht, bind, Except.bind]
    · have hp : nphi = 1 := by tauto
      have : (ntheta : ℤ) - 1 ≠ 0 := by omega
      simp [body, divInt, hp, this, bind, Except.bind]
  obtain ⟨a, ha⟩ : ∃ a, ntheta = a + 1 := ⟨ntheta - 1, by omega⟩
  obtain ⟨b, hb⟩ : ∃ b, nphi = b + 1 := ⟨nphi - 1, by omega⟩
  have inner : ∀ l, (List.range nphi).foldlM (fun l phi => body num o ntheta nphi 0 phi l) l =
      .error .zeroDivision := by
    intro l
    rw [show List.range nphi = 0 :: (List.range b).map Nat.succ by
      rw [hb, List.range_succ_eq_map], List.foldlM_cons, first]
    rfl
  unfold scan
  rw [show List.range ntheta = 0 :: (List.range a).map Nat.succ by
    rw [ha, List.range_succ_eq_map], List.foldlM_cons, inner]
  rfl

example : ∃ t, scan num o 180 720 {} = .ok t ∧ readData t = .ok (180, 720) := by
  obtain ⟨t, ht, -⟩ := C43_rows num o 180 720 (by norm_num) (by norm_num) {}
  exact ⟨t, ht, C43_reader num o 180 720 (by norm_num) (by norm_num) {} t ht⟩

end Verif.Seismic
