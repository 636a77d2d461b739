import Verif.Lemmas.PathTracking
import Mathlib.Data.Fin.VecNotation
import Mathlib.Data.Rat.Sqrt
import Mathlib.Analysis.Real.Sqrt
import Mathlib.Tactic.FinCases
import Mathlib.Tactic.IntervalCases

/-!
# Properties C53, C54 and C75: paths, the streaming step, and the sparsity pattern
-/

namespace NATriuM
namespace Paths

section

variable {K : Type*} [Field K] [LinearOrder K] {m : ℕ} {C : Type*}

/-- **C53** The loop over the paths of a cell ends: after 51 passes for each path nothing is left to do, so that further passes change nothing.
Each path has been found, has ended at a boundary, or has been given up after 50 passes. -/
theorem C53_ends_partial (mesh : Mesh K m C) (s : Setup K (m + 2)) (queue : List (Tracker K (m + 2) C)) (hq : ∀ p ∈ queue, p.lifeTimeCounter = 0)
    (n : ℕ) (hn : 51 * queue.length ≤ n) :
    passes mesh s n ⟨queue, [], [], [], []⟩ = followAll mesh s queue ∧
    ∀ st, followAll mesh s queue = .ok st → st.queue = [] ∧
      st.found.length + st.dropped.length + st.expired.length = queue.length ∧
      (∀ p ∈ st.found ++ st.dropped, p.lifeTimeCounter ≤ 50) ∧ ∀ p ∈ st.expired, p.lifeTimeCounter = 51 := by
  constructor
  · obtain ⟨k, rfl⟩ := Nat.exists_eq_add_of_le hn
    rw [passes_add]
    cases h : passes mesh s (51 * queue.length) ⟨queue, [], [], [], []⟩ with
    | error e => exact h.symm
    | ok st =>
      have := (followAll_spec mesh s queue hq st h).1
      show passes mesh s k st = _
      rw [passes_empty mesh s k st this]
      exact h.symm
  · intro st h
    obtain ⟨h0, L, hL, h1, h2, h3⟩ := followAll_spec mesh s queue hq st h
    refine ⟨h0, ?_, ?_, ?_⟩
    · rw [h1, h2, h3, hL.length_eq]
      clear hL h1 h2 h3
      induction L with
      | nil => rfl
      | cons e L ih =>
        cases e
        · show ((_ :: _ : List _).length) + (L.filterMap Ended.dropped?).length + (L.filterMap Ended.expired?).length = _
          simp only [List.length_cons]; omega
        · show (L.filterMap Ended.found?).length + ((_ :: _ : List _).length) + (L.filterMap Ended.expired?).length = _
          simp only [List.length_cons]; omega
        · show (L.filterMap Ended.found?).length + (L.filterMap Ended.dropped?).length + ((_ :: _ : List _).length) = _
          simp only [List.length_cons]; omega
    · have hlife : ∀ e ∈ L, e.found?.isSome ∨ e.dropped?.isSome → e.path.lifeTimeCounter ≤ 50 := fun e he hs => by
        obtain ⟨x, _, hx⟩ := exists_follows hL e he
        exact hx.life_le hs
      intro p hp
      rw [h1, h3] at hp
      rcases List.mem_append.1 hp with hp | hp
      · obtain ⟨e, he, hp⟩ := List.mem_filterMap.1 hp
        cases e <;> cases hp
        exact hlife _ he (Or.inl rfl)
      · obtain ⟨e, he, hp⟩ := List.mem_filterMap.1 hp
        cases e <;> cases hp
        exact hlife _ he (Or.inr rfl)
    · intro p hp
      rw [h2] at hp
      obtain ⟨e, he, hp⟩ := List.mem_filterMap.1 hp
      cases e <;> cases hp
      obtain ⟨x, hxq, hx⟩ := exists_follows hL _ he
      exact hx.life_eq (by rw [hq x hxq]; omega) p rfl

/-- **C53** When the matrix is filled, there is one path for each degree of freedom the process owns in its cells and each direction but the
first, and no other; it starts at a support point of the degree of freedom, and it is followed to its end. -/
theorem C53_once_partial (mesh : Mesh K m C) (s : Setup K (m + 2)) (as : Assembly K (m + 2) C) (h : fillSparseObject mesh s none = .ok as) :
    ∃ L : List (Tracker K (m + 2) C × Ended K (m + 2) C),
      (∀ x ∈ L, mesh.NewPath s x.1.index x.1.direction x.1 ∧ Follows mesh s x.1 x.2) ∧
      (L.map fun x => (x.1.index, x.1.direction)).Nodup ∧
      ∀ i alpha, (i, alpha) ∈ (L.map fun x => (x.1.index, x.1.direction)) ↔
        (mesh.owned i = true ∧ ∃ cell ∈ mesh.cells, i ∈ mesh.dofs cell) ∧ 1 ≤ alpha ∧ alpha < s.Q := by
  obtain ⟨P, L, hF⟩ := fill_spec mesh s none as h
  have hmap : (P.zip L).map (fun x => (x.1.index, x.1.direction)) = P.map Tracker.dest := by
    rw [show (fun x : Tracker K (m + 2) C × Ended K (m + 2) C => (x.1.index, x.1.direction)) = Tracker.dest ∘ Prod.fst from rfl,
      ← List.map_map, List.map_fst_zip hF.follows.length_eq.le]
  refine ⟨P.zip L, fun x hx => ⟨?_, ?_⟩, ?_, fun i alpha => ?_⟩
  · have hxP : x.1 ∈ P := (List.of_mem_zip (show (x.1, x.2) ∈ P.zip L from hx)).1
    exact hF.new x.1 hxP
  · exact (List.forall₂_iff_zip.1 hF.follows).2 (show (x.1, x.2) ∈ P.zip L from hx)
  · rw [hmap]; exact hF.dest_nodup
  · rw [hmap, hF.dests, List.mem_flatMap, ← hF.tracked, ← mem_directions s alpha]
    constructor
    · rintro ⟨j, hj, hx⟩
      obtain ⟨b, hb, hx⟩ := List.mem_map.1 hx
      cases hx
      exact ⟨hj, hb⟩
    · rintro ⟨hi, ha⟩
      exact ⟨i, hi, List.mem_map.2 ⟨alpha, ha, rfl⟩⟩

/-- **C53** Without bounce-back walls and do-nothing boundaries, and whatever errors are made when boundary points are computed: a path that
starts at `x` is found at `x - dt e`, up to shifts by periodic boundaries, and its direction is the one it had. -/
theorem C53_departure (mesh : Mesh K m C) (s : Setup K (m + 2)) (hS : mesh.Shifts) (hb : mesh.NoBounceBack) (hn : mesh.NoDoNothing)
    (cell : C) (x : Fin (m + 2) → K) (i alpha : ℕ) (p : Tracker K (m + 2) C) (h : Follows mesh s (newPath s cell x i alpha) (.found p)) :
    p.currentDirection = alpha ∧ ∃ v, mesh.Shift v ∧ p.departurePoint = fun a => x a - s.dt * s.e alpha a + v a := by
  refine ⟨h.sameDirection hb hn rfl, h.shifted hS hb hn _ ⟨_, .zero, ?_⟩⟩
  funext a
  simp only [newPath]; ring

end

section

variable {K : Type*} [Field K] [LinearOrder K] [IsStrictOrderedRing K] {m : ℕ} {C : Type*}

/-- **C53** Without do-nothing boundaries: a path that is found has travelled for exactly the time step, through cells and periodic
boundaries, turning round at bounce-back walls, provided that the boundary points found on its way are on its way. -/
theorem C53_time (mesh : Mesh K m C) (s : Setup K (m + 2)) (hs : s.Valid) (hS : mesh.Shifts) (hn : mesh.NoDoNothing)
    (cell : C) (x : Fin (m + 2) → K) (i alpha : ℕ) (h0 : 0 < alpha) (hQ : alpha < s.Q) (hE : ExactAlong mesh s (newPath s cell x i alpha))
    (p : Tracker K (m + 2) C) (h : Follows mesh s (newPath s cell x i alpha) (.found p)) :
    Trip mesh s x alpha s.dt p.departurePoint p.currentDirection := by
  refine h.trip hs hS hn x alpha rfl hE ⟨rfl, h0, hQ, 0, s.dt, .start, hs.dt_nonneg, zero_add _, ?_⟩
  funext a
  simp only [newPath]; ring

omit [IsStrictOrderedRing K] in
/-- **C53** (finding) A path that crosses a face behind which the mesh is refined cannot be followed: a child of the current cell is asked for,
which has none. -/
theorem C53_refined_fails (mesh : Mesh K m C) (s : Setup K (m + 2)) (path : Tracker K (m + 2) C) (hl : path.lifeTimeCounter < 50)
    (face : ℕ) (q : Fin (m + 2) → K) (h : mesh.findFace path.currentCell path.currentPoint path.departurePoint = .ok (some (face, q)))
    (hr : mesh.face path.currentCell face = .refined) : pass mesh s path = .error .childOfActiveCell := by
  have hl : ¬ (older path).lifeTimeCounter > 50 := by show ¬ path.lifeTimeCounter + 1 > 50; omega
  rw [pass, if_neg hl, crossFace]
  have h' : mesh.findFace (older path).currentCell (older path).currentPoint (older path).departurePoint = .ok (some (face, q)) := h
  have hr' : mesh.face (older path).currentCell face = .refined := hr
  simp only [h', hr']

/-- **C54** What streaming does with direction `alpha` at degree of freedom `i`: the path from a support point of `i` is followed; if it is
found in a cell, the new value is interpolated there, in direction `alpha` or the opposite one; if it ends at a boundary, the value is left to
the boundary condition (it is zero before); if it is given up, the value does not change. -/
theorem C54_rows (mesh : Mesh K m C) (s : Setup K (m + 2)) (hs : s.Valid) (as : Assembly K (m + 2) C)
    (h : fillSparseObject mesh s none = .ok as) (cell : C) (hcell : cell ∈ mesh.cells) (i alpha : ℕ) (hi : i ∈ mesh.dofs cell)
    (ho : mesh.owned i = true) (h0 : 0 < alpha) (hQ : alpha < s.Q) :
    ∃ path e, mesh.NewPath s i alpha path ∧ Follows mesh s path e ∧ ∀ f : ℕ → ℕ → K,
      match e with
      | .found p => (p.currentDirection = alpha ∨ p.currentDirection = s.opp alpha) ∧
        ∃ x y, unitDeparture mesh p = .ok x ∧ (mesh.mapping p.currentCell).toUnit p.departurePoint = some y ∧
          (∀ a, |x a - y a| < 1 / 10 ^ 10) ∧ InCell x ∧ stream as.entries f alpha i = interpolated mesh p.currentCell x (f p.currentDirection)
      | .dropped _ => stream as.entries f alpha i = 0
      | .expired _ => stream as.entries f alpha i = f alpha i := by
  obtain ⟨path, e, hnew, hfol, hok, hrow⟩ := row_of_fill h hcell i alpha hi ho h0 hQ
  refine ⟨path, e, hnew, hfol, fun f => ?_⟩
  obtain ⟨c, k, _, _, hp⟩ := hnew
  have hdir := hfol.direction hs.opp_opp alpha h0 hQ (Or.inl (by rw [hp]; rfl))
  have hdest : e.path.dest = (i, alpha) := by rw [hfol.dest, hp]; rfl
  cases e with
  | found p =>
    have hd1 : 1 ≤ p.currentDirection := by
      rcases hdir with hd | hd
      · exact hd ▸ h0
      · exact hd ▸ (hs.opp_range alpha h0 hQ).1
    obtain ⟨es, hes⟩ := hok
    obtain ⟨x, hx, hsum⟩ := found_sum mesh p es hes hd1 f
    obtain ⟨hxc, y, hy, hxy⟩ := unitDeparture_ok mesh p x hx
    refine ⟨hdir, x, y, hx, hy, hxy, hxc, ?_⟩
    rw [hrow f, ← hsum]
    simp only [Ended.entries, hes]
  | dropped p => rw [hrow f]; rfl
  | expired p =>
    rw [hrow f]
    simp only [Tracker.dest, Ended.path, Prod.mk.injEq] at hdest
    simp only [Ended.entries, expiredEntry, List.map_cons, List.map_nil, List.sum_cons, List.sum_nil, one_mul, add_zero, hdest.1, hdest.2]
    rw [Nat.sub_add_cancel h0]

/-- **C54** (partial: up to left-out weights) Without bounce-back walls and do-nothing boundaries, and with shape functions that are a
partition of unity: streaming changes no uniform distribution by more than 1e-10, relatively, for each shape function of a cell, and not at
all if no weight at its departure point is left out, except where the value is left to a boundary condition.  `u alpha` is the value of the uniform distribution; the other
directions may have any values. -/
theorem C54_uniform_partial (mesh : Mesh K m C) (s : Setup K (m + 2)) (hs : s.Valid) (hb : mesh.NoBounceBack) (hn : mesh.NoDoNothing)
    (hU : mesh.PartitionOfUnity) (as : Assembly K (m + 2) C)
    (h : fillSparseObject mesh s none = .ok as) (cell : C) (hcell : cell ∈ mesh.cells) (i alpha : ℕ) (hi : i ∈ mesh.dofs cell)
    (ho : mesh.owned i = true) (h0 : 0 < alpha) (hQ : alpha < s.Q) (f : ℕ → ℕ → K) (u : K) (hf : ∀ j, f alpha j = u) :
    ∃ path e, mesh.NewPath s i alpha path ∧ Follows mesh s path e ∧
      match e with
      | .found p => |stream as.entries f alpha i - u| ≤ (mesh.dofs p.currentCell).length * (1 / 10 ^ 10) * |u| ∧
        ((∀ x, unitDeparture mesh p = .ok x → ∀ k, mesh.shape k x = 0 ∨ 1 / 10 ^ 10 ≤ |mesh.shape k x|) → stream as.entries f alpha i = u)
      | .dropped _ => stream as.entries f alpha i = 0
      | .expired _ => stream as.entries f alpha i = u := by
  obtain ⟨path, e, hnew, hfol, hrow⟩ := C54_rows mesh s hs as h cell hcell i alpha hi ho h0 hQ
  refine ⟨path, e, hnew, hfol, ?_⟩
  have hrow := hrow f
  have hdir : e.path.currentDirection = alpha := by
    obtain ⟨c, k, _, _, hp⟩ := hnew
    rw [hfol.sameDirection hb hn (by rw [hp]; rfl), hp]; rfl
  cases e with
  | found p =>
    obtain ⟨_, x, y, hxu, _, _, hx, hr⟩ := hrow
    have hd : p.currentDirection = alpha := hdir
    rw [hd] at hr
    rw [interpolated_const mesh p.currentCell x (f alpha) u fun j _ => hf j] at hr
    dsimp only
    have hU := hU p.currentCell x hx
    constructor
    · rw [hr]
      have : (∑ k ∈ Finset.range (mesh.dofs p.currentCell).length, if |mesh.shape k x| < 1 / 10 ^ 10 then 0 else mesh.shape k x) * u - u =
          (∑ k ∈ Finset.range (mesh.dofs p.currentCell).length, ((if |mesh.shape k x| < 1 / 10 ^ 10 then 0 else mesh.shape k x) - mesh.shape k x)) * u := by
        rw [Finset.sum_sub_distrib, hU]; ring
      rw [this, abs_mul]
      refine mul_le_mul_of_nonneg_right ?_ (abs_nonneg u)
      refine (Finset.abs_sum_le_sum_abs _ _).trans ?_
      refine (Finset.sum_le_card_nsmul _ _ (1 / 10 ^ 10) fun k _ => ?_).trans ?_
      · split_ifs with hk
        · rw [zero_sub, abs_neg]; exact hk.le
        · rw [sub_self, abs_zero]; positivity
      · rw [Finset.card_range, nsmul_eq_mul]
    · intro hz
      rw [hr]
      have : (∑ k ∈ Finset.range (mesh.dofs p.currentCell).length, if |mesh.shape k x| < 1 / 10 ^ 10 then 0 else mesh.shape k x) = 1 := by
        refine (Finset.sum_congr rfl fun k _ => ?_).trans hU
        split_ifs with hk
        · rcases hz x hxu k with hz | hz
          · exact hz.symm
          · exact absurd hk (not_lt.2 hz)
        · rfl
      rw [this, one_mul]
  | dropped p => exact hrow
  | expired p =>
    have : stream as.entries f alpha i = f alpha i := hrow
    dsimp only
    rw [this, hf]

/-- **C54** Particles at rest stay where they are. -/
theorem C54_rest (mesh : Mesh K m C) (s : Setup K (m + 2)) (as : Assembly K (m + 2) C) (_h : fillSparseObject mesh s none = .ok as)
    (f : ℕ → ℕ → K) (i : ℕ) : stream as.entries f 0 i = f 0 i := rfl

/-- **C54** Streaming is a shift wherever paths lead to support points: if all paths for direction `alpha` and degree of freedom `i` are found where shape
function `k` is one and the others are zero, the new value is the old one of that degree of freedom in the direction in which the path arrives. -/
theorem C54_shift (mesh : Mesh K m C) (s : Setup K (m + 2)) (hs : s.Valid) (as : Assembly K (m + 2) C)
    (h : fillSparseObject mesh s none = .ok as) (cell : C) (hcell : cell ∈ mesh.cells) (i alpha : ℕ) (hi : i ∈ mesh.dofs cell)
    (ho : mesh.owned i = true) (h0 : 0 < alpha) (hQ : alpha < s.Q) (j beta : ℕ)
    (hp : ∀ path e, mesh.NewPath s i alpha path → Follows mesh s path e → ∃ p, e = .found p ∧ p.currentDirection = beta ∧
      ∃ k, (mesh.dofs p.currentCell)[k]? = some j ∧ ∀ x, unitDeparture mesh p = .ok x →
        ∀ l, l < (mesh.dofs p.currentCell).length → mesh.shape l x = if l = k then 1 else 0) (f : ℕ → ℕ → K) :
    stream as.entries f alpha i = f beta j := by
  obtain ⟨path, e, hnew, hfol, hok, hrow⟩ := row_of_fill h hcell i alpha hi ho h0 hQ
  obtain ⟨p, rfl, hbeta, k, hk, hx⟩ := hp path e hnew hfol
  have hd1 : 1 ≤ p.currentDirection := by
    obtain ⟨c, k, _, _, hp⟩ := hnew
    rcases hfol.direction hs.opp_opp alpha h0 hQ (Or.inl (by rw [hp]; rfl)) with hd | hd
    · exact (show p.currentDirection = alpha from hd) ▸ h0
    · exact (show p.currentDirection = s.opp alpha from hd) ▸ (hs.opp_range alpha h0 hQ).1
  obtain ⟨es, hes⟩ := hok
  obtain ⟨x, hxu, hsum⟩ := found_sum mesh p es hes hd1 f
  rw [hrow f]
  simp only [Ended.entries, hes]
  rw [hsum, ← hbeta]
  unfold interpolated
  refine zipIdx_single (mesh.dofs p.currentCell) 0 k j (fun n => if |mesh.shape n x| < 1 / 10 ^ 10 then 0 else mesh.shape n x) _ hk fun l hl => ?_
  rw [Nat.zero_add, hx x hxu l hl]
  by_cases hlk : l = k
  · rw [if_pos hlk, if_neg]; rw [abs_one, not_lt]; norm_num
  · rw [if_neg hlk, if_pos]; rw [abs_zero]; positivity

omit [IsStrictOrderedRing K] in
/-- **C75** Every entry of the matrix has a place in the sparsity pattern, which is made by following the paths of one direction after the
other. -/
theorem C75_pattern (mesh : Mesh K m C) (s : Setup K (m + 2)) (as : Assembly K (m + 2) C) (h : fillSparseObject mesh s none = .ok as)
    (x : Entry K) (hx : x ∈ as.entries) (pattern : Assembly K (m + 2) C) (hp : fillSparseObject mesh s (some x.blockRow) = .ok pattern) :
    x ∈ pattern.entries := by
  obtain ⟨P, L, hF⟩ := fill_spec mesh s none as h
  obtain ⟨P', L', hF'⟩ := fill_spec mesh s (some x.blockRow) pattern hp
  obtain ⟨e, he, hxe⟩ := List.mem_flatMap.1 (hF.entries.mem_iff.1 hx)
  obtain ⟨path, hpath, hfol⟩ := exists_follows hF.follows e he
  refine hF'.entries.mem_iff.2 (List.mem_flatMap.2 ?_)
  have hrow := (entries_dest mesh e x hxe).1
  have hdest := hfol.dest
  have hpath' : path ∈ P' := by
    rw [hF.paths] at hpath
    rw [hF'.paths]
    obtain ⟨st, hst, hm⟩ := List.mem_flatMap.1 hpath
    obtain ⟨alpha, ha, rfl⟩ := List.mem_map.1 hm
    refine List.mem_flatMap.2 ⟨st, hst, List.mem_map.2 ⟨alpha, ?_, rfl⟩⟩
    have hd : e.path.direction = alpha := (Prod.mk.inj hdest).2
    rw [hd] at hrow
    simp only [directions, List.mem_filter, and_true, decide_eq_true_eq] at ha ⊢
    exact ⟨ha, hrow.symm⟩
  obtain ⟨e', he', hfol'⟩ := follows_exists hF'.follows path hpath'
  rw [hfol.unique hfol'] at hxe
  exact ⟨e', he', hxe⟩

end

/-! ### Cases that meet the hypotheses -/

namespace Sample

/-- Four square cells, `[0, 2] x [0, 2]`, with a bilinear discontinuous element; periodic in the second direction -/
def mesh (left right : Fin 2 → BoundaryKind ℚ 2 (Fin 2 × Fin 2)) : Mesh ℚ 0 (Fin 2 × Fin 2) where
  mapping c := ⟨fun p => some fun a => p a - ![(c.1.val : ℚ), c.2.val] a, fun p a => p a + ![(c.1.val : ℚ), c.2.val] a⟩
  planes _ := []
  face c f := match f with
    | 0 => if c.1 = 0 then .boundary 0 (left c.2) else .interior (0, c.2) true
    | 1 => if c.1 = 1 then .boundary 1 (right c.2) else .interior (1, c.2) true
    | 2 => if c.2 = 0 then .boundary 2 (.periodic (fun p a => p a + ![0, 2] a) (c.1, 1)) else .interior (c.1, 0) true
    | _ => if c.2 = 1 then .boundary 3 (.periodic (fun p a => p a + ![0, -2] a) (c.1, 0)) else .interior (c.1, 1) true
  cells := [(0, 0), (1, 0), (0, 1), (1, 1)]
  dofs c := (List.range 4).map fun k => 4 * (2 * c.2.val + c.1.val) + k
  owned _ := true
  supportPoint c k := ![(c.1.val : ℚ) + (k % 2 : ℕ), (c.2.val : ℚ) + (k / 2 : ℕ)]
  shape k h := (if k % 2 = 1 then h 0 else 1 - h 0) * (if k / 2 = 1 then h 1 else 1 - h 1)

def periodic : Mesh ℚ 0 (Fin 2 × Fin 2) :=
  mesh (fun r => .periodic (fun p a => p a + ![2, 0] a) (1, r)) (fun r => .periodic (fun p a => p a + ![-2, 0] a) (0, r))

def walls : Mesh ℚ 0 (Fin 2 × Fin 2) := mesh (fun _ => .bounceBack) (fun _ => .bounceBack)

def doNothing : Mesh ℚ 0 (Fin 2 × Fin 2) := mesh (fun _ => .doNothing) (fun _ => .doNothing)

/-- Directions to the four sides -/
def sides (dt : ℚ) : Setup ℚ 2 where
  Q := 5
  e b := [![0, 0], ![1, 0], ![0, 1], ![-1, 0], ![0, -1]].getD b ![0, 0]
  opp b := [0, 3, 4, 1, 2].getD b 0
  dt := dt
  sqrt := Rat.sqrt

/-- Two slanted directions -/
def slanted (dt : ℚ) : Setup ℚ 2 where
  Q := 3
  e b := if b = 1 then ![3, 4] else if b = 2 then ![-3, -4] else ![0, 0]
  opp b := if b = 1 then 2 else if b = 2 then 1 else 0
  dt := dt
  sqrt := Rat.sqrt

theorem sides_valid (dt : ℚ) (h : 0 ≤ dt) : (sides dt).Valid where
  dt_nonneg := h
  opp_range b h0 hQ := by
    change b < 5 at hQ
    interval_cases b <;> simp [sides, slanted]
  opp_opp b h0 hQ := by
    change b < 5 at hQ
    interval_cases b <;> rfl
  e_opp b i h0 hQ := by
    change b < 5 at hQ
    interval_cases b <;> fin_cases i <;> simp [sides]
  sqrt_scale b c h0 hQ hc := by
    change b < 5 at hQ
    have h1 : ∑ a, (sides dt).e b a * (sides dt).e b a = 1 := by
      interval_cases b <;> simp [sides, Fin.sum_univ_two]
    rw [h1, mul_one]
    show Rat.sqrt (c * c) = c * Rat.sqrt 1
    rw [Rat.sqrt_eq, abs_of_nonneg hc, show (1 : ℚ) = 1 * 1 by norm_num, Rat.sqrt_eq]; simp
  sqrt_ne b h0 hQ := by
    change b < 5 at hQ
    have h1 : ∑ a, (sides dt).e b a * (sides dt).e b a = 1 := by
      interval_cases b <;> simp [sides, Fin.sum_univ_two]
    rw [h1]
    show Rat.sqrt 1 ≠ 0
    rw [show (1 : ℚ) = 1 * 1 by norm_num, Rat.sqrt_eq]; simp

theorem slanted_valid (dt : ℚ) (h : 0 ≤ dt) : (slanted dt).Valid where
  dt_nonneg := h
  opp_range b h0 hQ := by
    change b < 3 at hQ
    interval_cases b <;> simp [sides, slanted]
  opp_opp b h0 hQ := by
    change b < 3 at hQ
    interval_cases b <;> rfl
  e_opp b i h0 hQ := by
    change b < 3 at hQ
    interval_cases b <;> fin_cases i <;> simp [slanted]
  sqrt_scale b c h0 hQ hc := by
    change b < 3 at hQ
    have h1 : ∑ a, (slanted dt).e b a * (slanted dt).e b a = 5 * 5 := by
      interval_cases b <;> simp [slanted, Fin.sum_univ_two] <;> norm_num
    rw [h1, show c * c * (5 * 5) = (c * 5) * (c * 5) by ring]
    show Rat.sqrt _ = c * Rat.sqrt _
    rw [Rat.sqrt_eq, Rat.sqrt_eq, abs_of_nonneg (by positivity), abs_of_nonneg (by norm_num : (0 : ℚ) ≤ 5)]
  sqrt_ne b h0 hQ := by
    change b < 3 at hQ
    have h1 : ∑ a, (slanted dt).e b a * (slanted dt).e b a = 5 * 5 := by
      interval_cases b <;> simp [slanted, Fin.sum_univ_two] <;> norm_num
    rw [h1]
    show Rat.sqrt _ ≠ 0
    rw [Rat.sqrt_eq]; simp

/-- The square root of the real numbers will do for every stencil with opposite directions. -/
example (d : ℕ) (s : Setup ℝ d) (hr : s.sqrt = Real.sqrt) (hdt : 0 ≤ s.dt) (h1 : ∀ b, 0 < b → b < s.Q → 0 < s.opp b ∧ s.opp b < s.Q)
    (h2 : ∀ b, 0 < b → b < s.Q → s.opp (s.opp b) = b) (h3 : ∀ b i, 0 < b → b < s.Q → s.e (s.opp b) i = - s.e b i)
    (h4 : ∀ b, 0 < b → b < s.Q → ∃ i, s.e b i ≠ 0) : s.Valid where
  dt_nonneg := hdt
  opp_range := h1
  opp_opp := h2
  e_opp := h3
  sqrt_scale b c _ _ hc := by
    rw [hr, Real.sqrt_mul (mul_self_nonneg c), Real.sqrt_mul_self hc]
  sqrt_ne b h0 hQ := by
    obtain ⟨i, hi⟩ := h4 b h0 hQ
    rw [hr]
    exact (Real.sqrt_pos.2 (Finset.sum_pos' (fun a _ => mul_self_nonneg _) ⟨i, Finset.mem_univ i, mul_self_pos.2 hi⟩)).ne'

section

variable {K : Type*} [Field K] [LinearOrder K] {m : ℕ} {C : Type*}

/-- Following a path for some passes -/
def follow (mesh : Mesh K m C) (s : Setup K (m + 2)) : ℕ → Tracker K (m + 2) C → Option (Ended K (m + 2) C)
  | 0, _ => none
  | n + 1, path => match pass mesh s path with
    | .ok (.found p) => some (.found p)
    | .ok (.dropped p _) => some (.dropped p)
    | .ok (.expired p) => some (.expired p)
    | .ok (.goOn p _) => follow mesh s n p
    | .error _ => none

theorem follow_sound (mesh : Mesh K m C) (s : Setup K (m + 2)) (n : ℕ) (path : Tracker K (m + 2) C) (e : Ended K (m + 2) C)
    (h : follow mesh s n path = some e) : Follows mesh s path e := by
  induction n generalizing path with
  | zero => cases h
  | succ n ih =>
    rw [follow] at h
    cases hp : pass mesh s path with
    | error _ => rw [hp] at h; cases h
    | ok r =>
      rw [hp] at h
      cases r with
      | found p => cases h; exact .found hp
      | dropped p id => cases h; exact .dropped hp
      | expired p => cases h; exact .expired hp
      | goOn p hit => exact .goOn hp (ih p h)

/-- A check that all reported boundary points are on the way -/
def exactCheck (mesh : Mesh K 0 C) (s : Setup K 2) : ℕ → Tracker K 2 C → Bool
  | 0, _ => false
  | n + 1, path => (match mesh.findFace path.currentCell path.currentPoint path.departurePoint with
      | .ok (some (_, q)) =>
        let a : Fin 2 := if path.departurePoint 0 = path.currentPoint 0 then 1 else 0
        let t := (q a - path.currentPoint a) / (path.departurePoint a - path.currentPoint a)
        decide (0 ≤ t ∧ t ≤ 1 ∧ ∀ i, q i = along path.currentPoint path.departurePoint t i)
      | .ok none => true
      | .error _ => true) && match pass mesh s path with
    | .ok (.goOn p _) => exactCheck mesh s n p
    | .ok (.found _) => true
    | .ok (.dropped _ _) => true
    | .ok (.expired _) => true
    | .error _ => true

theorem exactCheck_sound (mesh : Mesh K 0 C) (s : Setup K 2) (n : ℕ) (path : Tracker K 2 C) (h : exactCheck mesh s n path = true) :
    ExactAlong mesh s path := by
  have key : ∀ p, Reaches mesh s path p → ∃ n, exactCheck mesh s (n + 1) p = true := by
    intro p hp
    induction hp with
    | refl => exact match n, h with
      | n + 1, h => ⟨n, h⟩
    | step _ hpass ih =>
      obtain ⟨n, hn⟩ := ih
      rw [exactCheck, hpass, Bool.and_eq_true] at hn
      exact match n, hn.2 with
      | n + 1, h => ⟨n, h⟩
  intro p hp face q hf
  obtain ⟨n, hn⟩ := key p hp
  rw [exactCheck, hf, Bool.and_eq_true] at hn
  have := of_decide_eq_true hn.1
  exact ⟨_, this.1, this.2.1, funext this.2.2⟩

end

theorem mesh_shifts (left right : Fin 2 → BoundaryKind ℚ 2 (Fin 2 × Fin 2))
    (hl : ∀ r across opposite, left r = .periodic across opposite → ∃ v : Fin 2 → ℚ, ∀ p, across p = fun i => p i + v i)
    (hr : ∀ r across opposite, right r = .periodic across opposite → ∃ v : Fin 2 → ℚ, ∀ p, across p = fun i => p i + v i) :
    (mesh left right).Shifts := by
  intro c f id across opposite h
  match f, h with
  | 0, h =>
    simp only [mesh] at h
    split_ifs at h
    · simp only [FaceKind.boundary.injEq] at h; exact hl _ _ _ h.2
  | 1, h =>
    simp only [mesh] at h
    split_ifs at h
    · simp only [FaceKind.boundary.injEq] at h; exact hr _ _ _ h.2
  | 2, h =>
    simp only [mesh] at h
    split_ifs at h
    · cases h; exact ⟨_, fun p => rfl⟩
  | n + 3, h =>
    simp only [mesh] at h
    split_ifs at h
    · cases h; exact ⟨_, fun p => rfl⟩

theorem periodic_shifts : periodic.Shifts := by
  refine mesh_shifts _ _ ?_ ?_
  · intro r across opposite h; cases h; exact ⟨_, fun p => rfl⟩
  · intro r across opposite h; cases h; exact ⟨_, fun p => rfl⟩

theorem walls_shifts : walls.Shifts := by
  refine mesh_shifts _ _ ?_ ?_ <;> · intro r across opposite h; cases h

theorem mesh_no (left right : Fin 2 → BoundaryKind ℚ 2 (Fin 2 × Fin 2)) (kind : BoundaryKind ℚ 2 (Fin 2 × Fin 2))
    (hk : kind = .bounceBack ∨ kind = .doNothing) (hl : ∀ r, left r ≠ kind) (hr : ∀ r, right r ≠ kind) (c : Fin 2 × Fin 2) (f id : ℕ) :
    (mesh left right).face c f ≠ .boundary id kind := by
  intro h
  match f, h with
  | 0, h =>
    simp only [mesh] at h
    split_ifs at h
    · simp only [FaceKind.boundary.injEq] at h; exact hl _ h.2
  | 1, h =>
    simp only [mesh] at h
    split_ifs at h
    · simp only [FaceKind.boundary.injEq] at h; exact hr _ h.2
  | 2, h =>
    simp only [mesh] at h
    split_ifs at h
    · rcases hk with rfl | rfl <;> cases h
  | n + 3, h =>
    simp only [mesh] at h
    split_ifs at h
    · rcases hk with rfl | rfl <;> cases h

theorem periodic_noBounceBack : periodic.NoBounceBack := fun c f id => mesh_no _ _ _ (Or.inl rfl) (fun _ h => by cases h) (fun _ h => by cases h) c f id
theorem periodic_noDoNothing : periodic.NoDoNothing := fun c f id => mesh_no _ _ _ (Or.inr rfl) (fun _ h => by cases h) (fun _ h => by cases h) c f id
theorem walls_noDoNothing : walls.NoDoNothing := fun c f id => mesh_no _ _ _ (Or.inr rfl) (fun _ h => by cases h) (fun _ h => by cases h) c f id

theorem periodic_unity : periodic.PartitionOfUnity := by
  intro c h _
  show ∑ k ∈ Finset.range ((List.range 4).map fun k => 4 * (2 * c.2.val + c.1.val) + k).length, _ = _
  rw [List.length_map, List.length_range]
  simp [Finset.sum_range_succ, periodic, mesh]
  ring

/-- `C53_ends_partial`: a queue of 16 paths is worked off -/
example : ((newPaths periodic (sides (3 / 2)) none (0, 0) []).2.length = 16) ∧
    (followAll periodic (sides (3 / 2)) (newPaths periodic (sides (3 / 2)) none (0, 0) []).2).isOk = true := by decide +kernel

/-- `C53_once_partial`, `C75_pattern`: matrix and pattern can be filled -/
example : (fillSparseObject periodic (sides (3 / 2)) none).isOk = true ∧ (fillSparseObject periodic (sides (3 / 2)) (some 2)).isOk = true := by
  decide +kernel

/-- `C53_departure`: a path through a periodic boundary -/
example : ∃ p, Follows periodic (sides (3 / 2)) (newPath (sides (3 / 2)) (0, 0) ![0, 0] 0 1) (.found p) := by
  have h : (match follow periodic (sides (3 / 2)) 4 (newPath (sides (3 / 2)) (0, 0) ![0, 0] 0 1) with
    | some (.found _) => true | _ => false) = true := by decide +kernel
  cases hf : follow periodic (sides (3 / 2)) 4 (newPath (sides (3 / 2)) (0, 0) ![0, 0] 0 1) with
  | none => rw [hf] at h; cases h
  | some e =>
    rw [hf] at h
    cases e with
    | found p => exact ⟨p, follow_sound _ _ _ _ _ hf⟩
    | dropped p => cases h
    | expired p => cases h

/-- `C53_time`: a path that turns round at a wall -/
example : ∃ p, Follows walls (sides (3 / 2)) (newPath (sides (3 / 2)) (0, 0) ![0, 0] 0 1) (.found p) ∧ p.currentDirection = 3 ∧
    ExactAlong walls (sides (3 / 2)) (newPath (sides (3 / 2)) (0, 0) ![0, 0] 0 1) := by
  have h : (match follow walls (sides (3 / 2)) 4 (newPath (sides (3 / 2)) (0, 0) ![0, 0] 0 1) with
    | some (.found p) => p.currentDirection == 3 | _ => false) = true := by decide +kernel
  have hE := exactCheck_sound walls (sides (3 / 2)) 5 (newPath (sides (3 / 2)) (0, 0) ![0, 0] 0 1) (by decide +kernel)
  cases hf : follow walls (sides (3 / 2)) 4 (newPath (sides (3 / 2)) (0, 0) ![0, 0] 0 1) with
  | none => rw [hf] at h; cases h
  | some e =>
    rw [hf] at h
    cases e with
    | found p => exact ⟨p, follow_sound _ _ _ _ _ hf, by simpa using h, hE⟩
    | dropped p => cases h
    | expired p => cases h

/-- **C53** (finding) A do-nothing boundary sends a path back to where it started without returning to the cell in which it started.  If that
is another cell, the next search for a face starts outside of its cell, and an assertion fails. -/
theorem C53_doNothing_fails : (match fillSparseObject doNothing (sides (5 / 2)) none with
    | .error (.face .assertion) => true | _ => false) = true := by decide +kernel

/-- **C54** (finding) Weights below 1e-10 are left out and the rest are not scaled, so that a uniform distribution is not preserved exactly, on
the periodic mesh with bilinear shape functions: its value 1 becomes 0.999999999988. -/
theorem C54_uniform_fails : ∃ as, fillSparseObject periodic (slanted (1 / 10 ^ 6)) none = .ok as ∧
    stream as.entries (fun _ _ => 1) 1 3 = 1 - 12 / 10 ^ 12 := by
  have h : (match fillSparseObject periodic (slanted (1 / 10 ^ 6)) none with
    | .ok as => decide (stream as.entries (fun _ _ => 1) 1 3 = 1 - 12 / 10 ^ 12) | .error _ => false) = true := by decide +kernel
  cases hf : fillSparseObject periodic (slanted (1 / 10 ^ 6)) none with
  | error e => rw [hf] at h; cases h
  | ok as => rw [hf] at h; exact ⟨as, rfl, of_decide_eq_true h⟩

/-- `C54_shift`: with a time step of one cell, direction 1 takes the value from the corner to the left -/
example (as : Assembly ℚ 2 (Fin 2 × Fin 2)) (h : fillSparseObject periodic (sides 1) none = .ok as) (f : ℕ → ℕ → ℚ) :
    stream as.entries f 1 1 = f 1 0 := by
  refine C54_shift periodic (sides 1) (sides_valid 1 (by norm_num)) as h (0, 0) (by decide) 1 1 (by decide) rfl (by norm_num) (by decide) 0 1
    (fun path e hnew hfol => ?_) f
  obtain ⟨cell, k, hc, hk, rfl⟩ := hnew
  have hk4 : k < 4 := by
    by_contra hc
    rw [List.getElem?_eq_none (by show 4 ≤ k; omega)] at hk
    cases hk
  have hck : cell = (0, 0) ∧ k = 1 := by
    have : ∀ cell ∈ periodic.cells, ∀ k < 4, (periodic.dofs cell)[k]? = some 1 → cell = (0, 0) ∧ k = 1 := by decide +kernel
    exact this cell hc k hk4 hk
  obtain ⟨rfl, rfl⟩ := hck
  have hb : (match follow periodic (sides 1) 4 (newPath (sides 1) (0, 0) (periodic.supportPoint (0, 0) 1) 1 1) with
    | some (.found p) => decide (p.currentDirection = 1 ∧ p.currentCell = (0, 0)) && (match unitDeparture periodic p with
      | .ok x => decide (∀ l ∈ List.range 4, periodic.shape l x = if l = 0 then 1 else 0)
      | .error _ => false)
    | _ => false) = true := by decide +kernel
  cases hf : follow periodic (sides 1) 4 (newPath (sides 1) (0, 0) (periodic.supportPoint (0, 0) 1) 1 1) with
  | none => rw [hf] at hb; cases hb
  | some e' =>
    rw [hf] at hb
    have he := hfol.unique (follow_sound _ _ _ _ _ hf)
    cases e' with
    | dropped p => cases hb
    | expired p => cases hb
    | found p =>
      dsimp only at hb
      rw [Bool.and_eq_true] at hb
      obtain ⟨h1, h2⟩ := of_decide_eq_true hb.1
      refine ⟨p, he, h1, 0, by rw [h2]; decide, fun x hx l hl => ?_⟩
      rw [hx] at hb
      have := of_decide_eq_true hb.2
      exact this l (List.mem_range.2 (by rw [h2] at hl; exact hl))

example : (fillSparseObject periodic (sides 1) none).isOk = true := by decide +kernel

end Sample

end Paths
end NATriuM
