import Verif.Spec.SlSolver
import Verif.Lemmas.PathTracking
import Verif.Lemmas.SedgSolver

/-!
# Lemmas on whole runs of the semi-Lagrangian solver
-/

namespace NATriuM
namespace SlSolver

variable {t : StencilType} {K : Type*} [Field K] [LinearOrder K] {m n N : ℕ} {C : Type*} {s : Setup t K m n N C}

theorem byNumber_val (f : Walls.Store ℝ t.Q (Fin N)) (i : Fin t.Q) (y : Fin N) : byNumber f i.val y.val = f i y := by
  simp [byNumber]

omit [LinearOrder K] in
/-- A row of the matrix, as real numbers -/
theorem multiply_row (f : ℕ → ℕ → ℝ) (alpha j : ℕ) (h0 : 0 < alpha) {es : List (Paths.Entry K)}
    (hp : (s.assembly.entries.filter fun x => x.blockRow = alpha - 1 ∧ x.row = j).Perm es) :
    Paths.stream (s.assembly.entries.map (realEntry s)) f alpha j = (es.map fun x => s.toReal x.value * f (x.blockColumn + 1) x.column).sum := by
  obtain ⟨a, rfl⟩ := Nat.exists_eq_succ_of_ne_zero (Nat.pos_iff_ne_zero.1 h0)
  rw [← (hp.map _).sum_eq]
  simp only [Paths.stream, Paths.vmult, List.filter_map, List.map_map]
  rfl

omit [LinearOrder K] in
/-- What is true of a linear combination of all functions with values in `K` -/
theorem sum_transfer {X E : Type*} (φ : K →+* ℝ) (l : List E) (v : E → K) (col : E → X) (x0 : X)
    (h : ∀ g : X → K, (l.map fun e => v e * g (col e)).sum = g x0) (f : X → ℝ) : (l.map fun e => φ (v e) * f (col e)).sum = f x0 := by
  classical
  let S : Finset X := insert x0 (l.map col).toFinset
  have hf : ∀ e ∈ l, f (col e) = ∑ x ∈ S, f x * (if col e = x then 1 else 0) := by
    intro e he
    have hm : col e ∈ S := Finset.mem_insert_of_mem (List.mem_toFinset.2 (List.mem_map.2 ⟨e, he, rfl⟩))
    simp [hm]
  have h1 : (l.map fun e => φ (v e) * f (col e)).sum = (l.map fun e => ∑ x ∈ S, f x * φ (v e * if col e = x then 1 else 0)).sum := by
    refine congrArg List.sum (List.map_congr_left fun e he => ?_)
    rw [hf e he, Finset.mul_sum]
    refine Finset.sum_congr rfl fun x _ => ?_
    rw [map_mul]
    split_ifs <;> simp [mul_comm]
  have h2 : ∀ l : List E, (l.map fun e => ∑ x ∈ S, f x * φ (v e * if col e = x then 1 else 0)).sum =
      ∑ x ∈ S, f x * φ (l.map fun e => v e * if col e = x then 1 else 0).sum := by
    intro l
    induction l with
    | nil => simp
    | cons e l ih => simp only [List.map_cons, List.sum_cons, ih, map_add, mul_add, Finset.sum_add_distrib]
  rw [h1, h2]
  have h3 : ∀ x ∈ S, f x * φ (l.map fun e => v e * if col e = x then 1 else 0).sum = if x0 = x then f x else 0 := by
    intro x _
    rw [h fun y => if y = x then 1 else 0]
    split_ifs <;> simp
  rw [Finset.sum_congr rfl h3]
  simp [S]

variable [IsStrictOrderedRing K]

omit [IsStrictOrderedRing K] in
theorem follows_not_dropped {mesh : Paths.Mesh K m C} {ps : Paths.Setup K (m + 2)} (hk : ∀ cell face id, mesh.face cell face ≠ .boundary id .other)
    {path : Paths.Tracker K (m + 2) C} {e : Paths.Ended K (m + 2) C} (h : Paths.Follows mesh ps path e) (p) : e ≠ .dropped p := by
  induction h with
  | found h => simp
  | expired h => simp
  | goOn h _ ih => exact ih
  | dropped h =>
    rcases Paths.pass_cases mesh ps _ _ h with ⟨_, h⟩ | ⟨_, ⟨_, h⟩ | ⟨face, q, _, ⟨id, across, opposite, _, h⟩ | ⟨id, _, h⟩ | ⟨id, _, h⟩ | ⟨id, hf, h⟩ | ⟨n, _, h⟩⟩⟩ <;> cases h
    exact absurd hf (hk _ _ _)

/-- Streaming leaves a uniform distribution as it is. -/
theorem multiply_uniform (hs : Sound s) (hsm : NoSmallWeights s) (U : Fin t.Q → ℝ)
    (hU : (s.mesh.NoBounceBack ∧ s.mesh.NoDoNothing) ∨ ∀ i, U ((t.stencil s.c).opp i) = U i) (f : Walls.Store ℝ t.Q (Fin N))
    (hf : ∀ i y, f i y = U i) : multiply s f = f := by
  have hopp := (C01_opposite t s.c).involutive
  have hoo : ∀ b, 0 < b → b < s.paths.Q → s.paths.opp (s.paths.opp b) = b := by
    intro b h0 hb
    rw [hs.number] at hb
    have h1 := hs.opposite ⟨b, hb⟩ h0
    have h2 := hs.opposite ((t.stencil s.c).opp ⟨b, hb⟩) (by rw [← h1.1]; exact h1.2)
    rw [show s.paths.opp b = ((t.stencil s.c).opp ⟨b, hb⟩).val from h1.1, h2.1, hopp]
  funext i y
  by_cases hi0 : i.val = 0
  · unfold multiply
    rw [hi0]
    show byNumber f 0 y = _
    rw [← hi0, byNumber_val]
  have h0 : 0 < i.val := Nat.pos_of_ne_zero hi0
  obtain ⟨ho, cell, hcell, hy⟩ := hs.everywhere y
  obtain ⟨path, e, hnew, hfol, hok, hperm⟩ := Paths.entries_of_fill hs.assembled hcell y.val i.val hy ho h0 (by rw [hs.number]; exact i.isLt)
  unfold multiply
  rw [multiply_row (s := s) (byNumber f) i.val y.val h0 hperm, hf]
  have hnew' := hnew
  obtain ⟨c, k, _, _, hp⟩ := hnew'
  cases e with
  | dropped p => exact absurd rfl (follows_not_dropped hs.kinds hfol p)
  | expired p =>
    have hdest : p.dest = (y.val, i.val) := by
      have := hfol.dest
      rw [hp] at this
      exact this
    simp only [Paths.Tracker.dest, Prod.mk.injEq] at hdest
    simp only [Paths.Ended.entries, Paths.expiredEntry, List.map_cons, List.map_nil, List.sum_cons, List.sum_nil, add_zero, map_one, one_mul, hdest.1,
      hdest.2, Nat.sub_add_cancel h0, byNumber_val, hf]
  | found p =>
    obtain ⟨es, hes⟩ := hok
    have hd : ∃ j : Fin t.Q, p.currentDirection = j.val ∧ 0 < j.val ∧ U j = U i := by
      rcases hU with ⟨hb, hn⟩ | hU
      · have := hfol.sameDirection hb hn (by rw [hp]; rfl)
        rw [hp] at this
        exact ⟨i, this, h0, rfl⟩
      · rcases hfol.direction hoo i.val h0 (by rw [hs.number]; exact i.isLt) (.inl (by rw [hp]; rfl)) with h | h
        · exact ⟨i, h, h0, rfl⟩
        · have h1 := hs.opposite i h0
          exact ⟨(t.stencil s.c).opp i, h.trans h1.1, by rw [← h1.1]; exact h1.2, hU i⟩
    obtain ⟨j, hj, hj0, hUj⟩ := hd
    obtain ⟨x, hx, hsum⟩ := Paths.found_sum s.mesh p es hes (by rw [hj]; exact hj0) fun _ _ => 1
    simp only [mul_one] at hsum
    rw [Paths.interpolated_const s.mesh p.currentCell x _ 1 fun _ _ => rfl] at hsum
    have hone : (∑ k ∈ Finset.range (s.mesh.dofs p.currentCell).length, if |s.mesh.shape k x| < 1 / 10 ^ 10 then 0 else s.mesh.shape k x) = 1 := by
      refine (Finset.sum_congr rfl fun k hkr => ?_).trans (hs.unity p.currentCell x (Paths.unitDeparture_ok s.mesh p x hx).1)
      split_ifs with hk
      · rcases hsm _ _ _ _ _ h0 (by rw [hs.number]; exact i.isLt) hnew hfol hx k (Finset.mem_range.1 hkr) with hz | hz
        · exact hz.symm
        · exact absurd hk (not_lt.2 hz)
      · rfl
    rw [hone, one_mul] at hsum
    simp only [Paths.Ended.entries, hes]
    have hterm : ∀ z ∈ es, s.toReal z.value * byNumber f (z.blockColumn + 1) z.column = s.toReal z.value * U i := by
      intro z hz
      unfold Paths.foundEntries at hes
      rw [hx] at hes
      cases hes
      obtain ⟨dof, hdof, hd⟩ := List.mem_filterMap.1 hz
      split_ifs at hd
      cases hd
      have hlt := hs.inside p.currentCell dof.1 (List.fst_mem_of_mem_zipIdx hdof)
      simp only
      rw [hj, Nat.sub_add_cancel hj0, show byNumber f j.val dof.1 = f j ⟨dof.1, hlt⟩ from byNumber_val f j ⟨dof.1, hlt⟩, hf, hUj]
    rw [congrArg List.sum (List.map_congr_left hterm), List.sum_map_mul_right]
    have : (es.map fun z => s.toReal z.value).sum = s.toReal (es.map fun z => z.value).sum := by
      rw [map_list_sum, List.map_map]; rfl
    rw [this, hsum, map_one, one_mul]

omit [IsStrictOrderedRing K] in
/-- Streaming that moves populations -/
theorem multiply_moves {P : Type*} {node : Fin N → P} {σ : Equiv.Perm (Fin t.Q × P)} (hm : Moves s node σ) (f : Walls.Store ℝ t.Q (Fin N)) (i : Fin t.Q)
    (y : Fin N) : ∃ z, node z = (σ (i, node y)).2 ∧ multiply s f i y = f (σ (i, node y)).1 z := by
  obtain ⟨z, hz, h⟩ := hm i y
  refine ⟨z, hz, ?_⟩
  rw [← byNumber_val f]
  unfold multiply
  by_cases hi0 : i.val = 0
  · generalize (σ (i, node y)).1 = j at h ⊢
    simp only [hi0, Paths.stream] at h ⊢
    have h1 := sum_transfer s.toReal [()] (fun _ => 1) (fun _ => (0, y.val)) (j.val, z.val)
      (fun g => by simpa using h fun b j => g (b, j)) fun x => byNumber f x.1 x.2
    simpa using h1
  · have h0 := Nat.pos_of_ne_zero hi0
    rw [multiply_row (s := s) (byNumber f) i.val y.val h0 (List.Perm.refl _)]
    refine sum_transfer s.toReal _ (fun x : Paths.Entry K => x.value) (fun x => (x.blockColumn + 1, x.column)) ((σ (i, node y)).1.val, z.val)
      (fun g => ?_) fun x => byNumber f x.1 x.2
    have h := h fun b j => g (b, j)
    generalize (σ (i, node y)).1.val = j at h ⊢
    obtain ⟨a, ha⟩ := Nat.exists_eq_succ_of_ne_zero hi0
    rw [ha] at h ⊢
    exact h

omit [LinearOrder K] [IsStrictOrderedRing K] in
theorem applyBoundaryConditions_rest (hw : WallsAtRest s) (time : ℝ) (old new : Walls.Store ℝ t.Q (Fin N)) :
    applyBoundaryConditions s time old new = new := by
  unfold applyBoundaryConditions
  have : ∀ l : List _, (∀ hit ∈ l, hit ∈ s.assembly.hits) → l.foldl (fun f hit => s.applyHit time hit old f) new = new := by
    intro l
    induction l with
    | nil => intro _; rfl
    | cons hit l ih =>
      intro hl
      rw [List.foldl_cons, hw hit (hl hit List.mem_cons_self)]
      exact ih fun h hh => hl h (List.mem_cons_of_mem _ hh)
  exact this _ fun _ h => h

/-- The filter keeps constants if it does in each cell. -/
theorem applyFilter_const {n N : ℕ} {C : Type*} (toM fromM : Matrix (Fin n) (Fin n) ℝ) (factor : Fin n → ℝ) (dof : C → Fin n → Fin N) (cells : List C)
    (r : ℝ) (h : Smoothing.filterCell toM fromM factor (fun _ => r) = fun _ => r) :
    Smoothing.applyFilter toM fromM factor dof cells (fun _ => r) = fun _ => r := by
  unfold Smoothing.applyFilter
  induction cells with
  | nil => rfl
  | cons c cells ih =>
    rw [List.foldl_cons]
    have : Smoothing.writeCell (dof c) (Smoothing.filterCell toM fromM factor fun _ => r) (fun _ => r) = fun _ => r := by
      rw [h]
      unfold Smoothing.writeCell
      induction List.finRange n with
      | nil => rfl
      | cons k l ih2 =>
        rw [List.foldl_cons]
        have : Function.update (fun _ : Fin N => r) (dof c k) r = fun _ => r := by
          funext z; by_cases hz : z = dof c k <;> simp [Function.update, hz]
        rw [this]; exact ih2
    rw [this]
    exact ih

/-- The uniform state of density `rho` and velocity `v`, as populations -/
noncomputable def uniform (s : Setup t K m n N C) (ec : EquilibriumClass) (rho : ℝ) (v : Fin t.D → ℝ) : Fin t.Q → ℝ :=
  t.equilibrium ec (collisionData t s.c s.viscosity s.dt s.collision) { rho := rho, u := fun a => v a / s.c, T := 1 }

omit [LinearOrder K] [IsStrictOrderedRing K] in
theorem uniform_rest (hc : s.c ≠ 0) (ec : EquilibriumClass) (rho : ℝ) (i : Fin t.Q) :
    uniform s ec rho 0 ((t.stencil s.c).opp i) = uniform s ec rho 0 i := by
  have : ∀ j, uniform s ec rho 0 j = (t.stencil s.c).weight j * rho := fun j => by
    rw [← SedgSolver.equilibrium_rest t ec (viscosity := s.viscosity) (dt := s.dt) hc s.collision rho j]
    simp [uniform]
  rw [this, this, (C01_opposite t s.c).same_weight]

theorem advect_uniform (hs : Sound s) (hsm : NoSmallWeights s) (hw : WallsAtRest s) {ec : EquilibriumClass} {rho : ℝ} {v : Fin t.D → ℝ}
    (hv : v = 0 ∨ s.mesh.NoBounceBack ∧ s.mesh.NoDoNothing) (time : ℝ) (x : Fin N → Node ℝ t.D t.Q) (hx : ∀ y, (x y).f = uniform s ec rho v) :
    advect s time x = x := by
  have : multiply s (populations x) = populations x := by
    refine multiply_uniform hs hsm (uniform s ec rho v) ?_ _ fun i y => congrFun (hx y) i
    rcases hv with rfl | hv
    · exact .inr fun i => uniform_rest hs.scaling ec rho i
    · exact .inl hv
  unfold advect
  rw [this, applyBoundaryConditions_rest hw]
  rfl

omit [LinearOrder K] [IsStrictOrderedRing K] in
theorem applyFilter_uniform (U : Fin t.Q → ℝ) (h : ∀ r : ℝ, Smoothing.filterCell s.toModes s.fromModes s.factor (fun _ => r) = fun _ => r)
    (x : Fin N → Node ℝ t.D t.Q) (hx : ∀ y, (x y).f = U) : applyFilter s x = x := by
  funext y
  refine Node.ext (funext fun i => ?_) rfl rfl
  have h1 : populations x i = fun _ => U i := funext fun y => congrFun (hx y) i
  show Smoothing.applyFilter s.toModes s.fromModes s.factor s.dof s.mesh.cells (populations x i) y = _
  rw [h1, applyFilter_const _ _ _ _ _ _ (h _), hx]

/-- A weighted sum over the directions of the integrals -/
noncomputable def functional (ω : Fin N → ℝ) (w : Fin t.Q → ℝ) (f : Walls.Store ℝ t.Q (Fin N)) : ℝ := ∑ i, ∑ y, w i * (ω y * f i y)

theorem totalMass_eq (ω : Fin N → ℝ) (x : Fin N → Node ℝ t.D t.Q) : totalMass ω x = functional ω (fun _ => 1) (populations x) := by
  simp only [totalMass, integral, functional, Spec.mass, Finset.mul_sum, one_mul]
  rw [Finset.sum_comm]
  rfl

omit [LinearOrder K] [IsStrictOrderedRing K] in
theorem totalMomentum_eq (ω : Fin N → ℝ) (x : Fin N → Node ℝ t.D t.Q) (a : Fin t.D) :
    totalMomentum s ω x a = functional ω (fun i => (t.stencil s.c).dir i a) (populations x) := by
  simp only [totalMomentum, integral, functional, Spec.momentum, Finset.mul_sum]
  rw [Finset.sum_comm]
  refine Finset.sum_congr rfl fun i _ => Finset.sum_congr rfl fun y _ => ?_
  simp only [populations]
  ring

section

variable {P : Type*} [Fintype P] [DecidableEq P] {node : Fin N → P} {σ : Equiv.Perm (Fin t.Q × P)}

theorem functional_points (hn : Function.Surjective node) (ω : Fin N → ℝ) (w : Fin t.Q → ℝ) (f : Walls.Store ℝ t.Q (Fin N))
    (hf : ∀ i y z, node y = node z → f i y = f i z) :
    functional ω w f = ∑ x : Fin t.Q × P, w x.1 * (share node ω x.2 * f x.1 (Function.surjInv hn x.2)) := by
  rw [Fintype.sum_prod_type]
  unfold functional
  refine Finset.sum_congr rfl fun i _ => ?_
  rw [← Finset.sum_fiberwise Finset.univ node]
  refine Finset.sum_congr rfl fun p _ => ?_
  unfold share
  rw [Finset.sum_mul, Finset.mul_sum]
  refine Finset.sum_congr rfl fun y hy => ?_
  rw [hf i y (Function.surjInv hn p) (by rw [Function.surjInv_eq hn]; exact (Finset.mem_filter.1 hy).2)]

omit [IsStrictOrderedRing K] in
/-- A functional is kept by moves between points with the same volume. -/
theorem functional_moves (hn : Function.Surjective node) (hm : Moves s node σ) (ω : Fin N → ℝ) (w : Fin t.Q → ℝ)
    (hω : ∀ x, share node ω (σ x).2 = share node ω x.2) (hww : ∀ x, w (σ x).1 = w x.1) (f : Walls.Store ℝ t.Q (Fin N))
    (hf : ∀ i y z, node y = node z → f i y = f i z) :
    functional ω w (multiply s f) = functional ω w f ∧ ∀ i y z, node y = node z → multiply s f i y = multiply s f i z := by
  have hval : ∀ i y, multiply s f i y = f (σ (i, node y)).1 (Function.surjInv hn (σ (i, node y)).2) := by
    intro i y
    obtain ⟨z, hz, h⟩ := multiply_moves hm f i y
    rw [h]
    exact hf _ _ _ (by rw [hz, Function.surjInv_eq hn])
  have hc : ∀ i y z, node y = node z → multiply s f i y = multiply s f i z := by
    intro i y z h
    rw [hval, hval, h]
  refine ⟨?_, hc⟩
  rw [functional_points hn ω w _ hc, functional_points hn ω w f hf]
  refine Eq.trans ?_ (Equiv.sum_comp σ fun x => w x.1 * (share node ω x.2 * f x.1 (Function.surjInv hn x.2)))
  refine Finset.sum_congr rfl fun x _ => ?_
  rw [hval, hω, hww, Function.surjInv_eq hn]

end

omit [LinearOrder K] [IsStrictOrderedRing K] in
theorem functional_filter {P : Type*} {node : Fin N → P} (ω : Fin N → ℝ) (w : Fin t.Q → ℝ) (hf : FilterKeeps s node ω) (x : Fin N → Node ℝ t.D t.Q)
    (hx : Consistent node x) : functional ω w (populations (applyFilter s x)) = functional ω w (populations x) ∧ Consistent node (applyFilter s x) := by
  have h := fun i => hf (populations x i) fun y z h => congrFun (hx y z h) i
  constructor
  · unfold functional
    refine Finset.sum_congr rfl fun i _ => ?_
    rw [← Finset.mul_sum, ← Finset.mul_sum]
    congr 1
    exact (h i).1
  · intro y z hyz
    funext i
    exact (h i).2 y z hyz

/-- What the collision does to a node depends on its populations only. -/
theorem collideNode_congr {D Q : ℕ} (op : Operator ℝ D Q) (d : CollData ℝ D Q) (hasForce : Bool) (a b : Node ℝ D Q) (h : a.f = b.f) :
    collideNode op d hasForce false a = collideNode op d hasForce false b := by
  unfold collideNode
  simp only [h]
  rfl

omit [LinearOrder K] [IsStrictOrderedRing K] in
theorem collide_consistent {P : Type*} {node : Fin N → P} {x x' : Fin N → Node ℝ t.D t.Q} (hx : Consistent node x) (h : collide s x = .ok x') :
    Consistent node x' := by
  obtain ⟨r, relax, -, -, h1, -, -⟩ := (isothermalCollide_ok t s.collision false _ (List.nodup_finRange N) x x').mp h
  intro y z hyz
  have hy := h1 y (List.mem_finRange y)
  have hz := h1 z (List.mem_finRange z)
  rw [collideNode_congr _ _ _ _ _ (hx y z hyz), hz] at hy
  injection hy with hy
  rw [hy]

end SlSolver
end NATriuM
