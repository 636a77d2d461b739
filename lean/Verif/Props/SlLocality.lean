import Verif.Lemmas.SlLocality
import Verif.Props.SlSolver
import Mathlib.NumberTheory.Real.Irrational

/-!
# Property C140: how far information travels in the semi-Lagrangian scheme
-/

namespace NATriuM
namespace SlSolver

open Solver

variable {t : StencilType} {K : Type*} [Field K] [LinearOrder K] [IsStrictOrderedRing K] {m n N : ℕ} {C : Type*} {s : Setup t K m n N C}
  {cfg : RunConfig} {start : ℕ} {x x' : Snapshot (Fin N → Node ℝ t.D t.Q)}

omit [IsStrictOrderedRing K] in
/-- **C140** Without a filter: a step reads, for a degree of freedom, the degree of freedom itself and those of the cells where the departure points of
its paths have been found, nothing else.  Two simulations that start with the same data in all degrees of freedom reached from `y` in `k` such steps
have the same populations, density and velocity in `y` after `k` time steps, whatever the data are elsewhere – as long as neither is aborted. -/
theorem C140_locality (hs : Sound s) (hw : LocalWalls s) (hp : ∀ q ∈ s.processors, PointLocal q) (hfil : cfg.isFiltering = false)
    (ht : x.time = x'.time) (hdt : x.dt = x'.dt) (y : Fin N) :
    (∀ k r r', (∀ z, ReadsIn s k y z → x.x z = x'.x z) → runTrajectory cfg (parts s) start x k = .ok r →
      runTrajectory cfg (parts s) start x' k = .ok r' → r.x y = r'.x y ∧ r.time = r'.time ∧ r.dt = r'.dt) ∧
    ∀ st st', run cfg (parts s) start x = .ok st → run cfg (parts s) start x' = .ok st' → st.i = st'.i →
      (∀ z, ReadsIn s (st.i - start) y z → x.x z = x'.x z) → st.snap.x y = st'.snap.x y := by
  refine ⟨fun k r r' h h1 h2 => trajectory_local hs hw hp hfil ht hdt k h h1 h2, fun st st' h1 h2 hi h => ?_⟩
  exact (trajectory_local hs hw hp hfil ht hdt _ h (run_ok h1).2.1 (by rw [hi]; exact (run_ok h2).2.1)).1

/-- **C140** No degree of freedom that is read in `k` steps is further away than `k (dt E + h)`, in each coordinate and up to the shifts of periodic
boundaries: `E` is the greatest component of a velocity of the stencil, `h` the size of the cells.  There are no do-nothing boundaries; if there are
walls where paths turn round, the points found on the walls are on the paths. -/
theorem C140_reach (hS : s.mesh.Shifts) (hn : s.mesh.NoDoNothing)
    (hb : s.mesh.NoBounceBack ∨ s.paths.Valid ∧ ∀ (y : Fin N) alpha path, 0 < alpha → alpha < s.paths.Q → s.mesh.NewPath s.paths y alpha path →
      Paths.ExactAlong s.mesh s.paths path)
    {E h : K} (hdt : 0 ≤ s.paths.dt) (hE : ∀ b i, |s.paths.e b i| ≤ E) (hh : 0 ≤ h) {pos : Fin N → Fin (m + 2) → K} (hl : Located s.mesh pos h)
    (k : ℕ) (y z : Fin N) (hr : ReadsIn s k y z) :
    ∃ v, s.mesh.Shift v ∧ ∀ a, |pos z a - (pos y a + v a)| ≤ k * (s.paths.dt * E + h) := by
  have hE0 : 0 ≤ E := (abs_nonneg _).trans (hE 0 0)
  refine readsIn_distance (fun y z hr => reads_distance hl hh (mul_nonneg hdt hE0) ?_ hr) k hr
  rintro y alpha path p h0 hQ hnew hfol
  obtain ⟨cell, k, hc, hk, rfl⟩ := id hnew
  rcases hb with hb | ⟨hv, hx⟩
  · obtain ⟨-, v, hv, hd⟩ := Paths.C53_departure s.mesh s.paths hS hb hn cell _ y.val alpha p hfol
    refine ⟨v, hv, fun a => ?_⟩
    rw [hd]
    show |s.mesh.supportPoint cell k a - s.paths.dt * s.paths.e alpha a + v a - (s.mesh.supportPoint cell k a + v a)| ≤ _
    rw [show ∀ x d v : K, x - d + v - (x + v) = -d from fun x d v => by ring, abs_neg, abs_mul, abs_of_nonneg hdt]
    exact mul_le_mul_of_nonneg_left (hE alpha a) hdt
  · exact (Paths.C53_time s.mesh s.paths hv hS hn cell _ y.val alpha h0 hQ (hx y alpha _ h0 hQ hnew) p hfol).distance hS hE

/-- **C140** Information does not travel faster than the velocities of the stencil, apart from one cell in a step: if the data of two simulations differ
only further away from `y` than `k (dt E + h)`, there is no difference in `y` after `k` steps. -/
theorem C140_speed (hs : Sound s) (hw : LocalWalls s) (hp : ∀ q ∈ s.processors, PointLocal q) (hfil : cfg.isFiltering = false)
    (ht : x.time = x'.time) (hdt : x.dt = x'.dt) (hS : s.mesh.Shifts) (hn : s.mesh.NoDoNothing)
    (hb : s.mesh.NoBounceBack ∨ s.paths.Valid ∧ ∀ (y : Fin N) alpha path, 0 < alpha → alpha < s.paths.Q → s.mesh.NewPath s.paths y alpha path →
      Paths.ExactAlong s.mesh s.paths path)
    {E h : K} (h0 : 0 ≤ s.paths.dt) (hE : ∀ b i, |s.paths.e b i| ≤ E) (hh : 0 ≤ h) {pos : Fin N → Fin (m + 2) → K} (hl : Located s.mesh pos h)
    (y : Fin N) (k : ℕ) (hd : ∀ z v, s.mesh.Shift v → (∀ a, |pos z a - (pos y a + v a)| ≤ k * (s.paths.dt * E + h)) → x.x z = x'.x z)
    {r r' : Snapshot (Fin N → Node ℝ t.D t.Q)} (h1 : runTrajectory cfg (parts s) start x k = .ok r)
    (h2 : runTrajectory cfg (parts s) start x' k = .ok r') : r.x y = r'.x y := by
  refine ((C140_locality hs hw hp hfil ht hdt y).1 k r r' (fun z hz => ?_) h1 h2).1
  obtain ⟨v, hv, hv'⟩ := C140_reach hS hn hb h0 hE hh hl k y z hz
  exact hd z v hv hv'

omit [LinearOrder K] [IsStrictOrderedRing K] in
/-- **C140** Velocity boundaries with any velocity depend on the new populations of the degree of freedom only. -/
theorem C140_walls (velocity : ℝ → (Fin t.D → ℝ) → Fin t.D → ℝ) (points : Paths.Tracker K (m + 2) C × ℕ → Walls.HitPoint ℝ t.D)
    (eps : Paths.Tracker K (m + 2) C × ℕ → ℝ) (h : s.applyHit = wallHit s.c velocity points eps) : LocalWalls s := by
  intro hit _ time old old' new new' y hy i
  rw [h]
  unfold wallHit
  split_ifs
  · unfold Walls.velocityWall Walls.Store.set
    split_ifs with hiy
    · rw [hiy.2] at hy
      simp only [hy]
    · exact hy i
  · exact hy i
  · exact hy i

/-! ## Between two walls -/

namespace Sample

/-- The positions of the degrees of freedom -/
def position (y : Fin 9) : Fin 2 → ℚ := ![((y.val % 3 : ℕ) : ℚ), ((y.val / 3 : ℕ) : ℚ)]

theorem local_walls (r M dt force) : LocalWalls (solver r M dt force) := C140_walls (fun _ _ => 0) (fun _ => ⟨0, id⟩) (fun _ => 0) rfl

theorem fewDofs {cell : Fin 2 × Fin 2} {k : ℕ} {y : ℕ} (hk : ((walls 1).dofs cell)[k]? = some y) : k < 4 := by
  by_contra hc
  rw [List.getElem?_eq_none (by show _ ≤ k; simpa [walls, mesh] using hc)] at hk
  cases hk

theorem located : Located (walls 1) position (1 + 1 / 10 ^ 10) where
  position cell k y hk := by
    have : ∀ cell : Fin 2 × Fin 2, ∀ k : Fin 4, ∀ y : Fin 9, ((walls 1).dofs cell)[k.val]? = some y.val →
      (walls 1).supportPoint cell k = position y := by decide +kernel
    exact this cell ⟨k, fewDofs hk⟩ y hk
  small cell k y p u hk hu hb a := by
    have hpt : ∀ cell : Fin 2 × Fin 2, ∀ k : Fin 4, ∀ a : Fin 2, ![(cell.1.val : ℚ), cell.2.val] a ≤ (walls 1).supportPoint cell k a ∧
      (walls 1).supportPoint cell k a ≤ ![(cell.1.val : ℚ), cell.2.val] a + 1 := by decide +kernel
    have h1 := hpt cell ⟨k, fewDofs hk⟩ a
    have h2 := hb a
    have h3 : u a = p a - ![(cell.1.val : ℚ), cell.2.val] a := by
      cases hu
      fin_cases a <;> simp
    rw [h3] at h2
    rw [abs_le]
    constructor <;> linarith [h1.1, h1.2, h2.1, h2.2]

theorem components (dt : ℚ) (b : ℕ) (i : Fin 2) : |(paths dt).e b i| ≤ 1 := by
  by_cases hb : b < 9
  · have : ∀ b : Fin 9, ∀ i : Fin 2, |(paths 0).e b i| ≤ 1 := by decide +kernel
    exact this ⟨b, hb⟩ i
  · have : (paths dt).e b = ![0, 0] := by
      show List.getD _ _ _ = _
      rw [List.getD_eq_getElem?_getD, List.getElem?_eq_none (by simpa using hb), Option.getD_none]
    rw [this]
    fin_cases i <;> simp

theorem root_square (c : ℚ) (hc : 0 ≤ c) : root (c * c) = c := by
  unfold root
  rw [Rat.sqrt_eq, abs_of_nonneg hc, if_pos rfl]

theorem root_double (c : ℚ) (hc : 0 ≤ c) : root (c * c * 2) = 7 / 5 * c := by
  unfold root
  rw [mul_div_cancel_right₀ _ (two_ne_zero), Rat.sqrt_eq, abs_of_nonneg hc]
  by_cases h0 : c = 0
  · subst h0; simp
  · rw [if_neg]
    intro h
    set r := Rat.sqrt (c * c * 2)
    refine irrational_sqrt_two ⟨|r / c|, ?_⟩
    have : r / c * (r / c) = 2 := by
      field_simp
      linarith [h]
    have h2 : ((|r / c| : ℚ) : ℝ) * ((|r / c| : ℚ) : ℝ) = 2 := by
      rw [← Rat.cast_mul, abs_mul_abs_self, this]; norm_num
    rw [← h2, Real.sqrt_mul_self (by exact_mod_cast abs_nonneg _)]

theorem lengths (dt : ℚ) (b : ℕ) (h0 : 0 < b) (hQ : b < 9) :
    ∑ a, (paths dt).e b a * (paths dt).e b a = 1 ∨ ∑ a, (paths dt).e b a * (paths dt).e b a = 2 := by
  interval_cases b <;> norm_num [paths, Fin.sum_univ_two]

theorem paths_valid (dt : ℚ) (h : 0 ≤ dt) : (paths dt).Valid where
  dt_nonneg := h
  opp_range b h0 hQ := by
    change b < 9 at hQ
    interval_cases b <;> simp [paths]
  opp_opp b h0 hQ := by
    change b < 9 at hQ
    interval_cases b <;> rfl
  e_opp b i h0 hQ := by
    change b < 9 at hQ
    interval_cases b <;> fin_cases i <;> simp [paths]
  sqrt_scale b c h0 hQ hc := by
    show root _ = c * root _
    rcases lengths dt b h0 hQ with h | h <;> rw [h]
    · rw [mul_one, root_square c hc, show (1 : ℚ) = 1 * 1 by norm_num, root_square 1 zero_le_one]; ring
    · rw [root_double c hc, show (2 : ℚ) = 1 * 1 * 2 by norm_num, root_double 1 zero_le_one]; ring
  sqrt_ne b h0 hQ := by
    show root _ ≠ 0
    rcases lengths dt b h0 hQ with h | h <;> rw [h]
    · rw [show (1 : ℚ) = 1 * 1 by norm_num, root_square 1 zero_le_one]; norm_num
    · rw [show (2 : ℚ) = 1 * 1 * 2 by norm_num, root_double 1 zero_le_one]; norm_num

/-- A check of all paths -/
def allExact (M : Paths.Mesh ℚ 0 (Fin 2 × Fin 2)) (ps : Paths.Setup ℚ 2) : Bool :=
  M.cells.all fun cell => (List.range (M.dofs cell).length).all fun k => (List.range ps.Q).all fun alpha =>
    Paths.Sample.exactCheck M ps 8 (Paths.newPath ps cell (M.supportPoint cell k) ((M.dofs cell).getD k 0) alpha)

theorem walls_exact (y : Fin 9) (alpha : ℕ) (path) (hQ : alpha < 9) (h : (walls 1).NewPath (paths (1 / 4)) y alpha path) :
    Paths.ExactAlong (walls 1) (paths (1 / 4)) path := by
  have hall : allExact (walls 1) (paths (1 / 4)) = true := by decide +kernel
  obtain ⟨cell, k, hc, hk, rfl⟩ := h
  have := List.all_eq_true.1 (List.all_eq_true.1 (List.all_eq_true.1 hall cell hc) k (List.mem_range.2 (List.getElem?_eq_some_iff.1 hk).1)) alpha
    (List.mem_range.2 hQ)
  rw [List.getD_eq_getElem?_getD, hk, Option.getD_some] at this
  exact Paths.Sample.exactCheck_sound _ _ 8 _ this

/-- Shifts are along the walls. -/
theorem walls_shift (v : Fin 2 → ℚ) (h : (walls 1).Shift v) : v 0 = 0 := by
  induction h with
  | zero => rfl
  | @add v c f id across opposite _ hf w hw ih =>
    have key : (across 0) 0 = 0 := by
      change (Paths.Sample.mesh (fun _ => .bounceBack) (fun _ => .bounceBack)).face c f = _ at hf
      match f, hf with
      | 0, h =>
        simp only [Paths.Sample.mesh] at h
        split_ifs at h
        · simp at h
      | 1, h =>
        simp only [Paths.Sample.mesh] at h
        split_ifs at h
        · simp at h
      | 2, h =>
        simp only [Paths.Sample.mesh] at h
        split_ifs at h
        · cases h; simp
      | n + 3, h =>
        simp only [Paths.Sample.mesh] at h
        split_ifs at h
        · cases h; simp
    rw [hw] at key
    have : w 0 = 0 := by simpa using key
    show v 0 + w 0 = 0
    rw [ih, this, add_zero]

theorem walls_shifts : (walls 1).Shifts := by
  intro c f id across opposite h
  exact Paths.Sample.walls_shifts c f id across opposite h

/-- A fluid at rest with given densities -/
noncomputable def still (ρ : Fin 9 → ℝ) : Snapshot (Fin 9 → Node ℝ 2 9) where
  x y := { f := uniform (solver 1 (walls 1) (1 / 4) none) .bgk (ρ y) 0, rho := 0, u := 0 }
  time := 0
  dt := 1 / 4

theorem still_weights (rho : ℝ) (i : Fin 9) : uniform (solver 1 (walls 1) (1 / 4) none) .bgk rho 0 i = (D2Q9.stencil (1 : ℝ)).weight i * rho := by
  have := SedgSolver.equilibrium_rest .D2Q9 .bgk (viscosity := (solver 1 (walls 1) (1 / 4) none).viscosity) (dt := (solver 1 (walls 1) (1 / 4) none).dt)
    (c := 1) one_ne_zero (solver 1 (walls 1) (1 / 4) none).collision rho i
  refine Eq.trans ?_ this
  simp only [uniform, Pi.zero_apply, zero_div]
  rfl

theorem still_collide (x : Fin 9 → Node ℝ 2 9) (hx : ∀ y, 1 / 10 ^ 10 < Spec.mass (x y).f) :
    ∃ x', collide (solver 1 (walls 1) (1 / 4) none) x = .ok x' :=
  step_succeeds .D2Q9 (solver 1 (walls 1) (1 / 4) none).collision (c := 1) rfl (List.nodup_finRange 9) (by simp)
    (r := ⟨2, 9, .D2Q9, .mrtStandard, .bgk, .mrt, .bgk⟩) (by decide) rfl fun j _ => hx j

/-- As `config`, without filter -/
def unfiltered : RunConfig := { config with isFiltering := false }

theorem still_step (ρ : Fin 9 → ℝ) (hρ : ∀ y, 1 ≤ ρ y) :
    ∃ r, runTrajectory unfiltered (parts (solver 1 (walls 1) (1 / 4) none)) 0 (still ρ) 1 = .ok r := by
  have hw : ∀ i : Fin 9, 0 ≤ (D2Q9.stencil (1 : ℝ)).weight i := by
    intro i
    fin_cases i <;> (simp [D2Q9.stencil, D2Q9.weight]; try norm_num)
  have hmass : ∀ f : Fin 9 → ℝ, (∀ i, 0 ≤ f i) → 4 / 9 ≤ f 0 → 1 / 10 ^ 10 < Spec.mass f := by
    intro f hf h0
    have : f 0 ≤ ∑ i, f i := Finset.single_le_sum (fun i _ => hf i) (Finset.mem_univ 0)
    have h1 : Spec.mass f = ∑ i, f i := rfl
    rw [h1]
    linarith [this, h0, show (1 : ℝ) / 10 ^ 10 < 4 / 9 by norm_num]
  have hpos : ∀ y i, 0 ≤ ((still ρ).x y).f i := fun y i =>
    le_of_le_of_eq (mul_nonneg (hw i) (zero_le_one.trans (hρ y))) (still_weights (ρ y) i).symm
  have hzero : ∀ y, 4 / 9 ≤ ((still ρ).x y).f 0 := fun y => by
    refine le_of_le_of_eq ?_ (still_weights (ρ y) 0).symm
    rw [show (D2Q9.stencil (1 : ℝ)).weight 0 = 4 / 9 by simp [D2Q9.stencil, D2Q9.weight]]
    linarith [hρ y]
  obtain ⟨x1, h1⟩ := still_collide (still ρ).x fun y => hmass _ (hpos y) (hzero y)
  have hf : ∀ y, (x1 y).f = ((still ρ).x y).f := fun y =>
    (C15_equilibrium_fixed .D2Q9 (solver 1 (walls 1) (1 / 4) none).collision rfl (c := 1) one_ne_zero rfl (List.nodup_finRange 9) h1
      (List.mem_finRange y) (ec := .bgk) rfl (ρ y) 0 rfl).1
  have hent : ∀ e ∈ (assembly (walls 1) (1 / 4)).entries, 0 ≤ e.value := by decide +kernel
  have hadv : ∀ y i, (advect (solver 1 (walls 1) (1 / 4) none) 0 x1 y).f i = multiply (solver 1 (walls 1) (1 / 4) none) (populations x1) i y := by
    intro y i
    unfold advect
    rw [applyBoundaryConditions_rest (rest _ _ _ _)]
    rfl
  have hby : ∀ b i, 0 ≤ byNumber (t := .D2Q9) (N := 9) (populations x1) b i := by
    intro b i
    unfold byNumber
    split_ifs
    · show 0 ≤ (x1 _).f _
      rw [hf]
      exact hpos _ _
    · exact le_rfl
    · exact le_rfl
  obtain ⟨x2, h2⟩ := still_collide (advect (solver 1 (walls 1) (1 / 4) none) 0 x1) fun y => hmass _ (fun i => by
      refine le_of_le_of_eq ?_ (hadv y i).symm
      unfold multiply
      cases hi : i.val with
      | zero => exact hby _ _
      | succ a =>
        refine List.sum_nonneg fun v hv => ?_
        obtain ⟨e, he, rfl⟩ := List.mem_map.1 hv
        obtain ⟨e', he', rfl⟩ := List.mem_map.1 (List.mem_of_mem_filter he)
        refine mul_nonneg ?_ (hby _ _)
        show (0 : ℝ) ≤ ((e'.value : ℚ) : ℝ)
        exact_mod_cast hent e' he') (by
      refine le_of_le_of_eq ?_ (hadv y (0 : Fin 9)).symm
      show _ ≤ byNumber (t := .D2Q9) (N := 9) (populations x1) 0 y.val
      have := byNumber_val (t := .D2Q9) (N := 9) (populations x1) (0 : Fin 9) y
      refine le_trans (le_of_le_of_eq (hzero y) ?_) this.ge
      show _ = (x1 y).f (0 : Fin 9)
      rw [hf])
  have hc1 : Solver.collide (parts (solver 1 (walls 1) (1 / 4) none)) (still ρ) = .ok { still ρ with x := x1 } := by
    have hp : (parts (solver 1 (walls 1) (1 / 4) none)).collide (still ρ).x = .ok x1 := h1
    simp only [Solver.collide, hp]
  have hst : Solver.stream (parts (solver 1 (walls 1) (1 / 4) none)) (0 + (0 + 1) - 0) { still ρ with x := x1 } =
      .ok { still ρ with x := advect (solver 1 (walls 1) (1 / 4) none) 0 x1, time := 0 + 1 / 4 } := rfl
  have hp : (parts (solver 1 (walls 1) (1 / 4) none)).collide (advect (solver 1 (walls 1) (1 / 4) none) 0 x1) = .ok x2 := h2
  refine ⟨applyProcessors (parts (solver 1 (walls 1) (1 / 4) none)) (0 + (0 + 1)) { still ρ with x := x2, time := 0 + 1 / 4 }, ?_⟩
  unfold runTrajectory
  rw [Spec.trajectory, Spec.trajectory, hc1]
  show advance unfiltered (parts (solver 1 (walls 1) (1 / 4) none)) 0 (0 + (0 + 1)) { still ρ with x := x1 } = _
  unfold advance
  rw [hst]
  have hfil : ∀ sn, Solver.filter unfiltered (parts (solver 1 (walls 1) (1 / 4) none)) (0 + (0 + 1)) sn = sn := fun sn => by
    unfold Solver.filter
    rw [if_neg]
    simp [unfiltered]
  simp only [hfil, Solver.collide, hp]

/-- The density is one, or two in the last degree of freedom of the first row -/
noncomputable def bump (y : Fin 9) : ℝ := if y = 2 then 2 else 1

/-- `C140_locality`, `C140_reach`, `C140_speed`: two fluids with different densities at one wall do not differ at the other wall after a step; neither
run is aborted. -/
example : ∃ r r', runTrajectory unfiltered (parts (solver 1 (walls 1) (1 / 4) none)) 0 (still fun _ => 1) 1 = .ok r ∧
    runTrajectory unfiltered (parts (solver 1 (walls 1) (1 / 4) none)) 0 (still bump) 1 = .ok r' ∧ r.x 0 = r'.x 0 := by
  obtain ⟨r, hr⟩ := still_step (fun _ => 1) fun _ => le_rfl
  obtain ⟨r', hr'⟩ := still_step bump fun y => by unfold bump; split_ifs <;> norm_num
  refine ⟨r, r', hr, hr', ?_⟩
  refine C140_speed (x := still fun _ => 1) (x' := still bump) sound_walls (local_walls _ _ _ _) (fun q hq => by cases hq) rfl rfl rfl walls_shifts Paths.Sample.walls_noDoNothing
    (.inr ⟨paths_valid _ (by norm_num), fun y alpha path _ hQ h => walls_exact y alpha path hQ h⟩) (E := 1) (h := 1 + 1 / 10 ^ 10)
    (by show (0 : ℚ) ≤ 1 / 4; norm_num) (components _) (by norm_num) located 0 1 (fun z v hv h => ?_) hr hr'
  have hz : z ≠ 2 := by
    rintro rfl
    have := h 0
    rw [walls_shift v hv] at this
    revert this
    show ¬ |((2 % 3 : ℕ) : ℚ) - (((0 % 3 : ℕ) : ℚ) + 0)| ≤ ((1 : ℕ) : ℚ) * (1 / 4 * 1 + (1 + 1 / 10 ^ 10))
    norm_num
  show (still fun _ => 1).x z = (still bump).x z
  simp only [still, bump, if_neg hz]

end Sample

end SlSolver
end NATriuM
