import Verif.Spec.SlLocality
import Verif.Lemmas.SlSolver
import Verif.Props.PathTracking
import Verif.Lemmas.Renumbering
import Verif.Props.SolverLoop
import Mathlib.Tactic.Linarith

/-!
# Lemmas: how far information travels in the semi-Lagrangian scheme
-/

namespace NATriuM

namespace Paths

variable {K : Type*} [Field K] [LinearOrder K] [IsStrictOrderedRing K] {m : ℕ} {C : Type*} {mesh : Mesh K m C} {s : Setup K (m + 2)}

omit [LinearOrder K] [IsStrictOrderedRing K] in
theorem Mesh.Shift.trans {v w : Fin (m + 2) → K} (hv : mesh.Shift v) (hw : mesh.Shift w) : mesh.Shift fun i => v i + w i := by
  induction hw with
  | zero => simpa using hv
  | add _ hf w' hw' ih =>
    have := ih.add hf w' hw'
    simp only [add_assoc] at this
    exact this

/-- A trip of a certain time does not lead further than that. -/
theorem Trip.distance {p q : Fin (m + 2) → K} {a b : ℕ} {t E : K} (hS : mesh.Shifts) (hE : ∀ b i, |s.e b i| ≤ E) (h : Trip mesh s p a t q b) :
    ∃ v, mesh.Shift v ∧ ∀ i, |q i - (p i + v i)| ≤ t * E := by
  induction h with
  | start => exact ⟨_, .zero, fun i => by simp⟩
  | move u _ hu ih =>
    obtain ⟨v, hv, h⟩ := ih
    refine ⟨v, hv, fun i => ?_⟩
    have h1 := abs_le.1 (h i)
    rename_i q b _
    have h3 : u * s.e b i ≤ u * E := mul_le_mul_of_nonneg_left (abs_le.1 (hE b i)).2 hu
    have h4 : u * -E ≤ u * s.e b i := mul_le_mul_of_nonneg_left (abs_le.1 (hE b i)).1 hu
    rw [abs_le]
    constructor <;> linarith
  | turn _ _ ih => exact ih
  | jump _ hat ih =>
    obtain ⟨v, hv, h⟩ := ih
    obtain ⟨cell, current, departure, face, id, -, hf⟩ := hat
    obtain ⟨w, hw⟩ := hS _ _ _ _ _ hf
    refine ⟨fun i => v i + w i, hv.add hf w hw, fun i => ?_⟩
    rw [hw]
    have := h i
    rwa [show ∀ q p v w : K, q + w - (p + (v + w)) = q - (p + v) from fun q p v w => by ring]

end Paths

namespace SlSolver

open Solver

variable {t : StencilType} {K : Type*} [Field K] [LinearOrder K] [IsStrictOrderedRing K] {m n N : ℕ} {C : Type*} {s : Setup t K m n N C}

omit [IsStrictOrderedRing K] in
theorem multiply_local (hs : Sound s) {f g : Walls.Store ℝ t.Q (Fin N)} {y : Fin N} (h : ∀ z, Reads s y z → ∀ i, f i z = g i z) (i : Fin t.Q) :
    multiply s f i y = multiply s g i y := by
  unfold multiply
  by_cases hi0 : i.val = 0
  · have key : ∀ f : Walls.Store ℝ t.Q (Fin N), Paths.stream (s.assembly.entries.map (realEntry s)) (byNumber f) i.val y.val = f i y := by
      intro f
      rw [hi0]
      show byNumber f 0 y = _
      rw [← hi0, byNumber_val]
    rw [key, key]
    exact h y (Or.inl rfl) i
  have h0 : 0 < i.val := Nat.pos_of_ne_zero hi0
  obtain ⟨ho, cell, hcell, hy⟩ := hs.everywhere y
  have hQ : i.val < s.paths.Q := by rw [hs.number]; exact i.isLt
  obtain ⟨path, e, hnew, hfol, hok, hperm⟩ := Paths.entries_of_fill hs.assembled hcell y.val i.val hy ho h0 hQ
  rw [multiply_row (s := s) (byNumber f) i.val y.val h0 hperm, multiply_row (s := s) (byNumber g) i.val y.val h0 hperm]
  have hby : ∀ z : Fin N, Reads s y z → ∀ b, byNumber f b z.val = byNumber g b z.val := by
    intro z hz b
    unfold byNumber
    by_cases hb : b < t.Q
    · rw [dif_pos hb, dif_pos hb, dif_pos z.isLt, dif_pos z.isLt]
      exact h z hz _
    · rw [dif_neg hb, dif_neg hb]
  refine congrArg List.sum (List.map_congr_left fun x hx => ?_)
  congr 1
  obtain ⟨c, k, _, _, hp⟩ := id hnew
  cases e with
  | dropped p => cases hx
  | expired p =>
    have hdest : p.dest = (y.val, i.val) := by
      have := hfol.dest
      rw [hp] at this
      exact this
    simp only [Paths.Tracker.dest, Prod.mk.injEq] at hdest
    simp only [Paths.Ended.entries, List.mem_singleton] at hx
    subst hx
    show byNumber f _ p.index = byNumber g _ p.index
    rw [hdest.1]
    exact hby y (Or.inl rfl) _
  | found p =>
    obtain ⟨es, hes⟩ := hok
    simp only [Paths.Ended.entries, hes] at hx
    unfold Paths.foundEntries at hes
    cases hu : Paths.unitDeparture s.mesh p with
    | error e => rw [hu] at hes; cases hes
    | ok u =>
      rw [hu] at hes
      cases hes
      obtain ⟨dof, hdof, hd⟩ := List.mem_filterMap.1 hx
      split_ifs at hd
      cases hd
      have hmem := List.fst_mem_of_mem_zipIdx hdof
      have hlt := hs.inside p.currentCell dof.1 hmem
      exact hby ⟨dof.1, hlt⟩ (Or.inr ⟨i.val, path, p, u, h0, hQ, hnew, hfol, hu, hmem⟩) _

omit [LinearOrder K] [IsStrictOrderedRing K] in
theorem boundary_local (hw : LocalWalls s) (time : ℝ) {old old' new new' : Walls.Store ℝ t.Q (Fin N)} {y : Fin N} (h : ∀ i, new i y = new' i y)
    (i : Fin t.Q) : applyBoundaryConditions s time old new i y = applyBoundaryConditions s time old' new' i y := by
  unfold applyBoundaryConditions
  have : ∀ l : List _, (∀ hit ∈ l, hit ∈ s.assembly.hits) → ∀ new new' : Walls.Store ℝ t.Q (Fin N), (∀ i, new i y = new' i y) →
      ∀ i, l.foldl (fun f hit => s.applyHit time hit old f) new i y = l.foldl (fun f hit => s.applyHit time hit old' f) new' i y := by
    intro l
    induction l with
    | nil => intro _ _ _ h; exact h
    | cons hit l ih =>
      intro hl new new' h
      exact ih (fun z hz => hl z (List.mem_cons_of_mem _ hz)) _ _ (hw hit (hl hit List.mem_cons_self) time old old' new new' y h)
  exact this _ (fun _ h => h) new new' h i

omit [IsStrictOrderedRing K] in
theorem advect_local (hs : Sound s) (hw : LocalWalls s) (time : ℝ) {x x' : Fin N → Node ℝ t.D t.Q} {y : Fin N}
    (h : ∀ z, Reads s y z → x z = x' z) : advect s time x y = advect s time x' y := by
  have hf : ∀ i, applyBoundaryConditions s time (populations x) (multiply s (populations x)) i y =
      applyBoundaryConditions s time (populations x') (multiply s (populations x')) i y :=
    boundary_local hw time (multiply_local hs fun z hz i => by show (x z).f i = (x' z).f i; rw [h z hz])
  have hy := h y (Or.inl rfl)
  unfold advect setPopulations
  simp only [hf, hy]

omit [LinearOrder K] [IsStrictOrderedRing K] in
theorem collide_local {x y x' y' : Fin N → Node ℝ t.D t.Q} (hx : collide s x = .ok x') (hy : collide s y = .ok y') {z : Fin N} (h : x z = y z) :
    x' z = y' z := by
  obtain ⟨w, relax, hw, hrelax, hin, -, -⟩ := (isothermalCollide_ok t s.collision false _ (List.nodup_finRange N) x x').mp hx
  obtain ⟨w', relax', hw', hrelax', hin', -, -⟩ := (isothermalCollide_ok t s.collision false _ (List.nodup_finRange N) y y').mp hy
  rw [hw] at hw'
  cases hw'
  rw [hrelax] at hrelax'
  cases hrelax'
  have a := hin _ (List.mem_finRange z)
  have b := hin' _ (List.mem_finRange z)
  rw [h, b] at a
  exact (Except.ok.inj a).symm

theorem processors_local (i : ℕ) (time : ℝ) (z : Fin N) : ∀ (l : List (ℕ → ℝ → (Fin N → Node ℝ t.D t.Q) → Fin N → Node ℝ t.D t.Q)),
    (∀ q ∈ l, PointLocal q) → ∀ {x y : Fin N → Node ℝ t.D t.Q}, x z = y z →
    l.foldl (fun x proc => proc i time x) x z = l.foldl (fun x proc => proc i time x) y z := by
  intro l
  induction l with
  | nil => intro _ x y h; exact h
  | cons q l ih =>
    intro hl x y h
    exact ih (fun q hq => hl q (List.mem_cons_of_mem _ hq)) (hl q List.mem_cons_self i time x y z h)

omit [LinearOrder K] [IsStrictOrderedRing K] in
theorem advance_cases {cfg : RunConfig} (hfil : cfg.isFiltering = false) {start i : ℕ} {x x' : Snapshot (Fin N → Node ℝ t.D t.Q)}
    (hx : advance cfg (parts s) start i x = .ok x') :
    ∃ x2, collide s (advect s x.time x.x) = .ok x2 ∧ x'.x = s.processors.foldl (fun z proc => proc i (x.time + x.dt) z) x2 ∧
      x'.time = x.time + x.dt ∧ x'.dt = x.dt := by
  unfold advance Solver.stream at hx
  rw [show (parts s).scheme = .semiLagrangian from rfl] at hx
  simp only at hx
  rw [show (parts s).advect (i - start) x.time x.x = .ok (advect s x.time x.x) from rfl] at hx
  simp only [Solver.filter, hfil, Bool.false_and, Solver.collide] at hx
  rw [if_neg (by simp), show (parts s).collide (advect s x.time x.x) = collide s (advect s x.time x.x) from rfl] at hx
  cases h2 : collide s (advect s x.time x.x) with
  | error e => rw [h2] at hx; cases hx
  | ok x2 =>
    rw [h2] at hx
    cases hx
    exact ⟨x2, rfl, rfl, rfl, rfl⟩

omit [IsStrictOrderedRing K] in
theorem readsIn_succ_right {k : ℕ} {y w z : Fin N} (h : ReadsIn s k y w) (hz : Reads s w z) : ReadsIn s (k + 1) y z := by
  induction k generalizing y with
  | zero => have h : w = y := h; subst h; exact ⟨z, hz, rfl⟩
  | succ k ih =>
    obtain ⟨v, hv, h⟩ := h
    exact ⟨v, hv, ih h⟩

omit [IsStrictOrderedRing K] in
theorem trajectory_local (hs : Sound s) (hw : LocalWalls s) (hp : ∀ q ∈ s.processors, PointLocal q) {cfg : RunConfig} (hfil : cfg.isFiltering = false)
    {start : ℕ} {x y : Snapshot (Fin N → Node ℝ t.D t.Q)} (ht : x.time = y.time) (hdt : x.dt = y.dt) (k : ℕ) :
    ∀ {z : Fin N} {x' y' : Snapshot (Fin N → Node ℝ t.D t.Q)}, (∀ w, ReadsIn s k z w → x.x w = y.x w) →
    runTrajectory cfg (parts s) start x k = .ok x' → runTrajectory cfg (parts s) start y k = .ok y' →
    x'.x z = y'.x z ∧ x'.time = y'.time ∧ x'.dt = y'.dt := by
  induction k with
  | zero =>
    intro z x' y' h hx hy
    have key : ∀ {x x' : Snapshot (Fin N → Node ℝ t.D t.Q)}, runTrajectory cfg (parts s) start x 0 = .ok x' →
        collide s x.x = .ok x'.x ∧ x'.time = x.time ∧ x'.dt = x.dt := by
      intro x x' hx
      unfold runTrajectory Spec.trajectory Solver.collide at hx
      have hcol : (parts s).collide x.x = collide s x.x := rfl
      rw [hcol] at hx
      cases h1 : collide s x.x with
      | error e => rw [h1] at hx; cases hx
      | ok x1 => rw [h1] at hx; cases hx; exact ⟨rfl, rfl, rfl⟩
    obtain ⟨a1, a2, a3⟩ := key hx
    obtain ⟨b1, b2, b3⟩ := key hy
    exact ⟨collide_local a1 b1 (h z rfl), by rw [a2, b2, ht], by rw [a3, b3, hdt]⟩
  | succ k ih =>
    intro z x' y' h hx hy
    have key : ∀ {x x' : Snapshot (Fin N → Node ℝ t.D t.Q)}, runTrajectory cfg (parts s) start x (k + 1) = .ok x' →
        ∃ x1, runTrajectory cfg (parts s) start x k = .ok x1 ∧ advance cfg (parts s) start (start + (k + 1)) x1 = .ok x' := by
      intro x x' hx
      unfold runTrajectory at hx ⊢
      rw [Spec.trajectory] at hx
      cases h1 : Spec.trajectory (Solver.collide (parts s) x) (advance cfg (parts s) start) start k with
      | error e => rw [h1] at hx; cases hx
      | ok x1 => rw [h1] at hx; exact ⟨x1, rfl, hx⟩
    obtain ⟨x1, a1, a2⟩ := key hx
    obtain ⟨y1, b1, b2⟩ := key hy
    have hz : ∀ w, Reads s z w → x1.x w = y1.x w := fun w hw => (ih (fun v hv => h v ⟨w, hw, hv⟩) a1 b1).1
    obtain ⟨-, htime, hd⟩ := ih (z := z) (fun v hv => h v ⟨z, Or.inl rfl, hv⟩) a1 b1
    obtain ⟨x2, c1, c2, c3, c4⟩ := advance_cases hfil a2
    obtain ⟨y2, d1, d2, d3, d4⟩ := advance_cases hfil b2
    refine ⟨?_, by rw [c3, d3, htime, hd], by rw [c4, d4, hd]⟩
    rw [c2, d2, htime, hd]
    refine processors_local _ _ z s.processors hp (collide_local c1 d1 ?_)
    rw [htime]
    exact advect_local hs hw _ hz

/-- Where the degrees of freedom are that one step reads -/
theorem reads_distance {pos : Fin N → Fin (m + 2) → K} {h D : K} (hl : Located s.mesh pos h) (hh : 0 ≤ h) (hD : 0 ≤ D)
    (hpath : ∀ (y : Fin N) alpha path p, 0 < alpha → alpha < s.paths.Q → s.mesh.NewPath s.paths y alpha path →
      Paths.Follows s.mesh s.paths path (.found p) → ∃ v, s.mesh.Shift v ∧ ∀ a, |p.departurePoint a - (path.currentPoint a + v a)| ≤ D)
    {y z : Fin N} (hr : Reads s y z) : ∃ v, s.mesh.Shift v ∧ ∀ a, |pos z a - (pos y a + v a)| ≤ D + h := by
  rcases hr with rfl | ⟨alpha, path, p, x, h0, hQ, hnew, hfol, hu, hz⟩
  · exact ⟨_, .zero, fun a => by simp; positivity⟩
  · obtain ⟨v, hv, hd⟩ := hpath y alpha path p h0 hQ hnew hfol
    obtain ⟨cell, k, -, hk, rfl⟩ := hnew
    have hpos := hl.position cell k y hk
    obtain ⟨hx, u, hu, hxu⟩ := Paths.unitDeparture_ok s.mesh p x hu
    obtain ⟨l, hlt, hlz⟩ := List.getElem_of_mem hz
    have hlz' : (s.mesh.dofs p.currentCell)[l]? = some z.val := by rw [List.getElem?_eq_getElem hlt, hlz]
    have hsm := hl.small p.currentCell l z p.departurePoint u hlz' hu fun a => by
      have h1 := abs_lt.1 (hxu a)
      have h2 := hx a
      constructor <;> linarith [h1.1, h1.2, h2.1, h2.2]
    refine ⟨v, hv, fun a => ?_⟩
    have e1 := hd a
    have e2 := hsm a
    rw [hl.position p.currentCell l z hlz'] at e2
    rw [show (Paths.newPath s.paths cell (s.mesh.supportPoint cell k) y.val alpha).currentPoint = s.mesh.supportPoint cell k from rfl, hpos] at e1
    rw [abs_le] at e1 e2 ⊢
    constructor <;> linarith [e1.1, e1.2, e2.1, e2.2]

theorem readsIn_distance {pos : Fin N → Fin (m + 2) → K} {B : K}
    (h1 : ∀ y z, Reads s y z → ∃ v, s.mesh.Shift v ∧ ∀ a, |pos z a - (pos y a + v a)| ≤ B) (k : ℕ) {y z : Fin N} (hr : ReadsIn s k y z) :
    ∃ v, s.mesh.Shift v ∧ ∀ a, |pos z a - (pos y a + v a)| ≤ k * B := by
  induction k generalizing y with
  | zero => have hr : z = y := hr; subst hr; exact ⟨_, .zero, fun a => by simp⟩
  | succ k ih =>
    obtain ⟨w, hw, hr⟩ := hr
    obtain ⟨v, hv, e1⟩ := h1 y w hw
    obtain ⟨v', hv', e2⟩ := ih hr
    refine ⟨_, hv.trans hv', fun a => ?_⟩
    have e1 := abs_le.1 (e1 a)
    have e2 := abs_le.1 (e2 a)
    rw [abs_le]
    push_cast
    constructor <;> linarith [e1.1, e1.2, e2.1, e2.2]

end SlSolver
end NATriuM
