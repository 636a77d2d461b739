import Verif.Spec.Locality
import Verif.Lemmas.Renumbering
import Verif.Props.SolverLoop

/-!
# Lemmas: how far information travels
-/

namespace NATriuM

namespace Sedg.Mesh

variable {K : Type*} {d n nQ nf nq : ℕ} {C : Type*} (m : Sedg.Mesh K d n nQ nf nq C)

theorem within_succ {r : ℕ} {c e : C} (h : m.Within r c e) : m.Within (r + 1) c e := Or.inl h

theorem within_next {r : ℕ} : ∀ {c e : C}, m.Within r c e → ∀ {f e' f'}, m.neighbor e f = some (e', f') → m.Within (r + 1) c e' := by
  induction r with
  | zero =>
    intro c e h f e' f' hn
    have h : e = c := h
    subst h
    exact Or.inr ⟨f, e', f', hn, rfl⟩
  | succ r ih =>
    intro c e h f e' f' hn
    rcases h with h | ⟨g, c', g', hg, h⟩
    · exact Or.inl (ih h hn)
    · exact Or.inr ⟨g, c', g', hg, ih h hn⟩

theorem within_zero (c : C) : m.Within 0 c c := rfl

theorem within_self (r : ℕ) (c : C) : m.Within r c c := by
  induction r with
  | zero => rfl
  | succ r ih => exact Or.inl ih

theorem AgreeWithin.of_succ {m : Sedg.Mesh K d n nQ nf nq C} {X : Type*} {r : ℕ} {c : C} {x y : C × Fin n → X} (h : m.AgreeWithin (r + 1) c x y) :
    m.AgreeWithin r c x y := fun e he => h e (m.within_succ he)

end Sedg.Mesh

namespace SedgSolver

open Finset

variable {t : StencilType} {n nQ nf nq : ℕ} {C : Type*} {s : Setup t n nQ nf nq C}

theorem entry_local (central : Bool) (e : Fin t.D → ℝ) (cells : List C) :
    ∀ z ∈ Sedg.reassemble s.mesh central e cells, z.column.1 = z.row.1 ∨ ∃ f f', s.mesh.neighbor z.row.1 f = some (z.column.1, f') := by
  intro z hz
  unfold Sedg.reassemble Sedg.cellEntries Sedg.stiffnessEntries Sedg.faceEntries at hz
  simp only [List.mem_flatMap, List.mem_append, List.mem_map, List.mem_finRange, true_and] at hz
  obtain ⟨c, -, hz⟩ := hz
  rcases hz with ⟨j, k, rfl⟩ | ⟨f, hz⟩
  · exact Or.inl rfl
  · cases hN : s.mesh.neighbor c f with
    | none => rw [hN] at hz; cases hz
    | some p =>
      obtain ⟨c', f'⟩ := p
      rw [hN] at hz
      simp only [Sedg.internalFaceEntries, List.mem_flatMap, List.mem_finRange, true_and, List.mem_cons, List.not_mem_nil, or_false] at hz
      obtain ⟨q, rfl | rfl⟩ := hz
      · exact Or.inl rfl
      · exact Or.inr ⟨f, f', hN⟩

variable [DecidableEq C]

/-- All blocks agree. -/
def BlocksAgree (s : Setup t n nQ nf nq C) (r : ℕ) (c : C) (f g : Block t n C) : Prop := ∀ i, s.mesh.AgreeWithin r c (f i) (g i)

omit [DecidableEq C] in
theorem BlocksAgree.of_succ {r : ℕ} {c : C} {f g : Block t n C} (h : BlocksAgree s (r + 1) c f g) : BlocksAgree s r c f g :=
  fun i => (h i).of_succ

theorem systemMatrix_local {r : ℕ} {c : C} {f g : Block t n C} (h : BlocksAgree s (r + 1) c f g) :
    BlocksAgree s r c (systemMatrix s f) (systemMatrix s g) := by
  intro i e he k
  show matrixTimes s f i (e, k) = matrixTimes s g i (e, k)
  unfold matrixTimes
  split
  · rfl
  rw [h i e (s.mesh.within_succ he) k, h _ e (s.mesh.within_succ he) k]
  congr 1
  unfold Sedg.rate
  congr 1
  refine List.map_congr_left fun z hz => ?_
  rw [List.mem_filter, decide_eq_true_eq] at hz
  obtain ⟨hz, hrow⟩ := hz
  congr 1
  have hcol : s.mesh.Within (r + 1) c z.column.1 := by
    rcases entry_local _ _ _ z hz with h1 | ⟨f1, f2, h1⟩
    · rw [h1, hrow]; exact s.mesh.within_succ he
    · rw [hrow] at h1
      exact s.mesh.within_next he h1
  exact h i _ hcol z.column.2

theorem rkFirst_local {r : ℕ} {c : C} {f g : Block t n C} (h : BlocksAgree s (r + 1) c f g) (dt : ℝ) :
    BlocksAgree s r c (TimeIntegration.rkFirst (systemMatrix s) (systemVector s) dt f).1 (TimeIntegration.rkFirst (systemMatrix s) (systemVector s) dt g).1 ∧
    BlocksAgree s r c (TimeIntegration.rkFirst (systemMatrix s) (systemVector s) dt f).2 (TimeIntegration.rkFirst (systemMatrix s) (systemVector s) dt g).2 := by
  constructor <;> intro i e he k <;>
    simp only [TimeIntegration.rkFirst, Pi.add_apply, Pi.smul_apply, systemMatrix_local h i e he k, h.of_succ i e he k]

theorem rkStage_local {r : ℕ} {c : C} {f g : Block t n C × Block t n C} (h : BlocksAgree s (r + 1) c f.1 g.1 ∧ BlocksAgree s (r + 1) c f.2 g.2)
    (dt : ℝ) (j : Fin 5) :
    BlocksAgree s r c (TimeIntegration.rkStage (systemMatrix s) (systemVector s) dt f j).1 (TimeIntegration.rkStage (systemMatrix s) (systemVector s) dt g j).1 ∧
    BlocksAgree s r c (TimeIntegration.rkStage (systemMatrix s) (systemVector s) dt f j).2 (TimeIntegration.rkStage (systemMatrix s) (systemVector s) dt g j).2 := by
  constructor <;> intro i e he k <;>
    simp only [TimeIntegration.rkStage, Pi.add_apply, Pi.smul_apply, systemMatrix_local h.1 i e he k, h.1.of_succ i e he k, h.2.of_succ i e he k]

theorem integrate_local (hrk : s.integrator = .rungeKutta5) {r : ℕ} {c : C} {x y x' y' : C × Fin n → Node ℝ t.D t.Q} {dt dx dy : ℝ}
    (h : s.mesh.AgreeWithin (r + 5) c x y) (hx : integrate s dt x = .ok (x', dx)) (hy : integrate s dt y = .ok (y', dy)) :
    s.mesh.AgreeWithin r c x' y' ∧ dx = dy := by
  have hb : BlocksAgree s (r + 5) c (populations x) (populations y) := fun i e he k => by
    show (x (e, k)).f i = (y (e, k)).f i
    rw [h e he k]
  unfold integrate step TimeIntegration.rkStep at hx hy
  rw [hrk] at hx hy
  simp only at hx hy
  cases hp : TimeIntegration.prologue dt dt with
  | error e => rw [hp] at hx; cases hx
  | ok z =>
    obtain ⟨h1, d1⟩ := z
    rw [hp] at hx hy
    cases hx
    cases hy
    refine ⟨?_, rfl⟩
    have key := rkStage_local (rkStage_local (rkStage_local (rkStage_local (rkFirst_local (r := r + 4) hb h1) h1 1) h1 2) h1 3) h1 4
    intro e he k
    have hxy : x (e, k) = y (e, k) := h.of_succ.of_succ.of_succ.of_succ.of_succ e he k
    simp only [setPopulations, hxy]
    congr 1
    funext i
    exact key.1 i e he k

theorem applyFilter_local (hn : s.cells.Nodup) {r : ℕ} {c : C} {x y : C × Fin n → Node ℝ t.D t.Q} (h : s.mesh.AgreeWithin r c x y) :
    s.mesh.AgreeWithin r c (applyFilter s x) (applyFilter s y) := by
  intro e he k
  simp only [applyFilter, setPopulations, h e he k]
  congr 1
  funext i
  by_cases hc : e ∈ s.cells
  · have e1 := fun u => Smoothing.applyFilter_own s.toModes s.fromModes s.factor (fun c k => (c, k)) (fun _ _ _ _ h => by simpa using h) s.cells
      hn u e hc k
    refine (e1 (populations x i)).trans (Eq.trans ?_ (e1 (populations y i)).symm)
    congr 1
    funext j
    show (x (e, j)).f i = (y (e, j)).f i
    rw [h e he j]
  · have e1 := fun u => Smoothing.applyFilter_other s.toModes s.fromModes s.factor (fun c k => (c, k)) s.cells u (e, k) fun c' h' i' he =>
      hc (by have : c' = e := congrArg Prod.fst he; exact this ▸ h')
    rw [e1, e1]
    show (x (e, k)).f i = (y (e, k)).f i
    rw [h e he k]

theorem collide_local (hn : s.cells.Nodup) {r : ℕ} {c : C} {x y x' y' : C × Fin n → Node ℝ t.D t.Q} (h : s.mesh.AgreeWithin r c x y)
    (hx : collide s x = .ok x') (hy : collide s y = .ok y') : s.mesh.AgreeWithin r c x' y' := by
  have ex : ∀ {x x' : C × Fin n → Node ℝ t.D t.Q}, collide s x = .ok x' →
      isothermalCollide t s.c s.viscosity s.dt s.collision false (owned s) x = .ok x' := by
    intro x x' hx
    unfold collide at hx
    split at hx
    · cases hx
    · next h => cases hx; exact h
  obtain ⟨w, relax, hw, hrelax, hin, hout, -⟩ := (isothermalCollide_ok t s.collision false _ (Renumbering.nodup_owned hn) x x').mp (ex hx)
  obtain ⟨w', relax', hw', hrelax', hin', hout', -⟩ := (isothermalCollide_ok t s.collision false _ (Renumbering.nodup_owned hn) y y').mp (ex hy)
  rw [hw] at hw'
  cases hw'
  rw [hrelax] at hrelax'
  cases hrelax'
  intro e he k
  by_cases hk : (e, k) ∈ owned s
  · have a := hin _ hk
    have b := hin' _ hk
    rw [h e he k, b] at a
    exact (Except.ok.inj a).symm
  · rw [hout _ hk, hout' _ hk, h e he k]

omit [DecidableEq C] in
theorem processors_local {r : ℕ} {c : C} (i : ℕ) (time : ℝ) : ∀ (l : List (ℕ → ℝ → (C × Fin n → Node ℝ t.D t.Q) → C × Fin n → Node ℝ t.D t.Q)),
    (∀ q ∈ l, CellLocal q) → ∀ {x y : C × Fin n → Node ℝ t.D t.Q}, s.mesh.AgreeWithin r c x y →
    s.mesh.AgreeWithin r c (l.foldl (fun x proc => proc i time x) x) (l.foldl (fun x proc => proc i time x) y) := by
  intro l
  induction l with
  | nil => intro _ x y h; exact h
  | cons q l ih =>
    intro hl x y h
    exact ih (fun q hq => hl q (List.mem_cons_of_mem _ hq)) fun e he k => hl q List.mem_cons_self i time x y e (h e he) k

open Solver in
theorem advance_local (hn : s.cells.Nodup) (hrk : s.integrator = .rungeKutta5) (hp : ∀ q ∈ s.processors, CellLocal q) {cfg : RunConfig} {start i r : ℕ} {c : C}
    {x y x' y' : Snapshot (C × Fin n → Node ℝ t.D t.Q)} (h : s.mesh.AgreeWithin (r + 5) c x.x y.x) (ht : x.time = y.time) (hdt : x.dt = y.dt)
    (hx : advance cfg (parts s) start i x = .ok x') (hy : advance cfg (parts s) start i y = .ok y') :
    s.mesh.AgreeWithin r c x'.x y'.x ∧ x'.time = y'.time ∧ x'.dt = y'.dt := by
  have key : ∀ {x x' : Snapshot (C × Fin n → Node ℝ t.D t.Q)}, advance cfg (parts s) start i x = .ok x' →
      ∃ x1 d x2, integrate s x.dt x.x = .ok (x1, d) ∧ SedgSolver.collide s (Solver.filter cfg (parts s) i ⟨x1, x.time + d, d⟩).x = .ok x2 ∧
        x'.x = s.processors.foldl (fun z proc => proc i (x.time + d) z) x2 ∧ x'.time = x.time + d ∧ x'.dt = d := by
    intro x x' hx
    unfold advance stream at hx
    have hsch : (parts s).scheme = .sedg := rfl
    rw [hsch] at hx
    simp only at hx
    have hint : (parts s).integrate (i - start) x.dt x.x = integrate s x.dt x.x := rfl
    rw [hint] at hx
    cases h1 : integrate s x.dt x.x with
    | error e => rw [h1] at hx; cases hx
    | ok z =>
      obtain ⟨x1, d⟩ := z
      rw [h1] at hx
      simp only at hx
      by_cases hd : 0 < d
      · rw [if_pos hd] at hx
        simp only at hx
        unfold Solver.collide at hx
        have hcol : ∀ z, (parts s).collide z = SedgSolver.collide s z := fun _ => rfl
        rw [hcol] at hx
        cases h2 : SedgSolver.collide s (Solver.filter cfg (parts s) i ⟨x1, x.time + d, d⟩).x with
        | error e => rw [h2] at hx; cases hx
        | ok x2 =>
          rw [h2] at hx
          cases hx
          have hft : (Solver.filter cfg (parts s) i ⟨x1, x.time + d, d⟩).time = x.time + d := by unfold Solver.filter; split <;> rfl
          have hfd : (Solver.filter cfg (parts s) i ⟨x1, x.time + d, d⟩).dt = d := by unfold Solver.filter; split <;> rfl
          refine ⟨x1, d, x2, rfl, h2, ?_, hft, hfd⟩
          simp only [applyProcessors, hft]
          rfl
      · rw [if_neg hd] at hx; cases hx
  obtain ⟨x1, d, x2, a1, a2, a3, a4, a5⟩ := key hx
  obtain ⟨y1, d', y2, b1, b2, b3, b4, b5⟩ := key hy
  rw [hdt] at a1
  obtain ⟨h1, rfl⟩ := integrate_local hrk h a1 b1
  have hf : s.mesh.AgreeWithin r c (Solver.filter cfg (parts s) i ⟨x1, x.time + d, d⟩).x (Solver.filter cfg (parts s) i ⟨y1, y.time + d, d⟩).x := by
    unfold Solver.filter
    split
    · exact applyFilter_local hn h1
    · exact h1
  have h2 := collide_local hn hf a2 b2
  refine ⟨?_, by rw [a4, b4, ht], by rw [a5, b5]⟩
  rw [a3, b3, ht]
  exact processors_local i _ s.processors hp h2

open Solver in
theorem trajectory_local (hn : s.cells.Nodup) (hrk : s.integrator = .rungeKutta5) (hp : ∀ q ∈ s.processors, CellLocal q) {cfg : RunConfig} {start : ℕ} {c : C}
    {x y : Snapshot (C × Fin n → Node ℝ t.D t.Q)} (ht : x.time = y.time) (hdt : x.dt = y.dt) (k : ℕ) : ∀ {r : ℕ}
    {x' y' : Snapshot (C × Fin n → Node ℝ t.D t.Q)}, s.mesh.AgreeWithin (r + 5 * k) c x.x y.x →
    runTrajectory cfg (parts s) start x k = .ok x' → runTrajectory cfg (parts s) start y k = .ok y' →
    s.mesh.AgreeWithin r c x'.x y'.x ∧ x'.time = y'.time ∧ x'.dt = y'.dt := by
  induction k with
  | zero =>
    intro r x' y' h hx hy
    have key : ∀ {x x' : Snapshot (C × Fin n → Node ℝ t.D t.Q)}, runTrajectory cfg (parts s) start x 0 = .ok x' →
        SedgSolver.collide s x.x = .ok x'.x ∧ x'.time = x.time ∧ x'.dt = x.dt := by
      intro x x' hx
      unfold runTrajectory Spec.trajectory Solver.collide at hx
      have hcol : (parts s).collide x.x = SedgSolver.collide s x.x := rfl
      rw [hcol] at hx
      cases h1 : SedgSolver.collide s x.x with
      | error e => rw [h1] at hx; cases hx
      | ok x1 => rw [h1] at hx; cases hx; exact ⟨rfl, rfl, rfl⟩
    obtain ⟨a1, a2, a3⟩ := key hx
    obtain ⟨b1, b2, b3⟩ := key hy
    exact ⟨collide_local hn h a1 b1, by rw [a2, b2, ht], by rw [a3, b3, hdt]⟩
  | succ k ih =>
    intro r x' y' h hx hy
    have key : ∀ {x x' : Snapshot (C × Fin n → Node ℝ t.D t.Q)}, runTrajectory cfg (parts s) start x (k + 1) = .ok x' →
        ∃ x1, runTrajectory cfg (parts s) start x k = .ok x1 ∧ advance cfg (parts s) start (start + (k + 1)) x1 = .ok x' := by
      intro x x' hx
      unfold runTrajectory at hx ⊢
      rw [Spec.trajectory] at hx
      cases h1 : Spec.trajectory (Solver.collide (parts s) x) (advance cfg (parts s) start) start k with
      | error e => rw [h1] at hx; cases hx
      | ok x1 => rw [h1] at hx; exact ⟨x1, rfl, hx⟩
    obtain ⟨x1, a1, a2⟩ := key hx
    obtain ⟨y1, b1, b2⟩ := key hy
    have e : r + 5 * (k + 1) = (r + 5) + 5 * k := by ring
    rw [e] at h
    obtain ⟨h1, h2, h3⟩ := ih h a1 b1
    exact advance_local hn hrk hp h1 h2 h3 a2 b2

end SedgSolver
end NATriuM
