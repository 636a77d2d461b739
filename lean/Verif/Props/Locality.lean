import Verif.Lemmas.Locality
import Verif.Props.SedgSolver
import Mathlib.Tactic.Module

/-!
# Property C135: how far information travels
-/

namespace NATriuM
namespace SedgSolver

open Solver

variable {t : StencilType} {n nQ nf nq : ℕ} {C : Type*} [DecidableEq C] [Fintype C] {s : Setup t n nQ nf nq C} {cfg : RunConfig} {start : ℕ}
  {x y : Snapshot (C × Fin n → Node ℝ t.D t.Q)}

/-- **C135** With the Runge-Kutta integrator information travels over five faces in a step at most: two simulations that start with the same data in
all cells that are `5 k` faces from cell `c` at most have the same populations, densities and velocities in `c` after `k` steps, whatever the data are
elsewhere – as long as neither is aborted. -/
theorem C135_locality (hn : s.cells.Nodup) (hrk : s.integrator = .rungeKutta5) (hp : ∀ q ∈ s.processors, CellLocal q) (ht : x.time = y.time)
    (hdt : x.dt = y.dt) (c : C) :
    (∀ k x' y', s.mesh.AgreeWithin (5 * k) c x.x y.x → runTrajectory cfg (parts s) start x k = .ok x' → runTrajectory cfg (parts s) start y k = .ok y' →
      (∀ i, x'.x (c, i) = y'.x (c, i)) ∧ x'.time = y'.time ∧ x'.dt = y'.dt) ∧
    ∀ st st', run cfg (parts s) start x = .ok st → run cfg (parts s) start y = .ok st' → st.i = st'.i →
      s.mesh.AgreeWithin (5 * (st.i - start)) c x.x y.x → ∀ i, st.snap.x (c, i) = st'.snap.x (c, i) := by
  have key : ∀ k x' y', s.mesh.AgreeWithin (5 * k) c x.x y.x → runTrajectory cfg (parts s) start x k = .ok x' →
      runTrajectory cfg (parts s) start y k = .ok y' → (∀ i, x'.x (c, i) = y'.x (c, i)) ∧ x'.time = y'.time ∧ x'.dt = y'.dt := by
    intro k x' y' h hx hy
    obtain ⟨h1, h2⟩ := trajectory_local hn hrk hp ht hdt k (r := 0) (by rwa [zero_add]) hx hy
    exact ⟨h1 c rfl, h2⟩
  refine ⟨key, fun st st' h h' hi ha => ?_⟩
  exact (key _ _ _ ha (run_ok h).2.1 (by rw [hi]; exact (run_ok h').2.1)).1

omit [Fintype C] in
/-- The stabiliser works on each cell for itself. -/
theorem C135_stabiliser (s : Setup t n nQ nf nq C) (withE : Bool) : CellLocal (stabiliser s withE) := by
  intro i time x y c h k
  have key : ∀ (M : Fin t.Q → Fin t.Q → ℚ) (l : List (C × Fin n)) (f g : C × Fin n → Fin t.Q → ℝ) (z : C × Fin n), f z = g z →
      l.foldl (fun f i => Function.update f i (Stabilizer.multiply M (f i))) f z =
        l.foldl (fun f i => Function.update f i (Stabilizer.multiply M (f i))) g z := by
    intro M l
    induction l with
    | nil => intro f g z h; exact h
    | cons a l ih =>
      intro f g z h
      refine ih _ _ z ?_
      by_cases ha : z = a
      · subst ha
        simp only [Function.update_self, h]
      · simp only [Function.update_of_ne ha, h]
  have hz := h k
  simp only [stabiliser, setPopulations, hz]
  congr 1
  funext j
  unfold Stabilizer.apply
  cases Stabilizer.matrix t withE with
  | none => simp only [hz]
  | some M => exact congrFun (key M _ _ _ (c, k) (by simp only [hz])) j

/-! ## A row of twelve cells -/

namespace Sample

/-- As `mesh`, with twelve squares in a row, periodic in both directions -/
noncomputable def rowMesh : Sedg.Mesh ℝ 2 4 4 4 2 (Fin 12) where
  value _ i q := if i = q then 1 else 0
  grad _ j q k :=
    let sx := if j.val % 2 = 1 then 1 else -1
    let sy := if j.val / 2 = 1 then 1 else -1
    if k = 0 then (if j.val / 2 = q.val / 2 then sx else 0) else (if j.val % 2 = q.val % 2 then sy else 0)
  jxw _ _ := 1 / 4
  toQ i := i
  faceDof f q := ![![0, 2], ![1, 3], ![0, 1], ![2, 3]] f q
  faceJxw _ _ _ := 1 / 2
  normal _ f _ := ![![-1, 0], ![1, 0], ![0, -1], ![0, 1]] f
  neighbor c f := ![some (c + 11, 1), some (c + 1, 0), some (c, 3), some (c, 2)] f

/-- A solver on it -/
noncomputable def row : Setup .D2Q9 4 4 4 2 (Fin 12) where
  c := 2
  mesh := rowMesh
  cells := List.finRange 12
  central := false
  wallVelocity _ _ _ := 0
  viscosity := 1 / 100
  dt := 1 / 50
  collision := sampleConfig 2 .mrtStandard .bgk .lallemandD2Q9
  integrator := .rungeKutta5
  toModes := 1
  fromModes := 1
  factor _ := 1
  processors := []

theorem row_gradients : rowMesh.GradientsCancel := fun c q k => by
  fin_cases q <;> fin_cases k <;> simp [rowMesh, Fin.sum_univ_four]

theorem row_divergence : rowMesh.Divergence := fun c j k => by
  fin_cases j <;> fin_cases k <;> simp [rowMesh, Fin.sum_univ_four, Fin.sum_univ_two] <;> norm_num

theorem row_matching : rowMesh.Matching := fun c f c' f' h => by
  fin_cases f <;> simp [rowMesh] at h ⊢ <;> obtain ⟨rfl, rfl⟩ := h <;> simp [add_assoc]

theorem row_sound : Sound row where
  nodal := fun c i => by simp [row, rowMesh]
  gradients := row_gradients
  divergence := row_divergence
  matching := row_matching
  mass := fun c i => by simp [Sedg.mass, row, rowMesh]
  nodup := List.nodup_finRange _
  complete := fun c => List.mem_finRange c
  scaling := by simp [row]

/-- At rest with density `rho c` in cell `c` -/
noncomputable def still (rho : Fin 12 → ℝ) : Snapshot (Fin 12 × Fin 4 → Node ℝ StencilType.D2Q9.D StencilType.D2Q9.Q) where
  x y := { f := uniform row .bgk (rho y.1) 0, rho := 0, u := 0 }
  time := 0
  dt := 1 / 50

theorem rk_affine {E : Type*} [AddCommGroup E] [Module ℝ E] (A : E →ₗ[ℝ] E) (b : E) (h a : ℝ) (f g : E) :
    ([1, 2, 3, 4].foldl (TimeIntegration.rkStage A b h) (TimeIntegration.rkFirst A b h ((1 - a) • f + a • g))).1 =
      (1 - a) • ([1, 2, 3, 4].foldl (TimeIntegration.rkStage A b h) (TimeIntegration.rkFirst A b h f)).1 +
        a • ([1, 2, 3, 4].foldl (TimeIntegration.rkStage A b h) (TimeIntegration.rkFirst A b h g)).1 := by
  have key : ∀ (p q : E × E) (i : Fin 5), TimeIntegration.rkStage A b h ((1 - a) • p + a • q) i =
      (1 - a) • TimeIntegration.rkStage A b h p i + a • TimeIntegration.rkStage A b h q i := by
    intro p q i
    ext
    · simp only [TimeIntegration.rkStage, Prod.fst_add, Prod.snd_add, Prod.smul_fst, Prod.smul_snd, map_add, map_smul]
      module
    · simp only [TimeIntegration.rkStage, Prod.fst_add, Prod.snd_add, Prod.smul_fst, Prod.smul_snd, map_add, map_smul]
      module
  have first : TimeIntegration.rkFirst A b h ((1 - a) • f + a • g) = (1 - a) • TimeIntegration.rkFirst A b h f + a • TimeIntegration.rkFirst A b h g := by
    ext
    · simp only [TimeIntegration.rkFirst, Prod.fst_add, Prod.smul_fst, map_add, map_smul]
      module
    · simp only [TimeIntegration.rkFirst, Prod.snd_add, Prod.smul_snd, map_add, map_smul]
      module
  simp only [List.foldl_cons, List.foldl_nil, first, key]
  rfl

theorem uniform_eq (rho : ℝ) (i : Fin StencilType.D2Q9.Q) : uniform row .bgk rho (0 : Fin StencilType.D2Q9.D → ℝ) i = (StencilType.D2Q9.stencil (2 : ℝ)).weight i * rho := by
  have h := equilibrium_rest .D2Q9 .bgk (c := row.c) (viscosity := row.viscosity) (dt := row.dt) (by simp [row]) row.collision rho i
  unfold uniform
  simp only [Pi.zero_apply, zero_div]
  exact h

/-- The first collision leaves the populations as they are. -/
theorem still_collide (rho : Fin 12 → ℝ) (h : ∀ c, 1 / 10 ^ 10 < rho c) : ∃ x', collide row (still rho).x = .ok x' ∧ ∀ y, (x' y).f = ((still rho).x y).f := by
  have hmass : ∀ y, Spec.mass ((still rho).x y).f = rho y.1 := fun y =>
    (StencilType.D2Q9.conservative (viscosity := row.viscosity) (dt := row.dt) row.collision rfl row_sound.scaling .bgk).mass _
  obtain ⟨x', hx'⟩ := step_succeeds .D2Q9 row.collision (c := row.c) (viscosity := row.viscosity) (dt := row.dt) (nodes := (still rho).x) rfl
    (owned_nodup row_sound) (List.ne_nil_of_mem (mem_owned row_sound (0, 0))) (r := ⟨2, 9, .D2Q9, .mrtStandard, .bgk, .mrt, .bgk⟩) (by decide) rfl
    (fun j _ => by rw [hmass]; exact h _)
  have hc : collide row (still rho).x = .ok x' := by rw [collide, hx']
  exact ⟨x', hc, fun y => (C15_equilibrium_fixed .D2Q9 row.collision rfl row_sound.scaling rfl (owned_nodup row_sound) hx' (mem_owned row_sound y)
    (ec := .bgk) rfl (rho y.1) 0 rfl).1⟩

/-- The populations after the streaming that follows -/
noncomputable def streamed (rho : Fin 12 → ℝ) : Block .D2Q9 4 (Fin 12) :=
  ([1, 2, 3, 4].foldl (TimeIntegration.rkStage (systemMatrix row) (systemVector row) (1 / 50))
    (TimeIntegration.rkFirst (systemMatrix row) (systemVector row) (1 / 50) (populations (still rho).x))).1

theorem still_step (rho : Fin 12 → ℝ) (h : ∀ c, 1 / 10 ^ 10 < rho c) (h' : ∀ y, 1 / 10 ^ 10 < ∑ i, streamed rho i y) :
    ∃ snap, runTrajectory config (parts row) 0 (still rho) 1 = .ok snap := by
  obtain ⟨x', hx', hf⟩ := still_collide rho h
  have hp : (parts row).collide (still rho).x = .ok x' := hx'
  have hpop : populations x' = populations (still rho).x := by
    funext i y
    exact congrFun (hf y) i
  have hpro : TimeIntegration.prologue (1 / 50) (1 / 50) = .ok (1 / 50, 1 / 50) := by
    norm_num [TimeIntegration.prologue]
  have hi : integrate row (1 / 50) x' = .ok (setPopulations x' (streamed rho), 1 / 50) := by
    have hint : row.integrator = .rungeKutta5 := rfl
    simp only [integrate, step, hint, TimeIntegration.rkStep, hpro, zero_add, hpop]
    rfl
  obtain ⟨x2, hx2⟩ := step_succeeds .D2Q9 row.collision (c := row.c) (viscosity := row.viscosity) (dt := row.dt)
    (nodes := setPopulations x' (streamed rho)) rfl
    (owned_nodup row_sound) (List.ne_nil_of_mem (mem_owned row_sound (0, 0))) (r := ⟨2, 9, .D2Q9, .mrtStandard, .bgk, .mrt, .bgk⟩) (by decide) rfl
    (fun j _ => h' j)
  have hc : (parts row).collide (setPopulations x' (streamed rho)) = .ok x2 := by
    show collide row _ = _
    rw [collide, hx2]
  have hstream : Solver.stream (parts row) (0 + (0 + 1) - 0) { still rho with x := x' } =
      .ok { x := setPopulations x' (streamed rho), time := 0 + 1 / 50, dt := 1 / 50 } := by
    have hi' : (parts row).integrate (0 + (0 + 1) - 0) (1 / 50) x' = .ok (setPopulations x' (streamed rho), 1 / 50) := hi
    unfold Solver.stream
    rw [show (parts row).scheme = .sedg from rfl]
    simp only [still, hi']
    rw [if_pos (by norm_num)]
  simp only [runTrajectory, Spec.trajectory, Solver.collide, hp, advance, hstream, Solver.filter, config, Bool.false_and, Bool.false_eq_true, if_false, hc]
  exact ⟨_, rfl⟩

/-- The uniform density -/
theorem streamed_uniform (i : Fin StencilType.D2Q9.Q) (y) : streamed (fun _ => 1) i y = uniform row .bgk 1 (0 : Fin StencilType.D2Q9.D → ℝ) i := by
  have hsteady := uniform_steady row_sound rfl rfl (ec := .bgk) 1 (0 : Fin StencilType.D2Q9.D → ℝ) (fun c g q h => by
    fin_cases g <;> simp [row, rowMesh] at h) (populations (still fun _ => 1).x) fun i y => rfl
  have hpro : TimeIntegration.prologue (1 / 50) (1 / 50) = .ok (1 / 50, 1 / 50) := by
    norm_num [TimeIntegration.prologue]
  have hi : integrate row (1 / 50) (still fun _ => 1).x = .ok (setPopulations (still fun _ => 1).x (streamed fun _ => 1), 1 / 50) := by
    have hint : row.integrator = .rungeKutta5 := rfl
    simp only [integrate, step, hint, TimeIntegration.rkStep, hpro, zero_add]
    rfl
  have := integrate_steady (s := row) (fun θ solve h => by cases h) hi hsteady
  exact congrFun (congrArg Node.f (congrFun this y)) i

theorem streamed_affine (a : ℝ) (rho : Fin 12 → ℝ) : streamed ((1 - a) • (fun _ => 1) + a • rho) = (1 - a) • streamed (fun _ => 1) + a • streamed rho := by
  unfold streamed
  rw [← rk_affine]
  congr 4
  funext i y
  show uniform row .bgk ((1 - a) * 1 + a * rho y.1) (0 : Fin StencilType.D2Q9.D → ℝ) i =
    (1 - a) * uniform row .bgk 1 (0 : Fin StencilType.D2Q9.D → ℝ) i + a * uniform row .bgk (rho y.1) (0 : Fin StencilType.D2Q9.D → ℝ) i
  rw [uniform_eq, uniform_eq, uniform_eq]
  ring

/-- A row of twelve cells at rest, and the same row with a slightly higher density in the sixth cell from cell 0: both make a step, … -/
theorem bump : ∃ a : ℝ, 0 < a ∧ (∃ snap, runTrajectory config (parts row) 0 (still fun _ => 1) 1 = .ok snap) ∧
    ∃ snap, runTrajectory config (parts row) 0 (still fun c => if c = 6 then 1 + a else 1) 1 = .ok snap := by
  let rho : Fin 12 → ℝ := fun c => if c = 6 then 2 else 1
  have h1 : ∀ y, ∑ i, streamed (fun _ => 1) i y = 1 := fun y => by
    simp only [streamed_uniform]
    exact (StencilType.D2Q9.conservative (viscosity := row.viscosity) (dt := row.dt) row.collision rfl row_sound.scaling .bgk).mass _
  let m := ∑ y, |∑ i, streamed rho i y|
  have hm : ∀ y, -m ≤ ∑ i, streamed rho i y := fun y => by
    have := Finset.single_le_sum (f := fun y => |∑ i, streamed rho i y|) (fun _ _ => abs_nonneg _) (Finset.mem_univ y)
    have h2 := neg_abs_le (∑ i, streamed rho i y)
    simp only [m]
    linarith
  have hm0 : 0 ≤ m := Finset.sum_nonneg fun _ _ => abs_nonneg _
  refine ⟨1 / (4 + 4 * m), by positivity, still_step _ (fun _ => by norm_num) (fun y => by rw [h1]; norm_num), ?_⟩
  have ha : (1 / (4 + 4 * m)) * (1 + m) = 1 / 4 := by field_simp
  have ha0 : 0 < 1 / (4 + 4 * m) := by positivity
  generalize 1 / (4 + 4 * m) = a at ha ha0
  have e : (fun c : Fin 12 => if c = 6 then 1 + a else 1) = (1 - a) • (fun _ => 1) + a • rho := by
    funext c
    simp only [Pi.add_apply, Pi.smul_apply, smul_eq_mul, rho]
    split <;> ring
  refine still_step _ (fun c => ?_) fun y => ?_
  · show _ < if c = 6 then 1 + a else 1
    split
    · have : (1 : ℝ) / 10 ^ 10 < 1 := by norm_num
      linarith
    · norm_num
  · rw [e, streamed_affine]
    simp only [Pi.add_apply, Pi.smul_apply, smul_eq_mul, Finset.sum_add_distrib, ← Finset.mul_sum, h1]
    have h2 := mul_le_mul_of_nonneg_left (hm y) ha0.le
    have : (1 : ℝ) / 10 ^ 10 < 3 / 4 := by norm_num
    nlinarith

/-- … the data agree in the cells up to five faces from cell 0, … -/
theorem bump_agrees (a : ℝ) : row.mesh.AgreeWithin (5 * 1) 0 (still fun _ => 1).x (still fun c => if c = 6 then 1 + a else 1).x := by
  have key : ∀ (r : ℕ) (c e : Fin 12), rowMesh.Within r c e → ∃ j : ℕ, j ≤ 2 * r ∧ e.val = (c.val + 11 * r + j) % 12 := by
    intro r
    induction r with
    | zero =>
      intro c e h
      have h : e = c := h
      subst h
      exact ⟨0, by omega, by omega⟩
    | succ r ih =>
      intro c e h
      rcases h with h | ⟨f, c', f', hf, h⟩
      · obtain ⟨j, hj, he⟩ := ih c e h
        exact ⟨j + 1, by omega, by omega⟩
      · obtain ⟨j, hj, he⟩ := ih c' e h
        have hc : c'.val = (c.val + 11) % 12 ∨ c'.val = (c.val + 1) % 12 ∨ c'.val = c.val := by
          have h11 : (11 : Fin 12).val = 11 := rfl
          have h1 : (1 : Fin 12).val = 1 := rfl
          fin_cases f <;> simp only [rowMesh] at hf <;> cases hf
          · left; exact Fin.val_add c 11
          · right; left; exact Fin.val_add c 1
          · right; right; rfl
          · right; right; rfl
        rcases hc with hc | hc | hc
        · exact ⟨j, by omega, by omega⟩
        · exact ⟨j + 2, by omega, by omega⟩
        · exact ⟨j + 1, by omega, by omega⟩
  intro e he i
  obtain ⟨j, hj, he⟩ := key 5 0 e he
  have : e ≠ 6 := by
    rintro rfl
    have h0 : (0 : Fin 12).val = 0 := rfl
    have h6 : (6 : Fin 12).val = 6 := rfl
    omega
  simp only [still, if_neg this]

/-- … so cell 0 is the same after the step. -/
example (a : ℝ) (x' y' : Snapshot (Fin 12 × Fin 4 → Node ℝ StencilType.D2Q9.D StencilType.D2Q9.Q)) (hx : runTrajectory config (parts row) 0 (still fun _ => 1) 1 = .ok x')
    (hy : runTrajectory config (parts row) 0 (still fun c => if c = 6 then 1 + a else 1) 1 = .ok y') (i : Fin 4) : x'.x (0, i) = y'.x (0, i) :=
  ((C135_locality (s := row) (x := still fun _ => 1) (y := still fun c => if c = 6 then 1 + a else 1) (List.nodup_finRange 12) rfl (fun q hq => by cases hq) rfl rfl (0 : Fin 12)).1 1 x' y' (bump_agrees a) hx hy).1 i

end Sample
end SedgSolver
end NATriuM
