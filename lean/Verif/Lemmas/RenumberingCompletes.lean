import Verif.Props.Renumbering

/-!
# Lemmas: renumbered runs are completed
-/

namespace NATriuM

namespace Solver

variable {σ ε ι : Type*} {D : ℕ} [Fintype ι] {p p' : Parts σ ε ι D} {F : σ → σ} {G : (Fin D → ι → ℝ) → Fin D → ι → ℝ}

/-- If a step of the first run succeeds, so does the one of the other run. -/
theorem Agrees.advance_ok (h : Agrees p p' F G) {Q : σ → Prop} (hproc : ∀ q ∈ p.processors, ∀ i time x, Q (q i time x) → Q x)
    (hc : ∀ x x1, p.collide x = .ok x1 → Q x1 → ∃ x2, p'.collide (F x) = .ok x2) (cfg : RunConfig) (start i : ℕ) {s s1 : Snapshot σ}
    (hs : Solver.advance cfg p start i s = .ok s1) (hQ : Q s1.x) : Solver.advance cfg p' start i (mapSnapshot F 1 s) = .ok (mapSnapshot F 1 s1) := by
  have key := h.advance cfg start i s
  rw [hs] at key
  suffices hex : ∃ s2, Solver.advance cfg p' start i (mapSnapshot F 1 s) = .ok s2 by
    obtain ⟨s2, h2⟩ := hex
    rw [h2] at key
    have key : s2 = mapSnapshot F 1 s1 := key
    rw [h2, key]
  have hstream : Solver.stream p' (i - start) (mapSnapshot F 1 s) = (Solver.stream p (i - start) s).map (mapSnapshot F 1) := by
    unfold Solver.stream
    rw [h.scheme, h.scheme']
    simp only [mapSnapshot, one_mul]
    rw [h.integrate]
    cases p.integrate (i - start) s.dt s.x with
    | error e => rfl
    | ok r =>
      obtain ⟨x, d⟩ := r
      simp only [Except.map]
      split <;> simp only [mapSnapshot, one_mul]
  unfold Solver.advance at hs ⊢
  rw [hstream]
  cases hst : Solver.stream p (i - start) s with
  | error e => rw [hst] at hs; cases hs
  | ok s3 =>
    rw [hst] at hs
    simp only [Except.map] at hs ⊢
    have hf : Solver.filter cfg p' i (mapSnapshot F 1 s3) = mapSnapshot F 1 (Solver.filter cfg p i s3) := by
      unfold Solver.filter
      split
      · simp only [mapSnapshot, h.applyFilter]
      · rfl
    rw [hf]
    unfold Solver.collide at hs ⊢
    cases hx : p.collide (Solver.filter cfg p i s3).x with
    | error e => rw [hx] at hs; cases hs
    | ok x1 =>
      rw [hx] at hs
      simp only [Except.ok.injEq] at hs
      have hback : ∀ (l : List (ℕ → ℝ → σ → σ)), (∀ q ∈ l, q ∈ p.processors) → ∀ time x, Q (l.foldl (fun x proc => proc i time x) x) → Q x := by
        intro l
        induction l with
        | nil => intro _ _ x hx; exact hx
        | cons q l ih =>
          intro hl time x hx
          exact hproc q (hl q List.mem_cons_self) i time x (ih (fun q' hq' => hl q' (List.mem_cons_of_mem _ hq')) time _ hx)
      obtain ⟨x2, h2⟩ := hc _ _ hx (hback _ (fun _ h => h) _ x1 (by rw [← hs] at hQ; exact hQ))
      have h2 : p'.collide (mapSnapshot F 1 (Solver.filter cfg p i s3)).x = .ok x2 := h2
      rw [h2]
      exact ⟨_, rfl⟩

/-- If the first run is completed, so is the other one. -/
theorem Agrees.run_ok (h : Agrees p p' F G) {Q : σ → Prop} (hproc : ∀ q ∈ p.processors, ∀ i time x, Q (q i time x) → Q x)
    (hc : ∀ x x1, p.collide x = .ok x1 → Q x1 → ∃ x2, p'.collide (F x) = .ok x2) {cfg : RunConfig} {start : ℕ} {s : Snapshot σ}
    (hQ : ∀ k s1, runTrajectory cfg p start s k = .ok s1 → Q s1.x) {st} (hrun : Solver.run cfg p start s = .ok st) :
    ∃ st', Solver.run cfg p' start (mapSnapshot F 1 s) = .ok st' := by
  have hloop : ∀ m (st st' : RunState σ ι D), cfg.numberOfTimeSteps - st.i = m → start ≤ st.i → runTrajectory cfg p start s (st.i - start) = .ok st.snap →
      StateAgrees F G st st' → ∀ a, Solver.loop cfg p start (output cfg start) (Solver.advance cfg p start) st = .ok a →
      ∃ b, Solver.loop cfg p' start (output cfg start) (Solver.advance cfg p' start) st' = .ok b := by
    intro m
    induction m using Nat.strong_induction_on with
    | _ m ih =>
      intro st st' hm hle htr hst a ha
      obtain ⟨i0, s1, r, log⟩ := st
      obtain ⟨i, s', r', log'⟩ := st'
      obtain ⟨hi, hs, hlog, hr⟩ := hst
      simp only at hi hs hlog hr hm hle htr
      subst hi hs hlog
      obtain ⟨hb, hr2⟩ := h.stop cfg start i s1 r r' hr
      rw [Solver.loop] at ha ⊢
      simp only at ha ⊢
      by_cases hstop : (stopConditionMet cfg p start i s1 r).1 = true
      · rw [dif_pos (hb.trans hstop)]
        exact ⟨_, rfl⟩
      · rw [dif_neg hstop] at ha
        rw [dif_neg (by rw [hb]; exact hstop)]
        cases hadv : Solver.advance cfg p start (i + 1) s1 with
        | error e => rw [hadv] at ha; cases ha
        | ok s2 =>
          rw [hadv] at ha
          have htr2 : runTrajectory cfg p start s (i + 1 - start) = .ok s2 := by
            rw [show i + 1 - start = (i - start) + 1 by omega]
            simp only [runTrajectory, Spec.trajectory] at htr ⊢
            rw [htr, show start + (i - start + 1) = i + 1 by omega]
            exact hadv
          rw [h.advance_ok hproc hc cfg start (i + 1) hadv (hQ _ _ htr2)]
          have hlt := lt_of_not_stop hstop
          refine ih (cfg.numberOfTimeSteps - (i + 1)) (by omega)
            ⟨i + 1, s2, (stopConditionMet cfg p start i s1 r).2, log ++ output cfg start i false s1⟩ _ rfl (Nat.le_succ_of_le hle) htr2
            ⟨rfl, rfl, ?_, hr2⟩ a ha
          simp only [List.map_append]
          rw [mapEvent_output F 1 cfg cfg rfl rfl rfl rfl]
  unfold Solver.run Solver.collide at hrun ⊢
  cases hx : p.collide s.x with
  | error e => rw [hx] at hrun; cases hrun
  | ok x1 =>
    rw [hx] at hrun
    have htr : runTrajectory cfg p start s 0 = .ok { s with x := x1 } := by
      simp only [runTrajectory, Spec.trajectory, Solver.collide, hx]
    obtain ⟨x2, h2⟩ := hc _ _ hx (hQ _ _ htr)
    have := h.collide _ _ _ hx h2
    subst this
    have h2 : p'.collide (mapSnapshot F 1 s).x = .ok (F x1) := h2
    rw [h2]
    simp only at hrun ⊢
    have hl := hloop _ { i := start, snap := { s with x := x1 }, res := Residuals.init, log := [] }
      { i := start, snap := { mapSnapshot F 1 s with x := F x1 }, res := Residuals.init, log := [] } rfl le_rfl (by rw [Nat.sub_self]; exact htr)
      ⟨rfl, rfl, rfl, ⟨h.zero.symm, rfl⟩⟩
    revert hl hrun
    generalize Solver.loop cfg p start (output cfg start) (Solver.advance cfg p start) _ = z
    generalize Solver.loop cfg p' start (output cfg start) (Solver.advance cfg p' start) _ = z'
    intro hrun hl
    cases z with
    | error e => cases hrun
    | ok a =>
      obtain ⟨b, rfl⟩ := hl a rfl
      exact ⟨_, rfl⟩

end Solver

namespace SedgSolver

variable {t : StencilType} {n nQ nf nq : ℕ} {C : Type*} [DecidableEq C] {s s' : Setup t n nQ nf nq C}

/-- A collision without densities on the threshold succeeds for every order. -/
theorem Renumbering.collide_ok (r : Renumbering s s') (hn : s.cells.Nodup) {x x1 : C × Fin n → Node ℝ t.D t.Q} (h1 : SedgSolver.collide s x = .ok x1)
    (hb : ∀ y, Spec.mass (x y).f ≠ 1 / 10 ^ 10) : ∃ x2, SedgSolver.collide s' (r.nodes x) = .ok x2 := by
  have e1 : isothermalCollide t s.c s.viscosity s.dt s.collision false (owned s) x = .ok x1 := by
    unfold SedgSolver.collide at h1
    split at h1
    · cases h1
    · next h => cases h1; exact h
  obtain ⟨w, relax, hw, hrelax, hin, hout, j, hj, -⟩ := (isothermalCollide_ok t s.collision false _ (nodup_owned hn) x x1).mp e1
  have hm : ∀ k, k ∈ owned s' ↔ r.dofs.symm k ∈ owned s := by
    intro k
    rw [mem_owned, mem_owned, r.cells.mem_iff]
    show _ ↔ r.cell.symm k.1 ∈ _
    constructor
    · intro h
      obtain ⟨c, hc, e⟩ := List.mem_map.1 h
      rwa [← e, Equiv.symm_apply_apply]
    · intro h
      exact List.mem_map.2 ⟨_, h, Equiv.apply_symm_apply _ _⟩
  have hne : owned s' ≠ [] := by
    have hjm : j ∈ owned s := List.mem_of_getLast? hj
    have : r.dofs j ∈ owned s' := (hm _).2 (by rwa [Equiv.symm_apply_apply])
    exact List.ne_nil_of_mem this
  have e2 : isothermalCollide t s.c s.viscosity s.dt s.collision false (owned s') (r.nodes x) = .ok (r.nodes x1) := by
    refine (isothermalCollide_ok t s.collision false _ (nodup_owned (r.nodup hn)) (r.nodes x) (r.nodes x1)).mpr
      ⟨w, relax, hw, hrelax, fun k hk => hin _ ((hm k).1 hk), fun k hk => hout _ fun h => hk ((hm k).2 h), (owned s').getLast hne,
        List.getLast?_eq_getLast_of_ne_nil hne, ?_⟩
    have hlast := List.getLast_mem hne
    refine lt_of_le_of_ne (not_lt.mp (collideNode_rho _ _ _ _ _ _ (hin _ ((hm _).1 hlast))).2) (hb _).symm
  refine ⟨r.nodes x1, ?_⟩
  unfold SedgSolver.collide
  rw [r.c, r.viscosity, r.dt, r.collision, e2]

end SedgSolver
end NATriuM
