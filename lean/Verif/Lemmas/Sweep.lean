import Verif.Lemmas.Collision

/-! # Helper lemmas: one node, sweep over the owned nodes, selection of the collision -/

namespace NATriuM

open Finset NATriuM.Spec

section node

variable {K : Type*} [Field K] [LinearOrder K] {D Q : ℕ}

theorem calculateDensity_ok {f : Fin Q → K} {r : K} :
    calculateDensity f = .ok r ↔ ¬ mass f < 1 / 10 ^ 10 ∧ r = mass f := by
  unfold calculateDensity mass
  split <;> simp_all [eq_comm]

theorem calculateDensity_error {f : Fin Q → K} : calculateDensity f = .error .densityTooSmall ↔ mass f < 1 / 10 ^ 10 := by
  unfold calculateDensity mass
  split <;> simp_all

/-- the macroscopic state computed at a node before forces are applied -/
def macroOf (op : Operator K D Q) (d : CollData K D Q) (f : Fin Q → K) : Macro K D :=
  { rho := mass f, u := op.velocity d f (mass f), T := 1 }

theorem collideNode_low (op : Operator K D Q) (d : CollData K D Q) (hf ini : Bool) (n : Node K D Q)
    (h : mass n.f < 1 / 10 ^ 10) : collideNode op d hf ini n = .error .densityTooSmall := by
  unfold collideNode
  rw [calculateDensity_error.mpr h]; rfl

theorem collideNode_free (op : Operator K D Q) (d : CollData K D Q) (n : Node K D Q) (h : ¬ mass n.f < 1 / 10 ^ 10) :
    collideNode op d false false n = .ok
      { f := op.relax d (op.eq d (macroOf op d n.f)) n.f, rho := mass n.f,
        u := fun j => op.velocity d n.f (mass n.f) j * d.scaling } := by
  unfold collideNode
  rw [calculateDensity_ok.mpr ⟨h, rfl⟩]; rfl

theorem collideNode_init (op : Operator K D Q) (d : CollData K D Q) (n : Node K D Q) (h : ¬ mass n.f < 1 / 10 ^ 10) :
    collideNode op d false true n = .ok
      { f := op.relax d (op.eq d { rho := mass n.f, u := fun j => n.u j / d.scaling, T := 1 }) n.f, rho := mass n.f,
        u := n.u } := by
  unfold collideNode
  rw [calculateDensity_ok.mpr ⟨h, rfl⟩]; rfl

theorem collideNode_shifting (op : Operator K D Q) (d : CollData K D Q) (n : Node K D Q) (h : ¬ mass n.f < 1 / 10 ^ 10)
    (ht : d.forceType = .shiftingVelocity) :
    collideNode op d true false n = .ok
      { f := op.relax d (op.eq d { macroOf op d n.f with
          u := fun i => op.velocity d n.f (mass n.f) i + d.tau * d.dt * d.forces i / mass n.f / d.scaling }) n.f,
        rho := mass n.f,
        u := fun j => op.velocity d n.f (mass n.f) j * d.scaling + 1 / 2 * d.dt * d.forces j / mass n.f } := by
  unfold collideNode
  rw [calculateDensity_ok.mpr ⟨h, rfl⟩]
  simp only [applyMacroscopicForces, applyForces, postCollisionApplyForces, ht]
  rfl

theorem collideNode_exact (op : Operator K D Q) (d : CollData K D Q) (n : Node K D Q) (h : ¬ mass n.f < 1 / 10 ^ 10)
    (ht : d.forceType = .exactDifference) :
    collideNode op d true false n = .ok
      { f := fun i => op.relax d (op.eq d (macroOf op d n.f)) n.f i
          + (op.eq d { macroOf op d n.f with
              u := fun j => op.velocity d n.f (mass n.f) j + d.dt * d.forces j / mass n.f / d.scaling } i
            - op.eq d (macroOf op d n.f) i),
        rho := mass n.f,
        u := fun j => op.velocity d n.f (mass n.f) j * d.scaling + 1 / 2 * d.dt * d.forces j / mass n.f } := by
  unfold collideNode
  rw [calculateDensity_ok.mpr ⟨h, rfl⟩]
  simp only [applyMacroscopicForces, applyForces, postCollisionApplyForces, ht]
  rfl

theorem collideNode_badForce (op : Operator K D Q) (d : CollData K D Q) (n : Node K D Q) (h : ¬ mass n.f < 1 / 10 ^ 10) (ini : Bool)
    (ht : d.forceType = .noForcing ∨ d.forceType = .guo) :
    ∃ err, collideNode op d true ini n = .error err ∧ (err = .forcingOff ∨ err = .notImplemented) := by
  unfold collideNode
  rw [calculateDensity_ok.mpr ⟨h, rfl⟩]
  cases ini <;> rcases ht with ht | ht <;>
    simp only [applyMacroscopicForces, applyForces, postCollisionApplyForces, ht]
  · exact ⟨_, rfl, .inl rfl⟩
  · exact ⟨_, rfl, .inr rfl⟩
  · exact ⟨_, rfl, .inl rfl⟩
  · exact ⟨_, rfl, .inr rfl⟩

/-- The stored density is the sum of the populations. -/
theorem collideNode_rho (op : Operator K D Q) (d : CollData K D Q) (hf ini : Bool) (n n' : Node K D Q)
    (h : collideNode op d hf ini n = .ok n') : n'.rho = mass n.f ∧ ¬ mass n.f < 1 / 10 ^ 10 := by
  by_cases hl : mass n.f < 1 / 10 ^ 10
  · rw [collideNode_low op d hf ini n hl] at h; cases h
  refine ⟨?_, hl⟩
  unfold collideNode at h
  rw [calculateDensity_ok.mpr ⟨hl, rfl⟩] at h
  cases hf <;> cases ini <;> cases ht : d.forceType <;>
    simp only [applyMacroscopicForces, applyForces, postCollisionApplyForces, ht, bind, Except.bind, pure, Except.pure, if_true,
      Bool.false_eq_true, if_false] at h <;> first | (cases h; rfl) | cases h

end node

section sweep

variable {K : Type*} [Field K] [LinearOrder K] {D Q : ℕ} {ι : Type*} [DecidableEq ι]

theorem foldlM_cons {σ α : Type*} (g : σ → α → Except CollError σ) (s : σ) (x : α) (xs : List α) :
    (x :: xs).foldlM g s = match g s x with | .error err => .error err | .ok s' => xs.foldlM g s' := by
  rw [List.foldlM_cons]; cases g s x <;> rfl

omit [Field K] in
/-- The loop over the owned nodes: it succeeds iff every node succeeds from its own original state. -/
theorem sweep_ok (step : Node K D Q → Except CollError (Node K D Q)) (owned : List ι) (hn : owned.Nodup)
    (s s' : SweepState K D Q ι) :
    owned.foldlM (sweepStep step) s = .ok s' ↔
      (∀ j ∈ owned, step (s.nodes j) = .ok (s'.nodes j)) ∧ (∀ j, j ∉ owned → s'.nodes j = s.nodes j) ∧
      s'.density = (owned.getLast?.map fun j => (s'.nodes j).rho).getD s.density := by
  induction owned generalizing s with
  | nil =>
    constructor
    · intro h
      cases h; simp
    · rintro ⟨-, h2, h3⟩
      have : s = s' := by
        obtain ⟨a, b⟩ := s; obtain ⟨a', b'⟩ := s'
        simp only [SweepState.mk.injEq]
        exact ⟨funext fun j => (h2 j (by simp)).symm, by simpa using h3.symm⟩
      rw [this]; rfl
  | cons x xs ih =>
    rw [List.nodup_cons] at hn
    rw [foldlM_cons]
    unfold sweepStep
    cases hx : step (s.nodes x) with
    | error err =>
      simp only
      constructor
      · intro h; cases h
      · rintro ⟨h, -⟩
        have := h x (by simp)
        rw [hx] at this; cases this
    | ok n =>
      simp only
      have := ih hn.2 { nodes := Function.update s.nodes x n, density := n.rho }
      unfold sweepStep at this
      rw [this]
      simp only
      have hxs : ∀ j ∈ xs, j ≠ x := fun j hj e => hn.1 (e ▸ hj)
      constructor
      · rintro ⟨h1, h2, h3⟩
        have hx' : s'.nodes x = n := by rw [h2 x hn.1]; simp
        refine ⟨?_, ?_, ?_⟩
        · intro j hj
          rcases List.mem_cons.mp hj with rfl | hj
          · rw [hx, hx']
          · have := h1 j hj
            rwa [Function.update_of_ne (hxs j hj)] at this
        · intro j hj
          rw [List.mem_cons, not_or] at hj
          rw [h2 j hj.2, Function.update_of_ne hj.1]
        · rw [h3]
          cases hl : xs.getLast? with
          | none =>
            rw [List.getLast?_eq_none_iff] at hl
            subst hl; simp [hx']
          | some y =>
            rw [List.getLast?_cons, hl]; simp
      · rintro ⟨h1, h2, h3⟩
        have hx' : s'.nodes x = n := by
          have := h1 x (by simp)
          rw [hx] at this; cases this; rfl
        refine ⟨?_, ?_, ?_⟩
        · intro j hj
          rw [Function.update_of_ne (hxs j hj)]
          exact h1 j (by simp [hj])
        · intro j hj
          by_cases e : j = x
          · subst e; simp [hx']
          · rw [Function.update_of_ne e]
            exact h2 j (by simp [e, hj])
        · rw [h3]
          cases hl : xs.getLast? with
          | none =>
            rw [List.getLast?_eq_none_iff] at hl
            subst hl; simp [hx']
          | some y =>
            rw [List.getLast?_cons, hl]; simp

/-- Characterisation of a successful isothermal sweep. -/
theorem collideAll_ok [IsStrictOrderedRing K] (op : Operator K D Q) (d : CollData K D Q) (hf ini : Bool) (owned : List ι) (hn : owned.Nodup)
    (nodes nodes' : ι → Node K D Q) :
    collideAll op d hf ini owned nodes = .ok nodes' ↔
      (∀ j ∈ owned, collideNode op d hf ini (nodes j) = .ok (nodes' j)) ∧ (∀ j, j ∉ owned → nodes' j = nodes j) ∧
      ∃ j, owned.getLast? = some j ∧ 1 / 10 ^ 10 < mass (nodes j).f := by
  unfold collideAll
  have hpos : (0 : K) ≤ 1 / 10 ^ 10 := by positivity
  constructor
  · intro h
    cases hs : owned.foldlM (sweepStep (collideNode op d hf ini)) { nodes := nodes, density := 0 } with
    | error err => rw [hs] at h; cases h
    | ok s' =>
      rw [hs] at h
      simp only [bind, Except.bind, pure, Except.pure] at h
      obtain ⟨h1, h2, h3⟩ := (sweep_ok _ owned hn _ _).mp hs
      split at h
      · cases h
      rename_i hd
      cases h
      refine ⟨h1, h2, ?_⟩
      cases hl : owned.getLast? with
      | none => rw [hl] at h3; simp only [Option.map_none, Option.getD_none] at h3; rw [h3] at hd; exact absurd hpos hd
      | some j =>
        refine ⟨j, rfl, ?_⟩
        rw [hl] at h3
        simp only [Option.map_some, Option.getD_some] at h3
        have hj := h1 j (List.mem_of_getLast? hl)
        rw [← (collideNode_rho op d hf ini _ _ hj).1, ← h3]
        exact not_le.mp hd
  · rintro ⟨h1, h2, j, hl, hj⟩
    have hs := (sweep_ok (collideNode op d hf ini) owned hn { nodes := nodes, density := 0 }
      { nodes := nodes', density := (nodes' j).rho }).mpr ⟨h1, h2, by rw [hl]; simp⟩
    rw [hs]
    simp only [bind, Except.bind, pure, Except.pure]
    rw [if_neg]
    rw [(collideNode_rho op d hf ini _ _ (h1 j (List.mem_of_getLast? hl))).1]
    exact not_le.mpr hj

end sweep

end NATriuM
