import Verif.Lemmas.Relaxation

/-!
# Property C137: repeated collisions lead to equilibrium
-/

namespace NATriuM

open Filter Topology Spec

variable {ι : Type*} [DecidableEq ι] (t : StencilType) {c viscosity dt : ℝ} (cfg : CollisionConfig t.D) {owned : List ι} {nodes : ℕ → ι → Node ℝ t.D t.Q}

theorem tau_gt (ht : t.exact = true) (hc : c ≠ 0) (hv : 0 < viscosity) (hdt : 0 < dt) (h : cfg.eq = .bgk ∨ cfg.eq = .quartic) :
    1 / 2 < (collisionData t c viscosity dt cfg).tau := by
  rw [step_tau t cfg h]
  have : 0 < (t.stencil c).cs2 := by
    cases t <;> simp only [StencilType.exact, Bool.false_eq_true] at ht
    all_goals
      simp only [StencilType.stencil, D2Q9.stencil, D3Q19.stencil, D3Q15.stencil, D3Q27.stencil, D2Q25H.stencil, D3Q13.stencil, RD3Q27.stencil]
      have := mul_self_pos.2 hc
      positivity
  have : 0 < viscosity / (dt * (t.stencil c).cs2) := by positivity
  linarith

/-- **C137** If nodes are collided again and again, without force and without streaming, their distributions tend to the equilibrium with the density
and velocity they had at the beginning: for every exact stencil, BGK, regularised and MRT collisions with every basis and choice of relaxation times,
both equilibria, every positive viscosity and time step. -/
theorem C137_equilibrium (ht : t.exact = true) (hc : c ≠ 0) (hv : 0 < viscosity) (hdt : 0 < dt) (hf : cfg.force = none) (hn : owned.Nodup)
    (h : ∀ k, isothermalCollide t c viscosity dt cfg false owned (nodes k) = .ok (nodes (k + 1))) {j : ι} (hj : j ∈ owned)
    {ec : EquilibriumClass} (hec : configuredEquilibrium cfg.eq = some ec) :
    Tendsto (fun k => (nodes k j).f) atTop (𝓝 (localEquilibrium t c viscosity dt cfg ec (nodes 0 j).f)) := by
  have hcons := fun k => step_conserves t cfg ht hc hf hn (h k) j
  have hm : ∀ k, mass (nodes k j).f = mass (nodes 0 j).f := fun k => by
    induction k with
    | zero => rfl
    | succ k ih => rw [(hcons k).1, ih]
  have hp : ∀ k a, momentum (t.stencil c).dir (nodes k j).f a = momentum (t.stencil c).dir (nodes 0 j).f a := fun k a => by
    induction k with
    | zero => rfl
    | succ k ih => rw [(hcons k).2, ih]
  obtain ⟨r, relax, hr, hx, -, -, -⟩ := (isothermalCollide_ok t cfg false owned hn _ _).mp (h 0)
  have hstep : ∀ k, (nodes (k + 1) j).f = relax (collisionData t c viscosity dt cfg) (localEquilibrium t c viscosity dt cfg ec (nodes 0 j).f) (nodes k j).f := by
    intro k
    obtain ⟨r', relax', hr', hx', h1, -, -⟩ := (isothermalCollide_ok t cfg false owned hn _ _).mp (h k)
    rw [hr] at hr'
    cases hr'
    rw [hx] at hx'
    cases hx'
    have hq := (row_facts hr).2.1 ht
    rw [hec] at hq
    have hec' := Option.some.inj hq
    have hj' := h1 j hj
    have hd := (collideNode_rho _ _ _ _ _ _ hj').2
    rw [hf] at hj'
    simp only [Option.isSome_none] at hj'
    rw [collideNode_free _ _ _ hd, Except.ok.injEq] at hj'
    rw [← hj']
    simp only [localEquilibrium, ← hec', macroOf, hm]
    congr 3
    funext a
    rw [StencilType.velocity_eq t cfg hc, calculateVelocity_eq, ← hp k, momentum_scale (t.data_e (viscosity := viscosity) (dt := dt) cfg) hc]
    field_simp
  have hpos : mass (nodes 0 j).f ≠ 0 := by
    obtain ⟨r', relax', -, -, h1, -, -⟩ := (isothermalCollide_ok t cfg false owned hn _ _).mp (h 0)
    exact (dens_pos (collideNode_rho _ _ _ _ _ _ (h1 j hj)).2).ne'
  have hce := t.conservative (viscosity := viscosity) (dt := dt) cfg ht hc ec
  refine relaxation_tends t ht hc cfg _ (tau_gt t cfg ht hc hv hdt (row_facts hr).2.2) hx hstep (fun k => ?_) fun k a => ?_
  · rw [hm, localEquilibrium, hce.mass]
  · have h2 := hce.momentum { rho := mass (nodes 0 j).f, u := fun a => momentum (t.stencil c).dir (nodes 0 j).f a / mass (nodes 0 j).f / c, T := 1 } a
    refine Eq.trans ?_ h2.symm
    have h3 := momentum_scale (t.data_e (viscosity := viscosity) (dt := dt) cfg) hc (nodes k j).f a
    rw [hp] at h3
    simp only
    rw [h3]
    field_simp

/-- **C137** With BGK collisions, each collision multiplies the distance by `1 - 1 / (ν / (dt cs²) + 1/2)`. -/
theorem C137_rate (ht : t.exact = true) (hc : c ≠ 0) (hs : cfg.scheme = .bgkStandard) (hf : cfg.force = none) (hn : owned.Nodup)
    (h : ∀ k, isothermalCollide t c viscosity dt cfg false owned (nodes k) = .ok (nodes (k + 1))) {j : ι} (hj : j ∈ owned)
    {ec : EquilibriumClass} (hec : configuredEquilibrium cfg.eq = some ec) (k : ℕ) (i : Fin t.Q) :
    (nodes k j).f i - localEquilibrium t c viscosity dt cfg ec (nodes 0 j).f i =
      (1 - 1 / (viscosity / (dt * (t.stencil c).cs2) + 1 / 2)) ^ k * ((nodes 0 j).f i - localEquilibrium t c viscosity dt cfg ec (nodes 0 j).f i) := by
  have hcons := fun k => step_conserves t cfg ht hc hf hn (h k) j
  have hm : ∀ k, mass (nodes k j).f = mass (nodes 0 j).f := fun k => by
    induction k with
    | zero => rfl
    | succ k ih => rw [(hcons k).1, ih]
  have hp : ∀ k a, momentum (t.stencil c).dir (nodes k j).f a = momentum (t.stencil c).dir (nodes 0 j).f a := fun k a => by
    induction k with
    | zero => rfl
    | succ k ih => rw [(hcons k).2, ih]
  induction k with
  | zero => simp
  | succ k ih =>
    obtain ⟨r, relax, hr, hx, h1, -, -⟩ := (isothermalCollide_ok t cfg false owned hn _ _).mp (h k)
    obtain ⟨hcl, hq, he⟩ := row_facts hr
    rw [hs] at hcl
    have hcl' : r.collisionType = .bgk := (Option.some.inj hcl).symm
    rw [hcl'] at hx
    cases hx
    have hq := hq ht
    rw [hec] at hq
    have hec' := Option.some.inj hq
    have hj' := h1 j hj
    have hd := (collideNode_rho _ _ _ _ _ _ hj').2
    rw [hf] at hj'
    simp only [Option.isSome_none] at hj'
    rw [collideNode_free _ _ _ hd, Except.ok.injEq] at hj'
    have hmac : macroOf ⟨t.velocity, t.equilibrium r.equilibriumType, bgkRelax⟩ (collisionData t c viscosity dt cfg) (nodes k j).f =
        { rho := mass (nodes 0 j).f, u := fun a => momentum (t.stencil c).dir (nodes 0 j).f a / mass (nodes 0 j).f / c, T := 1 } := by
      simp only [macroOf, hm]
      congr 1
      funext a
      rw [StencilType.velocity_eq t cfg hc, calculateVelocity_eq, ← hp k, momentum_scale (t.data_e (viscosity := viscosity) (dt := dt) cfg) hc]
      field_simp
    rw [← hj']
    simp only [hmac]
    simp only [← hec', bgkRelax, step_tau t cfg he]
    simp only [localEquilibrium] at ih ⊢
    linear_combination (1 - 1 / (viscosity / (dt * (t.stencil c).cs2) + 1 / 2)) * ih

/-- **C137** The collisions never fail if the first one can be done, so there is such a sequence from every state with densities above the threshold. -/
theorem C137_exists (ht : t.exact = true) (hc : c ≠ 0) {r : Row} {relax : Relaxation ℝ t.D t.Q} (hf : cfg.force = none) (hn : owned.Nodup) (ho : owned ≠ [])
    (hr : (isoSelection t.D).1.find? (·.applies { stencil := t, scheme := cfg.scheme, eq := cfg.eq }) = some r)
    (hx : t.relaxation cfg.mrtBasis cfg.relaxMode (collisionData t c viscosity dt cfg).tau r.collisionType = .ok relax)
    {start : ι → Node ℝ t.D t.Q} (hd : ∀ j ∈ owned, 1 / 10 ^ 10 < mass (start j).f) :
    ∃ nodes : ℕ → ι → Node ℝ t.D t.Q, nodes 0 = start ∧ ∀ k, isothermalCollide t c viscosity dt cfg false owned (nodes k) = .ok (nodes (k + 1)) := by
  have hnext : ∀ x : { x : ι → Node ℝ t.D t.Q // ∀ j ∈ owned, 1 / 10 ^ 10 < mass (x j).f },
      ∃ y : { x : ι → Node ℝ t.D t.Q // ∀ j ∈ owned, 1 / 10 ^ 10 < mass (x j).f }, isothermalCollide t c viscosity dt cfg false owned x.1 = .ok y.1 := by
    intro x
    obtain ⟨y, hy⟩ := step_succeeds t cfg hf hn ho hr hx x.2
    exact ⟨⟨y, fun j hj => by rw [(step_conserves t cfg ht hc hf hn hy j).1]; exact x.2 j hj⟩, hy⟩
  choose next hnext using hnext
  exact ⟨fun k => (Nat.rec ⟨start, hd⟩ (fun _ x => next x) k : { x : ι → Node ℝ t.D t.Q // ∀ j ∈ owned, 1 / 10 ^ 10 < mass (x j).f }).1, rfl, fun k => hnext _⟩

/-- The distributions 1, 1, …, which are not in equilibrium, tend to the equilibrium of density 9 at rest. -/
example : ∃ nodes : ℕ → Bool → Node ℝ StencilType.D2Q9.D StencilType.D2Q9.Q, nodes 0 = sampleNodes 2 9 ∧
    Tendsto (fun k => (nodes k true).f) atTop
      (𝓝 (localEquilibrium .D2Q9 2 (1 / 10) (1 / 100) (sampleConfig 2 .mrtStandard .bgk .lallemandD2Q9) .bgk (sampleNodes 2 9 true).f)) := by
  obtain ⟨nodes, h0, h⟩ := C137_exists .D2Q9 (c := 2) (viscosity := 1 / 10) (dt := 1 / 100) (sampleConfig 2 .mrtStandard .bgk .lallemandD2Q9)
    (owned := [true, false]) rfl (by norm_num) (r := ⟨2, 9, .D2Q9, .mrtStandard, .bgk, .mrt, .bgk⟩) rfl (by decide) (by decide) (by decide) rfl
    (start := sampleNodes 2 9) fun j _ => sample_mass 2 9 (by norm_num) j
  refine ⟨nodes, h0, ?_⟩
  rw [← h0]
  exact C137_equilibrium .D2Q9 _ rfl (by norm_num) (by norm_num) (by norm_num) rfl (by decide) h (by decide) rfl

end NATriuM
