import Verif.Props.Collision
import Verif.Lemmas.CollisionMRT

/-!
# Properties C14 – C18, C20, C21: MRT, fixed points, forces, sweep, selection, relaxation times
-/

namespace NATriuM

open Finset NATriuM.Spec

/-! ## C14 -/

/-- **C14** For both D2Q9 bases, transforming to moments and back – in either order – is the identity. -/
theorem C14_inverse_D2Q9 {K : Type*} [Field K] [CharZero K] (b : MRTBasis) (M T : Fin 9 → Fin 9 → K) (hM : MRT.makeM9 b = .ok M)
    (hT : MRT.makeT9 b = .ok T) (f : Fin 9 → K) :
    matrixVectorProduct T (matrixVectorProduct M f) = f ∧ matrixVectorProduct M (matrixVectorProduct T f) = f := by
  cases b
  · cases hM; cases hT
    have h := inversePair_of_table (K := K) _ _ MRT.dellar_inverse
    exact ⟨mvp_mvp _ _ h.left f, mvp_mvp _ _ h.right f⟩
  · cases hM; cases hT
    have h := inversePair_of_table (K := K) _ _ MRT.lallemand_inverse
    exact ⟨mvp_mvp _ _ h.left f, mvp_mvp _ _ h.right f⟩
  · cases hM

/-- **C14** The same for D3Q19. -/
theorem C14_inverse_D3Q19 {K : Type*} [Field K] [CharZero K] (b : MRTBasis) (M T : Fin 19 → Fin 19 → K) (hM : MRT.makeM19 b = .ok M)
    (hT : MRT.makeT19 b = .ok T) (f : Fin 19 → K) :
    matrixVectorProduct T (matrixVectorProduct M f) = f ∧ matrixVectorProduct M (matrixVectorProduct T f) = f := by
  cases b
  · cases hM
  · cases hM
  · cases hM; cases hT
    have h := inversePair_of_table (K := K) _ _ MRT.dHumieres_inverse
    exact ⟨mvp_mvp _ _ h.left f, mvp_mvp _ _ h.right f⟩

/-- **C14** A successful MRT collision step conserves mass and momentum at every node, for every basis and every relaxation mode. -/
theorem C14_mrt_conserves {ι : Type*} [DecidableEq ι] (t : StencilType) {c viscosity dt : ℝ} (cfg : CollisionConfig t.D)
    {owned : List ι} {nodes nodes' : ι → Node ℝ t.D t.Q} (ht : t.exact = true) (hc : c ≠ 0) (_hs : cfg.scheme = .mrtStandard)
    (hf : cfg.force = none) (hn : owned.Nodup) (h : isothermalCollide t c viscosity dt cfg false owned nodes = .ok nodes') (j : ι) :
    mass (nodes' j).f = mass (nodes j).f ∧
      ∀ a, momentum (t.stencil c).dir (nodes' j).f a = momentum (t.stencil c).dir (nodes j).f a :=
  step_conserves t cfg ht hc hf hn h j

/-- MRT is dispatched for D2Q9 and D3Q19 only, which are exactly isotropic. -/
theorem C14_mrt_stencils (t : StencilType) (e : EquilibriumSchemeName) (r : Row)
    (h : (isoSelection t.D).1.find? (·.applies { stencil := t, scheme := .mrtStandard, eq := e }) = some r) :
    (t = .D2Q9 ∨ t = .D3Q19) ∧ e = .bgk := by
  revert h; revert r
  cases t <;> cases e <;> decide

/-- the relaxation of the sample D2Q9 configuration -/
example : ∃ nodes', isothermalCollide .D2Q9 2 (1 / 10) (1 / 100) (sampleConfig 2 .mrtStandard .bgk .lallemandD2Q9) false [true, false]
    (sampleNodes 2 9) = .ok nodes' :=
  step_succeeds .D2Q9 _ rfl (by decide) (by decide) (r := ⟨2, 9, .D2Q9, .mrtStandard, .bgk, .mrt, .bgk⟩) (by decide) rfl
    fun j _ => sample_mass 2 9 (by norm_num) j

theorem makeDiag19_ok {tau : ℝ} (h : 1 / 2 < tau) (r : RelaxMode) (hr : r ≠ .dellarRelaxOnlyN) :
    ∃ omega, MRT.makeDiag19 tau .dHumieresD3Q19 r = .ok omega := by
  unfold MRT.makeDiag19
  rw [if_neg (not_not.mpr h)]
  cases r
  · exact ⟨_, rfl⟩
  · exact absurd rfl hr
  · exact ⟨_, rfl⟩

example : ∃ nodes', isothermalCollide .D3Q19 1 (1 / 10) (1 / 100) (sampleConfig 3 .mrtStandard .bgk .dHumieresD3Q19) false
    [true, false] (sampleNodes 3 19) = .ok nodes' := by
  have htau : 1 / 2 < (collisionData .D3Q19 1 (1 / 10) (1 / 100) (sampleConfig 3 .mrtStandard .bgk .dHumieresD3Q19)).tau := by
    refine lt_of_lt_of_eq ?_ (step_tau .D3Q19 (c := 1) (viscosity := 1 / 10) (dt := 1 / 100)
      (sampleConfig 3 .mrtStandard .bgk .dHumieresD3Q19) (.inl rfl)).symm
    simp only [StencilType.stencil, D3Q19.stencil]; norm_num
  obtain ⟨omega, ho⟩ := makeDiag19_ok htau .relaxFull (by decide)
  refine step_succeeds .D3Q19 _ rfl (by decide) (by decide) (r := ⟨3, 19, .D3Q19, .mrtStandard, .bgk, .mrt, .bgk⟩) (by decide)
    (relax := mrtRelax (MRT.ofTable MRT.dHumieresM) (MRT.ofTable MRT.dHumieresT) omega) ?_ fun j _ => sample_mass 3 19 (by norm_num) j
  simp only [StencilType.relaxation, StencilType.mrtRelaxation]
  change (MRT.makeDiag19 _ MRTBasis.dHumieresD3Q19 RelaxMode.relaxFull >>= fun omega => _) = _
  rw [ho]; rfl

/-! ## C15 -/

theorem relaxation_fixed (t : StencilType) (b : MRTBasis) (r : RelaxMode) (tau : ℝ) (d : CollData ℝ t.D t.Q) (cc : CollisionClass)
    {relax : Relaxation ℝ t.D t.Q} (h : t.relaxation b r tau cc = .ok relax) (f : Fin t.Q → ℝ) : relax d f f = f := by
  cases cc
  · cases h; funext i; simp [bgkRelax]
  · cases h
    funext i
    rw [regularizedRelax_eq]
    have : regularizedPi d f f = fun _ _ => 0 := by funext a b; rw [regularizedPi_eq]; ring
    rw [this]; simp [fi1]
  · simp only [StencilType.relaxation] at h
    cases t <;> first | (exfalso; revert h; simp only [StencilType.mrtRelaxation]; intro h; cases h) | skip
    · obtain ⟨M, T, omega, -, -, -, rfl, hi, -⟩ := mrt9_cases h
      exact mrtRelax_fixed (inversePair_of_table M T hi) omega d f
    · obtain ⟨-, -, omega, -, rfl, -⟩ := mrt19_cases h
      exact mrtRelax_fixed (inversePair_of_table _ _ MRT.dHumieres_inverse) omega d f

section C15

variable {ι : Type*} [DecidableEq ι] (t : StencilType) {c viscosity dt : ℝ} (cfg : CollisionConfig t.D)
  {owned : List ι} {nodes nodes' : ι → Node ℝ t.D t.Q}

/-- **C15** A node that is exactly in the configured equilibrium – of density `ρ ≠ 0` and physical velocity `v` – is left unchanged
by a successful step of any scheme (BGK, regularized, MRT), and the step reports `ρ` and `v`. -/
theorem C15_equilibrium_fixed (ht : t.exact = true) (hc : c ≠ 0) (hf : cfg.force = none) (hn : owned.Nodup)
    (h : isothermalCollide t c viscosity dt cfg false owned nodes = .ok nodes') {j : ι} (hj : j ∈ owned)
    {ec : EquilibriumClass} (hec : configuredEquilibrium cfg.eq = some ec) (rho : ℝ) (v : Fin t.D → ℝ)
    (he : (nodes j).f = t.equilibrium ec (collisionData t c viscosity dt cfg) { rho := rho, u := fun a => v a / c, T := 1 }) :
    (nodes' j).f = (nodes j).f ∧ (nodes' j).rho = rho ∧ (nodes' j).u = v := by
  obtain ⟨r, relax, hr, hx, h1, -, -⟩ := (isothermalCollide_ok t cfg false owned hn nodes nodes').mp h
  obtain ⟨-, hq, -⟩ := row_facts hr
  have hq := hq ht
  rw [hec] at hq
  have hec' := Option.some.inj hq
  have hj' := h1 j hj
  have hd := (collideNode_rho _ _ _ _ _ _ hj').2
  rw [hf] at hj'
  simp only [Option.isSome_none] at hj'
  rw [collideNode_free _ _ _ hd, Except.ok.injEq] at hj'
  have hcons := t.conservative (viscosity := viscosity) (dt := dt) cfg ht hc ec
  have hm : mass (nodes j).f = rho := by rw [he]; exact hcons.mass _
  have hv : t.velocity (collisionData t c viscosity dt cfg) (nodes j).f rho = fun a => v a / c := by
    funext a
    rw [StencilType.velocity_eq t cfg hc, calculateVelocity_eq, he, hcons.momentum]
    have : rho ≠ 0 := hm ▸ (dens_pos hd).ne'
    simp only; field_simp
  have hmac : macroOf ⟨t.velocity, t.equilibrium r.equilibriumType, relax⟩ (collisionData t c viscosity dt cfg) (nodes j).f
      = { rho := rho, u := fun a => v a / c, T := 1 } := by
    simp only [macroOf, hm, hv]
  rw [← hj']
  refine ⟨?_, hm, ?_⟩
  · simp only
    rw [hmac, ← hec', ← he]
    exact relaxation_fixed t _ _ _ _ _ hx _
  · simp only [hm, hv, StencilType.data_scaling]
    funext a; field_simp

/-- **C15** A BGK step with `τ = 1` maps every node to its equilibrium. -/
theorem C15_tau_one (ht : t.exact = true) (hs : cfg.scheme = .bgkStandard) (hf : cfg.force = none) (hn : owned.Nodup)
    (h : isothermalCollide t c viscosity dt cfg false owned nodes = .ok nodes') (htau : viscosity / (dt * (t.stencil c).cs2) + 1 / 2 = 1)
    {j : ι} (hj : j ∈ owned) {ec : EquilibriumClass} (hec : configuredEquilibrium cfg.eq = some ec) :
    (nodes' j).f = t.equilibrium ec (collisionData t c viscosity dt cfg)
      { rho := (nodes' j).rho, u := fun a => t.velocity (collisionData t c viscosity dt cfg) (nodes j).f (nodes' j).rho a, T := 1 } := by
  obtain ⟨r, relax, hr, hx, h1, -, -⟩ := (isothermalCollide_ok t cfg false owned hn nodes nodes').mp h
  obtain ⟨hcl, hq, he⟩ := row_facts hr
  have hq := hq ht
  rw [hec] at hq
  have hec' := Option.some.inj hq
  rw [hs] at hcl
  have hcl' : r.collisionType = .bgk := (Option.some.inj hcl).symm
  rw [hcl'] at hx
  cases hx
  have hj' := h1 j hj
  have hd := (collideNode_rho _ _ _ _ _ _ hj').2
  rw [hf] at hj'
  simp only [Option.isSome_none] at hj'
  rw [collideNode_free _ _ _ hd, Except.ok.injEq] at hj'
  rw [← hj']
  funext i
  simp only [bgkRelax, step_tau t cfg he, htau, macroOf, hec']
  ring

end C15

/-! ## C16 -/

section C16

variable {ι : Type*} [DecidableEq ι] (t : StencilType) {c viscosity dt : ℝ} (cfg : CollisionConfig t.D)
  {owned : List ι} {nodes nodes' : ι → Node ℝ t.D t.Q}

/-- The effect of a force on a node: mass is unchanged, momentum changes by `s dt F`, and the reported velocity is the one half-way. -/
def ForceEffect (dir : Fin t.Q → Fin t.D → ℝ) (dt : ℝ) (F : Fin t.D → ℝ) (s : ℝ) (n n' : Node ℝ t.D t.Q) : Prop :=
  mass n'.f = mass n.f ∧ (∀ a, momentum dir n'.f a = momentum dir n.f a + s * (dt * F a)) ∧
    ∀ a, n'.u a = (momentum dir n.f a + 1 / 2 * (dt * F a)) / mass n.f

theorem step_forces (h : cfg.eq = .bgk ∨ cfg.eq = .quartic) {F : Fin t.D → ℝ} (hF : cfg.force = some F) (hft : cfg.forceType ≠ .noForcing) :
    (collisionData t c viscosity dt cfg).forces = F := by
  have : cfg.eq ≠ .steadyState := by rintro e; rw [e] at h; rcases h with h | h <;> cases h
  simp only [collisionData, CollData.mk', hF, if_neg hft, if_neg this]

theorem shifting_step (ht : t.exact = true) (hc : c ≠ 0) {F : Fin t.D → ℝ} (hF : cfg.force = some F)
    (hft : cfg.forceType = .shiftingVelocity) (hn : owned.Nodup)
    (h : isothermalCollide t c viscosity dt cfg false owned nodes = .ok nodes') {j : ι} (hj : j ∈ owned) :
    ∃ cc relax, configuredClass cfg.scheme = some cc ∧ (cfg.eq = .bgk ∨ cfg.eq = .quartic) ∧
      t.relaxation cfg.mrtBasis cfg.relaxMode (collisionData t c viscosity dt cfg).tau cc = .ok relax ∧
      ∀ w0 w, Pulls relax (collisionData t c viscosity dt cfg) w0 (fun _ => w) →
        ForceEffect t (t.stencil c).dir dt F (w * (viscosity / (dt * (t.stencil c).cs2) + 1 / 2)) (nodes j) (nodes' j) := by
  obtain ⟨r, relax, hr, hx, h1, -, -⟩ := (isothermalCollide_ok t cfg false owned hn nodes nodes').mp h
  obtain ⟨hcl, -, he⟩ := row_facts hr
  refine ⟨_, relax, hcl, he, hx, fun w0 w hp => ?_⟩
  have hj' := h1 j hj
  have hd := (collideNode_rho _ _ _ _ _ _ hj').2
  rw [hF] at hj'
  simp only [Option.isSome_some] at hj'
  rw [collideNode_shifting _ _ _ hd hft, Except.ok.injEq] at hj'
  have hcons := t.conservative (viscosity := viscosity) (dt := dt) cfg ht hc r.equilibriumType
  have hfo := step_forces t (c := c) (viscosity := viscosity) (dt := dt) cfg he hF (by rw [hft]; decide)
  have hms := momentum_scale (t.data_e (viscosity := viscosity) (dt := dt) cfg) hc
  have hpos := dens_pos hd
  rw [← hj']
  refine ⟨?_, fun a => ?_, fun a => ?_⟩
  · simp only [macroOf]
    rw [hp.mass, hcons.mass]; ring
  · rw [hms, hms, hp.momentum, hcons.momentum]
    simp only [macroOf]
    rw [StencilType.velocity_eq t cfg hc, calculateVelocity_eq, hfo, StencilType.data_scaling, step_tau t cfg he,
      show (collisionData t c viscosity dt cfg).dt = dt from rfl]
    field_simp
    ring
  · simp only
    rw [StencilType.velocity_eq t cfg hc, calculateVelocity_eq, hfo, StencilType.data_scaling, hms,
      show (collisionData t c viscosity dt cfg).dt = dt from rfl]
    ring

/-- **C16** With exact-difference forcing every collision scheme changes the momentum of a node by exactly `dt F`, keeps its mass, and
reports the velocity at half the force. -/
theorem C16_exactDifference (ht : t.exact = true) (hc : c ≠ 0) {F : Fin t.D → ℝ} (hF : cfg.force = some F)
    (hft : cfg.forceType = .exactDifference) (hn : owned.Nodup)
    (h : isothermalCollide t c viscosity dt cfg false owned nodes = .ok nodes') {j : ι} (hj : j ∈ owned) :
    ForceEffect t (t.stencil c).dir dt F 1 (nodes j) (nodes' j) := by
  obtain ⟨r, relax, hr, hx, h1, -, -⟩ := (isothermalCollide_ok t cfg false owned hn nodes nodes').mp h
  obtain ⟨-, -, he⟩ := row_facts hr
  have hj' := h1 j hj
  have hd := (collideNode_rho _ _ _ _ _ _ hj').2
  rw [hF] at hj'
  simp only [Option.isSome_some] at hj'
  rw [collideNode_exact _ _ _ hd hft, Except.ok.injEq] at hj'
  obtain ⟨w0, w1, hp⟩ := relaxation_pulls t ht hc cfg _ hx
  have hcons := t.conservative (viscosity := viscosity) (dt := dt) cfg ht hc r.equilibriumType
  have hfo := step_forces t (c := c) (viscosity := viscosity) (dt := dt) cfg he hF (by rw [hft]; decide)
  have hms := momentum_scale (t.data_e (viscosity := viscosity) (dt := dt) cfg) hc
  have hpos := dens_pos hd
  have hlin : ∀ (x y z : Fin t.Q → ℝ), mass (fun i => x i + (y i - z i)) = mass x + (mass y - mass z) := fun x y z => by
    simp only [mass, Finset.sum_add_distrib, Finset.sum_sub_distrib]
  have hlin1 : ∀ (x y z : Fin t.Q → ℝ) a, momentum (collisionData t c viscosity dt cfg).e (fun i => x i + (y i - z i)) a
      = momentum (collisionData t c viscosity dt cfg).e x a + (momentum (collisionData t c viscosity dt cfg).e y a
        - momentum (collisionData t c viscosity dt cfg).e z a) := fun x y z a => by
    simp only [momentum, ← Finset.sum_add_distrib, ← Finset.sum_sub_distrib]
    exact Finset.sum_congr rfl fun i _ => by ring
  rw [← hj']
  refine ⟨?_, fun a => ?_, fun a => ?_⟩
  · simp only [macroOf]
    rw [hlin, hp.mass, hcons.mass, hcons.mass]; ring
  · rw [hms, hms, hlin1, hp.momentum, hcons.momentum, hcons.momentum]
    simp only [macroOf]
    rw [StencilType.velocity_eq t cfg hc, calculateVelocity_eq, hfo, StencilType.data_scaling,
      show (collisionData t c viscosity dt cfg).dt = dt from rfl]
    field_simp
    ring
  · simp only
    rw [StencilType.velocity_eq t cfg hc, calculateVelocity_eq, hfo, StencilType.data_scaling, hms,
      show (collisionData t c viscosity dt cfg).dt = dt from rfl]
    ring

/-- **C16** With shifted-velocity forcing the BGK scheme changes the momentum of a node by exactly `dt F` and keeps its mass. -/
theorem C16_shifting_bgk (ht : t.exact = true) (hc : c ≠ 0) {F : Fin t.D → ℝ} (hF : cfg.force = some F)
    (hft : cfg.forceType = .shiftingVelocity) (hs : cfg.scheme = .bgkStandard)
    (htau : viscosity / (dt * (t.stencil c).cs2) + 1 / 2 ≠ 0) (hn : owned.Nodup)
    (h : isothermalCollide t c viscosity dt cfg false owned nodes = .ok nodes') {j : ι} (hj : j ∈ owned) :
    ForceEffect t (t.stencil c).dir dt F 1 (nodes j) (nodes' j) := by
  obtain ⟨cc, relax, hcl, he, hx, hp⟩ := shifting_step t cfg ht hc hF hft hn h hj
  rw [hs] at hcl; cases hcl; cases hx
  have := hp _ _ (bgk_pulls _)
  rwa [step_tau t cfg he, one_div_mul_cancel htau] at this

theorem Pulls.congr {K : Type*} [Field K] {D Q : ℕ} {relax : Relaxation K D Q} {d : CollData K D Q} {w0 : K} {w1 w1' : Fin D → K}
    (h : Pulls relax d w0 w1) (e : ∀ a, w1 a = w1' a) : Pulls relax d w0 w1' := by
  rw [← funext e]; exact h

theorem mrt_full_pulls (hc : c ≠ 0) (hr : cfg.relaxMode ≠ .relaxDHumieresPaper) {relax : Relaxation ℝ t.D t.Q}
    (hx : t.relaxation cfg.mrtBasis cfg.relaxMode (collisionData t c viscosity dt cfg).tau .mrt = .ok relax) :
    ∃ w0, Pulls relax (collisionData t c viscosity dt cfg) w0 fun _ => 1 / (collisionData t c viscosity dt cfg).tau := by
  simp only [StencilType.relaxation] at hx
  cases t <;> first | (exfalso; revert hx; simp only [StencilType.mrtRelaxation]; intro h; cases h) | skip
  · obtain ⟨M, T, omega, -, -, -, rfl, hi, hrow, -, h1⟩ := mrt9_cases hx
    exact ⟨_, (mrt_pulls (inversePair_of_table M T hi) (D2Q9_rows (viscosity := viscosity) (dt := dt) hc cfg hrow) omega).congr h1⟩
  · obtain ⟨-, -, omega, -, rfl, ⟨-, -, h1⟩ | ⟨h1, -⟩⟩ := mrt19_cases hx
    · exact ⟨_, (mrt_pulls (inversePair_of_table _ _ MRT.dHumieres_inverse) (D3Q19_rows (viscosity := viscosity) (dt := dt) hc cfg)
        omega).congr h1⟩
    · exact absurd h1 hr

/-- **C16** … and so does the MRT scheme, except in the relaxation mode of the d'Humières paper. -/
theorem C16_shifting_mrt_partial (ht : t.exact = true) (hc : c ≠ 0) {F : Fin t.D → ℝ} (hF : cfg.force = some F)
    (hft : cfg.forceType = .shiftingVelocity) (hs : cfg.scheme = .mrtStandard) (hr : cfg.relaxMode ≠ .relaxDHumieresPaper)
    (htau : viscosity / (dt * (t.stencil c).cs2) + 1 / 2 ≠ 0) (hn : owned.Nodup)
    (h : isothermalCollide t c viscosity dt cfg false owned nodes = .ok nodes') {j : ι} (hj : j ∈ owned) :
    ForceEffect t (t.stencil c).dir dt F 1 (nodes j) (nodes' j) := by
  obtain ⟨cc, relax, hcl, he, hx, hp⟩ := shifting_step t cfg ht hc hF hft hn h hj
  rw [hs] at hcl; cases hcl
  obtain ⟨w0, hpull⟩ := mrt_full_pulls t cfg hc hr hx
  have := hp _ _ hpull
  rwa [step_tau t cfg he, one_div_mul_cancel htau] at this

/-- **C16 fails** for the relaxation mode of the d'Humières paper with shifted-velocity forcing: the momentum does not change at all. -/
theorem C16_shifting_mrt_paper (hc : c ≠ 0) (cfg : CollisionConfig 3) {nodes nodes' : ι → Node ℝ 3 19} {F : Fin 3 → ℝ}
    (hF : cfg.force = some F) (hft : cfg.forceType = .shiftingVelocity) (hs : cfg.scheme = .mrtStandard)
    (hr : cfg.relaxMode = .relaxDHumieresPaper) (hn : owned.Nodup)
    (h : isothermalCollide .D3Q19 c viscosity dt cfg false owned nodes = .ok nodes') {j : ι} (hj : j ∈ owned) :
    ForceEffect .D3Q19 (StencilType.D3Q19.stencil c).dir dt F 0 (nodes j) (nodes' j) := by
  obtain ⟨cc, relax, hcl, he, hx, hp⟩ := shifting_step .D3Q19 cfg rfl hc hF hft hn h hj
  rw [hs] at hcl; cases hcl
  obtain ⟨-, -, omega, -, rfl, ⟨h1, -⟩ | ⟨-, -, h1⟩⟩ := mrt19_cases hx
  · rw [hr] at h1; cases h1
  · have := hp _ 0 ((mrt_pulls (inversePair_of_table _ _ MRT.dHumieres_inverse)
      (D3Q19_rows (viscosity := viscosity) (dt := dt) hc cfg) omega).congr h1)
    rw [zero_mul] at this
    exact this

/-- **C16 fails** for the regularized scheme with shifted-velocity forcing: the momentum changes by `τ dt F`. -/
theorem C16_shifting_regularized (ht : t.exact = true) (hc : c ≠ 0) {F : Fin t.D → ℝ} (hF : cfg.force = some F)
    (hft : cfg.forceType = .shiftingVelocity) (hs : cfg.scheme = .bgkRegularized) (hn : owned.Nodup)
    (h : isothermalCollide t c viscosity dt cfg false owned nodes = .ok nodes') {j : ι} (hj : j ∈ owned) :
    ForceEffect t (t.stencil c).dir dt F (viscosity / (dt * (t.stencil c).cs2) + 1 / 2) (nodes j) (nodes' j) := by
  obtain ⟨cc, relax, hcl, he, hx, hp⟩ := shifting_step t cfg ht hc hF hft hn h hj
  rw [hs] at hcl; cases hcl; cases hx
  have := hp _ _ (regularized_pulls (t.data_iso5 cfg ht hc).toIso4)
  rwa [one_mul] at this

/-- A factor other than one contradicts C16 as soon as the force does not vanish. -/
theorem ForceEffect_unique {dir : Fin t.Q → Fin t.D → ℝ} {F : Fin t.D → ℝ} {s s' : ℝ} {n n' : Node ℝ t.D t.Q}
    (h : ForceEffect t dir dt F s n n') (h' : ForceEffect t dir dt F s' n n') {a : Fin t.D} (hF : dt * F a ≠ 0) : s = s' := by
  have h1 := h.2.1 a
  have h2 := h'.2.1 a
  exact mul_right_cancel₀ hF (by linarith)

/-- … hence a regularized step with `τ ≠ 1` does not inject `dt F`. -/
theorem C16_regularized_wrong (ht : t.exact = true) (hc : c ≠ 0) {F : Fin t.D → ℝ} (hF : cfg.force = some F)
    (hft : cfg.forceType = .shiftingVelocity) (hs : cfg.scheme = .bgkRegularized) (hn : owned.Nodup)
    (h : isothermalCollide t c viscosity dt cfg false owned nodes = .ok nodes') {j : ι} (hj : j ∈ owned)
    (htau : viscosity / (dt * (t.stencil c).cs2) + 1 / 2 ≠ 1) {a : Fin t.D} (ha : dt * F a ≠ 0) :
    ¬ ForceEffect t (t.stencil c).dir dt F 1 (nodes j) (nodes' j) := fun h' =>
  htau (ForceEffect_unique t (C16_shifting_regularized t cfg ht hc hF hft hs hn h hj) h' ha)

/-- A forced step succeeds with both supported forcing schemes. -/
theorem forced_step_succeeds {r : Row} {relax : Relaxation ℝ t.D t.Q} {F : Fin t.D → ℝ} (hF : cfg.force = some F)
    (hft : cfg.forceType = .shiftingVelocity ∨ cfg.forceType = .exactDifference) (hn : owned.Nodup) (ho : owned ≠ [])
    (hr : (isoSelection t.D).1.find? (·.applies { stencil := t, scheme := cfg.scheme, eq := cfg.eq }) = some r)
    (hx : t.relaxation cfg.mrtBasis cfg.relaxMode (collisionData t c viscosity dt cfg).tau r.collisionType = .ok relax)
    (hd : ∀ j ∈ owned, 1 / 10 ^ 10 < mass (nodes j).f) :
    ∃ nodes', isothermalCollide t c viscosity dt cfg false owned nodes = .ok nodes' := by
  let op : Operator ℝ t.D t.Q := { velocity := t.velocity, eq := t.equilibrium r.equilibriumType, relax := relax }
  have hex : ∀ j, j ∈ owned → ∃ n', collideNode op (collisionData t c viscosity dt cfg) cfg.force.isSome false (nodes j) = .ok n' := by
    intro j hj
    rw [hF]
    rcases hft with e | e
    · exact ⟨_, collideNode_shifting op _ _ (not_lt.mpr (hd j hj).le) e⟩
    · exact ⟨_, collideNode_exact op _ _ (not_lt.mpr (hd j hj).le) e⟩
  choose g hg using hex
  refine ⟨fun j => if hj : j ∈ owned then g j hj else nodes j,
    (isothermalCollide_ok t cfg false owned hn nodes _).mpr ⟨r, relax, hr, hx, ?_, ?_, ?_⟩⟩
  · intro j hj
    simp only [dif_pos hj]
    exact hg j hj
  · intro j hj
    simp only [dif_neg hj]
  · exact ⟨owned.getLast ho, List.getLast?_eq_getLast_of_ne_nil ho, hd _ (List.getLast_mem ho)⟩

end C16

/-- The hypotheses of the C16 theorems are met (here: those of `C16_regularized_wrong`, on two nodes with `τ = 80.5`). -/
example : ∃ nodes', isothermalCollide .D2Q9 1 1 (3 / 80)
    { scheme := .bgkRegularized, eq := .bgk, mrtBasis := .dellarD2Q9, relaxMode := .relaxFull, forceType := .shiftingVelocity,
      gamma := 1, force := some ![1, 0] } false [true, false] (sampleNodes 2 9) = .ok nodes' :=
  forced_step_succeeds .D2Q9 _ rfl (.inl rfl) (by decide) (by decide) (r := ⟨2, 9, .D2Q9, .bgkRegularized, .bgk, .regularized, .bgk⟩)
    (by decide) rfl fun j _ => sample_mass 2 9 (by norm_num) j

example : (1 : ℝ) / (3 / 80 * (StencilType.D2Q9.stencil 1).cs2) + 1 / 2 ≠ 1 := by
  simp only [StencilType.stencil, D2Q9.stencil]; norm_num

/-! ## C17 -/

section C17

variable {K : Type*} [Field K] [LinearOrder K] [IsStrictOrderedRing K] {D Q : ℕ} {ι : Type*} [DecidableEq ι]
  (op : Operator K D Q) (d : CollData K D Q)

/-- **C17** A sweep that succeeds has collided each owned node with its own state before the sweep and left all other nodes untouched. -/
theorem C17_sweep_local (hf ini : Bool) {owned : List ι} (hn : owned.Nodup) {nodes nodes' : ι → Node K D Q}
    (h : collideAll op d hf ini owned nodes = .ok nodes') (j : ι) :
    (j ∈ owned → collideNode op d hf ini (nodes j) = .ok (nodes' j)) ∧ (j ∉ owned → nodes' j = nodes j) := by
  obtain ⟨h1, h2, -⟩ := (collideAll_ok op d hf ini owned hn nodes nodes').mp h
  exact ⟨h1 j, h2 j⟩

/-- **C17** (partial: at least one node, no node of density exactly `1e-10`) The sweep without force fails exactly if some owned node has
a density below `1e-10`. -/
theorem C17_sweep_fails_iff_partial {owned : List ι} (hn : owned.Nodup) (ho : owned ≠ []) (nodes : ι → Node K D Q)
    (hb : ∀ j ∈ owned, mass (nodes j).f ≠ 1 / 10 ^ 10) :
    (∀ nodes', collideAll op d false false owned nodes ≠ .ok nodes') ↔ ∃ j ∈ owned, mass (nodes j).f < 1 / 10 ^ 10 := by
  constructor
  · intro h
    by_contra hcon
    push Not at hcon
    refine h (fun j => if j ∈ owned then
        { f := op.relax d (op.eq d (macroOf op d (nodes j).f)) (nodes j).f, rho := mass (nodes j).f,
          u := fun a => op.velocity d (nodes j).f (mass (nodes j).f) a * d.scaling }
      else nodes j) ((collideAll_ok op d false false owned hn nodes _).mpr ⟨?_, ?_, ?_⟩)
    · intro j hj
      simp only [if_pos hj]
      exact collideNode_free op d _ (not_lt.mpr (hcon j hj))
    · intro j hj
      simp only [if_neg hj]
    · exact ⟨owned.getLast ho, List.getLast?_eq_getLast_of_ne_nil ho,
        lt_of_le_of_ne (hcon _ (List.getLast_mem ho)) (hb _ (List.getLast_mem ho)).symm⟩
  · rintro ⟨j, hj, hlt⟩ nodes' h
    have := (collideAll_ok op d false false owned hn nodes nodes').mp h |>.1 j hj
    exact (collideNode_rho op d false false _ _ this).2 hlt

/-- **C17** (partial: no node of density exactly `1e-10`) The outcome of a sweep does not depend on the order of the nodes. -/
theorem C17_sweep_order_partial (hf ini : Bool) {owned owned' : List ι} (hn : owned.Nodup) (hp : owned.Perm owned')
    (nodes nodes' : ι → Node K D Q) (hb : ∀ j ∈ owned, mass (nodes j).f ≠ 1 / 10 ^ 10) :
    collideAll op d hf ini owned nodes = .ok nodes' ↔ collideAll op d hf ini owned' nodes = .ok nodes' := by
  have aux : ∀ l l' : List ι, l.Nodup → l.Perm l' → (∀ j ∈ l, mass (nodes j).f ≠ 1 / 10 ^ 10) →
      collideAll op d hf ini l nodes = .ok nodes' → collideAll op d hf ini l' nodes = .ok nodes' := by
    intro l l' hl hll hbl h
    obtain ⟨h1, h2, j, hj, -⟩ := (collideAll_ok op d hf ini l hl nodes nodes').mp h
    refine (collideAll_ok op d hf ini l' (hll.nodup_iff.mp hl) nodes nodes').mpr
      ⟨fun j hj => h1 j (hll.mem_iff.mpr hj), fun j hj => h2 j (fun h => hj (hll.mem_iff.mp h)), ?_⟩
    have hne : l' ≠ [] := fun e => by
      rw [e, List.perm_nil] at hll; rw [hll] at hj; cases hj
    have hm := hll.mem_iff.mpr (List.getLast_mem hne)
    refine ⟨l'.getLast hne, List.getLast?_eq_getLast_of_ne_nil hne, lt_of_le_of_ne ?_ (hbl _ hm).symm⟩
    exact not_lt.mp (collideNode_rho op d hf ini _ _ (h1 _ hm)).2
  exact ⟨aux owned owned' hn hp hb,
    aux owned' owned (hp.nodup_iff.mp hn) hp.symm fun j hj => hb j (hp.mem_iff.mpr hj)⟩

/-- **C17 fails** for a processor without nodes: the sweep over the empty set raises `DensityZeroException`. -/
theorem C17_sweep_empty_fails (hf ini : Bool) (nodes : ι → Node K D Q) :
    collideAll op d hf ini [] nodes = .error .densityZero := by
  have : (0 : K) ≤ 1 / 10 ^ 10 := by positivity
  simp only [collideAll, List.foldlM_nil]
  change (if (0 : K) ≤ 1 / 10 ^ 10 then _ else _) = _
  rw [if_pos this]

/-- **C17 fails** on the boundary: of two admissible nodes, one of density exactly `1e-10`, the sweep succeeds or fails depending on
the order. -/
theorem C17_sweep_order_dependent (nodes : ι → Node K D Q) {i j : ι} (hij : i ≠ j) (hi : mass (nodes i).f = 1 / 10 ^ 10)
    (hj : 1 / 10 ^ 10 < mass (nodes j).f) :
    (∃ nodes', collideAll op d false false [i, j] nodes = .ok nodes') ∧
      ∀ nodes', collideAll op d false false [j, i] nodes ≠ .ok nodes' := by
  constructor
  · refine ⟨fun k => if k ∈ [i, j] then
        { f := op.relax d (op.eq d (macroOf op d (nodes k).f)) (nodes k).f, rho := mass (nodes k).f,
          u := fun a => op.velocity d (nodes k).f (mass (nodes k).f) a * d.scaling }
      else nodes k, (collideAll_ok op d false false [i, j] (by simp [hij]) nodes _).mpr ⟨?_, ?_, j, rfl, hj⟩⟩
    · intro k hk
      simp only [if_pos hk]
      refine collideNode_free op d _ (not_lt.mpr ?_)
      rcases List.mem_cons.mp hk with rfl | hk
      · exact hi.ge
      · rw [List.mem_singleton] at hk; subst hk; exact hj.le
    · intro k hk
      simp only [if_neg hk]
  · intro nodes' h
    obtain ⟨-, -, k, hk, hlt⟩ := (collideAll_ok op d false false [j, i] (by simp [hij.symm]) nodes nodes').mp h
    cases hk
    exact absurd hi hlt.ne'

end C17

/-- The hypotheses of the C17 theorems are met. -/
example : [true, false].Nodup ∧ [true, false].Perm [false, true] ∧ ∀ j ∈ [true, false], mass (sampleNodes 2 9 j).f ≠ 1 / 10 ^ 10 :=
  ⟨by decide, List.Perm.swap _ _ _, fun j _ => (sample_mass 2 9 (by norm_num) j).ne'⟩

/-! ## C18 -/

/-- **C18** For every configuration the selection either performs exactly one sweep – always the same kind for a given configuration –
or raises an exception without touching anything. -/
theorem C18_exactly_one (comp : Bool) (D : ℕ) (cfg : SelectionConfig) :
    let sel := if comp then compSelection D else isoSelection D
    (∃ cc ec, ∀ (σ : Type) (sweep : CollisionClass → EquilibriumClass → σ → Except CollError σ) (s : σ),
      selectCollision sel.1 sel.2 sweep cfg s = sweep cc ec s) ∨
    ∀ (σ : Type) (sweep : CollisionClass → EquilibriumClass → σ → Except CollError σ) (s : σ),
      selectCollision sel.1 sel.2 sweep cfg s = .error .noCollision := by
  intro sel
  have hx : Exclusive sel.1 := by
    simp only [sel]; split
    · exact compSelection_exclusive D
    · exact isoSelection_exclusive D
  cases h : sel.1.find? (·.applies cfg) with
  | none => exact .inr fun σ sweep s => by rw [selectCollision_eq sweep _ hx, h]
  | some r => exact .inl ⟨_, _, fun σ sweep s => by rw [selectCollision_eq sweep _ hx, h]⟩

/-- The configurations for which the dispatched classes differ from the configured ones. -/
def misdispatched (comp : Bool) (cfg : SelectionConfig) : Bool :=
  if comp then cfg.stencil = .D2Q25H ∧ cfg.scheme = .bgkRegularized
  else (cfg.stencil = .D3Q45 ∨ cfg.stencil = .D3Q77) ∧ cfg.eq = .quartic

theorem rows_configured : ∀ comp : Bool, ∀ D, ∀ r ∈ (if comp then compSelection D else isoSelection D).1,
    misdispatched comp { stencil := r.stencil, scheme := r.scheme, eq := r.eq } = false →
    configuredClass r.scheme = some r.collisionType ∧ configuredEquilibrium r.eq = some r.equilibriumType := by
  intro comp D
  cases comp
  · simp only [Bool.false_eq_true, if_false]; unfold isoSelection; split <;> decide
  · simp only [if_true]; unfold compSelection; split <;> decide

/-- **C18** (partial: all configurations but three) The sweep is performed with the configured scheme and the configured equilibrium, or
an exception is raised. -/
theorem C18_configured_partial (comp : Bool) (D : ℕ) (cfg : SelectionConfig) (hm : misdispatched comp cfg = false) :
    let sel := if comp then compSelection D else isoSelection D
    (∃ cc ec, configuredClass cfg.scheme = some cc ∧ configuredEquilibrium cfg.eq = some ec ∧
      ∀ (σ : Type) (sweep : CollisionClass → EquilibriumClass → σ → Except CollError σ) (s : σ),
        selectCollision sel.1 sel.2 sweep cfg s = sweep cc ec s) ∨
    ∀ (σ : Type) (sweep : CollisionClass → EquilibriumClass → σ → Except CollError σ) (s : σ),
      selectCollision sel.1 sel.2 sweep cfg s = .error .noCollision := by
  intro sel
  have hx : Exclusive sel.1 := by
    simp only [sel]; split
    · exact compSelection_exclusive D
    · exact isoSelection_exclusive D
  cases h : sel.1.find? (·.applies cfg) with
  | none => exact .inr fun σ sweep s => by rw [selectCollision_eq sweep _ hx, h]
  | some r =>
    have ha := List.find?_some h
    rw [applies_iff] at ha
    obtain ⟨st, sc, eq⟩ := cfg
    simp only at ha
    obtain ⟨rfl, rfl, rfl⟩ := ha
    obtain ⟨h1, h2⟩ := rows_configured comp D r (List.mem_of_find?_eq_some h) hm
    exact .inl ⟨_, _, h1, h2, fun σ sweep s => by rw [selectCollision_eq sweep _ hx, h]⟩

/-- **C18 fails** for the three other configurations: the isothermal quartic schemes of D3Q45 and D3Q77 run with the second-order BGK
equilibrium, and the compressible regularized scheme of D2Q25H runs the plain BGK collision. -/
theorem C18_misdispatched {σ : Type} (sweep : CollisionClass → EquilibriumClass → σ → Except CollError σ) (s : σ) :
    selectCollision (isoSelection 3).1 (isoSelection 3).2 sweep ⟨.D3Q45, .bgkStandard, .quartic⟩ s = sweep .bgk .bgk s ∧
    selectCollision (isoSelection 3).1 (isoSelection 3).2 sweep ⟨.D3Q77, .bgkStandard, .quartic⟩ s = sweep .bgk .bgk s ∧
    selectCollision (compSelection 2).1 (compSelection 2).2 sweep ⟨.D2Q25H, .bgkRegularized, .bgk⟩ s = sweep .bgk .bgk s := by
  refine ⟨?_, ?_, ?_⟩
  · rw [selectCollision_eq sweep _ (isoSelection_exclusive 3)]; rfl
  · rw [selectCollision_eq sweep _ (isoSelection_exclusive 3)]; rfl
  · rw [selectCollision_eq sweep _ (compSelection_exclusive 2)]; rfl

/-- A configuration that is dispatched, and one that is refused. -/
example {σ : Type} (sweep : CollisionClass → EquilibriumClass → σ → Except CollError σ) (s : σ) :
    selectCollision (isoSelection 2).1 (isoSelection 2).2 sweep ⟨.D2Q9, .mrtStandard, .bgk⟩ s = sweep .mrt .bgk s ∧
    selectCollision (isoSelection 2).1 (isoSelection 2).2 sweep ⟨.D2Q9, .mrtStandard, .quartic⟩ s = .error .noCollision := by
  constructor
  · rw [selectCollision_eq sweep _ (isoSelection_exclusive 2)]; rfl
  · rw [selectCollision_eq sweep _ (isoSelection_exclusive 2)]; rfl

/-! ## C20 (collision data) -/

section C20

variable {K : Type*} [Field K] [LinearOrder K] [IsStrictOrderedRing K] {D Q : ℕ} (S : Stencil K D Q)

/-- **C20** The relaxation time handed to the collision reproduces the configured viscosity, `ν = cs² dt (τ - 1/2)`, and exceeds `1/2`
for positive viscosity; for the preconditioned scheme `ν = γ cs² dt (τ - 1/2)`. -/
theorem C20_tau (viscosity dt gamma : K) (eqs : EquilibriumSchemeName) (ft : ForceType) (F : Option (Fin D → K)) (hdt : 0 < dt)
    (hcs : 0 < S.cs2) :
    let d := CollData.mk' S viscosity dt eqs gamma ft F
    (eqs ≠ .steadyState → S.cs2 * dt * (d.tau - 1 / 2) = viscosity ∧ (0 < viscosity → 1 / 2 < d.tau)) ∧
    (eqs = .steadyState → 0 < gamma → gamma * S.cs2 * dt * (d.tau - 1 / 2) = viscosity ∧ (0 < viscosity → 1 / 2 < d.tau)) := by
  refine ⟨fun h => ?_, fun h hg => ?_⟩
  · simp only [CollData.mk', if_neg h, calculateTauFromNu]
    exact ⟨by field_simp; ring, fun hv => by have : 0 < viscosity / (dt * S.cs2) := by positivity
                                             linarith⟩
  · simp only [CollData.mk', if_pos h, calculateTauFromNuAndGamma]
    exact ⟨by field_simp; ring, fun hv => by have : 0 < viscosity / (gamma * dt * S.cs2) := by positivity
                                             linarith⟩

/-- **C20** Changing the time step (the collision data are rebuilt in every step) leaves the viscosity of the collision unchanged. -/
theorem C20_tau_dt (viscosity dt dt' gamma : K) (eqs : EquilibriumSchemeName) (ft : ForceType) (F : Option (Fin D → K)) (hdt : 0 < dt)
    (hdt' : 0 < dt') (hcs : 0 < S.cs2) (hs : eqs ≠ .steadyState) :
    S.cs2 * dt * ((CollData.mk' S viscosity dt eqs gamma ft F).tau - 1 / 2)
      = S.cs2 * dt' * ((CollData.mk' S viscosity dt' eqs gamma ft F).tau - 1 / 2) := by
  rw [((C20_tau S viscosity dt gamma eqs ft F hdt hcs).1 hs).1, ((C20_tau S viscosity dt' gamma eqs ft F hdt' hcs).1 hs).1]

example : (CollData.mk' (D2Q9.stencil (1 : ℚ)) (1 / 6) (1 / 2) .bgk 1 .noForcing none).tau = 3 / 2 := by
  simp [CollData.mk', calculateTauFromNu, D2Q9.stencil]; norm_num

end C20

/-! ## C21 -/

/-- **C21** Full relaxation, D2Q9: the ghost moments (rows 6, 7, 8 of either basis) get their equilibrium values. -/
theorem C21_ghosts_D2Q9_partial {K : Type*} [Field K] [CharZero K] (tau : K) (b : MRTBasis) (M T : Fin 9 → Fin 9 → K) (omega : Fin 9 → K)
    (hM : MRT.makeM9 b = .ok M) (hT : MRT.makeT9 b = .ok T) (ho : MRT.makeDiag9 tau b .relaxFull = .ok omega)
    (d : CollData K 2 9) (feq f : Fin 9 → K) (k : Fin 9) (hk : 6 ≤ k) :
    matrixVectorProduct M (mrtRelax M T omega d feq f) k = matrixVectorProduct M feq k := by
  have key : InversePair M T ∧ omega k = 1 := by
    cases b
    · cases hM; cases hT; cases ho
      refine ⟨inversePair_of_table _ _ MRT.dellar_inverse, ?_⟩
      fin_cases k <;> first | rfl | exact absurd hk (by decide)
    · cases hM; cases hT; cases ho
      refine ⟨inversePair_of_table _ _ MRT.lallemand_inverse, ?_⟩
      fin_cases k <;> first | rfl | exact absurd hk (by decide)
    · cases hM
  rw [mrtRelax_moment key.1, key.2]; ring

/-- The ghost rows of the d'Humières basis. -/
def dHumieresGhosts : List (Fin 19) := [2, 4, 6, 8, 10, 12, 16, 17, 18]

/-- **C21** Full relaxation, D3Q19: the ghost moments get their equilibrium values. -/
theorem C21_ghosts_D3Q19_partial {K : Type*} [Field K] [LinearOrder K] [IsStrictOrderedRing K] (tau : K) (b : MRTBasis) (M T : Fin 19 → Fin 19 → K)
    (omega : Fin 19 → K) (hM : MRT.makeM19 b = .ok M) (hT : MRT.makeT19 b = .ok T) (ho : MRT.makeDiag19 tau b .relaxFull = .ok omega)
    (d : CollData K 3 19) (feq f : Fin 19 → K) (k : Fin 19) (hk : k ∈ dHumieresGhosts) :
    matrixVectorProduct M (mrtRelax M T omega d feq f) k = matrixVectorProduct M feq k := by
  have key : InversePair M T ∧ omega k = 1 := by
    cases b
    · cases hM
    · cases hM
    · cases hM; cases hT
      refine ⟨inversePair_of_table _ _ MRT.dHumieres_inverse, ?_⟩
      unfold MRT.makeDiag19 at ho
      split at ho
      · cases ho
      · cases ho
        fin_cases k <;> first | rfl | exact absurd hk (by decide)
  rw [mrtRelax_moment key.1, key.2]; ring

section stress

variable {ι : Type*} [DecidableEq ι] (t : StencilType) {c viscosity dt : ℝ} (cfg : CollisionConfig t.D)
  {owned : List ι} {nodes nodes' : ι → Node ℝ t.D t.Q}

theorem mrt_flux_rate (hc : c ≠ 0) (hr : cfg.relaxMode ≠ .relaxDHumieresPaper) {relax : Relaxation ℝ t.D t.Q}
    (hx : t.relaxation cfg.mrtBasis cfg.relaxMode (collisionData t c viscosity dt cfg).tau .mrt = .ok relax) (feq f : Fin t.Q → ℝ)
    (a b : Fin t.D) :
    momentumFlux (collisionData t c viscosity dt cfg).e (relax (collisionData t c viscosity dt cfg) feq f) a b
      = momentumFlux (collisionData t c viscosity dt cfg).e f a b - 1 / (collisionData t c viscosity dt cfg).tau
        * (momentumFlux (collisionData t c viscosity dt cfg).e f a b - momentumFlux (collisionData t c viscosity dt cfg).e feq a b) := by
  simp only [StencilType.relaxation] at hx
  cases t <;> first | (exfalso; revert hx; simp only [StencilType.mrtRelaxation]; intro h; cases h) | skip
  · have he : ∀ i a, (collisionData .D2Q9 c viscosity dt cfg).e i a = ((D2Q9.dir 1 i a : ℚ) : ℝ) := fun i a => by
      rw [StencilType.D2Q9_e cfg hc]; exact D2Q9_dir_one i a
    simp only [StencilType.mrtRelaxation] at hx
    obtain ⟨_, _, b0, rm, _, _, _⟩ := cfg
    simp only at hr
    cases b0
    · have hs := stressRows_of_table he MRT.dellar_stress
      cases rm
      · cases hx
        refine mrt_flux (inversePair_of_table _ _ MRT.dellar_inverse) hs _ feq f _ a b fun k hk => .inl ?_
        fin_cases a <;> fin_cases b <;> fin_cases k <;> first | rfl | exact absurd (Rat.cast_zero (α := ℝ)) hk
      · cases hx
        refine mrt_flux (inversePair_of_table _ _ MRT.dellar_inverse) hs _ feq f _ a b fun k hk => .inl ?_
        fin_cases a <;> fin_cases b <;> fin_cases k <;> first | rfl | exact absurd (Rat.cast_zero (α := ℝ)) hk
      · cases hx
    · have hs := stressRows_of_table he MRT.lallemand_stress
      cases rm
      · cases hx
        refine mrt_flux (inversePair_of_table _ _ MRT.lallemand_inverse) hs _ feq f _ a b fun k hk => .inl ?_
        fin_cases a <;> fin_cases b <;> fin_cases k <;> first | rfl | exact absurd (Rat.cast_zero (α := ℝ)) hk
      · cases hx
      · cases hx
    · cases hx
  · have he : ∀ i a, (collisionData .D3Q19 c viscosity dt cfg).e i a = ((D3Q19.dir 1 i a : ℚ) : ℝ) := fun i a => by
      rw [StencilType.D3Q19_e cfg hc]; exact D3Q19_dir_one i a
    obtain ⟨hb, htau, omega, ho, rfl, ⟨hm, -⟩ | ⟨hm, -⟩⟩ := mrt19_cases hx
    swap
    · exact absurd hm hr
    have hs := stressRows_of_table he MRT.dHumieres_stress
    refine mrt_flux (inversePair_of_table _ _ MRT.dHumieres_inverse) hs _ feq f _ a b fun k hk => .inl ?_
    rw [hb, hm] at ho
    unfold MRT.makeDiag19 at ho
    rw [if_neg (not_not.mpr htau)] at ho
    cases ho
    fin_cases a <;> fin_cases b <;> fin_cases k <;> first | rfl | exact absurd (Rat.cast_zero (α := ℝ)) hk

/-- **C21** In every MRT mode except that of the d'Humières paper the full momentum flux of a node relaxes with the rate `1/τ` that
gives the configured viscosity. -/
theorem C21_stress (ht : t.exact = true) (hc : c ≠ 0) (hs : cfg.scheme = .mrtStandard) (hr : cfg.relaxMode ≠ .relaxDHumieresPaper)
    (hf : cfg.force = none) (hn : owned.Nodup) (h : isothermalCollide t c viscosity dt cfg false owned nodes = .ok nodes')
    {j : ι} (hj : j ∈ owned) (a b : Fin t.D) :
    momentumFlux (t.stencil c).dir (nodes' j).f a b - equilibriumFlux t c (nodes j).f a b
      = (1 - 1 / (viscosity / (dt * (t.stencil c).cs2) + 1 / 2))
        * (momentumFlux (t.stencil c).dir (nodes j).f a b - equilibriumFlux t c (nodes j).f a b) := by
  obtain ⟨r, relax, hrow, hx, h1, -, -⟩ := (isothermalCollide_ok t cfg false owned hn nodes nodes').mp h
  obtain ⟨hcl, hq, he⟩ := row_facts hrow
  rw [hs] at hcl hrow
  have heq := (C14_mrt_stencils t cfg.eq r hrow).2
  have hq := hq ht
  rw [heq] at hq
  have hec : r.equilibriumType = .bgk := (Option.some.inj hq).symm
  have hcl' : r.collisionType = .mrt := (Option.some.inj hcl).symm
  rw [hcl'] at hx
  have hj' := h1 j hj
  have hd := (collideNode_rho _ _ _ _ _ _ hj').2
  rw [hf] at hj'
  simp only [Option.isSome_none] at hj'
  rw [collideNode_free _ _ _ hd, Except.ok.injEq] at hj'
  have h0 := t.data_cs2_ne (viscosity := viscosity) (dt := dt) cfg ht hc
  have hi := (t.data_iso5 (viscosity := viscosity) (dt := dt) cfg ht hc).toIso4
  have hsc := flux_scale (t.data_e (viscosity := viscosity) (dt := dt) cfg) hc
  have hms := momentum_scale (t.data_e (viscosity := viscosity) (dt := dt) cfg) hc
  have hp := dens_pos hd
  have hcs : (collisionData t c viscosity dt cfg).cs2 = (t.stencil c).cs2 / (c * c) := by
    simp only [collisionData, CollData.mk', StencilType.scaling_eq]
  have key : equilibriumFlux t c (nodes j).f a b = c * c * momentumFlux (collisionData t c viscosity dt cfg).e
      (t.equilibrium .bgk (collisionData t c viscosity dt cfg)
        (macroOf ⟨t.velocity, t.equilibrium .bgk, relax⟩ (collisionData t c viscosity dt cfg) (nodes j).f)) a b := by
    rw [StencilType.bgk_eq t cfg hc, bgk_flux hi h0]
    simp only [macroOf, equilibriumFlux, hms, hcs]
    rw [StencilType.velocity_eq t cfg hc, calculateVelocity_eq, calculateVelocity_eq]
    field_simp
  rw [← hj']
  simp only [hec]
  rw [hsc, hsc, mrt_flux_rate t cfg hc hr hx, key, step_tau t cfg he]
  ring

end stress

/-- **C21** Mode of the d'Humières paper: the shear stresses and the normal-stress differences relax with `1/τ`; the trace relaxes
with the fixed rate `1.19`. -/
theorem C21_stress_paper (d : CollData ℝ 3 19) (he : ∀ i a, d.e i a = ((D3Q19.dir 1 i a : ℚ) : ℝ)) {tau : ℝ} {relax : Relaxation ℝ 3 19}
    (hx : StencilType.D3Q19.mrtRelaxation .dHumieresD3Q19 .relaxDHumieresPaper tau = .ok relax) (feq f : Fin 19 → ℝ)
    (h0 : mass f = mass feq) :
    (∀ a b, a ≠ b → momentumFlux d.e (relax d feq f) a b - momentumFlux d.e feq a b
      = (1 - 1 / tau) * (momentumFlux d.e f a b - momentumFlux d.e feq a b)) ∧
    (∀ a b, (momentumFlux d.e (relax d feq f) a a - momentumFlux d.e (relax d feq f) b b)
        - (momentumFlux d.e feq a a - momentumFlux d.e feq b b)
      = (1 - 1 / tau) * ((momentumFlux d.e f a a - momentumFlux d.e f b b) - (momentumFlux d.e feq a a - momentumFlux d.e feq b b))) ∧
    (∑ a, momentumFlux d.e (relax d feq f) a a) - ∑ a, momentumFlux d.e feq a a
      = (1 - 119 / 100) * ((∑ a, momentumFlux d.e f a a) - ∑ a, momentumFlux d.e feq a a) := by
  obtain ⟨-, htau, omega, ho, rfl, -⟩ := mrt19_cases hx
  unfold MRT.makeDiag19 at ho
  rw [if_neg (not_not.mpr htau)] at ho
  cases ho
  have hi := inversePair_of_table (K := ℝ) _ _ MRT.dHumieres_inverse
  have hs := stressRows_of_table he MRT.dHumieres_stress
  have hrow : matrixVectorProduct (MRT.ofTable MRT.dHumieresM : Fin 19 → Fin 19 → ℝ) f 0
      = matrixVectorProduct (MRT.ofTable MRT.dHumieresM : Fin 19 → Fin 19 → ℝ) feq 0 := by
    have hc := conservedRows_of_table he MRT.dHumieres_rows
    rw [conservedRows_mass hc, conservedRows_mass hc, h0]
  refine ⟨fun a b hab => ?_, fun a b => ?_, ?_⟩
  · rw [mrt_flux hi hs _ feq f (1 / tau) a b fun k hk => ?_]
    · ring
    · left
      fin_cases a <;> fin_cases b <;> first | exact absurd rfl hab | skip
      all_goals fin_cases k <;> first | rfl | exact absurd (Rat.cast_zero (α := ℝ)) hk
  · have hd : ∀ g, momentumFlux d.e g a a - momentumFlux d.e g b b
        = ∑ k, ((MRT.dHumieresC a a k - MRT.dHumieresC b b k : ℚ) : ℝ) * matrixVectorProduct (MRT.ofTable MRT.dHumieresM) g k := fun g => by
      rw [flux_of_moments hs, flux_of_moments hs, ← Finset.sum_sub_distrib]
      exact Finset.sum_congr rfl fun k _ => by push_cast; ring
    simp only [hd]
    refine mrt_comb hi _ _ feq f (1 / tau) fun k hk => .inl ?_
    have : MRT.dHumieresC a a k - MRT.dHumieresC b b k ≠ 0 := fun e => hk (by rw [e, Rat.cast_zero])
    clear hk hd
    fin_cases k <;> first | rfl | (exfalso; revert this; revert a b; decide +kernel)
  · have hd : ∀ g, ∑ a, momentumFlux d.e g a a
        = ∑ k, ((∑ a, MRT.dHumieresC a a k : ℚ) : ℝ) * matrixVectorProduct (MRT.ofTable MRT.dHumieresM) g k := fun g => by
      simp only [flux_of_moments hs]
      rw [Finset.sum_comm]
      exact Finset.sum_congr rfl fun k _ => by rw [Rat.cast_sum, Finset.sum_mul]
    simp only [hd]
    refine mrt_comb hi _ _ feq f (119 / 100) fun k hk => ?_
    have : ∑ a, MRT.dHumieresC a a k ≠ 0 := fun e => hk (by rw [e, Rat.cast_zero])
    clear hk hd
    fin_cases k <;> first | exact .inr hrow | exact .inl rfl | (exfalso; revert this; decide +kernel)

/-- The mode is available for `τ > 1/2`. -/
example : ∃ relax, StencilType.D3Q19.mrtRelaxation .dHumieresD3Q19 .relaxDHumieresPaper (1 : ℝ) = .ok relax := by
  obtain ⟨omega, ho⟩ := makeDiag19_ok (tau := 1) (by norm_num) .relaxDHumieresPaper (by decide)
  refine ⟨mrtRelax (MRT.ofTable MRT.dHumieresM) (MRT.ofTable MRT.dHumieresT) omega, ?_⟩
  simp only [StencilType.mrtRelaxation]
  change (MRT.makeDiag19 _ MRTBasis.dHumieresD3Q19 RelaxMode.relaxDHumieresPaper >>= fun omega => _) = _
  rw [ho]; rfl

/-- The scalar ghost mode `N` of the Dellar basis: `∑ gᵢ fᵢ` with the weights `g = (1, -2, -2, -2, -2, 4, 4, 4, 4)`. -/
def ghostN {K : Type*} [Field K] (f : Fin 9 → K) : K :=
  f 0 - 2 * (f 1 + f 2 + f 3 + f 4) + 4 * (f 5 + f 6 + f 7 + f 8)

theorem ghostN_row {K : Type*} [Field K] [CharZero K] (f : Fin 9 → K) :
    matrixVectorProduct (MRT.ofTable MRT.dellarM : Fin 9 → Fin 9 → K) f 6 = ghostN f := by
  have h : ∀ j, (MRT.ofTable MRT.dellarM : Fin 9 → Fin 9 → K) 6 j = (((![1, -2, -2, -2, -2, 4, 4, 4, 4] : Fin 9 → ℚ) j : ℚ) : K) :=
    fun j => rfl
  unfold matrixVectorProduct ghostN
  simp only [h, Fin.sum_univ_castSucc, Fin.sum_univ_zero]
  change 0 + ((1 : ℚ) : K) * f 0 + ((-2 : ℚ) : K) * f 1 + ((-2 : ℚ) : K) * f 2 + ((-2 : ℚ) : K) * f 3 + ((-2 : ℚ) : K) * f 4
    + ((4 : ℚ) : K) * f 5 + ((4 : ℚ) : K) * f 6 + ((4 : ℚ) : K) * f 7 + ((4 : ℚ) : K) * f 8 = _
  push_cast; ring

/-- **C21 fails** for the mode 'only N': the scalar ghost mode `N` relaxes with `1/τ`, like the stress; only for `τ = 1` does it get its
equilibrium value. -/
theorem C21_onlyN_wrong {K : Type*} [Field K] [CharZero K] (tau : K) (M T : Fin 9 → Fin 9 → K) (omega : Fin 9 → K)
    (hM : MRT.makeM9 .dellarD2Q9 = .ok M) (hT : MRT.makeT9 .dellarD2Q9 = .ok T)
    (ho : MRT.makeDiag9 tau .dellarD2Q9 .dellarRelaxOnlyN = .ok omega) (d : CollData K 2 9) (feq f : Fin 9 → K) :
    ghostN (mrtRelax M T omega d feq f) = ghostN f - 1 / tau * (ghostN f - ghostN feq) ∧
      (ghostN f ≠ ghostN feq → tau ≠ 1 → tau ≠ 0 → ghostN (mrtRelax M T omega d feq f) ≠ ghostN feq) := by
  cases hM; cases hT; cases ho
  have h1 := mrtRelax_moment (inversePair_of_table (K := K) _ _ MRT.dellar_inverse)
    (Function.update (fun _ => 1 / tau) 8 1) d feq f 6
  simp only [ghostN_row] at h1
  have h2 : (Function.update (fun _ => 1 / tau) 8 1 : Fin 9 → K) 6 = 1 / tau := rfl
  rw [h2] at h1
  refine ⟨h1, fun hne h1' h0' heq => ?_⟩
  rw [h1] at heq
  have h3 : (1 - 1 / tau) * (ghostN f - ghostN feq) = 0 := by linear_combination heq
  rcases mul_eq_zero.mp h3 with e | e
  · exact h1' (by field_simp at e; linear_combination e)
  · exact hne (by linear_combination e)

example : ghostN (fun i : Fin 9 => if i = 0 then (1 : ℚ) else 0) ≠ ghostN (fun _ => 0) := by simp [ghostN]

end NATriuM
