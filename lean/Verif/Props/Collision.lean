import Verif.Props.Equilibria

/-!
# Properties C12 – C18, C20, C21: the isothermal collision step

`isothermalCollide t c ν dt cfg inInit owned nodes` is one collision step of the solver.  Momenta are stated with the physical particle
velocities `(t.stencil c).dir`.
-/

namespace NATriuM

open Finset NATriuM.Spec

/-! ## Auxiliary facts about a successful step -/

theorem dens_pos {Q : ℕ} {f : Fin Q → ℝ} (h : ¬ mass f < 1 / 10 ^ 10) : 0 < mass f :=
  lt_of_lt_of_le (by norm_num) (not_lt.mp h)

/-- The collision class that a scheme name stands for. -/
def configuredClass : CollisionSchemeName → Option CollisionClass
  | .bgkStandard => some .bgk
  | .bgkRegularized => some .regularized
  | .mrtStandard => some .mrt
  | _ => none

/-- The equilibrium class that an equilibrium name stands for. -/
def configuredEquilibrium : EquilibriumSchemeName → Option EquilibriumClass
  | .bgk => some .bgk
  | .quartic => some .quartic
  | _ => none

theorem iso_rows_ok : ∀ D, ∀ r ∈ (isoSelection D).1, configuredClass r.scheme = some r.collisionType ∧
    (r.stencil.exact = true → configuredEquilibrium r.eq = some r.equilibriumType) ∧ (r.eq = .bgk ∨ r.eq = .quartic) ∧
    (r.eq = .bgk → r.equilibriumType = .bgk) := by
  intro D
  unfold isoSelection
  split <;> decide

theorem row_facts {t : StencilType} {D : ℕ} {s : CollisionSchemeName} {e : EquilibriumSchemeName} {r : Row}
    (h : (isoSelection D).1.find? (·.applies { stencil := t, scheme := s, eq := e }) = some r) :
    configuredClass s = some r.collisionType ∧ (t.exact = true → configuredEquilibrium e = some r.equilibriumType) ∧
      (e = .bgk ∨ e = .quartic) := by
  have hm := iso_rows_ok D r (List.mem_of_find?_eq_some h)
  have ha := List.find?_some h
  rw [applies_iff] at ha
  obtain ⟨rfl, rfl, rfl⟩ := ha
  exact ⟨hm.1, hm.2.1, hm.2.2.1⟩

section step

variable {ι : Type*} [DecidableEq ι] (t : StencilType) {c viscosity dt : ℝ} (cfg : CollisionConfig t.D)
  {owned : List ι} {nodes nodes' : ι → Node ℝ t.D t.Q}

/-- Mass and momentum after a force-free step. -/
theorem step_conserves (ht : t.exact = true) (hc : c ≠ 0) (hf : cfg.force = none) (hn : owned.Nodup)
    (h : isothermalCollide t c viscosity dt cfg false owned nodes = .ok nodes') (j : ι) :
    mass (nodes' j).f = mass (nodes j).f ∧
      ∀ a, momentum (t.stencil c).dir (nodes' j).f a = momentum (t.stencil c).dir (nodes j).f a := by
  obtain ⟨r, relax, -, hr, h1, h2, -⟩ := (isothermalCollide_ok t cfg false owned hn nodes nodes').mp h
  by_cases hj : j ∈ owned
  swap
  · rw [h2 j hj]; exact ⟨rfl, fun _ => rfl⟩
  have hj' := h1 j hj
  have hd := (collideNode_rho _ _ _ _ _ _ hj').2
  rw [hf] at hj'
  simp only [Option.isSome_none] at hj'
  rw [collideNode_free _ _ _ hd, Except.ok.injEq] at hj'
  rw [← hj']
  obtain ⟨w0, w1, hp⟩ := relaxation_pulls t ht hc cfg _ hr
  have hcons := t.conservative (viscosity := viscosity) (dt := dt) cfg ht hc r.equilibriumType
  constructor
  · simp only [macroOf]
    rw [hp.mass, hcons.mass]; ring
  · intro a
    rw [momentum_scale (t.data_e (viscosity := viscosity) (dt := dt) cfg) hc,
      momentum_scale (t.data_e (viscosity := viscosity) (dt := dt) cfg) hc]
    simp only [macroOf]
    rw [hp.momentum, hcons.momentum]
    simp only
    rw [StencilType.velocity_eq t cfg hc, rho_mul_velocity _ _ (dens_pos hd).ne']
    ring

/-- **C11** The density and velocity that a successful force-free step stores for output are, at every owned node, the zeroth moment of the
populations found there and their first moment (with the physical particle velocities) divided by the density. -/
theorem C11_stored_fields (hc : c ≠ 0) (hf : cfg.force = none) (hn : owned.Nodup)
    (h : isothermalCollide t c viscosity dt cfg false owned nodes = .ok nodes') {j : ι} (hj : j ∈ owned) :
    (nodes' j).rho = mass (nodes j).f ∧ ∀ a, (nodes' j).u a = momentum (t.stencil c).dir (nodes j).f a / mass (nodes j).f := by
  obtain ⟨r, relax, -, hr, h1, -, -⟩ := (isothermalCollide_ok t cfg false owned hn nodes nodes').mp h
  have hj' := h1 j hj
  have hd := (collideNode_rho _ _ _ _ _ _ hj').2
  rw [hf] at hj'
  simp only [Option.isSome_none] at hj'
  rw [collideNode_free _ _ _ hd, Except.ok.injEq] at hj'
  rw [← hj']
  refine ⟨rfl, fun a => ?_⟩
  have := C11_velocity t (viscosity := viscosity) (dt := dt) hc cfg (nodes j).f (mass (nodes j).f) a
  simp only [momentum]
  rw [← this, show (collisionData t c viscosity dt cfg).scaling = c by simp only [collisionData, CollData.mk', StencilType.scaling_eq]]

/-- The relaxation time of the step. -/
theorem step_tau (h : cfg.eq = .bgk ∨ cfg.eq = .quartic) :
    (collisionData t c viscosity dt cfg).tau = viscosity / (dt * (t.stencil c).cs2) + 1 / 2 := by
  have : cfg.eq ≠ .steadyState := by rintro e; rw [e] at h; rcases h with h | h <;> cases h
  simp only [collisionData, CollData.mk', if_neg this, calculateTauFromNu]

/-- A step with a supported configuration on nodes of sufficient density succeeds. -/
theorem step_succeeds {r : Row} {relax : Relaxation ℝ t.D t.Q} (hf : cfg.force = none) (hn : owned.Nodup) (ho : owned ≠ [])
    (hr : (isoSelection t.D).1.find? (·.applies { stencil := t, scheme := cfg.scheme, eq := cfg.eq }) = some r)
    (hx : t.relaxation cfg.mrtBasis cfg.relaxMode (collisionData t c viscosity dt cfg).tau r.collisionType = .ok relax)
    (hd : ∀ j ∈ owned, 1 / 10 ^ 10 < mass (nodes j).f) :
    ∃ nodes', isothermalCollide t c viscosity dt cfg false owned nodes = .ok nodes' := by
  let op : Operator ℝ t.D t.Q := { velocity := t.velocity, eq := t.equilibrium r.equilibriumType, relax := relax }
  let d := collisionData t c viscosity dt cfg
  refine ⟨fun j => if j ∈ owned then
      { f := op.relax d (op.eq d (macroOf op d (nodes j).f)) (nodes j).f, rho := mass (nodes j).f,
        u := fun a => op.velocity d (nodes j).f (mass (nodes j).f) a * d.scaling }
    else nodes j, (isothermalCollide_ok t cfg false owned hn nodes _).mpr ⟨r, relax, hr, hx, ?_, ?_, ?_⟩⟩
  · intro j hj
    simp only [if_pos hj, hf, Option.isSome_none]
    exact collideNode_free op d _ (not_lt.mpr (hd j hj).le)
  · intro j hj
    simp only [if_neg hj]
  · exact ⟨owned.getLast ho, List.getLast?_eq_getLast_of_ne_nil ho, hd _ (List.getLast_mem ho)⟩

end step

/-! ## C12 -/

section C12

variable {ι : Type*} [DecidableEq ι] (t : StencilType) {c viscosity dt : ℝ} (cfg : CollisionConfig t.D)
  {owned : List ι} {nodes nodes' : ι → Node ℝ t.D t.Q}

/-- **C12** A successful BGK collision step without force leaves mass and momentum at every node unchanged – for both equilibria, every
exactly isotropic stencil, scaling, viscosity and time step. -/
theorem C12_bgk_conserves (ht : t.exact = true) (hc : c ≠ 0) (_hs : cfg.scheme = .bgkStandard) (hf : cfg.force = none) (hn : owned.Nodup)
    (h : isothermalCollide t c viscosity dt cfg false owned nodes = .ok nodes') (j : ι) :
    mass (nodes' j).f = mass (nodes j).f ∧
      ∀ a, momentum (t.stencil c).dir (nodes' j).f a = momentum (t.stencil c).dir (nodes j).f a :=
  step_conserves t cfg ht hc hf hn h j

/-- What the BGK step does to each population: `f - (f - feq) / τ`, where `feq` has the density and momentum of `f`. -/
theorem C12_bgk_relaxes (ht : t.exact = true) (hc : c ≠ 0) (hs : cfg.scheme = .bgkStandard) (hf : cfg.force = none) (hn : owned.Nodup)
    (h : isothermalCollide t c viscosity dt cfg false owned nodes = .ok nodes') {j : ι} (hj : j ∈ owned) :
    ∃ feq : Fin t.Q → ℝ, mass feq = mass (nodes j).f ∧
      (∀ a, momentum (t.stencil c).dir feq a = momentum (t.stencil c).dir (nodes j).f a) ∧
      ∀ i, (nodes' j).f i = (nodes j).f i - ((nodes j).f i - feq i) / (viscosity / (dt * (t.stencil c).cs2) + 1 / 2) := by
  obtain ⟨r, relax, hr, hx, h1, -, -⟩ := (isothermalCollide_ok t cfg false owned hn nodes nodes').mp h
  obtain ⟨hcl, -, he⟩ := row_facts hr
  rw [hs] at hcl
  have hcl' : r.collisionType = .bgk := (Option.some.inj hcl).symm
  rw [hcl'] at hx
  cases hx
  have hj' := h1 j hj
  have hd := (collideNode_rho _ _ _ _ _ _ hj').2
  rw [hf] at hj'
  simp only [Option.isSome_none] at hj'
  rw [collideNode_free _ _ _ hd, Except.ok.injEq] at hj'
  have hcons := t.conservative (viscosity := viscosity) (dt := dt) cfg ht hc r.equilibriumType
  refine ⟨_, hcons.mass (macroOf ⟨t.velocity, t.equilibrium r.equilibriumType, bgkRelax⟩ (collisionData t c viscosity dt cfg)
    (nodes j).f), fun a => ?_, fun i => ?_⟩
  · rw [momentum_scale (t.data_e (viscosity := viscosity) (dt := dt) cfg) hc,
      momentum_scale (t.data_e (viscosity := viscosity) (dt := dt) cfg) hc, hcons.momentum]
    simp only [macroOf]
    rw [StencilType.velocity_eq t cfg hc, rho_mul_velocity _ _ (dens_pos hd).ne']
  · rw [← hj']
    simp only [bgkRelax, step_tau t cfg he]
    ring

end C12

/-- a sample configuration -/
def sampleConfig (D : ℕ) (s : CollisionSchemeName) (e : EquilibriumSchemeName) (b : MRTBasis) : CollisionConfig D :=
  { scheme := s, eq := e, mrtBasis := b, relaxMode := .relaxFull, forceType := .noForcing, gamma := 1, force := none }

/-- a sample state of mass `Q` -/
def sampleNodes (D Q : ℕ) : Bool → Node ℝ D Q := fun _ => { f := fun _ => 1, rho := 0, u := fun _ => 0 }

theorem sample_mass (D Q : ℕ) (hQ : 0 < Q) (j : Bool) : 1 / 10 ^ 10 < mass (sampleNodes D Q j).f := by
  simp only [sampleNodes, mass, Finset.sum_const, Finset.card_univ, Fintype.card_fin, nsmul_eq_mul, mul_one]
  have : (1 : ℝ) ≤ Q := by exact_mod_cast hQ
  linarith [show (1 : ℝ) / 10 ^ 10 < 1 by norm_num]

/-- The hypotheses of C12 are met by a non-equilibrium state on two nodes. -/
example : ∃ nodes', isothermalCollide .D2Q9 2 (1 / 10) (1 / 100) (sampleConfig 2 .bgkStandard .quartic .dellarD2Q9) false [true, false]
    (sampleNodes 2 9) = .ok nodes' :=
  step_succeeds .D2Q9 _ rfl (by decide) (by decide) (r := ⟨2, 9, .D2Q9, .bgkStandard, .quartic, .bgk, .quartic⟩) (by decide) rfl
    fun j _ => sample_mass 2 9 (by norm_num) j

/-! ## C13 -/

section C13

variable {ι : Type*} [DecidableEq ι] (t : StencilType) {c viscosity dt : ℝ} (cfg : CollisionConfig t.D)
  {owned : List ι} {nodes nodes' : ι → Node ℝ t.D t.Q}

/-- equilibrium momentum flux of a node with populations `f` -/
noncomputable def equilibriumFlux (t : StencilType) (c : ℝ) (f : Fin t.Q → ℝ) (a b : Fin t.D) : ℝ :=
  mass f * ((t.stencil c).cs2 * δ a b
    + momentum (t.stencil c).dir f a / mass f * (momentum (t.stencil c).dir f b / mass f))

theorem regularized_step (hs : cfg.scheme = .bgkRegularized) (hf : cfg.force = none) (hn : owned.Nodup)
    (h : isothermalCollide t c viscosity dt cfg false owned nodes = .ok nodes') {j : ι} (hj : j ∈ owned) :
    ∃ ec, (t.exact = true → configuredEquilibrium cfg.eq = some ec) ∧ (cfg.eq = .bgk ∨ cfg.eq = .quartic) ∧ 0 < mass (nodes j).f ∧
      (nodes' j).f = regularizedRelax (collisionData t c viscosity dt cfg)
        (t.equilibrium ec (collisionData t c viscosity dt cfg)
          (macroOf ⟨t.velocity, t.equilibrium ec, regularizedRelax⟩ (collisionData t c viscosity dt cfg) (nodes j).f)) (nodes j).f := by
  obtain ⟨r, relax, hr, hx, h1, -, -⟩ := (isothermalCollide_ok t cfg false owned hn nodes nodes').mp h
  obtain ⟨hcl, hq, he⟩ := row_facts hr
  rw [hs] at hcl
  have hcl' : r.collisionType = .regularized := (Option.some.inj hcl).symm
  rw [hcl'] at hx
  cases hx
  have hj' := h1 j hj
  have hd := (collideNode_rho _ _ _ _ _ _ hj').2
  rw [hf] at hj'
  simp only [Option.isSome_none] at hj'
  rw [collideNode_free _ _ _ hd, Except.ok.injEq] at hj'
  exact ⟨_, hq, he, dens_pos hd, by rw [← hj']⟩

/-- **C13** A successful regularized collision step conserves mass and momentum at every node. -/
theorem C13_regularized_conserves (ht : t.exact = true) (hc : c ≠ 0) (_hs : cfg.scheme = .bgkRegularized) (hf : cfg.force = none)
    (hn : owned.Nodup) (h : isothermalCollide t c viscosity dt cfg false owned nodes = .ok nodes') (j : ι) :
    mass (nodes' j).f = mass (nodes j).f ∧
      ∀ a, momentum (t.stencil c).dir (nodes' j).f a = momentum (t.stencil c).dir (nodes j).f a :=
  step_conserves t cfg ht hc hf hn h j

/-- **C13** It multiplies the non-equilibrium stress by `1 - 1/τ`, with `τ = ν / (dt cs²) + 1/2`. -/
theorem C13_regularized_stress (ht : t.exact = true) (hc : c ≠ 0) (hs : cfg.scheme = .bgkRegularized) (hq : cfg.eq = .bgk)
    (hf : cfg.force = none) (hn : owned.Nodup) (h : isothermalCollide t c viscosity dt cfg false owned nodes = .ok nodes')
    {j : ι} (hj : j ∈ owned) (a b : Fin t.D) :
    momentumFlux (t.stencil c).dir (nodes' j).f a b - equilibriumFlux t c (nodes j).f a b
      = (1 - 1 / (viscosity / (dt * (t.stencil c).cs2) + 1 / 2))
        * (momentumFlux (t.stencil c).dir (nodes j).f a b - equilibriumFlux t c (nodes j).f a b) := by
  obtain ⟨ec, hec, he, hp, hfj⟩ := regularized_step t cfg hs hf hn h hj
  have hec := hec ht
  rw [hq] at hec; cases hec
  have h0 := t.data_cs2_ne (viscosity := viscosity) (dt := dt) cfg ht hc
  have hi := (t.data_iso5 (viscosity := viscosity) (dt := dt) cfg ht hc).toIso4
  have hsc := flux_scale (t.data_e (viscosity := viscosity) (dt := dt) cfg) hc
  have hms := momentum_scale (t.data_e (viscosity := viscosity) (dt := dt) cfg) hc
  have hcs : (collisionData t c viscosity dt cfg).cs2 = (t.stencil c).cs2 / (c * c) := by
    simp only [collisionData, CollData.mk', StencilType.scaling_eq]
  have key : equilibriumFlux t c (nodes j).f a b = c * c * momentumFlux (collisionData t c viscosity dt cfg).e
      (t.equilibrium .bgk (collisionData t c viscosity dt cfg)
        (macroOf ⟨t.velocity, t.equilibrium .bgk, regularizedRelax⟩ (collisionData t c viscosity dt cfg) (nodes j).f)) a b := by
    rw [StencilType.bgk_eq t cfg hc, bgk_flux hi h0]
    simp only [macroOf, equilibriumFlux, hms, hcs]
    rw [StencilType.velocity_eq t cfg hc, calculateVelocity_eq, calculateVelocity_eq]
    field_simp
  rw [hfj, hsc, hsc, regularized_flux hi h0, key, step_tau t cfg he]
  ring

/-- **C13** Its result depends on the node only through density, momentum and momentum flux: non-equilibrium moments above second order
are discarded. -/
theorem C13_regularized_projects {nodes₁ nodes₂ nodes₁' nodes₂' : ι → Node ℝ t.D t.Q} (hc : c ≠ 0) (hs : cfg.scheme = .bgkRegularized)
    (hf : cfg.force = none) (hn : owned.Nodup)
    (h₁ : isothermalCollide t c viscosity dt cfg false owned nodes₁ = .ok nodes₁')
    (h₂ : isothermalCollide t c viscosity dt cfg false owned nodes₂ = .ok nodes₂') {j : ι} (hj : j ∈ owned)
    (hm : mass (nodes₁ j).f = mass (nodes₂ j).f)
    (hp : ∀ a, momentum (t.stencil c).dir (nodes₁ j).f a = momentum (t.stencil c).dir (nodes₂ j).f a)
    (hP : ∀ a b, momentumFlux (t.stencil c).dir (nodes₁ j).f a b = momentumFlux (t.stencil c).dir (nodes₂ j).f a b) :
    (nodes₁' j).f = (nodes₂' j).f := by
  obtain ⟨r₁, relax₁, hr₁, hx₁, h1₁, -, -⟩ := (isothermalCollide_ok t cfg false owned hn _ _).mp h₁
  obtain ⟨r₂, relax₂, hr₂, hx₂, h1₂, -, -⟩ := (isothermalCollide_ok t cfg false owned hn _ _).mp h₂
  rw [hr₁] at hr₂; cases hr₂
  obtain ⟨hcl, -, -⟩ := row_facts hr₁
  rw [hs] at hcl
  have hcl' : r₁.collisionType = .regularized := (Option.some.inj hcl).symm
  rw [hcl'] at hx₁ hx₂
  cases hx₁; cases hx₂
  have e1 := h1₁ j hj
  have e2 := h1₂ j hj
  have hd1 := (collideNode_rho _ _ _ _ _ _ e1).2
  have hd2 := (collideNode_rho _ _ _ _ _ _ e2).2
  rw [hf] at e1 e2
  simp only [Option.isSome_none] at e1 e2
  rw [collideNode_free _ _ _ hd1, Except.ok.injEq] at e1
  rw [collideNode_free _ _ _ hd2, Except.ok.injEq] at e2
  rw [← e1, ← e2]
  have hsc := flux_scale (t.data_e (viscosity := viscosity) (dt := dt) cfg) hc
  have hms := momentum_scale (t.data_e (viscosity := viscosity) (dt := dt) cfg) hc
  have hv : ∀ a, momentum (collisionData t c viscosity dt cfg).e (nodes₁ j).f a
      = momentum (collisionData t c viscosity dt cfg).e (nodes₂ j).f a := fun a => by
    have := hp a
    rw [hms, hms] at this; exact mul_left_cancel₀ hc this
  have hF : ∀ a b, momentumFlux (collisionData t c viscosity dt cfg).e (nodes₁ j).f a b
      = momentumFlux (collisionData t c viscosity dt cfg).e (nodes₂ j).f a b := fun a b => by
    have := hP a b
    rw [hsc, hsc] at this; exact mul_left_cancel₀ (mul_ne_zero hc hc) this
  have hmac : macroOf ⟨t.velocity, t.equilibrium r₁.equilibriumType, regularizedRelax⟩ (collisionData t c viscosity dt cfg) (nodes₁ j).f
      = macroOf ⟨t.velocity, t.equilibrium r₁.equilibriumType, regularizedRelax⟩ (collisionData t c viscosity dt cfg) (nodes₂ j).f := by
    simp only [macroOf, hm, Macro.mk.injEq, true_and, and_true]
    funext a
    rw [StencilType.velocity_eq t cfg hc, StencilType.velocity_eq t cfg hc, calculateVelocity_eq, calculateVelocity_eq, hv]
  simp only
  rw [hmac, regularizedRelax_eq, regularizedRelax_eq]
  funext i
  have hpi : ∀ feq, regularizedPi (collisionData t c viscosity dt cfg) feq (nodes₁ j).f
      = regularizedPi (collisionData t c viscosity dt cfg) feq (nodes₂ j).f := fun feq => by
    funext a b
    rw [regularizedPi_eq, regularizedPi_eq, hF]
  rw [hpi]

end C13

example : ∃ nodes', isothermalCollide .D3Q19 2 (1 / 10) (1 / 100) (sampleConfig 3 .bgkRegularized .bgk .dellarD2Q9) false [true, false]
    (sampleNodes 3 19) = .ok nodes' :=
  step_succeeds .D3Q19 _ rfl (by decide) (by decide) (r := ⟨3, 19, .D3Q19, .bgkRegularized, .bgk, .regularized, .bgk⟩) (by decide) rfl
    fun j _ => sample_mass 3 19 (by norm_num) j

end NATriuM
