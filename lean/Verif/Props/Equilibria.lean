import Verif.Lemmas.CollisionStencil

/-!
# Properties C07 – C11: equilibria and macroscopic quantities

The equilibria of the code work in lattice units: particle velocities and flow velocity are divided by the scaling of the stencil.
The theorems are stated in physical units: `S.dir`, `S.cs2` are what the stencil reports, `u` is the flow velocity handed over as
`u / S.scaling`.
-/

namespace NATriuM

open Finset NATriuM.Spec

section generic

variable {K : Type*} [Field K] [CharZero K] {D Q : ℕ} (S : Stencil K D Q)

/-- the collision data of a stencil with arbitrary parameters -/
abbrev Stencil.collData (S : Stencil K D Q) (viscosity dt : K) (eqs : EquilibriumSchemeName) (gamma : K) (ft : ForceType)
    (F : Option (Fin D → K)) : CollData K D Q := CollData.mk' S viscosity dt eqs gamma ft F

/-- the macroscopic state handed to the equilibrium, in lattice units -/
def latticeState (S : Stencil K D Q) (rho : K) (u : Fin D → K) (T : K) : Macro K D :=
  { rho := rho, u := fun a => u a / S.scaling, T := T }

variable (viscosity dt gamma : K) (eqs : EquilibriumSchemeName) (ft : ForceType) (F : Option (Fin D → K))

omit [CharZero K] in
theorem mk'_e (i : Fin Q) (a : Fin D) : (S.collData viscosity dt eqs gamma ft F).e i a = S.dir i a / S.scaling := rfl

/-! ## C07 -/

/-- **C07** The BGK equilibrium has zeroth moment `ρ`, first moment `ρ u`, second moment `ρ cs² I + ρ u u`. -/
theorem C07_bgk_moments (h : Iso4 S.weight S.dir S.cs2) (hs : S.scaling ≠ 0) (hc : S.cs2 ≠ 0) (rho : K) (u : Fin D → K) (T : K) :
    let feq := bgkEquilibrium (S.collData viscosity dt eqs gamma ft F) (latticeState S rho u T)
    mass feq = rho ∧ (∀ a, momentum S.dir feq a = rho * u a) ∧
      ∀ a b, momentumFlux S.dir feq a b = rho * (S.cs2 * δ a b + u a * u b) := by
  have h' := NATriuM.Iso4.unit h hs
  have hc' : S.cs2 / (S.scaling * S.scaling) ≠ 0 := div_ne_zero hc (mul_ne_zero hs hs)
  have hcons := bgk_conservative (d := S.collData viscosity dt eqs gamma ft F) h' hc'
  refine ⟨hcons.mass _, fun a => ?_, fun a b => ?_⟩
  · rw [momentum_scale (mk'_e S viscosity dt gamma eqs ft F) hs, hcons.momentum]
    simp only [latticeState]; field_simp
  · rw [flux_scale (mk'_e S viscosity dt gamma eqs ft F) hs,
      bgk_flux (d := S.collData viscosity dt eqs gamma ft F) h' hc']
    simp only [latticeState, Stencil.collData, CollData.mk']; field_simp

/-! ## C09 -/

/-- Conclusion of C09: density, momentum, pressure tensor and energy of a distribution. -/
def HasThermalMoments (f : Fin Q → K) (rho : K) (u : Fin D → K) (T : K) : Prop :=
  mass f = rho ∧ (∀ a, momentum S.dir f a = rho * u a) ∧
    (∀ a b, momentumFlux S.dir f a b = rho * (S.cs2 * T * δ a b + u a * u b)) ∧
    ∑ a, momentumFlux S.dir f a a = rho * (D * S.cs2 * T + ∑ a, u a * u a)

omit [CharZero K] in
theorem trace_of_flux {f : Fin Q → K} {rho T : K} {u : Fin D → K}
    (h : ∀ a b, momentumFlux S.dir f a b = rho * (S.cs2 * T * δ a b + u a * u b)) :
    ∑ a, momentumFlux S.dir f a a = rho * (D * S.cs2 * T + ∑ a, u a * u a) := by
  simp only [h, δ_self, ← Finset.mul_sum, Finset.sum_add_distrib, Finset.sum_const, Finset.card_univ, Fintype.card_fin]
  simp only [nsmul_eq_mul]; ring

end generic

section quartic

variable {K : Type*} [Field K] [CharZero K] {Q : ℕ}

/-- **C09** (two dimensions) The quartic equilibrium at temperature `T` has moments `ρ`, `ρ u`, `ρ (cs² T I + u u)`, hence the energy
`ρ (D cs² T + u²)`. -/
theorem C09_quartic_moments2 (S : Stencil K 2 Q) (h : Iso6 S.weight S.dir S.cs2) (hs : S.scaling ≠ 0) (hc : S.cs2 ≠ 0)
    (viscosity dt gamma : K) (eqs : EquilibriumSchemeName) (ft : ForceType) (F : Option (Fin 2 → K)) (rho : K) (u : Fin 2 → K) (T : K) :
    HasThermalMoments S (quarticEquilibrium2 (S.collData viscosity dt eqs gamma ft F) (latticeState S rho u T)) rho u T := by
  have h' := NATriuM.Iso6.unit h hs
  have hc' : S.cs2 / (S.scaling * S.scaling) ≠ 0 := div_ne_zero hc (mul_ne_zero hs hs)
  have hcons := quartic2_mass_momentum (d := S.collData viscosity dt eqs gamma ft F) h'.toIso5 hc'
  have hf : ∀ a b, momentumFlux S.dir (quarticEquilibrium2 (S.collData viscosity dt eqs gamma ft F) (latticeState S rho u T)) a b
      = rho * (S.cs2 * T * δ a b + u a * u b) := fun a b => by
    rw [flux_scale (mk'_e S viscosity dt gamma eqs ft F) hs,
      quartic2_flux (d := S.collData viscosity dt eqs gamma ft F) h' hc']
    simp only [latticeState, Stencil.collData, CollData.mk']; field_simp
  refine ⟨hcons.mass _, fun a => ?_, hf, trace_of_flux S hf⟩
  rw [momentum_scale (mk'_e S viscosity dt gamma eqs ft F) hs, hcons.momentum]
  simp only [latticeState]; field_simp

/-- **C09** (three dimensions) -/
theorem C09_quartic_moments3 (S : Stencil K 3 Q) (h : Iso6 S.weight S.dir S.cs2) (hs : S.scaling ≠ 0) (hc : S.cs2 ≠ 0)
    (viscosity dt gamma : K) (eqs : EquilibriumSchemeName) (ft : ForceType) (F : Option (Fin 3 → K)) (rho : K) (u : Fin 3 → K) (T : K) :
    HasThermalMoments S (quarticEquilibrium3 (S.collData viscosity dt eqs gamma ft F) (latticeState S rho u T)) rho u T := by
  have h' := NATriuM.Iso6.unit h hs
  have hc' : S.cs2 / (S.scaling * S.scaling) ≠ 0 := div_ne_zero hc (mul_ne_zero hs hs)
  have hcons := quartic3_mass_momentum (d := S.collData viscosity dt eqs gamma ft F) h'.toIso5 hc'
  have hf : ∀ a b, momentumFlux S.dir (quarticEquilibrium3 (S.collData viscosity dt eqs gamma ft F) (latticeState S rho u T)) a b
      = rho * (S.cs2 * T * δ a b + u a * u b) := fun a b => by
    rw [flux_scale (mk'_e S viscosity dt gamma eqs ft F) hs,
      quartic3_flux (d := S.collData viscosity dt eqs gamma ft F) h' hc']
    simp only [latticeState, Stencil.collData, CollData.mk']; field_simp
  refine ⟨hcons.mass _, fun a => ?_, hf, trace_of_flux S hf⟩
  rw [momentum_scale (mk'_e S viscosity dt gamma eqs ft F) hs, hcons.momentum]
  simp only [latticeState]; field_simp

end quartic

section concrete

variable (viscosity dt gamma : ℝ) (eqs : EquilibriumSchemeName) (ft : ForceType)

/-- C07 for the stencil classes of the library (whatever specialisation of the equilibrium the stencil selects). -/
theorem C07_bgk_moments_stencil (t : StencilType) (ht : t.exact = true) {c : ℝ} (hc : c ≠ 0) (cfg : CollisionConfig t.D) (rho : ℝ)
    (u : Fin t.D → ℝ) (T : ℝ) :
    let feq := t.equilibrium .bgk (collisionData t c viscosity dt cfg) { rho := rho, u := fun a => u a / c, T := T }
    mass feq = rho ∧ (∀ a, momentum (t.stencil c).dir feq a = rho * u a) ∧
      ∀ a b, momentumFlux (t.stencil c).dir feq a b = rho * ((t.stencil c).cs2 * δ a b + u a * u b) := by
  have := C07_bgk_moments (t.stencil c) viscosity dt cfg.gamma cfg.eq cfg.forceType cfg.force (C03_isotropy t ht c).toIso4
    (by rw [StencilType.scaling_eq]; exact hc) (t.cs2_ne ht hc) rho u T
  simp only [latticeState, StencilType.scaling_eq] at this
  simp only [StencilType.bgk_eq t cfg hc]
  exact this

example : StencilType.D3Q27.exact = true ∧ (2 : ℝ) ≠ 0 := ⟨rfl, by norm_num⟩

/-- C09 for `D2Q25H`, the exactly sixth-order isotropic stencil of the library. -/
theorem C09_quartic_moments_D2Q25H {c : ℝ} (hc : c ≠ 0) (cfg : CollisionConfig 2) (rho : ℝ) (u : Fin 2 → ℝ) (T : ℝ) :
    HasThermalMoments (StencilType.D2Q25H.stencil c)
      (StencilType.D2Q25H.equilibrium .quartic (collisionData .D2Q25H c viscosity dt cfg)
        { rho := rho, u := fun a => u a / c, T := T }) rho u T :=
  C09_quartic_moments2 (D2Q25H.stencil c) (C03_isotropy6_D2Q25H c) hc (StencilType.cs2_ne .D2Q25H rfl hc) viscosity dt cfg.gamma cfg.eq
    cfg.forceType cfg.force rho u T

/-- The quartic equilibrium keeps density and momentum on every exactly isotropic stencil, also where sixth-order isotropy fails. -/
theorem C09_quartic_conserved (t : StencilType) (ht : t.exact = true) {c : ℝ} (hc : c ≠ 0) (cfg : CollisionConfig t.D) (rho : ℝ)
    (u : Fin t.D → ℝ) (T : ℝ) :
    let feq := t.equilibrium .quartic (collisionData t c viscosity dt cfg) { rho := rho, u := fun a => u a / c, T := T }
    mass feq = rho ∧ ∀ a, momentum (t.stencil c).dir feq a = rho * u a := by
  have h := t.conservative (viscosity := viscosity) (dt := dt) cfg ht hc .quartic
  refine ⟨h.mass _, fun a => ?_⟩
  rw [momentum_scale (t.data_e (viscosity := viscosity) (dt := dt) cfg) hc, h.momentum]
  field_simp

end concrete

/-! ## C08 -/

/-- **C08** The hand-unrolled D2Q9 equilibrium has in every direction the value of the generic formula. -/
theorem C08_D2Q9_unrolled {K : Type*} [Field K] [CharZero K] {c : K} (hc : c ≠ 0) (viscosity dt gamma : K) (eqs : EquilibriumSchemeName)
    (ft : ForceType) (F : Option (Fin 2 → K)) (m : Macro K 2) (i : Fin 9) :
    bgkEquilibriumD2Q9 (CollData.mk' (D2Q9.stencil c) viscosity dt eqs gamma ft F) m i
      = bgkEquilibrium (CollData.mk' (D2Q9.stencil c) viscosity dt eqs gamma ft F) m i := by
  refine congrFun (bgkD2Q9_eq _ rfl ?_ m) i
  exact unit_dir_of_table (e := D2Q9.dir) D2Q9.dir_eq hc

/-- … also for any other value of the speed of sound (the generic formula is evaluated with the same one). -/
theorem C08_D2Q9_unrolled_any_cs2 {K : Type*} [Field K] (d : CollData K 2 9) (hw : d.weight = D2Q9.weight) (he : d.e = D2Q9.dir 1)
    (m : Macro K 2) (i : Fin 9) : bgkEquilibriumD2Q9 d m i = bgkEquilibrium d m i :=
  congrFun (bgkD2Q9_eq d hw he m) i

/-- The two are not equal for other reasons: direction 5 at a concrete state. -/
example : bgkEquilibriumD2Q9 (CollData.mk' (D2Q9.stencil (1 : ℚ)) 1 1 .bgk 1 .noForcing none) ⟨2, ![1 / 10, 1 / 5], 1⟩ 5
    = 2 / 36 * (1 + 9 / 10 * (1 + 9 / 20) - 3 / 40) := by
  simp [bgkEquilibriumD2Q9, CollData.mk', D2Q9.stencil]; norm_num

/-! ## C10 -/

section C10

variable {K : Type*} [Field K] [CharZero K] {D Q : ℕ} (S : Stencil K D Q) (viscosity dt gamma : K) (ft : ForceType)
  (F : Option (Fin D → K))

/-- **C10** The preconditioned equilibrium has moments `ρ`, `ρ u` and momentum flux `ρ cs² I + ρ u u / γ`. -/
theorem C10_steadyState_moments (h : Iso4 S.weight S.dir S.cs2) (hs : S.scaling ≠ 0) (hc : S.cs2 ≠ 0) (hg : gamma ≠ 0) (rho : K)
    (u : Fin D → K) (T : K) :
    let feq := steadyStateEquilibrium (S.collData viscosity dt .steadyState gamma ft F) (latticeState S rho u T)
    mass feq = rho ∧ (∀ a, momentum S.dir feq a = rho * u a) ∧
      ∀ a b, momentumFlux S.dir feq a b = rho * S.cs2 * δ a b + rho * u a * u b / gamma := by
  have h' := NATriuM.Iso4.unit h hs
  have hc' : S.cs2 / (S.scaling * S.scaling) ≠ 0 := div_ne_zero hc (mul_ne_zero hs hs)
  simp only
  rw [steadyStateEquilibrium_eq]
  simp only [Stencil.collData, CollData.mk', latticeState, if_true]
  refine ⟨?_, fun a => ?_, fun a b => ?_⟩
  · rw [poly2_mass h'.toIso2 hc']; field_simp; ring
  · rw [momentum_scale (e := fun i a => S.dir i a / S.scaling) (fun _ _ => rfl) hs, poly2_momentum h' hc']; field_simp
  · rw [flux_scale (e := fun i a => S.dir i a / S.scaling) (fun _ _ => rfl) hs, poly2_flux h' hc']; field_simp; ring

/-- **C10** The incompressible equilibrium has zeroth moment `ρ`, first moment `u` and momentum flux `ρ cs² I + u u`. -/
theorem C10_incompressible_moments (h : Iso4 S.weight S.dir S.cs2) (hs : S.scaling ≠ 0) (hc : S.cs2 ≠ 0) (rho : K) (u : Fin D → K)
    (T : K) :
    let feq := incompressibleEquilibrium (S.collData viscosity dt .incompressible gamma ft F) (latticeState S rho u T)
    mass feq = rho ∧ (∀ a, momentum S.dir feq a = u a) ∧
      ∀ a b, momentumFlux S.dir feq a b = rho * S.cs2 * δ a b + u a * u b := by
  have h' := NATriuM.Iso4.unit h hs
  have hc' : S.cs2 / (S.scaling * S.scaling) ≠ 0 := div_ne_zero hc (mul_ne_zero hs hs)
  simp only
  rw [incompressibleEquilibrium_eq]
  simp only [Stencil.collData, CollData.mk', latticeState]
  refine ⟨?_, fun a => ?_, fun a b => ?_⟩
  · rw [poly2_mass h'.toIso2 hc']; field_simp; ring
  · rw [momentum_scale (e := fun i a => S.dir i a / S.scaling) (fun _ _ => rfl) hs, poly2_momentum h' hc']; field_simp
  · rw [flux_scale (e := fun i a => S.dir i a / S.scaling) (fun _ _ => rfl) hs, poly2_flux h' hc']; field_simp; ring

end C10

/-- The hypotheses of C07, C09, C10 hold for a concrete stencil of the library. -/
example : Iso6 (D2Q25H.stencil (2 : ℝ)).weight (D2Q25H.stencil 2).dir (D2Q25H.stencil 2).cs2 ∧ (D2Q25H.stencil (2 : ℝ)).scaling ≠ 0 ∧
    (D2Q25H.stencil (2 : ℝ)).cs2 ≠ 0 := by
  refine ⟨C03_isotropy6_D2Q25H 2, ?_, ?_⟩
  · simp [D2Q25H.stencil]
  · norm_num [D2Q25H.stencil]

/-! ## C11 -/

/-- **C11** The density is the sum of the populations; it is refused exactly if it is below `1e-10`. -/
theorem C11_density {K : Type*} [Field K] [LinearOrder K] {Q : ℕ} (f : Fin Q → K) :
    (∀ r, calculateDensity f = .ok r ↔ 1 / 10 ^ 10 ≤ ∑ i, f i ∧ r = ∑ i, f i) ∧
    (∀ err, calculateDensity f = .error err ↔ ∑ i, f i < 1 / 10 ^ 10 ∧ err = .densityTooSmall) := by
  unfold calculateDensity
  by_cases h : ∑ i, f i < 1 / 10 ^ 10
  · rw [if_pos h]
    exact ⟨fun r => ⟨fun h => by (cases h), fun h' => absurd h (not_lt.mpr h'.1)⟩,
      fun err => ⟨fun h' => by (cases h'; exact ⟨h, rfl⟩), fun h' => by rw [h'.2]⟩⟩
  · rw [if_neg h]
    exact ⟨fun r => ⟨fun h' => by (cases h'; exact ⟨not_lt.mp h, rfl⟩), fun h' => by rw [h'.2]⟩,
      fun err => ⟨fun h => by (cases h), fun h' => absurd h'.1 h⟩⟩

example : calculateDensity (![1, 2] : Fin 2 → ℚ) = .ok 3 := by
  rw [(C11_density _).1]; constructor <;> norm_num [Fin.sum_univ_two]

/-- **C11** For every stencil class – D2Q9 and D3Q19 have unrolled formulas – the evaluated velocity, rescaled to physical units as
the sweep does, is the momentum of the populations divided by the density. -/
theorem C11_velocity (t : StencilType) {c viscosity dt : ℝ} (hc : c ≠ 0) (cfg : CollisionConfig t.D) (f : Fin t.Q → ℝ) (rho : ℝ)
    (a : Fin t.D) :
    t.velocity (collisionData t c viscosity dt cfg) f rho a * c = (∑ i, f i * (t.stencil c).dir i a) / rho := by
  rw [StencilType.velocity_eq t cfg hc, calculateVelocity_eq]
  have := momentum_scale (t.data_e (viscosity := viscosity) (dt := dt) cfg) hc f a
  rw [show ∑ i, f i * (t.stencil c).dir i a = momentum (t.stencil c).dir f a from rfl, this]
  ring

/-- The unrolled formulas equal the generic one for every unscaled stencil, over any field. -/
theorem C11_unrolled {K : Type*} [Field K] :
    (∀ (d : CollData K 2 9), d.e = D2Q9.dir 1 → ∀ f rho, calculateVelocityD2Q9 f rho = calculateVelocity d f rho) ∧
    (∀ (d : CollData K 3 19), d.e = D3Q19.dir 1 → ∀ f rho, calculateVelocityD3Q19 f rho = calculateVelocity d f rho) :=
  ⟨fun d he f rho => velocityD2Q9_eq d he f rho, fun d he f rho => velocityD3Q19_eq d he f rho⟩

example : calculateVelocityD2Q9 (![4, 2, 1, 1, 1, 1, 1, 1, 1] : Fin 9 → ℚ) 13 = ![1 / 13, 0] := by
  funext a; fin_cases a <;> (simp [calculateVelocityD2Q9]; try norm_num)

end NATriuM
