import Verif.Props.Collision
import Verif.Lemmas.Compressible

/-!
# Properties C19 and C69: the compressible collision step

`compressibleCollide t c ν dt cfg cc inInit owned nodes` is one collision step of the compressible solver.  The energy of a node is
`totalEnergy e cs2 f g = ∑ i, (|e i|² f i / cs2 + g i)`, with the physical velocities and the physical `cs2` of the stencil.
-/

namespace NATriuM

open Finset NATriuM.Spec

/-- The stencil is isotropic to sixth order. -/
def Sixth (t : StencilType) (c : ℝ) : Prop := Iso6 (t.stencil c).weight (t.stencil c).dir (t.stencil c).cs2

section facts

variable (t : StencilType) {c viscosity dt : ℝ} (cfg : CollisionConfig t.D)

theorem data_iso6 (h : Sixth t c) (hc : c ≠ 0) :
    Iso6 (collisionData t c viscosity dt cfg).weight (collisionData t c viscosity dt cfg).e (collisionData t c viscosity dt cfg).cs2 :=
  NATriuM.Iso6.unit h (s := (t.stencil c).scaling) (by rw [StencilType.scaling_eq]; exact hc)

theorem data_energy (ht : t.exact = true) (hc : c ≠ 0) (f g : Fin t.Q → ℝ) :
    totalEnergy (t.stencil c).dir (t.stencil c).cs2 f g
      = totalEnergy (collisionData t c viscosity dt cfg).e (collisionData t c viscosity dt cfg).cs2 f g := by
  rw [totalEnergy_scale (t.data_e (viscosity := viscosity) (dt := dt) cfg) hc (t.cs2_ne ht hc)]
  have : (collisionData t c viscosity dt cfg).cs2 = (t.stencil c).cs2 / (c * c) := by
    simp only [collisionData, CollData.mk', StencilType.scaling_eq]
  rw [this]

theorem quartic_flux (ht : t.exact = true) (h : Sixth t c) (hc : c ≠ 0) (m : Macro ℝ t.D) (a b : Fin t.D) :
    momentumFlux (collisionData t c viscosity dt cfg).e (t.equilibrium .quartic (collisionData t c viscosity dt cfg) m) a b
      = m.rho * ((collisionData t c viscosity dt cfg).cs2 * m.T * δ a b + m.u a * m.u b) := by
  have h6 := data_iso6 t (viscosity := viscosity) (dt := dt) cfg h hc
  have hcs := t.data_cs2_ne (viscosity := viscosity) (dt := dt) cfg ht hc
  cases t <;> first
    | exact absurd ht (by decide)
    | exact quartic2_flux h6 hcs m a b
    | exact quartic3_flux h6 hcs m a b

variable {ι : Type*} [DecidableEq ι] {cc : CompressibleConfig} {owned : List ι} {nodes nodes' : ι → GNode t.D t.Q}

/-- What a successful step does at an owned node. -/
theorem comp_node (hn : owned.Nodup) (h : compressibleCollide t c viscosity dt cfg cc false owned nodes = .ok nodes')
    {j : ι} (hj : j ∈ owned) :
    ∃ ec, (cfg.eq = .bgk ∧ ec = .bgk ∨ cfg.eq = .quartic ∧ ec = .quartic) ∧
      ¬ mass (nodes j).f < 1 / 10 ^ 10 ∧
      collideNodeG t.velocity (t.equilibrium ec) cc (collisionData t c viscosity dt cfg) cfg.force.isSome
        false (nodes j) = .ok (nodes' j) := by
  obtain ⟨ec, he, -, h1, -, -⟩ := (compressibleCollide_ok t cfg cc false owned hn nodes nodes').mp h
  exact ⟨ec, he, (collideNodeG_rho _ _ _ _ _ _ _ _ (h1 j hj)).2, h1 j hj⟩

theorem velocity_rho (hc : c ≠ 0) (n : GNode t.D t.Q) (hd : ¬ mass n.f < 1 / 10 ^ 10) (a : Fin t.D) :
    momentum (collisionData t c viscosity dt cfg).e n.f a
      = mass n.f * t.velocity (collisionData t c viscosity dt cfg) n.f (mass n.f) a := by
  rw [StencilType.velocity_eq t cfg hc, rho_mul_velocity _ _ (dens_pos hd).ne']

end facts

theorem step_forces' (t : StencilType) {c viscosity dt : ℝ} (cfg : CollisionConfig t.D) (h : cfg.eq = .bgk ∨ cfg.eq = .quartic)
    {F : Fin t.D → ℝ} (hF : cfg.force = some F) (hft : cfg.forceType ≠ .noForcing) :
    (collisionData t c viscosity dt cfg).forces = F := by
  have : cfg.eq ≠ .steadyState := by rintro e; rw [e] at h; rcases h with h | h <;> cases h
  simp only [collisionData, CollData.mk', hF, if_neg hft, if_neg this]

/-! ## C19 -/

section C19

variable {ι : Type*} [DecidableEq ι] (t : StencilType) {c viscosity dt : ℝ} (cfg : CollisionConfig t.D) {cc : CompressibleConfig}
  {owned : List ι} {nodes nodes' : ι → GNode t.D t.Q}

/-- Mass, momentum and energy of a node. -/
def SameInvariants (c : ℝ) (n n' : GNode t.D t.Q) : Prop :=
  mass n'.f = mass n.f ∧ (∀ a, momentum (t.stencil c).dir n'.f a = momentum (t.stencil c).dir n.f a) ∧
  totalEnergy (t.stencil c).dir (t.stencil c).cs2 n'.f n'.g = totalEnergy (t.stencil c).dir (t.stencil c).cs2 n.f n.g

/-- The temperature of a node, defined by `E = ρ u²/cs² + 2 ρ T/(γ - 1)`. -/
noncomputable def nodeTemperature (c gamma : ℝ) (n : GNode t.D t.Q) : ℝ :=
  (totalEnergy (t.stencil c).dir (t.stencil c).cs2 n.f n.g
    - (∑ a, momentum (t.stencil c).dir n.f a ^ 2) / mass n.f / (t.stencil c).cs2) * (gamma - 1) / (2 * mass n.f)

/-- The exact effect of a force-free step on the energy, for both equilibria: `T'` is the temperature of the equilibrium. -/
theorem energy_step (ht : t.exact = true) (h6 : Sixth t c) (hc : c ≠ 0) (hg : cc.gamma ≠ 1) (eq : Equilibrium ℝ t.D t.Q) (n : GNode t.D t.Q)
    (hd : ¬ mass n.f < 1 / 10 ^ 10) (hcons : Conservative eq (collisionData t c viscosity dt cfg)) (T' : ℝ)
    (hflux : ∀ a b, momentumFlux (collisionData t c viscosity dt cfg).e (eq (collisionData t c viscosity dt cfg)
        (macroG t.velocity cc (collisionData t c viscosity dt cfg) n)) a b
      = mass n.f * ((collisionData t c viscosity dt cfg).cs2 * T' * δ a b
        + t.velocity (collisionData t c viscosity dt cfg) n.f (mass n.f) a
          * t.velocity (collisionData t c viscosity dt cfg) n.f (mass n.f) b)) :
    let d := collisionData t c viscosity dt cfg
    let m := macroG t.velocity cc d n
    totalEnergy d.e d.cs2 (relaxWithG cc eq d m n.f n.g).1 (relaxWithG cc eq d m n.f n.g).2.1
      = totalEnergy d.e d.cs2 n.f n.g + 1 / viscTau cc d.tau m * (mass n.f * t.D * (T' - m.T)) := by
  intro d m
  have hcs : d.cs2 ≠ 0 := t.data_cs2_ne cfg ht hc
  have e1 := temperature_energy (d := d) (f := n.f) (g := n.g) (gamma := cc.gamma) rfl (dens_pos hd).ne'
    (velocity_rho (c := c) (viscosity := viscosity) (dt := dt) t cfg hc n hd) (sub_ne_zero.mpr hg) hcs rfl
  have e2 := equilibrium_energy (d := d) (gamma := cc.gamma) (T := m.T) (hcons.mass m) hcs hflux
  rw [relaxWithG_energy (data_iso6 t cfg h6 hc).toIso5]
  change _ - _ * (_ - totalEnergy d.e d.cs2 _ _) = _
  rw [e2, e1]
  simp only [m, macroG, d]
  ring

theorem node_temperature (ht : t.exact = true) (hc : c ≠ 0) (hg : cc.gamma ≠ 1) (n : GNode t.D t.Q) (hd : ¬ mass n.f < 1 / 10 ^ 10) :
    (macroG t.velocity cc (collisionData t c viscosity dt cfg) n).T = nodeTemperature t c cc.gamma n := by
  set d := collisionData t c viscosity dt cfg with hdd
  have hcs : d.cs2 ≠ 0 := t.data_cs2_ne cfg ht hc
  have hrho := (dens_pos hd).ne'
  have hg' := sub_ne_zero.mpr hg
  have e1 := temperature_energy (d := d) (f := n.f) (g := n.g) (gamma := cc.gamma) rfl hrho
    (velocity_rho (c := c) (viscosity := viscosity) (dt := dt) t cfg hc n hd) hg' hcs
    (T := (macroG t.velocity cc d n).T) rfl
  have hcs2 : (t.stencil c).cs2 = c * c * d.cs2 := by
    have : d.cs2 = (t.stencil c).cs2 / (c * c) := by simp only [d, collisionData, CollData.mk', StencilType.scaling_eq]
    rw [this]; field_simp
  have hm : ∀ a, momentum (t.stencil c).dir n.f a = c * (mass n.f * t.velocity d n.f (mass n.f) a) := fun a => by
    rw [← velocity_rho t cfg hc n hd, momentum_scale (t.data_e (viscosity := viscosity) (dt := dt) cfg) hc]
  have hs : ∑ a, momentum (t.stencil c).dir n.f a ^ 2
      = c * c * (mass n.f * mass n.f) * ∑ a, t.velocity d n.f (mass n.f) a * t.velocity d n.f (mass n.f) a := by
    rw [Finset.mul_sum]; exact Finset.sum_congr rfl fun a _ => by rw [hm]; ring
  unfold nodeTemperature
  rw [data_energy t (viscosity := viscosity) (dt := dt) cfg ht hc, ← hdd, e1, hcs2, hs]
  have h1 : (c * c) * (d.cs2) ≠ 0 := mul_ne_zero (mul_ne_zero hc hc) hcs
  field_simp
  ring

/-- **C11**, compressible: density, velocity and temperature stored by a successful force-free step are those of the populations. -/
theorem C11_compressible_fields (ht : t.exact = true) (hc : c ≠ 0) (hg : cc.gamma ≠ 1) (hf : cfg.force = none) (hn : owned.Nodup)
    (h : compressibleCollide t c viscosity dt cfg cc false owned nodes = .ok nodes') {j : ι} (hj : j ∈ owned) :
    (nodes' j).rho = mass (nodes j).f ∧ (∀ a, (nodes' j).u a = momentum (t.stencil c).dir (nodes j).f a / mass (nodes j).f) ∧
      (nodes' j).T = nodeTemperature t c cc.gamma (nodes j) := by
  obtain ⟨ec, -, hd, h1⟩ := comp_node t cfg hn h hj
  rw [hf] at h1
  simp only [Option.isSome_none] at h1
  rw [collideNodeG_free _ _ _ _ _ hd, Except.ok.injEq] at h1
  rw [← h1]
  refine ⟨rfl, fun a => ?_, node_temperature t cfg ht hc hg _ hd⟩
  have := C11_velocity t (viscosity := viscosity) (dt := dt) hc cfg (nodes j).f (mass (nodes j).f) a
  simp only [momentum]
  rw [← this, show (collisionData t c viscosity dt cfg).scaling = c by simp only [collisionData, CollData.mk', StencilType.scaling_eq]]

/-- **C19** One successful force-free compressible collision step with the quartic equilibrium leaves mass, momentum and total energy of
every node unchanged: for every node state, viscosity, time step, adiabatic exponent, Prandtl number (or none), with or without
Sutherland's law, on every stencil that is isotropic to sixth order. -/
theorem C19_compressible_conserves (ht : t.exact = true) (h6 : Sixth t c) (hc : c ≠ 0) (hg : cc.gamma ≠ 1) (he : cfg.eq = .quartic)
    (hf : cfg.force = none) (hn : owned.Nodup)
    (h : compressibleCollide t c viscosity dt cfg cc false owned nodes = .ok nodes') (j : ι) :
    SameInvariants t c (nodes j) (nodes' j) := by
  obtain ⟨-, -, -, -, hother, -⟩ := (compressibleCollide_ok t cfg cc false owned hn nodes nodes').mp h
  by_cases hj : j ∈ owned
  swap
  · rw [hother j hj]; exact ⟨rfl, fun _ => rfl, rfl⟩
  obtain ⟨ec, hec, hd, hj'⟩ := comp_node t cfg hn h hj
  have hec : ec = .quartic := by
    rcases hec with ⟨h1, h2⟩ | ⟨h1, h2⟩
    · rw [he] at h1; cases h1
    · exact h2
  subst hec
  rw [hf] at hj'
  simp only [Option.isSome_none] at hj'
  rw [collideNodeG_free _ _ _ _ _ hd, Except.ok.injEq] at hj'
  have h6' := data_iso6 (viscosity := viscosity) (dt := dt) t cfg h6 hc
  have hcons := t.conservative (viscosity := viscosity) (dt := dt) cfg ht hc .quartic
  have hms := momentum_scale (t.data_e (viscosity := viscosity) (dt := dt) cfg) hc
  rw [← hj']
  refine ⟨?_, fun a => ?_, ?_⟩
  · rw [relaxWithG_mass h6'.toIso4 hcons cc]
    simp only [macroG]; ring
  · rw [hms, hms, relaxWithG_momentum h6'.toIso4 hcons cc]
    have := velocity_rho (viscosity := viscosity) (dt := dt) t cfg hc (nodes j) hd a
    simp only [macroG]
    rw [← this]; ring
  · rw [data_energy (viscosity := viscosity) (dt := dt) t cfg ht hc, data_energy (viscosity := viscosity) (dt := dt) t cfg ht hc]
    refine (energy_step t cfg ht h6 hc hg (t.equilibrium .quartic) (nodes j) hd hcons _ (quartic_flux t cfg ht h6 hc _)).trans ?_
    ring

/-- The relaxation time of the stress at a node, without Sutherland's law. -/
noncomputable def stressTau (t : StencilType) (c viscosity dt gamma : ℝ) (n : GNode t.D t.Q) : ℝ :=
  viscosity / (dt * (t.stencil c).cs2) / (nodeTemperature t c gamma n * mass n.f) + 1 / 2

/-- **C19 fails** with the second-order equilibrium, which has unit temperature: the energy changes by `ρ D (1 - T) / τ'`. -/
theorem C19_bgk_energy (ht : t.exact = true) (h6 : Sixth t c) (hc : c ≠ 0) (hg : cc.gamma ≠ 1) (hsu : cc.sutherland = false)
    (he : cfg.eq = .bgk) (hf : cfg.force = none) (hn : owned.Nodup)
    (h : compressibleCollide t c viscosity dt cfg cc false owned nodes = .ok nodes') {j : ι} (hj : j ∈ owned) :
    totalEnergy (t.stencil c).dir (t.stencil c).cs2 (nodes' j).f (nodes' j).g
      = totalEnergy (t.stencil c).dir (t.stencil c).cs2 (nodes j).f (nodes j).g
        + mass (nodes j).f * t.D * (1 - nodeTemperature t c cc.gamma (nodes j)) / stressTau t c viscosity dt cc.gamma (nodes j) := by
  obtain ⟨ec, hec, hd, hj'⟩ := comp_node t cfg hn h hj
  have hec : ec = .bgk := by
    rcases hec with ⟨h1, h2⟩ | ⟨h1, h2⟩
    · exact h2
    · rw [he] at h1; cases h1
  subst hec
  rw [hf] at hj'
  simp only [Option.isSome_none] at hj'
  rw [collideNodeG_free _ _ _ _ _ hd, Except.ok.injEq] at hj'
  have h6' := data_iso6 (viscosity := viscosity) (dt := dt) t cfg h6 hc
  have hcs := t.data_cs2_ne (c := c) (viscosity := viscosity) (dt := dt) cfg ht hc
  have hcons := t.conservative (viscosity := viscosity) (dt := dt) cfg ht hc .bgk
  have hT := node_temperature (viscosity := viscosity) (dt := dt) t cfg ht hc hg (nodes j) hd
  have htau : viscTau cc (collisionData t c viscosity dt cfg).tau (macroG t.velocity cc (collisionData t c viscosity dt cfg) (nodes j))
      = stressTau t c viscosity dt cc.gamma (nodes j) := by
    rw [viscTau, step_tau t cfg (Or.inl he), hT, hsu, stressTau]
    simp [macroG]
  rw [← hj', data_energy (viscosity := viscosity) (dt := dt) t cfg ht hc, data_energy (viscosity := viscosity) (dt := dt) t cfg ht hc]
  refine (energy_step t cfg ht h6 hc hg _ (nodes j) hd hcons 1 (fun a b => ?_)).trans ?_
  · rw [StencilType.bgk_eq t cfg hc, bgk_flux h6'.toIso4 hcs]
    simp only [macroG]; ring
  · rw [hT, htau]; ring

/-- … in particular a node that is not at unit temperature loses or gains energy. -/
theorem C19_bgk_not_conserved (ht : t.exact = true) (h6 : Sixth t c) (hc : c ≠ 0) (hg : cc.gamma ≠ 1) (hsu : cc.sutherland = false)
    (he : cfg.eq = .bgk) (hf : cfg.force = none) (hn : owned.Nodup)
    (h : compressibleCollide t c viscosity dt cfg cc false owned nodes = .ok nodes') {j : ι} (hj : j ∈ owned)
    (hT : nodeTemperature t c cc.gamma (nodes j) ≠ 1) (htau : stressTau t c viscosity dt cc.gamma (nodes j) ≠ 0) :
    ¬ SameInvariants t c (nodes j) (nodes' j) := by
  rintro ⟨-, -, h3⟩
  rw [C19_bgk_energy t cfg ht h6 hc hg hsu he hf hn h hj] at h3
  obtain ⟨_, -, hd, -⟩ := comp_node t cfg hn h hj
  have hD : (t.D : ℝ) ≠ 0 := by cases t <;> norm_num [StencilType.D]
  have : mass (nodes j).f * t.D * (1 - nodeTemperature t c cc.gamma (nodes j)) / stressTau t c viscosity dt cc.gamma (nodes j) ≠ 0 :=
    div_ne_zero (mul_ne_zero (mul_ne_zero (dens_pos hd).ne' hD) (sub_ne_zero.mpr (Ne.symm hT))) htau
  exact this (by linarith)

/-- The relaxation times by which the step divides are not zero for a physical state: positive viscosity and time step, positive
temperature and Prandtl number. -/
theorem C19_relaxation_times_positive {tau : ℝ} (m : Macro ℝ t.D) (htau : 1 / 2 < tau) (hT : 0 < m.T) (hr : 0 < m.rho)
    (hp : ∀ p ∈ cc.prandtl, 0 < p) :
    0 < viscTau cc tau m ∧ 0 < (viscTau cc tau m - 1 / 2) / cc.prandtl.getD 1 + 1 / 2 := by
  have h1 : 1 / 2 < viscTau cc tau m := by
    have : 0 < (tau - 1 / 2) * (if cc.sutherland then (m.T / (85 / 100)) ^ (7 / 10 : ℝ) else 1) / (m.T * m.rho) := by
      have h2 : (0 : ℝ) < (if cc.sutherland then (m.T / (85 / 100)) ^ (7 / 10 : ℝ) else 1) := by
        split
        · exact Real.rpow_pos_of_pos (by positivity) _
        · norm_num
      have h3 : 0 < tau - 1 / 2 := by linarith
      positivity
    simp only [viscTau]
    linarith
  have h4 : 0 < cc.prandtl.getD 1 := by
    cases hcp : cc.prandtl with
    | none => norm_num
    | some p => exact hp p (by rw [hcp]; rfl)
  have h5 : 0 < (viscTau cc tau m - 1 / 2) / cc.prandtl.getD 1 := div_pos (by linarith) h4
  exact ⟨by linarith, by linarith⟩

/-- A compressible step succeeds on nodes of sufficient density. -/
theorem comp_step_succeeds {ec : EquilibriumClass} (he : cfg.eq = .bgk ∧ ec = .bgk ∨ cfg.eq = .quartic ∧ ec = .quartic)
    (hr : ∃ r, (compSelection t.D).1.find? (·.applies { stencil := t, scheme := cfg.scheme, eq := cfg.eq }) = some r)
    (hf : cfg.force = none) (hn : owned.Nodup) (ho : owned ≠ []) (hd : ∀ j ∈ owned, 1 / 10 ^ 10 < mass (nodes j).f) :
    ∃ nodes', compressibleCollide t c viscosity dt cfg cc false owned nodes = .ok nodes' := by
  let d := collisionData t c viscosity dt cfg
  let eq := t.equilibrium ec
  refine ⟨fun j => if j ∈ owned then
      { f := (relaxWithG cc eq d (macroG t.velocity cc d (nodes j)) (nodes j).f (nodes j).g).1,
        g := (relaxWithG cc eq d (macroG t.velocity cc d (nodes j)) (nodes j).f (nodes j).g).2.1,
        rho := mass (nodes j).f, u := fun a => t.velocity d (nodes j).f (mass (nodes j).f) a * d.scaling,
        T := (macroG t.velocity cc d (nodes j)).T,
        shock := (relaxWithG cc eq d (macroG t.velocity cc d (nodes j)) (nodes j).f (nodes j).g).2.2 }
    else nodes j, (compressibleCollide_ok t cfg cc false owned hn nodes _).mpr ⟨ec, he, hr, ?_, ?_, ?_⟩⟩
  · intro j hj
    simp only [if_pos hj, hf, Option.isSome_none]
    exact collideNodeG_free t.velocity eq cc d (nodes j) (not_lt.mpr (hd j hj).le)
  · intro j hj
    simp only [if_neg hj]
  · exact ⟨owned.getLast ho, List.getLast?_eq_getLast_of_ne_nil ho, hd _ (List.getLast_mem ho)⟩

end C19

/-- Air with Prandtl number 0.71 and Sutherland's law. -/
noncomputable def sampleComp : CompressibleConfig := { gamma := 14 / 10, prandtl := some (71 / 100), sutherland := true }

/-- A configuration of the compressible solver. -/
noncomputable def sampleCompCfg : CollisionConfig 2 :=
  { scheme := .bgkStandard, eq := .quartic, mrtBasis := .dellarD2Q9, relaxMode := .relaxFull, gamma := 1, forceType := .noForcing, force := none }

/-- A non-equilibrium node. -/
noncomputable def sampleGNode : GNode 2 25 :=
  { f := fun i => 1 + (i.val : ℝ) / 10, g := fun i => 2 + (i.val : ℝ) / 5, rho := 0, u := fun _ => 0, T := 0, shock := 0 }

theorem sampleGNode_mass : 1 / 10 ^ 10 < mass sampleGNode.f := by
  unfold mass sampleGNode
  have : ∀ i : Fin 25, (1 : ℝ) ≤ 1 + (i.val : ℝ) / 10 := fun i => by
    have : (0 : ℝ) ≤ (i.val : ℝ) := Nat.cast_nonneg _
    linarith
  calc (1 : ℝ) / 10 ^ 10 < ∑ _i : Fin 25, (1 : ℝ) := by norm_num
    _ ≤ _ := Finset.sum_le_sum fun i _ => this i

example : ∃ nodes', compressibleCollide .D2Q25H 2 (1 / 10) (1 / 100) sampleCompCfg sampleComp false [0, 1, 2]
    (fun _ : ℕ => sampleGNode) = .ok nodes' ∧ ∀ j, SameInvariants .D2Q25H 2 sampleGNode (nodes' j) := by
  obtain ⟨n', h⟩ := comp_step_succeeds .D2Q25H (c := 2) (viscosity := 1 / 10) (dt := 1 / 100) sampleCompCfg (cc := sampleComp) (owned := [0, 1, 2])
    (nodes := fun _ : ℕ => sampleGNode) (.inr ⟨rfl, rfl⟩) ⟨_, rfl⟩ rfl (by decide) (by decide) (fun _ _ => sampleGNode_mass)
  exact ⟨n', h, C19_compressible_conserves .D2Q25H sampleCompCfg rfl (C03_isotropy6_D2Q25H 2) (by norm_num) (by norm_num [sampleComp]) rfl rfl (by decide) h⟩

/-! ## C70 -/

section C70

variable {ι : Type*} [DecidableEq ι] (t : StencilType) {c viscosity dt : ℝ} (cfg : CollisionConfig t.D) {cc : CompressibleConfig}
  {owned : List ι} {nodes nodes' : ι → GNode t.D t.Q}

/-- **C70** With exact-difference forcing a compressible step adds exactly `dt F` to the momentum of every node and leaves the mass
unchanged. -/
theorem C70_exactDifference_partial (ht : t.exact = true) (hc : c ≠ 0) {F : Fin t.D → ℝ} (hF : cfg.force = some F)
    (hft : cfg.forceType = .exactDifference) (hn : owned.Nodup)
    (h : compressibleCollide t c viscosity dt cfg cc false owned nodes = .ok nodes') {j : ι} (hj : j ∈ owned) :
    mass (nodes' j).f = mass (nodes j).f ∧
      ∀ a, momentum (t.stencil c).dir (nodes' j).f a = momentum (t.stencil c).dir (nodes j).f a + dt * F a := by
  obtain ⟨ec, hec, hd, hj'⟩ := comp_node t cfg hn h hj
  rw [hF] at hj'
  simp only [Option.isSome_some] at hj'
  rw [collideNodeG_exact _ _ _ _ _ hd hft, Except.ok.injEq] at hj'
  have h4 := (t.data_iso5 (viscosity := viscosity) (dt := dt) cfg ht hc).toIso4
  have hcons := t.conservative (viscosity := viscosity) (dt := dt) cfg ht hc ec
  have hfo := step_forces' t (c := c) (viscosity := viscosity) (dt := dt) cfg (hec.imp And.left And.left) hF (by rw [hft]; decide)
  have hms := momentum_scale (t.data_e (viscosity := viscosity) (dt := dt) cfg) hc
  have hrho := (dens_pos hd).ne'
  rw [← hj']
  constructor
  · have : ∀ x y z : Fin t.Q → ℝ, mass (fun i => x i + (y i - z i)) = mass x + (mass y - mass z) := fun x y z => by
      simp only [mass, Finset.sum_add_distrib, Finset.sum_sub_distrib]
    simp only
    rw [this, hcons.mass, hcons.mass, relaxWithG_mass h4 hcons cc]
    simp only [macroG]; ring
  · intro a
    have : ∀ (e : Fin t.Q → Fin t.D → ℝ) (x y z : Fin t.Q → ℝ),
        momentum e (fun i => x i + (y i - z i)) a = momentum e x a + (momentum e y a - momentum e z a) := fun e x y z => by
      simp only [momentum, ← Finset.sum_sub_distrib, ← Finset.sum_add_distrib]
      exact Finset.sum_congr rfl fun i _ => by ring
    have hv := velocity_rho (viscosity := viscosity) (dt := dt) t cfg hc (nodes j) hd a
    rw [hms, hms]
    simp only
    rw [this, hcons.momentum, hcons.momentum, relaxWithG_momentum h4 hcons cc]
    simp only [macroG, hfo, t.data_scaling cfg]
    rw [hv, show (collisionData t c viscosity dt cfg).dt = dt from rfl]
    field_simp
    ring

/-- **C70 fails** with shifted-velocity forcing: the momentum changes by `(τ/τ') dt F`, where `τ` is the relaxation time of the collision
data and `τ'` the one of the node (which depends on its temperature and density). -/
theorem C70_shifting (ht : t.exact = true) (hc : c ≠ 0) (hsu : cc.sutherland = false) (hg : cc.gamma ≠ 1) {F : Fin t.D → ℝ}
    (hF : cfg.force = some F) (hft : cfg.forceType = .shiftingVelocity) (hn : owned.Nodup)
    (h : compressibleCollide t c viscosity dt cfg cc false owned nodes = .ok nodes') {j : ι} (hj : j ∈ owned) :
    mass (nodes' j).f = mass (nodes j).f ∧
      ∀ a, momentum (t.stencil c).dir (nodes' j).f a = momentum (t.stencil c).dir (nodes j).f a
        + (viscosity / (dt * (t.stencil c).cs2) + 1 / 2) / stressTau t c viscosity dt cc.gamma (nodes j) * (dt * F a) := by
  obtain ⟨ec, hec, hd, hj'⟩ := comp_node t cfg hn h hj
  rw [hF] at hj'
  simp only [Option.isSome_some] at hj'
  rw [collideNodeG_shifting _ _ _ _ _ hd hft, Except.ok.injEq] at hj'
  have h4 := (t.data_iso5 (viscosity := viscosity) (dt := dt) cfg ht hc).toIso4
  have hcons := t.conservative (viscosity := viscosity) (dt := dt) cfg ht hc ec
  have hfo := step_forces' t (c := c) (viscosity := viscosity) (dt := dt) cfg (hec.imp And.left And.left) hF (by rw [hft]; decide)
  have hms := momentum_scale (t.data_e (viscosity := viscosity) (dt := dt) cfg) hc
  have hT := node_temperature (viscosity := viscosity) (dt := dt) t cfg ht hc hg (nodes j) hd
  have hrho := (dens_pos hd).ne'
  have htau : ∀ m : Macro ℝ t.D, m.rho = mass (nodes j).f →
      m.T = (macroG t.velocity cc (collisionData t c viscosity dt cfg) (nodes j)).T →
      viscTau cc (collisionData t c viscosity dt cfg).tau m = stressTau t c viscosity dt cc.gamma (nodes j) := fun m h1 h2 => by
    rw [viscTau, step_tau t cfg (hec.imp And.left And.left), hsu, stressTau, ← hT, h1, h2]
    simp
  rw [← hj']
  constructor
  · simp only
    rw [relaxWithG_mass h4 hcons cc]
    simp only [macroG]; ring
  · intro a
    have hv := velocity_rho (viscosity := viscosity) (dt := dt) t cfg hc (nodes j) hd a
    rw [hms, hms]
    simp only
    rw [relaxWithG_momentum h4 hcons cc, htau]
    rotate_left
    · rfl
    · rfl
    simp only [macroG, hfo, t.data_scaling cfg]
    rw [hv, show (collisionData t c viscosity dt cfg).dt = dt from rfl, step_tau t cfg (hec.imp And.left And.left)]
    field_simp
    ring

end C70

/-! ## C69 -/

section C69

variable {D Q : ℕ} {d : CollData ℝ D Q}

/-- Part of a distribution with respect to an equilibrium. -/
def neq (f feq : Fin Q → ℝ) : Fin Q → ℝ := fun i => f i - feq i

/-- **C69** In the compressible collision the heat-flux tensor (the third moment of the non-equilibrium part of `f`) relaxes with the rate
`1/τ_Pr`, `τ_Pr = (τ' - 1/2)/Pr + 1/2`, while the stress relaxes with `1/τ'`: on every stencil isotropic to sixth order. -/
theorem C69_heat_flux_partial (h : Iso6 d.weight d.e d.cs2) (hc : d.cs2 ≠ 0) {eq : Equilibrium ℝ D Q} (hcons : Conservative eq d)
    (cc : CompressibleConfig) {Pr : ℝ} (hPr : cc.prandtl = some Pr) (m : Macro ℝ D) (f g : Fin Q → ℝ) (h0 : mass f = m.rho)
    (h1 : ∀ a, momentum d.e f a = m.rho * m.u a) (h2 : ∀ a b, momentumFlux d.e f a b = momentumFlux d.e (eq d m) a b) (a b k : Fin D) :
    heatFlux d.e (neq (relaxWithG cc eq d m f g).1 (eq d m)) a b k
      = (1 - 1 / ((viscTau cc d.tau m - 1 / 2) / Pr + 1 / 2)) * heatFlux d.e (neq f (eq d m)) a b k := by
  have e0 : mass (neq f (eq d m)) = 0 := by
    simp only [neq, mass, Finset.sum_sub_distrib]; rw [show ∑ i, f i = m.rho from h0, show ∑ i, eq d m i = m.rho from hcons.mass m, sub_self]
  have e1 : ∀ a, momentum d.e (neq f (eq d m)) a = 0 := fun a => by
    have : momentum d.e (neq f (eq d m)) a = momentum d.e f a - momentum d.e (eq d m) a := by
      simp only [neq, momentum, ← Finset.sum_sub_distrib]; exact Finset.sum_congr rfl fun i _ => by ring
    rw [this, h1, hcons.momentum, sub_self]
  have e2 : ∀ a b, momentumFlux d.e (neq f (eq d m)) a b = 0 := fun a b => by
    have : momentumFlux d.e (neq f (eq d m)) a b = momentumFlux d.e f a b - momentumFlux d.e (eq d m) a b := by
      simp only [neq, momentumFlux, ← Finset.sum_sub_distrib]; exact Finset.sum_congr rfl fun i _ => by ring
    rw [this, h2, sub_self]
  have hs : heatFlux d.e (starF cc d m (neq f (eq d m))) a b k = heatFlux d.e (neq f (eq d m)) a b k := by
    unfold starF
    rw [hPr]
    simp only
    rw [fStar_heatFlux h hc (centered_sym d m.u _), centered_eq d m.u e0 e1 e2]
  have hl : heatFlux d.e (neq (relaxWithG cc eq d m f g).1 (eq d m)) a b k
      = heatFlux d.e (neq f (eq d m)) a b k - 1 / viscTau cc d.tau m * heatFlux d.e (neq f (eq d m)) a b k
        + (1 / viscTau cc d.tau m - prandtlOmega cc d.tau m) * heatFlux d.e (starF cc d m (neq f (eq d m))) a b k := by
    rw [show neq f (eq d m) = fun p => f p - eq d m p from rfl]
    simp only [relaxWithG_f, neq, heatFlux, Finset.mul_sum, ← Finset.sum_sub_distrib, ← Finset.sum_add_distrib]
    exact Finset.sum_congr rfl fun i _ => by ring
  rw [hl, hs, prandtlOmega, hPr]
  simp only [Option.getD_some]
  ring

/-- **C69 fails for `g`**: its centred first moment is multiplied by `1 - 1/τ' + (1/τ' - 1/τ_Pr) cs2/T` instead of `1 - 1/τ_Pr`
(`gStar` divides by the temperature and lacks a factor `1/cs2`). -/
theorem C69_g_flux (h : Iso2 d.weight d.e d.cs2) (eq : Equilibrium ℝ D Q) (cc : CompressibleConfig) {Pr : ℝ} (hPr : cc.prandtl = some Pr)
    (m : Macro ℝ D) (f g : Fin Q → ℝ) (h0 : mass (neq g (calculateGeqFromFeq (D := D) cc.gamma m.T (eq d m))) = 0) (a : Fin D) :
    momentum d.e (neq (relaxWithG cc eq d m f g).2.1 (calculateGeqFromFeq (D := D) cc.gamma m.T (eq d m))) a
      = (1 - 1 / viscTau cc d.tau m + (1 / viscTau cc d.tau m - 1 / ((viscTau cc d.tau m - 1 / 2) / Pr + 1 / 2)) * (d.cs2 / m.T))
        * momentum d.e (neq g (calculateGeqFromFeq (D := D) cc.gamma m.T (eq d m))) a := by
  set geq := calculateGeqFromFeq (D := D) cc.gamma m.T (eq d m)
  have hs : momentum d.e (starG cc d m (neq g geq)) a = d.cs2 / m.T * momentum d.e (neq g geq) a := by
    unfold starG
    rw [hPr]
    simp only
    rw [gStar_momentum h]
    congr 1
    have : calculateCenteredMomentumFlux d m.u (neq g geq) a = momentum d.e (neq g geq) a - m.u a * mass (neq g geq) := by
      simp only [calculateCenteredMomentumFlux, momentum, mass, Finset.mul_sum, ← Finset.sum_sub_distrib]
      exact Finset.sum_congr rfl fun i _ => by ring
    rw [this, h0]; ring
  have hl : momentum d.e (neq (relaxWithG cc eq d m f g).2.1 geq) a
      = momentum d.e (neq g geq) a - 1 / viscTau cc d.tau m * momentum d.e (neq g geq) a
        + (1 / viscTau cc d.tau m - prandtlOmega cc d.tau m) * momentum d.e (starG cc d m (neq g geq)) a := by
    rw [show neq g geq = fun p => g p - calculateGeqFromFeq (D := D) cc.gamma m.T (eq d m) p from rfl]
    simp only [relaxWithG_g, neq, momentum, geq, Finset.mul_sum, ← Finset.sum_sub_distrib, ← Finset.sum_add_distrib]
    exact Finset.sum_congr rfl fun i _ => by ring
  rw [hl, hs, prandtlOmega, hPr]
  simp only [Option.getD_some]
  ring

/-- … so the flux of `g` relaxes with the intended rate exactly when `T = cs2`, if `Pr ≠ 1` and the state is admissible. -/
theorem C69_g_flux_wrong {visc pt r x : ℝ} (hd : 1 / visc ≠ 1 / pt) (hx : x ≠ 0) :
    (1 - 1 / visc + (1 / visc - 1 / pt) * r) * x = (1 - 1 / pt) * x ↔ r = 1 := by
  constructor
  · intro h
    have := mul_right_cancel₀ hx h
    have h2 : (1 / visc - 1 / pt) * (r - 1) = 0 := by linarith
    rcases mul_eq_zero.mp h2 with h3 | h3
    · exact absurd (sub_eq_zero.mp h3) hd
    · linarith
  · rintro rfl; ring

-- the hypotheses of the heat-flux theorem hold for a distribution at equilibrium plus any third-order mode
theorem C69_example {d : CollData ℝ 2 Q} (h6 : Iso6 d.weight d.e d.cs2) (hcs : d.cs2 ≠ 0) (cc : CompressibleConfig) {Pr : ℝ}
    (hPr : cc.prandtl = some Pr) (m : Macro ℝ 2) (q : Fin 2 → Fin 2 → Fin 2 → ℝ) (hq : Sym3 q) (a b k : Fin 2) :
    let f := fun i => quarticEquilibrium2 d m i + calculateFStar d q i
    heatFlux d.e (neq (relaxWithG cc quarticEquilibrium2 d m f f).1 (quarticEquilibrium2 d m)) a b k
      = (1 - 1 / ((viscTau cc d.tau m - 1 / 2) / Pr + 1 / 2)) * q a b k := by
  intro f
  have hcons := quartic2_mass_momentum h6.toIso5 hcs
  rw [C69_heat_flux_partial h6 hcs hcons cc hPr m f f]
  · congr 1
    rw [← fStar_heatFlux h6 hcs hq]
    simp only [heatFlux, neq, f, add_sub_cancel_left]
  · have : mass f = mass (quarticEquilibrium2 d m) + mass (calculateFStar d q) := by simp only [mass, f, Finset.sum_add_distrib]
    rw [this, hcons.mass, fStar_mass h6.toIso4, add_zero]
  · intro a
    have : momentum d.e f a = momentum d.e (quarticEquilibrium2 d m) a + momentum d.e (calculateFStar d q) a := by
      simp only [momentum, f, add_mul, Finset.sum_add_distrib]
    rw [this, hcons.momentum, fStar_momentum h6.toIso4 hq, add_zero]
  · intro a b
    have : momentumFlux d.e f a b = momentumFlux d.e (quarticEquilibrium2 d m) a b + momentumFlux d.e (calculateFStar d q) a b := by
      simp only [momentumFlux, f, add_mul, Finset.sum_add_distrib]
    rw [this, fStar_flux h6.toIso5, add_zero]

example (cfg : CollisionConfig 2) (m : Macro ℝ 2) (q : Fin 2 → Fin 2 → Fin 2 → ℝ) (hq : Sym3 q) (a b k : Fin 2) :=
  C69_example (d := collisionData .D2Q25H 2 (1 / 10) (1 / 100) cfg)
    (data_iso6 .D2Q25H (c := 2) (viscosity := 1 / 10) (dt := 1 / 100) cfg (C03_isotropy6_D2Q25H 2) (by norm_num))
    (StencilType.data_cs2_ne .D2Q25H cfg rfl (by norm_num)) sampleComp rfl m q hq a b k

end C69

end NATriuM
