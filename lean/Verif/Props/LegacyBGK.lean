import Verif.Lemmas.Legacy
import Verif.Lemmas.CollisionStencil
import Verif.Lemmas.Sweep
import Verif.Props.Stencils
import Verif.Spec.Legacy
import Mathlib.Tactic.NormNum
import Mathlib.Tactic.Linarith

/-!
# C66 for the BGK family of the class based collision models
-/

namespace NATriuM.Legacy

open Finset Spec

section

variable {K : Type*} [Field K] [LinearOrder K] [IsStrictOrderedRing K] {D Q : ℕ}

/-! ## Inversion: a node body that does not throw -/

omit [IsStrictOrderedRing K] in
theorem ite_ok {α : Type*} {rho : K} {e : CollError} {x y : α} (h : (if rho < 1 / 10 ^ 10 then Except.error e else .ok x) = .ok y) :
    ¬rho < 1 / 10 ^ 10 ∧ y = x := by
  by_cases hr : rho < 1 / 10 ^ 10
  · rw [if_pos hr] at h; cases h
  · rw [if_neg hr] at h; injection h with h; exact ⟨hr, h.symm⟩

theorem pos_of_not {rho : K} (h : ¬rho < 1 / 10 ^ 10) : rho ≠ 0 := by
  have h1 : (0 : K) < 1 / 10 ^ 10 := by positivity
  exact (lt_of_lt_of_le h1 (not_lt.mp h)).ne'

/-! ## The collision object -/

/-- What the constructor and the setters establish: positive relaxation time and time step, and the prefactor that belongs to them. -/
structure Obj.Valid (b : Obj K D Q) : Prop where
  tau : 0 < b.tau
  dt : 0 < b.dt
  prefactor : b.prefactor = -1 / (b.tau + 1 / 2)

omit [IsStrictOrderedRing K] in
theorem Obj.make_valid (tau dt : K) (S : Stencil K D Q) (ht : 0 < tau) (hd : 0 < dt) : (Obj.make tau dt S).Valid := ⟨ht, hd, rfl⟩

theorem Obj.Valid.prefactor_ne {b : Obj K D Q} (h : b.Valid) : b.prefactor ≠ 0 := by
  have := h.tau
  rw [h.prefactor]
  have : b.tau + 1 / 2 ≠ 0 := by positivity
  simpa using this

theorem Obj.Valid.setTimeStep {b b' : Obj K D Q} (h : b.Valid) {dt : K} (hb : b.setTimeStep dt = .ok b') : b'.Valid := by
  unfold Obj.setTimeStep at hb
  split at hb
  · next hd =>
    cases hb
    exact ⟨by have := h.tau; have := h.dt; positivity, hd, rfl⟩
  · cases hb

omit [IsStrictOrderedRing K] in
theorem Obj.setRelaxationParameter_valid {b b' : Obj K D Q} {tau dt : K} (hd : 0 < dt)
    (hb : b.setRelaxationParameter tau dt = .ok b') : b'.Valid := by
  unfold Obj.setRelaxationParameter at hb
  split at hb
  · next ht => cases hb; exact ⟨ht, hd, rfl⟩
  · cases hb

/-- A sequence of calls of `setTimeStep`. -/
def setTimeSteps (b : Obj K D Q) : List K → Except CollError (Obj K D Q)
  | [] => .ok b
  | dt :: l => match b.setTimeStep dt with
    | .error e => .error e
    | .ok b' => setTimeSteps b' l

/-- **C66 (time step)**: whatever sequence of positive time steps is set, the viscosity `tau · dt · cs²` of the collision object stays the one it
was constructed with, the relaxation factor is the one that belongs to the relaxation time, and the stencil and the force
are untouched. -/
theorem C66_setTimeStep (steps : List K) (hs : ∀ dt ∈ steps, 0 < dt) (b : Obj K D Q) (hb : b.Valid) :
    ∃ b', setTimeSteps b steps = .ok b' ∧ b'.Valid ∧ b'.tau * (b'.dt * b'.stencil.cs2) = b.tau * (b.dt * b.stencil.cs2) ∧
      b'.stencil = b.stencil ∧ b'.force = b.force ∧ b'.forceType = b.forceType ∧ b'.dt = (steps.getLast?).getD b.dt := by
  induction steps generalizing b with
  | nil => exact ⟨b, rfl, hb, rfl, rfl, rfl, rfl, rfl⟩
  | cons dt l ih =>
    have hd : 0 < dt := hs dt (by simp)
    set b1 : Obj K D Q := { b with dt := dt, timeStep := dt, tau := b.dt * b.tau / dt, prefactor := -1 / (b.dt * b.tau / dt + 1 / 2) }
      with hb1
    have h1 : b.setTimeStep dt = .ok b1 := by unfold Obj.setTimeStep; rw [if_pos hd]
    obtain ⟨b', h2, h3, h4, h5, h6, h7, h8⟩ := ih (fun x hx => hs x (by simp [hx])) b1 (hb.setTimeStep h1)
    refine ⟨b', by simp only [setTimeSteps, h1, h2], h3, ?_, h5, h6, h7, ?_⟩
    · rw [h4]; simp only [hb1]; field_simp
    · rw [h8, List.getLast?_cons]; simp only [hb1, Option.getD_some]

example : ∃ b', setTimeSteps (Obj.make (K := ℚ) 2 (1 / 4) (D2Q9.stencil 1)) [1 / 2, 1 / 8] = .ok b' ∧ b'.dt = 1 / 8 ∧ b'.tau = 4 := by
  obtain ⟨b', h1, -, h2, h3, -, -, h4⟩ := C66_setTimeStep [1 / 2, 1 / 8] (by norm_num) (Obj.make (K := ℚ) 2 (1 / 4) (D2Q9.stencil 1))
    (Obj.make_valid _ _ _ (by norm_num) (by norm_num))
  have h5 : b'.dt = 1 / 8 := h4
  refine ⟨b', h1, h5, ?_⟩
  rw [h3, h5] at h2
  norm_num [Obj.make, D2Q9.stencil] at h2
  linarith

/-! ## BGK standard, D2Q9 -/

section D2Q9

variable {c : K} (hc : c ≠ 0) {b : Obj K 2 9} (hS : b.stencil = D2Q9.stencil c) {n n' : Node K 2 9}
include hc hS

theorem standardD2Q9_result {inInit : Bool} (h : standardD2Q9Node b inInit n = .ok n') (us : (Fin 2 → K) × (Fin 2 → K))
    (hu : us = if inInit then (n.u, n.u) else forcedVelocity b.forceType b.prefactor b.dt (mass n.f) b.force (velocityD2Q9 c (mass n.f) n.f)) :
    mass n.f ≠ 0 ∧ n'.rho = mass n.f ∧ n'.u = us.1 ∧
    mass n'.f = mass n.f +
      mass (sourceD2Q9 b.forceType b.force us.2 (mass n.f) b.prefactor ((D2Q9.stencil c).scaling / (D2Q9.stencil c).cs2) b.dt b.dt) ∧
    ∀ a, momentum (D2Q9.stencil c).dir n'.f a = momentum (D2Q9.stencil c).dir n.f a
      + b.prefactor * (momentum (D2Q9.stencil c).dir n.f a - mass n.f * us.2 a)
      + momentum (D2Q9.stencil c).dir
          (sourceD2Q9 b.forceType b.force us.2 (mass n.f) b.prefactor ((D2Q9.stencil c).scaling / (D2Q9.stencil c).cs2) b.dt b.dt) a := by
  unfold standardD2Q9Node at h
  rw [hS] at h
  obtain ⟨hr, rfl⟩ := ite_ok h
  have hu' : us = (if inInit then (n.u, n.u)
      else forcedVelocity b.forceType b.prefactor b.dt (density n.f) b.force (velocityD2Q9 (D2Q9.stencil c).scaling (density n.f) n.f)) := hu
  rw [← hu']
  refine ⟨pos_of_not hr, rfl, rfl, ?_, fun a => ?_⟩
  · dsimp only
    rw [mass_relax, feq9_mass c _ hc]
    show mass n.f + b.prefactor * (mass n.f - mass n.f) + _ = _
    rw [sub_self, mul_zero, add_zero]; rfl
  · dsimp only
    rw [momentum_relax, feq9_momentum c _ hc]; rfl

/-- **C66 (BGK standard, D2Q9, no force)**: mass and momentum are conserved, and density and velocity of the node are those of its populations. -/
theorem C66_standardD2Q9 (hf : b.forceType = .noForcing) (h : standardD2Q9Node b false n = .ok n') :
    Conserves (D2Q9.stencil c).dir n.f n'.f ∧ Reports (D2Q9.stencil c).dir n.f 0 n'.rho n'.u := by
  obtain ⟨hr, h1, h2, h3, h4⟩ := standardD2Q9_result hc hS h _ rfl
  rw [hf] at h2 h3 h4
  simp only [Bool.false_eq_true, if_false, forcedVelocity, sourceD2Q9] at h2 h3 h4
  refine ⟨⟨?_, fun a => ?_⟩, h1, fun a => ?_⟩
  · rw [h3]; simp [mass]
  · rw [h4, velocity9 c _ hr]; simp [momentum]
  · rw [h1, h2, velocity9 c _ hr]; simp

/-- **C66 (shifted velocity, D2Q9)**: the force changes the momentum by `dt · F`, the mass is kept, and the velocity of the node is the one
at the middle of the time step. -/
theorem C66_shiftingD2Q9 (hv : b.Valid) (hf : b.forceType = .shiftingVelocity) (h : standardD2Q9Node b false n = .ok n') :
    Accelerated (D2Q9.stencil c).dir (fun a => b.dt * b.force a) n.f n'.f ∧
      Reports (D2Q9.stencil c).dir n.f (fun a => 1 / 2 * (b.dt * b.force a)) n'.rho n'.u := by
  obtain ⟨hr, h1, h2, h3, h4⟩ := standardD2Q9_result hc hS h _ rfl
  rw [hf] at h2 h3 h4
  have hp := hv.prefactor_ne
  simp only [Bool.false_eq_true, if_false, forcedVelocity, sourceD2Q9] at h2 h3 h4
  have hV := velocity9 c (mass n.f) hr n.f
  refine ⟨⟨?_, fun a => ?_⟩, h1, fun a => ?_⟩
  · rw [h3]; simp [mass]
  · rw [h4, mul_sub (mass n.f), hV]
    have : momentum (D2Q9.stencil c).dir (fun _ => (0 : K)) a = 0 := by simp [momentum]
    rw [this]; field_simp; ring
  · rw [h1, h2]; dsimp only; rw [mul_add, hV]; field_simp

/-- **C66 (exact difference method and Guo, D2Q9), partial**: the force changes the momentum by `dt · F`, the velocity of the node is the one at the
middle of the time step; but the mass is only kept if the scaling of the stencil is one: see
`C66_exactD2Q9_mass`, `C66_guoD2Q9_mass`, `C66_exactD2Q9_fails`, `C66_guoD2Q9_fails`. -/
theorem C66_exact_guo_D2Q9_partial (hf : b.forceType = .exactDifference ∨ b.forceType = .guo) (h : standardD2Q9Node b false n = .ok n') :
    (∀ a, momentum (D2Q9.stencil c).dir n'.f a = momentum (D2Q9.stencil c).dir n.f a + b.dt * b.force a) ∧
    Reports (D2Q9.stencil c).dir n.f (fun a => 1 / 2 * (b.dt * b.force a)) n'.rho n'.u ∧
    (c = 1 → Accelerated (D2Q9.stencil c).dir (fun a => b.dt * b.force a) n.f n'.f) := by
  obtain ⟨hr, h1, h2, h3, h4⟩ := standardD2Q9_result hc hS h _ rfl
  have hV := velocity9 c (mass n.f) hr n.f
  have key : ∀ a, momentum (D2Q9.stencil c).dir n'.f a = momentum (D2Q9.stencil c).dir n.f a + b.dt * b.force a := by
    intro a
    rcases hf with hf | hf <;> rw [hf] at h4 <;> simp only [Bool.false_eq_true, if_false, forcedVelocity, sourceD2Q9] at h4
    · rw [h4, hV, exact_momentum c _ _ hc hr]; ring
    · rw [h4, mul_add, hV, guo_momentum c _ _ hc]; field_simp; ring
  refine ⟨key, ⟨h1, fun a => ?_⟩, fun h1c => ⟨?_, key⟩⟩
  · rcases hf with hf | hf <;> rw [hf] at h2 <;> simp only [Bool.false_eq_true, if_false, forcedVelocity] at h2 <;>
      (rw [h1, h2]; dsimp only; rw [mul_add, hV]; field_simp)
  · rcases hf with hf | hf <;> rw [hf] at h3 <;> simp only [sourceD2Q9] at h3
    · rw [h3, exact_mass c _ _ hc hr, h1c]; simp
    · rw [h3, guo_mass c _ _ hc, h1c]; simp

/-- How the exact difference method changes the mass on D2Q9; `w` is the velocity of the populations. -/
theorem C66_exactD2Q9_mass (hf : b.forceType = .exactDifference) (h : standardD2Q9Node b false n = .ok n') (w : Fin 2 → K)
    (hw : ∀ a, mass n.f * w a = momentum (D2Q9.stencil c).dir n.f a) :
    mass n'.f = mass n.f + (1 / c - 1) * (3 / (2 * c)) * mass n.f *
      ∑ a, ((w a + b.force a * b.dt / mass n.f) * (w a + b.force a * b.dt / mass n.f) - w a * w a) := by
  obtain ⟨hr, h1, h2, h3, h4⟩ := standardD2Q9_result hc hS h _ rfl
  have hV := velocity9 c (mass n.f) hr n.f
  have : velocityD2Q9 c (mass n.f) n.f = w := by
    funext a; exact mul_left_cancel₀ hr ((hV a).trans (hw a).symm)
  rw [hf] at h3
  simp only [Bool.false_eq_true, if_false, forcedVelocity, sourceD2Q9, this] at h3
  rw [h3, exact_mass c _ _ hc hr]

/-- How Guo's method changes the mass on D2Q9; `w` is the velocity stored for the node. -/
theorem C66_guoD2Q9_mass (hf : b.forceType = .guo) (h : standardD2Q9Node b false n = .ok n') :
    mass n'.f = mass n.f + (1 / c - 1) * (3 / c) * (b.dt * (1 + b.prefactor / 2)) * ∑ a, n'.u a * b.force a := by
  obtain ⟨hr, h1, h2, h3, h4⟩ := standardD2Q9_result hc hS h _ rfl
  rw [hf] at h2 h3
  simp only [Bool.false_eq_true, if_false, forcedVelocity, sourceD2Q9] at h2 h3
  rw [h3, guo_mass c _ _ hc, h2]; ring

/-- **C66 (initialisation procedure, D2Q9)**: without a force, density and velocity of the node are kept as they were prescribed, the mass is kept, and
the momentum relaxes towards the prescribed one. -/
theorem C66_initD2Q9 (hf : b.forceType = .noForcing ∨ b.forceType = .shiftingVelocity) (h : standardD2Q9Node b true n = .ok n') :
    mass n'.f = mass n.f ∧ n'.rho = mass n.f ∧ n'.u = n.u ∧
    ∀ a, momentum (D2Q9.stencil c).dir n'.f a - mass n.f * n.u a =
      (1 + b.prefactor) * (momentum (D2Q9.stencil c).dir n.f a - mass n.f * n.u a) := by
  obtain ⟨hr, h1, h2, h3, h4⟩ := standardD2Q9_result hc hS h _ rfl
  simp only [if_true] at h2 h3 h4
  have hsrc : ∀ r p d d', sourceD2Q9 b.forceType b.force n.u r b.prefactor p d d' = fun _ => 0 := by
    intro r p d d'
    rcases hf with hf | hf <;> rw [hf] <;> rfl
  rw [hsrc] at h3
  refine ⟨?_, h1, h2, fun a => ?_⟩
  · rw [h3]; simp [mass]
  · rw [h4, hsrc]; simp [momentum]; ring

end D2Q9

omit [IsStrictOrderedRing K] in
/-- A collision succeeds if the density is not too small. -/
theorem standardD2Q9_ok (b : Obj K 2 9) (inInit : Bool) (n : Node K 2 9) (h : ¬density n.f < 1 / 10 ^ 10) :
    ∃ n', standardD2Q9Node b inInit n = .ok n' := by
  unfold standardD2Q9Node; dsimp only; rw [if_neg h]; exact ⟨_, rfl⟩

/-- A fluid at rest with density one, on D2Q9. -/
def rest9 : Node ℚ 2 9 := { f := ![4 / 9, 1 / 9, 1 / 9, 1 / 9, 1 / 9, 1 / 36, 1 / 36, 1 / 36, 1 / 36], rho := 1, u := 0 }

theorem rest9_density : density rest9.f = 1 := by decide +kernel

theorem rest9_momentum (c : ℚ) (a : Fin 2) : momentum (D2Q9.stencil c).dir rest9.f a = 0 := by
  have : ∀ a, lat9 rest9.f a = 0 := by decide +kernel
  rw [momentum9, this, mul_zero]

/-- An object with a force in the first direction. -/
def pushed (c : ℚ) (t : ForceType) : Obj ℚ 2 9 := { Obj.make 1 1 (D2Q9.stencil c) with forceType := t, force := ![1, 0] }

example (t : ForceType) : (pushed 2 t).Valid ∧ ∃ n', standardD2Q9Node (pushed 2 t) false rest9 = .ok n' :=
  ⟨⟨by norm_num [pushed, Obj.make], by norm_num [pushed, Obj.make], rfl⟩, standardD2Q9_ok _ _ _ (by rw [rest9_density]; norm_num)⟩

example : ∃ n', standardD2Q9Node (pushed 2 .noForcing) true rest9 = .ok n' := standardD2Q9_ok _ _ _ (by rw [rest9_density]; norm_num)

/-- **C66 fails** for the exact difference method on D2Q9 when the stencil is scaled: fluid at rest loses mass. -/
theorem C66_exactD2Q9_fails : ∃ n', standardD2Q9Node (pushed 2 .exactDifference) false rest9 = .ok n' ∧ mass n'.f ≠ mass rest9.f := by
  obtain ⟨n', h⟩ := standardD2Q9_ok (pushed 2 .exactDifference) false rest9 (by rw [rest9_density]; norm_num)
  refine ⟨n', h, ?_⟩
  rw [C66_exactD2Q9_mass (c := 2) (by norm_num) rfl rfl h (fun _ => 0) (fun a => by rw [rest9_momentum]; ring)]
  have : mass rest9.f = 1 := rest9_density
  rw [this]
  norm_num [pushed, Obj.make, Fin.sum_univ_two]

/-- **C66 fails** for Guo's method on D2Q9 when the stencil is scaled. -/
theorem C66_guoD2Q9_fails : ∃ n', standardD2Q9Node (pushed 2 .guo) false rest9 = .ok n' ∧ mass n'.f ≠ mass rest9.f := by
  obtain ⟨n', h⟩ := standardD2Q9_ok (pushed 2 .guo) false rest9 (by rw [rest9_density]; norm_num)
  refine ⟨n', h, ?_⟩
  rw [C66_guoD2Q9_mass (c := 2) (by norm_num) rfl rfl h]
  obtain ⟨-, h2, -⟩ := C66_exact_guo_D2Q9_partial (c := 2) (by norm_num) rfl (.inr rfl) h
  have h1 : mass rest9.f = 1 := rest9_density
  have hu : ∀ a, n'.u a = 1 / 2 * (1 * (pushed 2 .guo).force a) := fun a => by
    have := h2.velocity a
    rw [h2.density, h1, rest9_momentum] at this
    have h3 : (pushed 2 .guo).dt = 1 := rfl
    rw [h3] at this; linarith
  rw [Fin.sum_univ_two, hu, hu, h1]
  norm_num [pushed, Obj.make]

/-! ## BGK standard, D3Q19 -/

section D3Q19

variable {c : K} (hc : c ≠ 0) {b : Obj K 3 19} (hS : b.stencil = D3Q19.stencil c) {n n' : Node K 3 19}
include hc hS

theorem standardD3Q19_result {inInit : Bool} (h : standardD3Q19Node b inInit n = .ok n') (us : (Fin 3 → K) × (Fin 3 → K))
    (hu : us = if inInit then (n.u, n.u) else forcedVelocity b.forceType b.prefactor b.dt (mass n.f) b.force (velocityD3Q19 c (mass n.f) n.f)) :
    mass n.f ≠ 0 ∧ n'.rho = mass n.f ∧ n'.u = us.1 ∧ mass n'.f = mass n.f ∧
    ∀ a, momentum (D3Q19.stencil c).dir n'.f a = momentum (D3Q19.stencil c).dir n.f a
      + b.prefactor * (momentum (D3Q19.stencil c).dir n.f a - mass n.f * us.2 a) := by
  unfold standardD3Q19Node at h
  rw [hS] at h
  obtain ⟨hr, rfl⟩ := ite_ok h
  have hu' : us = (if inInit then (n.u, n.u)
      else forcedVelocity b.forceType b.prefactor b.dt (density n.f) b.force (velocityD3Q19 (D3Q19.stencil c).scaling (density n.f) n.f)) := hu
  rw [← hu']
  refine ⟨pos_of_not hr, rfl, rfl, ?_, fun a => ?_⟩
  · dsimp only
    rw [mass_relax0, feq19_mass c _ hc]
    show mass n.f + b.prefactor * (mass n.f - mass n.f) = _
    ring
  · dsimp only
    rw [momentum_relax0, feq19_momentum c _ hc]; rfl

/-- **C66 (BGK standard, D3Q19)**: without a force, mass and momentum are conserved; a force applied by shifting the velocity changes the
momentum by `dt · F`. -/
theorem C66_standardD3Q19 (h : standardD3Q19Node b false n = .ok n') :
    (b.forceType = .noForcing → Conserves (D3Q19.stencil c).dir n.f n'.f ∧ Reports (D3Q19.stencil c).dir n.f 0 n'.rho n'.u) ∧
    (b.forceType = .shiftingVelocity → b.Valid → Accelerated (D3Q19.stencil c).dir (fun a => b.dt * b.force a) n.f n'.f ∧
      Reports (D3Q19.stencil c).dir n.f (fun a => 1 / 2 * (b.dt * b.force a)) n'.rho n'.u) := by
  obtain ⟨hr, h1, h2, h3, h4⟩ := standardD3Q19_result hc hS h _ rfl
  have hV := velocity19 c (mass n.f) hr n.f
  constructor
  · intro hf
    rw [hf] at h2 h4
    simp only [Bool.false_eq_true, if_false, forcedVelocity] at h2 h4
    refine ⟨⟨h3, fun a => ?_⟩, h1, fun a => ?_⟩
    · rw [h4, hV]; ring
    · rw [h1, h2, hV]; simp
  · intro hf hv
    have hp := hv.prefactor_ne
    rw [hf] at h2 h4
    simp only [Bool.false_eq_true, if_false, forcedVelocity] at h2 h4
    refine ⟨⟨h3, fun a => ?_⟩, h1, fun a => ?_⟩
    · rw [h4, mul_sub (mass n.f), hV]; field_simp; ring
    · rw [h1, h2]; dsimp only; rw [mul_add, hV]; field_simp

/-- **C66 is false on D3Q19 for the other two ways to apply a force**: the source terms get lost, so with the exact difference method the
force has no effect on the populations, and with Guo's method it changes the momentum by `ω/2 · dt · F` (`ω = 1/(τ+1/2)`)
instead of `dt · F`; the reported velocity contains the force all the same. -/
theorem C66_lost_force_D3Q19 (h : standardD3Q19Node b false n = .ok n') :
    (b.forceType = .exactDifference → Conserves (D3Q19.stencil c).dir n.f n'.f) ∧
    (b.forceType = .guo → Accelerated (D3Q19.stencil c).dir (fun a => -b.prefactor / 2 * (b.dt * b.force a)) n.f n'.f) ∧
    (b.forceType = .exactDifference ∨ b.forceType = .guo →
      Reports (D3Q19.stencil c).dir n.f (fun a => 1 / 2 * (b.dt * b.force a)) n'.rho n'.u) := by
  obtain ⟨hr, h1, h2, h3, h4⟩ := standardD3Q19_result hc hS h _ rfl
  have hV := velocity19 c (mass n.f) hr n.f
  refine ⟨fun hf => ⟨h3, fun a => ?_⟩, fun hf => ⟨h3, fun a => ?_⟩, fun hf => ⟨h1, fun a => ?_⟩⟩
  · rw [hf] at h4
    simp only [Bool.false_eq_true, if_false, forcedVelocity] at h4
    rw [h4, hV]; ring
  · rw [hf] at h4
    simp only [Bool.false_eq_true, if_false, forcedVelocity] at h4
    rw [h4, mul_add, hV]; field_simp; ring
  · rcases hf with hf | hf <;> rw [hf] at h2 <;> simp only [Bool.false_eq_true, if_false, forcedVelocity] at h2 <;>
      (rw [h1, h2]; dsimp only; rw [mul_add, hV]; field_simp)

/-- … so no valid object and no non-zero force make the exact difference method or Guo's method right on D3Q19. -/
theorem C66_lost_force_D3Q19_fails (hv : b.Valid) (hf : b.forceType = .exactDifference ∨ b.forceType = .guo)
    (hF : ∃ a, b.force a ≠ 0) (h : standardD3Q19Node b false n = .ok n') :
    ¬Accelerated (D3Q19.stencil c).dir (fun a => b.dt * b.force a) n.f n'.f := by
  intro hA
  obtain ⟨a, ha⟩ := hF
  obtain ⟨h1, h2, -⟩ := C66_lost_force_D3Q19 hc hS h
  have hd := hv.dt.ne'
  have hm := hA.momentum a
  rcases hf with hf | hf
  · rw [(h1 hf).momentum] at hm
    have : b.dt * b.force a = 0 := by linear_combination -hm
    simp [hd, ha] at this
  · rw [(h2 hf).momentum] at hm
    have h3 : (-b.prefactor / 2 - 1) * (b.dt * b.force a) = 0 := by linear_combination hm
    have h4 : -b.prefactor / 2 - 1 = 0 := by simpa [hd, ha] using h3
    rw [hv.prefactor] at h4
    have ht := hv.tau
    field_simp at h4
    linarith

end D3Q19

/-- A fluid at rest with density one, on D3Q19. -/
def rest19 : Node ℚ 3 19 where
  f := ![1 / 3, 1 / 18, 1 / 18, 1 / 18, 1 / 18, 1 / 18, 1 / 18, 1 / 36, 1 / 36, 1 / 36, 1 / 36, 1 / 36, 1 / 36, 1 / 36, 1 / 36, 1 / 36, 1 / 36,
    1 / 36, 1 / 36]
  rho := 1
  u := 0

theorem rest19_density : density rest19.f = 1 := by decide +kernel

/-- An object with a force in the first direction. -/
def pushed19 (t : ForceType) : Obj ℚ 3 19 := { Obj.make 1 1 (D3Q19.stencil 2) with forceType := t, force := ![1, 0, 0] }

theorem pushed19_valid (t : ForceType) : (pushed19 t).Valid := ⟨by norm_num [pushed19, Obj.make], by norm_num [pushed19, Obj.make], rfl⟩

theorem standardD3Q19_ok_rest (t : ForceType) : ∃ n', standardD3Q19Node (pushed19 t) false rest19 = .ok n' := by
  unfold standardD3Q19Node; dsimp only; rw [if_neg (by rw [rest19_density]; norm_num)]; exact ⟨_, rfl⟩

example : ∃ n', standardD3Q19Node (pushed19 .guo) false rest19 = .ok n' ∧
    ¬Accelerated (D3Q19.stencil 2).dir (fun a => (pushed19 .guo).dt * (pushed19 .guo).force a) rest19.f n'.f := by
  obtain ⟨n', h⟩ := standardD3Q19_ok_rest .guo
  exact ⟨n', h, C66_lost_force_D3Q19_fails (by norm_num) rfl (pushed19_valid _) (.inr rfl) ⟨0, by norm_num [pushed19]⟩ h⟩

/-! ## D3Q15 and the generic loop: the force is ignored -/

/-- **C66 (BGK standard, D3Q15)**: mass and momentum are conserved whatever the force (which is ignored); in the initialisation procedure the mass is
conserved, the prescribed velocity is kept and the momentum relaxes towards it. -/
theorem C66_standardD3Q15 {c : K} (hc : c ≠ 0) {b : Obj K 3 15} (hS : b.stencil = D3Q15.stencil c) {n n' : Node K 3 15} :
    (standardD3Q15Node b false n = .ok n' →
      Conserves (D3Q15.stencil c).dir n.f n'.f ∧ Reports (D3Q15.stencil c).dir n.f 0 n'.rho n'.u) ∧
    (standardD3Q15Node b true n = .ok n' → mass n'.f = mass n.f ∧ n'.rho = mass n.f ∧ n'.u = n.u ∧
      ∀ a, momentum (D3Q15.stencil c).dir n'.f a - mass n.f * n.u a =
        (1 + b.prefactor) * (momentum (D3Q15.stencil c).dir n.f a - mass n.f * n.u a)) := by
  have hm : ∀ u, mass (feqD3Q15 (D3Q15.stencil c) (density n.f) u) = mass n.f := fun u => feq15_mass c _ hc u
  have hp : ∀ u a, momentum (D3Q15.stencil c).dir (feqD3Q15 (D3Q15.stencil c) (density n.f) u) a = mass n.f * u a :=
    fun u a => feq15_momentum c _ hc u a
  constructor
  · intro h
    unfold standardD3Q15Node at h
    rw [hS] at h
    obtain ⟨hr, rfl⟩ := ite_ok h
    have hV := velocity15 c (mass n.f) (pos_of_not hr) n.f
    refine ⟨⟨?_, fun a => ?_⟩, rfl, fun a => ?_⟩
    · dsimp only; rw [mass_relax0, hm]; ring
    · dsimp only
      rw [momentum_relax0, hp]
      show _ + b.prefactor * (_ - mass n.f * velocityD3Q15 c (mass n.f) n.f a) = _
      rw [hV]; ring
    · show mass n.f * velocityD3Q15 c (mass n.f) n.f a = _
      rw [hV]; simp
  · intro h
    unfold standardD3Q15Node at h
    rw [hS] at h
    obtain ⟨hr, rfl⟩ := ite_ok h
    refine ⟨?_, rfl, rfl, fun a => ?_⟩
    · dsimp only; rw [mass_relax0, hm]; ring
    · dsimp only; rw [momentum_relax0, hp]; simp only [if_true]; ring

omit [IsStrictOrderedRing K] in
theorem generic_ok {feq : Stencil K D Q → (Fin D → K) → K → Fin Q → K} {b : Obj K D Q} {inInit : Bool} {n n' : Node K D Q}
    (h : genericNode feq b inInit n = .ok n') (u : Fin D → K)
    (hu : u = if inInit then n.u else fun j => (∑ k, n.f k * b.stencil.dir k j) / density n.f) : ¬density n.f < 1 / 10 ^ 10 ∧
      n' = { f := fun j => n.f j + b.prefactor * (n.f j - feq b.stencil u (density n.f) j), rho := density n.f, u := u } := by
  unfold genericNode at h
  dsimp only at h
  rw [← hu] at h
  split at h
  · cases h
  · next hr =>
    split at h
    · cases h; exact ⟨hr, rfl⟩
    · cases h

/-- Any equilibrium function that carries the density and the momentum it is given makes the generic loop conservative. -/
theorem generic_conserves {feq : Stencil K D Q → (Fin D → K) → K → Fin Q → K} {b : Obj K D Q} {n n' : Node K D Q}
    (hm : ∀ u rho, mass (feq b.stencil u rho) = rho)
    (hp : ∀ u rho a, momentum b.stencil.dir (feq b.stencil u rho) a = rho * u a)
    (h : genericNode feq b false n = .ok n') :
    Conserves b.stencil.dir n.f n'.f ∧ Reports b.stencil.dir n.f 0 n'.rho n'.u := by
  obtain ⟨hr, rfl⟩ := generic_ok h _ rfl
  have hr' := pos_of_not hr
  simp only [Bool.false_eq_true, if_false]
  have e : ∀ a, density n.f * ((∑ k, n.f k * b.stencil.dir k a) / density n.f) = momentum b.stencil.dir n.f a := fun a => by
    rw [mul_div_cancel₀ _ hr']; rfl
  refine ⟨⟨?_, fun a => ?_⟩, rfl, fun a => ?_⟩
  · rw [mass_relax0, hm]; show mass n.f + _ * (mass n.f - mass n.f) = _; ring
  · rw [momentum_relax0, hp, e]; ring
  · rw [e]; simp

/-! ## Transformed and steady state variants, D2Q9 -/

omit [LinearOrder K] [IsStrictOrderedRing K] in
/-- Any populations with mass `rho` and momentum `rho * u` may be relaxed to: mass and momentum do not change. -/
theorem relax_conserves {e : Fin Q → Fin D → K} {f g : Fin Q → K} (w : K) (hm : mass g = mass f) (hp : ∀ a, momentum e g a = momentum e f a) :
    Conserves e f fun i => f i + w * (f i - g i) where
  mass := by rw [mass_relax0, hm]; ring
  momentum a := by rw [momentum_relax0, hp]; ring

/-- **C66 (BGK transformed, D2Q9)**: the populations are deviations from the weights; their mass (density minus one) and momentum are conserved.  The
reported density is that of the populations plus the weights. -/
theorem C66_transformedD2Q9 {c : K} (hc : c ≠ 0) {b : Obj K 2 9} (hS : b.stencil = D2Q9.stencil c) {n n' : Node K 2 9}
    (h : transformedD2Q9Node b false n = .ok n') :
    Conserves (D2Q9.stencil c).dir n.f n'.f ∧ n'.rho = mass n.f + 1 ∧
      ∀ a, n'.rho * n'.u a = momentum (D2Q9.stencil c).dir n.f a := by
  unfold transformedD2Q9Node at h
  rw [hS] at h
  obtain ⟨hr, rfl⟩ := ite_ok h
  have hr' := pos_of_not hr
  have hV := velocity9 c _ hr' n.f
  simp only [Bool.false_eq_true, if_false]
  refine ⟨relax_conserves _ ?_ fun a => ?_, rfl, hV⟩
  · have h1 := feq9_mass c (density n.f + 1) hc (velocityD2Q9 (D2Q9.stencil c).scaling (density n.f + 1) n.f)
    unfold mass at h1 ⊢
    rw [sum_sub_distrib, h1, sum9]
    simp only [Matrix.cons_val]
    show density n.f + 1 - _ = density n.f
    field_simp; ring
  · have h1 := feq9_momentum c (density n.f + 1) hc (velocityD2Q9 (D2Q9.stencil c).scaling (density n.f + 1) n.f) a
    have h2 : ∀ w : Fin 9 → K, lat9 w = 0 → momentum (D2Q9.stencil c).dir (fun i => feqD2Q9 (D2Q9.stencil c) (density n.f + 1)
        (velocityD2Q9 (D2Q9.stencil c).scaling (density n.f + 1) n.f) i - w i * 1) a =
        momentum (D2Q9.stencil c).dir (feqD2Q9 (D2Q9.stencil c) (density n.f + 1)
        (velocityD2Q9 (D2Q9.stencil c).scaling (density n.f + 1) n.f)) a := by
      intro w hw
      have h3 := momentum9 c w a
      rw [hw, Pi.zero_apply, mul_zero] at h3
      unfold momentum at h3 ⊢
      simp only [mul_one, sub_mul]
      rw [sum_sub_distrib, h3, sub_zero]
    rw [h2 _ (by funext a; fin_cases a <;> simp [lat9] <;> ring), h1]
    exact hV a

/-- **C66 fails for the transformed BGK on every other stencil**: the generic loop takes the sum of the deviations for the density, and each
collision changes it by the relaxation factor. -/
theorem C66_transformed_fails {b : Obj K D Q} (hw : ∑ i, b.stencil.weight i = 1) (hv : b.Valid)
    (hm : ∀ u rho, mass (equilibrium b.stencil u rho) = rho) {inInit : Bool} {n n' : Node K D Q}
    (h : genericNode equilibriumTransformed b inInit n = .ok n') : mass n'.f = mass n.f + b.prefactor ∧ mass n'.f ≠ mass n.f := by
  obtain ⟨hr, rfl⟩ := generic_ok h _ rfl
  have h1 : ∀ u, mass (equilibriumTransformed b.stencil u (density n.f)) = mass n.f - 1 := by
    intro u
    have := hm u (density n.f)
    unfold mass equilibriumTransformed at *
    rw [sum_sub_distrib, this]; simp only [mul_one, hw]; rfl
  have h2 := mass_relax0 n.f (equilibriumTransformed b.stencil
    (if inInit then n.u else fun j => (∑ k, n.f k * b.stencil.dir k j) / density n.f) (density n.f)) b.prefactor
  rw [h1] at h2
  have h3 : mass n.f + b.prefactor * (mass n.f - (mass n.f - 1)) = mass n.f + b.prefactor := by ring
  rw [h3] at h2
  refine ⟨h2, fun h4 => hv.prefactor_ne ?_⟩
  have := h2.symm.trans h4
  linear_combination this

/-- **C66 (BGK steady state, D2Q9)**: mass and momentum are conserved for every preconditioning parameter `gamma`. -/
theorem C66_steadyD2Q9 {c gamma : K} (hc : c ≠ 0) (hg : gamma ≠ 0) {b : Obj K 2 9} (hS : b.stencil = D2Q9.stencil c) {n n' : Node K 2 9}
    (h : steadyD2Q9Node gamma b false n = .ok n') :
    Conserves (D2Q9.stencil c).dir n.f n'.f ∧ Reports (D2Q9.stencil c).dir n.f 0 n'.rho n'.u := by
  unfold steadyD2Q9Node at h
  rw [hS] at h
  obtain ⟨hr, rfl⟩ := ite_ok h
  have hr' := pos_of_not hr
  have hV := velocity9 c _ hr' n.f
  simp only [Bool.false_eq_true, if_false]
  refine ⟨relax_conserves _ ?_ fun a => ?_, rfl, fun a => (hV a).trans (by simp)⟩
  · rw [terms9_mass]
    show density n.f * _ = density n.f
    simp only [D2Q9.stencil]
    field_simp; ring
  · rw [terms9_momentum]
    refine Eq.trans ?_ (hV a)
    simp only [D2Q9.stencil]
    field_simp

/-! ## BGK incompressible -/

/-- **C66 (BGK incompressible, D2Q9), partial**: the momentum and the mass are conserved if the density is one.  In general they are not: the weights of
the axis directions lack the factor density. -/
theorem C66_incompressible_partial {c : K} (hc : c ≠ 0) {b : Obj K 2 9} (hS : b.stencil = D2Q9.stencil c) {n n' : Node K 2 9}
    (h : incompressibleD2Q9Node b false n = .ok n') :
    mass n'.f = mass n.f + b.prefactor * ((mass n.f - 1) * (8 / 9 - (n'.u 0 * n'.u 0 + n'.u 1 * n'.u 1) / (3 * (c * c)))) ∧
    (∀ a, momentum (D2Q9.stencil c).dir n'.f a = momentum (D2Q9.stencil c).dir n.f a + b.prefactor * (2 / 3 * ((mass n.f - 1) * n'.u a))) ∧
    Reports (D2Q9.stencil c).dir n.f 0 n'.rho n'.u ∧
    (mass n.f = 1 → Conserves (D2Q9.stencil c).dir n.f n'.f) := by
  unfold incompressibleD2Q9Node at h
  rw [hS] at h
  obtain ⟨hr, rfl⟩ := ite_ok h
  have hr' := pos_of_not hr
  have hV := velocity9 c _ hr' n.f
  simp only [Bool.false_eq_true, if_false]
  set u := velocityD2Q9 (D2Q9.stencil c).scaling (density n.f) n.f with hu
  have hV' : ∀ a, density n.f * u a = momentum (D2Q9.stencil c).dir n.f a := hV
  have hm : mass (feqIncompressible (D2Q9.stencil c) (density n.f) u) =
      density n.f - (density n.f - 1) * (8 / 9 - (u 0 * u 0 + u 1 * u 1) / (3 * (c * c))) := by
    unfold mass
    rw [sum9]
    simp [feqIncompressible, termsD2Q9, plus, minus, D2Q9.stencil]
    field_simp; ring
  have hp : ∀ a, momentum (D2Q9.stencil c).dir (feqIncompressible (D2Q9.stencil c) (density n.f) u) a =
      density n.f * u a - 2 / 3 * ((density n.f - 1) * u a) := by
    intro a
    rw [momentum9]
    fin_cases a <;> simp [lat9, feqIncompressible, termsD2Q9, plus, minus, D2Q9.stencil] <;> field_simp <;> ring
  have key1 : mass (fun i => n.f i + b.prefactor * (n.f i - feqIncompressible (D2Q9.stencil c) (density n.f) u i)) =
      mass n.f + b.prefactor * ((mass n.f - 1) * (8 / 9 - (u 0 * u 0 + u 1 * u 1) / (3 * (c * c)))) := by
    rw [mass_relax0, hm]
    show mass n.f + b.prefactor * (mass n.f - (mass n.f - (mass n.f - 1) * _)) = _
    ring
  have key2 : ∀ a, momentum (D2Q9.stencil c).dir (fun i => n.f i + b.prefactor * (n.f i - feqIncompressible (D2Q9.stencil c) (density n.f) u i)) a =
      momentum (D2Q9.stencil c).dir n.f a + b.prefactor * (2 / 3 * ((mass n.f - 1) * u a)) := by
    intro a
    rw [momentum_relax0, hp, hV']
    show _ + b.prefactor * (_ - (_ - 2 / 3 * ((mass n.f - 1) * u a))) = _
    ring
  refine ⟨key1, key2, ⟨rfl, fun a => (hV' a).trans (by simp)⟩, fun h1 => ⟨?_, fun a => ?_⟩⟩
  · rw [key1, h1]; ring
  · rw [key2, h1]; ring

/-- A fluid at rest with density two, on D2Q9. -/
def heavy9 : Node ℚ 2 9 := { rest9 with f := fun i => 2 * rest9.f i }

/-- **C66 fails** for the incompressible BGK: a fluid at rest with density two loses mass. -/
theorem C66_incompressible_fails :
    ∃ n', incompressibleD2Q9Node (pushed 1 .noForcing) false heavy9 = .ok n' ∧ mass n'.f ≠ mass heavy9.f := by
  have hd : density heavy9.f = 2 := by decide +kernel
  have hu : ∀ a, velocityD2Q9 1 2 heavy9.f a = 0 := by decide +kernel
  have : ∃ n', incompressibleD2Q9Node (pushed 1 .noForcing) false heavy9 = .ok n' ∧ n'.u = velocityD2Q9 1 (density heavy9.f) heavy9.f := by
    unfold incompressibleD2Q9Node; dsimp only; rw [if_neg (by rw [hd]; norm_num)]; exact ⟨_, rfl, rfl⟩
  obtain ⟨n', h, h2⟩ := this
  refine ⟨n', h, ?_⟩
  have hm : mass heavy9.f = 2 := hd
  rw [(C66_incompressible_partial (c := 1) (by norm_num) rfl h).1, hm, h2, hd, hu, hu]
  norm_num [pushed, Obj.make]

/-! ## BGK regularized -/

/-- **C66 (BGK regularized, D2Q9)**: mass and momentum are conserved whatever the force (which is ignored). -/
theorem C66_regularizedD2Q9 {c : K} (hc : c ≠ 0) {b : Obj K 2 9} (hS : b.stencil = D2Q9.stencil c) {n n' : Node K 2 9}
    (h : regularizedD2Q9Node b false n = .ok n') :
    Conserves (D2Q9.stencil c).dir n.f n'.f ∧ Reports (D2Q9.stencil c).dir n.f 0 n'.rho n'.u := by
  unfold regularizedD2Q9Node at h
  rw [hS] at h
  obtain ⟨hr, rfl⟩ := ite_ok h
  have hr' := pos_of_not hr
  have hV := velocity9 c _ hr' n.f
  simp only [Bool.false_eq_true, if_false]
  have iso := (D2Q9.iso5 c).toIso4
  refine ⟨⟨?_, fun a => ?_⟩, rfl, fun a => (hV a).trans (by simp)⟩
  · rw [mass_lin, feq9_mass c _ hc, regFi1_mass _ iso, mul_zero, add_zero]; rfl
  · rw [momentum_lin, feq9_momentum c _ hc, regFi1_momentum _ iso, mul_zero, add_zero]; exact hV a

theorem regularizedD3Q19_result {c : K} (hc : c ≠ 0) {b : Obj K 3 19} (hS : b.stencil = D3Q19.stencil c) {junk : Fin 3 → K}
    {n n' : Node K 3 19} {inInit : Bool} (h : regularizedD3Q19Node junk b inInit n = .ok n') (us : (Fin 3 → K) × (Fin 3 → K))
    (hu : us = if inInit then (n.u, junk) else forcedVelocity b.forceType b.prefactor b.dt (mass n.f) b.force (velocityD3Q19 c (mass n.f) n.f)) :
    mass n.f ≠ 0 ∧ n'.rho = mass n.f ∧ n'.u = us.1 ∧ mass n'.f = mass n.f ∧
    ∀ a, momentum (D3Q19.stencil c).dir n'.f a = mass n.f * us.2 a := by
  unfold regularizedD3Q19Node at h
  rw [hS] at h
  obtain ⟨hr, rfl⟩ := ite_ok h
  have hu' : us = (if inInit then (n.u, junk)
      else forcedVelocity b.forceType b.prefactor b.dt (density n.f) b.force (velocityD3Q19 (D3Q19.stencil c).scaling (density n.f) n.f)) := hu
  rw [← hu']
  have iso := (D3Q19.iso5 c).toIso4
  refine ⟨pos_of_not hr, rfl, rfl, ?_, fun a => ?_⟩
  · dsimp only
    rw [mass_lin, feq19_mass c _ hc, regFi1_mass _ iso, mul_zero, add_zero]; rfl
  · dsimp only
    rw [momentum_lin, feq19_momentum c _ hc, regFi1_momentum _ iso, mul_zero, add_zero]; rfl

/-- **C66 (BGK regularized, D3Q19), partial**: without a force, mass and momentum are conserved.  With a force the mass is conserved but the momentum
changes by `(τ+1/2) · dt · F` (shifted velocity), by nothing (exact difference) or by `dt · F / 2` (Guo) instead of `dt · F`. -/
theorem C66_regularizedD3Q19_partial {c : K} (hc : c ≠ 0) {b : Obj K 3 19} (hS : b.stencil = D3Q19.stencil c) (hv : b.Valid) {junk : Fin 3 → K}
    {n n' : Node K 3 19} (h : regularizedD3Q19Node junk b false n = .ok n') :
    (b.forceType = .noForcing → Conserves (D3Q19.stencil c).dir n.f n'.f ∧ Reports (D3Q19.stencil c).dir n.f 0 n'.rho n'.u) ∧
    (b.forceType = .shiftingVelocity → Accelerated (D3Q19.stencil c).dir (fun a => (b.tau + 1 / 2) * (b.dt * b.force a)) n.f n'.f) ∧
    (b.forceType = .exactDifference → Conserves (D3Q19.stencil c).dir n.f n'.f) ∧
    (b.forceType = .guo → Accelerated (D3Q19.stencil c).dir (fun a => 1 / 2 * (b.dt * b.force a)) n.f n'.f) := by
  obtain ⟨hr, h1, h2, h3, h4⟩ := regularizedD3Q19_result hc hS h _ rfl
  have hV := velocity19 c (mass n.f) hr n.f
  have hp := hv.prefactor_ne
  have ht : b.tau + 1 / 2 ≠ 0 := by have := hv.tau; positivity
  refine ⟨fun hf => ?_, fun hf => ?_, fun hf => ?_, fun hf => ?_⟩ <;> rw [hf] at h2 h4 <;>
    simp only [Bool.false_eq_true, if_false, forcedVelocity] at h2 h4
  · exact ⟨⟨h3, fun a => (h4 a).trans (hV a)⟩, h1, fun a => by rw [h1, h2, hV]; simp⟩
  · refine ⟨h3, fun a => ?_⟩
    rw [h4, mul_sub, hV, hv.prefactor]; field_simp; ring
  · exact ⟨h3, fun a => (h4 a).trans (hV a)⟩
  · refine ⟨h3, fun a => ?_⟩
    rw [h4, mul_add, hV]; field_simp

/-- In the initialisation procedure the regularized collision on D3Q19 replaces the momentum by whatever is in the uninitialised local variable:
no relation between the prescribed velocity and the momentum can be guaranteed. -/
theorem C66_regularizedD3Q19_init_fails {c : K} (hc : c ≠ 0) {b : Obj K 3 19} (hS : b.stencil = D3Q19.stencil c) {n : Node K 3 19}
    (hd : ¬density n.f < 1 / 10 ^ 10) (p : Fin 3 → K) :
    ∃ junk n', regularizedD3Q19Node junk b true n = .ok n' ∧ n'.u = n.u ∧ ∀ a, momentum (D3Q19.stencil c).dir n'.f a = p a := by
  have hr : mass n.f ≠ 0 := pos_of_not hd
  have : ∃ n', regularizedD3Q19Node (fun a => p a / mass n.f) b true n = .ok n' := by
    unfold regularizedD3Q19Node; dsimp only; rw [if_neg hd]; exact ⟨_, rfl⟩
  obtain ⟨n', h⟩ := this
  obtain ⟨-, -, h2, -, h4⟩ := regularizedD3Q19_result hc hS h _ rfl
  exact ⟨_, n', h, h2, fun a => by rw [h4]; simp only [if_true]; field_simp⟩

example : ¬density rest19.f < 1 / 10 ^ 10 := by rw [rest19_density]; norm_num

/-! ## Pseudopotential -/

/-- **C66 (pseudopotential, D2Q9, no force), partial**: mass and momentum are conserved if the density stored for the node is that of its
populations; otherwise the mass changes by the relaxation factor times the difference. -/
theorem C66_pseudopotential_partial {c : K} (hc : c ≠ 0) {b : Obj K 2 9} (hS : b.stencil = D2Q9.stencil c) (hf : b.forceType = .noForcing)
    {junk : Fin 2 → K} {n n' : Node K 2 9} (h : pseudopotentialD2Q9Node junk b false n = .ok n') :
    mass n'.f = mass n.f + b.prefactor * (mass n.f - n.rho) ∧ n'.rho = n.rho ∧
    (∀ a, momentum (D2Q9.stencil c).dir n'.f a = momentum (D2Q9.stencil c).dir n.f a) ∧
    (n.rho = mass n.f → Conserves (D2Q9.stencil c).dir n.f n'.f ∧ Reports (D2Q9.stencil c).dir n.f 0 n'.rho n'.u) := by
  unfold pseudopotentialD2Q9Node at h
  rw [hS, hf] at h
  obtain ⟨hr, rfl⟩ := ite_ok h
  have hr' := pos_of_not hr
  have hV := velocity9 c _ hr' n.f
  simp only [Bool.false_eq_true, if_false, forcedVelocity, add_zero]
  have hm : mass (fun i => n.f i + b.prefactor * (n.f i - feqD2Q9 (D2Q9.stencil c) n.rho (velocityD2Q9 (D2Q9.stencil c).scaling n.rho n.f) i)) =
      mass n.f + b.prefactor * (mass n.f - n.rho) := by rw [mass_relax0, feq9_mass c _ hc]
  have hp : ∀ a, momentum (D2Q9.stencil c).dir
      (fun i => n.f i + b.prefactor * (n.f i - feqD2Q9 (D2Q9.stencil c) n.rho (velocityD2Q9 (D2Q9.stencil c).scaling n.rho n.f) i)) a =
      momentum (D2Q9.stencil c).dir n.f a := fun a => by
    rw [momentum_relax0, feq9_momentum c _ hc, hV a |> fun h => show n.rho * velocityD2Q9 (D2Q9.stencil c).scaling n.rho n.f a = _ from h]; ring
  refine ⟨hm, trivial, hp, fun h1 => ⟨⟨?_, hp⟩, h1, fun a => (hV a).trans (by simp)⟩⟩
  rw [hm, ← h1]; ring

/-! ## The loop over the nodes -/

omit [IsStrictOrderedRing K] in
/-- **C66 (all nodes)**: if the loop over the owned degrees of freedom succeeds, every owned node has been collided exactly once and the others have
not been touched; it succeeds if and only if the collision succeeds at every owned node. -/
theorem C66_collideAll {ι : Type*} [DecidableEq ι] (step : Node K D Q → Except CollError (Node K D Q)) (owned : List ι) (hn : owned.Nodup)
    (nodes nodes' : ι → Node K D Q) :
    collideAll step owned nodes = .ok nodes' ↔
      (∀ j ∈ owned, step (nodes j) = .ok (nodes' j)) ∧ ∀ j, j ∉ owned → nodes' j = nodes j := by
  have key := sweep_ok step owned hn { nodes := nodes, density := 0 }
  unfold collideAll
  constructor
  · intro h
    split at h
    · cases h
    · next s hs =>
      cases h
      obtain ⟨h1, h2, -⟩ := (key s).1 hs
      exact ⟨h1, h2⟩
  · rintro ⟨h1, h2⟩
    rw [(key { nodes := nodes', density := (owned.getLast?.map fun j => (nodes' j).rho).getD 0 }).2 ⟨h1, h2, rfl⟩]

omit [IsStrictOrderedRing K] in
/-- Conservation of the total mass and momentum over all nodes, for any collision that conserves them at each node. -/
theorem C66_total {ι : Type*} [DecidableEq ι] [Fintype ι] (e : Fin Q → Fin D → K) (step : Node K D Q → Except CollError (Node K D Q))
    (hstep : ∀ n n', step n = .ok n' → Conserves e n.f n'.f) (owned : List ι) (hn : owned.Nodup) (nodes nodes' : ι → Node K D Q)
    (h : collideAll step owned nodes = .ok nodes') :
    ∑ j, mass (nodes' j).f = ∑ j, mass (nodes j).f ∧ ∀ a, ∑ j, momentum e (nodes' j).f a = ∑ j, momentum e (nodes j).f a := by
  obtain ⟨h1, h2⟩ := (C66_collideAll step owned hn nodes nodes').1 h
  refine ⟨sum_congr rfl fun j _ => ?_, fun a => sum_congr rfl fun j _ => ?_⟩ <;> by_cases hj : j ∈ owned
  · exact (hstep _ _ (h1 j hj)).mass
  · rw [h2 j hj]
  · exact (hstep _ _ (h1 j hj)).momentum a
  · rw [h2 j hj]

example : ∃ nodes', collideAll (standardD2Q9Node (pushed 2 .noForcing) false) [0, 2] (fun _ : Fin 3 => rest9) = .ok nodes' := by
  obtain ⟨n', h⟩ := standardD2Q9_ok (pushed 2 .noForcing) false rest9 (by rw [rest9_density]; norm_num)
  refine ⟨fun j => if j = 1 then rest9 else n', (C66_collideAll _ _ (by decide) _ _).2 ⟨?_, ?_⟩⟩
  · intro j hj; rw [if_neg (by rintro rfl; simp at hj)]; exact h
  · intro j hj; fin_cases j <;> simp_all

/-! ## Multistep -/

/-- A moment of the populations: mass for `w = 1`, momentum for `w = e · a`. -/
def moment (w f : Fin Q → K) : K := ∑ i, f i * w i

/-- One collision of all nodes. -/
def Collides {ι : Type*} (m : MultistepModel) (junk : Fin 2 → K) (b : Obj K 2 9) (first : Bool) (X X' : ι → MultiNode K 2 9) : Prop :=
  ∀ x, multistepD2Q9Node m junk b first false (X x) = .ok (X' x)

/-- One streaming step in a closed domain: populations and former populations are moved between the nodes, direction by direction, none is lost
(`P/solver/CFDSolver.cpp:686-719, 728-744` streams all three; in the first iterations only the populations, which is allowed here too). -/
def Streams {ι : Type*} [Fintype ι] (X X' : ι → MultiNode K 2 9) : Prop :=
  ∀ i, ∑ x, (X' x).node.f i = ∑ x, (X x).node.f i ∧ ∑ x, (X' x).formerF i = ∑ x, (X x).formerF i ∧
    ∑ x, (X' x).formerFEq i = ∑ x, (X x).formerFEq i

/-- The states that are reached from `X0` by collisions and streaming steps in any order; the flag says whether the next collision is the first one. -/
inductive Reach {ι : Type*} [Fintype ι] (m : MultistepModel) (junk : Fin 2 → K) (b : Obj K 2 9) (X0 : ι → MultiNode K 2 9) :
    Bool → (ι → MultiNode K 2 9) → Prop
  | start : Reach m junk b X0 true X0
  | collide {first X X'} : Reach m junk b X0 first X → Collides m junk b first X X' → Reach m junk b X0 false X'
  | stream {first X X'} : Reach m junk b X0 first X → Streams X X' → Reach m junk b X0 first X'

theorem multistep_ok {c : K} {b : Obj K 2 9} (hS : b.stencil = D2Q9.stencil c) (hf : b.forceType = .noForcing) {m : MultistepModel}
    {junk : Fin 2 → K} {first : Bool} {x x' : MultiNode K 2 9} (h : multistepD2Q9Node m junk b first false x = .ok x') :
    mass x.node.f ≠ 0 ∧ x'.node.rho = mass x.node.f ∧ x'.node.u = velocityD2Q9 c (mass x.node.f) x.node.f ∧
    x'.formerF = x.node.f ∧ x'.formerFEq = feqD2Q9 (D2Q9.stencil c) (mass x.node.f) (velocityD2Q9 c (mass x.node.f) x.node.f) := by
  unfold multistepD2Q9Node at h
  rw [hS, hf] at h
  obtain ⟨hr, rfl⟩ := ite_ok h
  exact ⟨pos_of_not hr, rfl, rfl, rfl, rfl⟩

theorem multistep_moment {c : K} {b : Obj K 2 9} (hS : b.stencil = D2Q9.stencil c) (hf : b.forceType = .noForcing) {m : MultistepModel}
    {junk : Fin 2 → K} {first : Bool} {x x' : MultiNode K 2 9} (h : multistepD2Q9Node m junk b first false x = .ok x') (w : Fin 9 → K)
    (hw : moment w (feqD2Q9 (D2Q9.stencil c) (mass x.node.f) (velocityD2Q9 c (mass x.node.f) x.node.f)) = moment w x.node.f) :
    moment w x'.formerF = moment w x.node.f ∧ moment w x'.formerFEq = moment w x.node.f := by
  obtain ⟨-, -, -, h1, h2⟩ := multistep_ok hS hf h
  rw [h1, h2]; exact ⟨rfl, hw⟩

/-- the factor of the difference between populations and former populations -/
def thirdFactor : MultistepModel → K
  | .adamsMoulton4 => 0
  | .bdf2 => 1 / 3

omit [LinearOrder K] [IsStrictOrderedRing K] in
theorem moment_comb (w f g p q : Fin Q → K) (c1 c2 c3 : K) :
    moment w (fun i => f i + c1 * (f i - g i) + c2 * (p i - q i) + c3 * (f i - p i)) =
      moment w f + c1 * (moment w f - moment w g) + c2 * (moment w p - moment w q) + c3 * (moment w f - moment w p) := by
  unfold moment
  rw [← sum_sub_distrib, ← sum_sub_distrib, ← sum_sub_distrib, mul_sum, mul_sum, mul_sum, ← sum_add_distrib, ← sum_add_distrib, ← sum_add_distrib]
  exact sum_congr rfl fun i _ => by ring

theorem multistep_exact {c : K} {b : Obj K 2 9} (hS : b.stencil = D2Q9.stencil c) (hf : b.forceType = .noForcing) {m : MultistepModel}
    {junk : Fin 2 → K} {first : Bool} {x x' : MultiNode K 2 9} (h : multistepD2Q9Node m junk b first false x = .ok x') (w : Fin 9 → K)
    (hw : moment w (feqD2Q9 (D2Q9.stencil c) (mass x.node.f) (velocityD2Q9 c (mass x.node.f) x.node.f)) = moment w x.node.f) :
    moment w x'.node.f = moment w x.node.f +
      (if first then 0 else (multistepFactors m b).2 * (moment w x.formerF - moment w x.formerFEq)
        + thirdFactor m * (moment w x.node.f - moment w x.formerF)) := by
  unfold multistepD2Q9Node at h
  rw [hS, hf] at h
  obtain ⟨hr, rfl⟩ := ite_ok h
  set g := feqD2Q9 (D2Q9.stencil c) (mass x.node.f) (velocityD2Q9 c (mass x.node.f) x.node.f) with hg
  have e := moment_comb w x.node.f g (if first then x.node.f else x.formerF) (if first then x.node.f else x.formerFEq)
    (multistepFactors m b).1 (multistepFactors m b).2 (thirdFactor m)
  rw [hw, sub_self, mul_zero, add_zero] at e
  have e2 : ∀ y : Fin 9 → K, y = (fun i => x.node.f i + (multistepFactors m b).1 * (x.node.f i - g i) +
      (multistepFactors m b).2 * ((if first then x.node.f else x.formerF) i - (if first then x.node.f else x.formerFEq) i) +
      thirdFactor m * (x.node.f i - (if first then x.node.f else x.formerF) i)) → moment w y =
      moment w x.node.f + (if first then 0 else (multistepFactors m b).2 * (moment w x.formerF - moment w x.formerFEq)
        + thirdFactor m * (moment w x.node.f - moment w x.formerF)) := by
    rintro y rfl
    rw [e]; cases first <;> simp; ring
  refine e2 _ (funext fun i => ?_)
  cases m
  · show x.node.f i + ((multistepFactors .adamsMoulton4 b).1 * (x.node.f i - g i) +
      (multistepFactors .adamsMoulton4 b).2 * ((if first then x.node.f else x.formerF) i - (if first then x.node.f else x.formerFEq) i)) + 0 = _
    simp only [thirdFactor]; ring
  · show 4 / 3 * x.node.f i - 1 / 3 * (if first then x.node.f else x.formerF) i + (multistepFactors .bdf2 b).1 * (x.node.f i - g i) +
      (multistepFactors .bdf2 b).2 * ((if first then x.node.f else x.formerF) i - (if first then x.node.f else x.formerFEq) i) + 0 = _
    simp only [thirdFactor]; ring

omit [LinearOrder K] [IsStrictOrderedRing K] in
theorem moment_total {ι : Type*} [Fintype ι] {f f' : ι → Fin Q → K} (h : ∀ i, ∑ x, f' x i = ∑ x, f x i) (w : Fin Q → K) :
    ∑ x, moment w (f' x) = ∑ x, moment w (f x) := by
  unfold moment
  refine (sum_comm.trans (sum_congr rfl fun i _ => ?_)).trans sum_comm
  rw [← sum_mul, ← sum_mul, h i]

omit [LinearOrder K] [IsStrictOrderedRing K] in
theorem streams_moment {ι : Type*} [Fintype ι] {X X' : ι → MultiNode K 2 9} (h : Streams X X') (w : Fin 9 → K) :
    ∑ x, moment w (X' x).node.f = ∑ x, moment w (X x).node.f ∧ ∑ x, moment w (X' x).formerF = ∑ x, moment w (X x).formerF ∧
      ∑ x, moment w (X' x).formerFEq = ∑ x, moment w (X x).formerFEq :=
  ⟨moment_total (fun i => (h i).1) w, moment_total (fun i => (h i).2.1) w, moment_total (fun i => (h i).2.2) w⟩

theorem reach_moment {ι : Type*} [Fintype ι] {c : K} {b : Obj K 2 9} (hS : b.stencil = D2Q9.stencil c) (hf : b.forceType = .noForcing)
    {m : MultistepModel} {junk : Fin 2 → K} (w : Fin 9 → K)
    (hw : ∀ f : Fin 9 → K, mass f ≠ 0 → moment w (feqD2Q9 (D2Q9.stencil c) (mass f) (velocityD2Q9 c (mass f) f)) = moment w f)
    {X0 X : ι → MultiNode K 2 9} {first : Bool} (h : Reach m junk b X0 first X) :
    ∑ x, moment w (X x).node.f = ∑ x, moment w (X0 x).node.f ∧
      (first = false → ∑ x, moment w (X x).formerF = ∑ x, moment w (X0 x).node.f ∧ ∑ x, moment w (X x).formerFEq = ∑ x, moment w (X0 x).node.f) := by
  induction h with
  | start => exact ⟨rfl, fun h => by cases h⟩
  | @collide first X X' _ hc ih =>
    have hw' : ∀ x, moment w (feqD2Q9 (D2Q9.stencil c) (mass (X x).node.f) (velocityD2Q9 c (mass (X x).node.f) (X x).node.f)) =
        moment w (X x).node.f := fun x => hw _ (multistep_ok hS hf (hc x)).1
    have h1 := fun x => multistep_exact hS hf (hc x) w (hw' x)
    have h2 := fun x => multistep_moment hS hf (hc x) w (hw' x)
    refine ⟨?_, fun _ => ⟨?_, ?_⟩⟩
    · simp only [h1, sum_add_distrib]
      rw [ih.1]
      cases first
      · obtain ⟨h3, h4⟩ := ih.2 rfl
        simp only [Bool.false_eq_true, if_false, sum_add_distrib, ← mul_sum, sum_sub_distrib]
        rw [h3, h4, ih.1]; ring
      · simp
    · simp only [(h2 _).1, ih.1]
    · simp only [(h2 _).2, ih.1]
  | @stream first X X' _ hs ih =>
    obtain ⟨h1, h2, h3⟩ := streams_moment hs w
    rw [h1, h2, h3]; exact ih

/-- **C66 (multistep, D2Q9, no force)**: over any history of collisions and streaming steps in a closed domain, both multistep models conserve the total
mass and the total momentum, although each collision uses the populations of the previous one. -/
theorem C66_multistep {ι : Type*} [Fintype ι] {c : K} (hc : c ≠ 0) {b : Obj K 2 9} (hS : b.stencil = D2Q9.stencil c)
    (hf : b.forceType = .noForcing) {m : MultistepModel} {junk : Fin 2 → K} {X0 X : ι → MultiNode K 2 9} {first : Bool}
    (h : Reach m junk b X0 first X) :
    ∑ x, mass (X x).node.f = ∑ x, mass (X0 x).node.f ∧
      ∀ a, ∑ x, momentum (D2Q9.stencil c).dir (X x).node.f a = ∑ x, momentum (D2Q9.stencil c).dir (X0 x).node.f a := by
  constructor
  · have := (reach_moment hS hf (fun _ => 1) (fun f _ => by
      simpa [moment, mass] using feq9_mass c (mass f) hc (velocityD2Q9 c (mass f) f)) h).1
    simpa [moment, mass] using this
  · intro a
    exact (reach_moment hS hf (fun i => (D2Q9.stencil c).dir i a) (fun f hr => by
      exact (feq9_momentum c (mass f) hc (velocityD2Q9 c (mass f) f) a).trans (velocity9 c _ hr f a)) h).1

/-- An object for the multistep collision. -/
def multiObj : Obj ℚ 2 9 := { Obj.make 1 1 (D2Q9.stencil 2) with timeStep := 1, viscosity := 1 }

/-- Two nodes exchange their populations, are collided, exchange again and are collided again. -/
example : ∃ X, Reach .bdf2 0 multiObj (fun _ : Fin 2 => ⟨rest9, 0, 0⟩) false X := by
  have hd : ∀ first x, mass x.node.f = 1 → ∃ x', multistepD2Q9Node .bdf2 0 multiObj first false x = .ok x' := by
    intro first x hx
    unfold multistepD2Q9Node; dsimp only
    rw [if_neg (by rw [show density x.node.f = 1 from hx]; norm_num)]; exact ⟨_, rfl⟩
  obtain ⟨x1, h1⟩ := hd true ⟨rest9, 0, 0⟩ rest9_density
  have hm := multistep_exact (c := 2) rfl rfl h1 (fun _ => 1) (by
    simpa [moment, mass] using feq9_mass (2 : ℚ) (mass rest9.f) (by norm_num) (velocityD2Q9 2 (mass rest9.f) rest9.f))
  have hm' : mass x1.node.f = 1 := by
    have h0 : mass rest9.f = 1 := rest9_density
    simp only [moment, mul_one, if_true, add_zero] at hm
    exact hm.trans h0
  obtain ⟨x2, h2⟩ := hd false x1 hm'
  refine ⟨fun _ => x2, .collide (first := false) (X := fun _ => x1) (.stream (X := fun _ => x1) (.collide (first := true) .start fun _ => h1) ?_)
    fun _ => h2⟩
  exact fun i => ⟨rfl, rfl, rfl⟩

/-- What a previous collision with a force by shifted velocities leaves behind: former populations and former equilibrium differ in their momentum. -/
def Shifted (c : K) (b : Obj K 2 9) (x : MultiNode K 2 9) : Prop :=
  mass x.formerF = mass x.formerFEq ∧ ∀ a, momentum (D2Q9.stencil c).dir x.formerF a - momentum (D2Q9.stencil c).dir x.formerFEq a =
    -((b.viscosity / b.stencil.cs2 / b.timeStep + 1 / 2) * (b.timeStep * b.force a))

/-- **C66 fails for the multistep collision (Adams-Moulton) with a force**: in every collision but the first one the momentum changes by
`(12 λ + 6) / (12 λ + 5)` times `dt · F`, where `λ` is the relaxation time divided by the time step. -/
theorem C66_multistep_shifting_fails {c : K} (hc : 0 < c) {b : Obj K 2 9} (hS : b.stencil = D2Q9.stencil c) (hf : b.forceType = .shiftingVelocity)
    (hv : 0 ≤ b.viscosity) (ht : 0 < b.timeStep) {junk : Fin 2 → K} {x x' : MultiNode K 2 9} (hx : Shifted c b x)
    (h : multistepD2Q9Node .adamsMoulton4 junk b false false x = .ok x') (lambda : K) (hl : lambda = b.viscosity / b.stencil.cs2 / b.timeStep) :
    Shifted c b x' ∧ Accelerated (D2Q9.stencil c).dir (fun a => (12 * lambda + 6) / (12 * lambda + 5) * (b.timeStep * b.force a)) x.node.f x'.node.f ∧
      (12 * lambda + 6) / (12 * lambda + 5) ≠ 1 := by
  obtain ⟨hm, hx⟩ := hx
  have hcs : (D2Q9.stencil c).cs2 = c * c / 3 := rfl
  have hl0 : 0 ≤ lambda := by rw [hl, hS, hcs]; positivity
  have h5 : 12 * lambda + 5 ≠ 0 := by positivity
  have h2 : lambda + 1 / 2 ≠ 0 := by positivity
  unfold Shifted
  rw [← hl] at hx ⊢
  unfold multistepD2Q9Node at h
  rw [← hl, hf] at h
  obtain ⟨hr, rfl⟩ := ite_ok h
  have hr' := pos_of_not hr
  have hV := velocity9 c _ hr' x.node.f
  simp only [Bool.false_eq_true, if_false, forcedVelocity, sourceD2Q9, add_zero]
  rw [hS]
  set v : Fin 2 → K := fun a => velocityD2Q9 (D2Q9.stencil c).scaling (density x.node.f) x.node.f a
    - 1 / (-1 / (lambda + 1 / 2)) * b.timeStep * b.force a / density x.node.f with hvdef
  have hvm : ∀ a, density x.node.f * v a = momentum (D2Q9.stencil c).dir x.node.f a + (lambda + 1 / 2) * (b.timeStep * b.force a) := by
    intro a
    have e : density x.node.f * velocityD2Q9 (D2Q9.stencil c).scaling (density x.node.f) x.node.f a = _ := hV a
    simp only [hvdef]
    rw [mul_sub, e]; field_simp; ring
  have hfac : multistepFactors .adamsMoulton4 b = (-13 / (12 * lambda + 5), 1 / (12 * lambda + 5)) := by
    have e1 : 12 * (b.viscosity / b.stencil.cs2) / b.timeStep = 12 * lambda := by rw [hl]; ring
    have e2 : 12 / 13 * (b.viscosity / b.stencil.cs2) / b.timeStep = 12 / 13 * lambda := by rw [hl]; ring
    unfold multistepFactors
    simp only [e1, e2]
    have h6 : 12 / 13 * lambda + 5 / 13 ≠ 0 := by positivity
    refine Prod.ext ?_ rfl
    show -1 / (12 / 13 * lambda + 5 / 13) = -13 / (12 * lambda + 5)
    field_simp
  rw [hfac]
  have lin : ∀ (w f g p q : Fin 9 → K) (c1 c2 : K), ∑ i, (f i + (c1 * (f i - g i) + c2 * (p i - q i))) * w i =
      ∑ i, f i * w i + c1 * (∑ i, f i * w i - ∑ i, g i * w i) + c2 * (∑ i, p i * w i - ∑ i, q i * w i) := by
    intro w f g p q c1 c2
    rw [← sum_sub_distrib, ← sum_sub_distrib, mul_sum, mul_sum, ← sum_add_distrib, ← sum_add_distrib]
    exact sum_congr rfl fun i _ => by ring
  refine ⟨⟨(feq9_mass c _ hc.ne' v).symm, fun a => ?_⟩, ⟨?_, fun a => ?_⟩, fun h1 => ?_⟩
  · rw [feq9_momentum c _ hc.ne', hvm]; ring
  · have := lin (fun _ => 1) x.node.f (feqD2Q9 (D2Q9.stencil c) (density x.node.f) v) x.formerF x.formerFEq (-13 / (12 * lambda + 5)) (1 / (12 * lambda + 5))
    simp only [mul_one] at this
    refine this.trans ?_
    show mass x.node.f + _ * (mass x.node.f - mass (feqD2Q9 (D2Q9.stencil c) (density x.node.f) v)) + _ * (mass x.formerF - mass x.formerFEq) = _
    rw [feq9_mass c _ hc.ne', hm]
    show _ + _ * (mass x.node.f - mass x.node.f) + _ = _
    ring
  · have := lin (fun i => (D2Q9.stencil c).dir i a) x.node.f (feqD2Q9 (D2Q9.stencil c) (density x.node.f) v) x.formerF x.formerFEq
      (-13 / (12 * lambda + 5)) (1 / (12 * lambda + 5))
    refine this.trans ?_
    show momentum (D2Q9.stencil c).dir x.node.f a + _ * (momentum (D2Q9.stencil c).dir x.node.f a
      - momentum (D2Q9.stencil c).dir (feqD2Q9 (D2Q9.stencil c) (density x.node.f) v) a)
      + _ * (momentum (D2Q9.stencil c).dir x.formerF a - momentum (D2Q9.stencil c).dir x.formerFEq a) = _
    rw [feq9_momentum c _ hc.ne', hvm, hx]
    field_simp; ring
  · rw [div_eq_one_iff_eq h5] at h1; linarith

example : Shifted 2 { multiObj with force := ![1, 0] }
    ⟨rest9, feqD2Q9 (D2Q9.stencil 2) 1 0, feqD2Q9 (D2Q9.stencil 2) 1 ![5 / 4, 0]⟩ := by
  refine ⟨by rw [feq9_mass 2 _ (by norm_num), feq9_mass 2 _ (by norm_num)], fun a => ?_⟩
  rw [feq9_momentum 2 _ (by norm_num), feq9_momentum 2 _ (by norm_num)]
  fin_cases a <;> norm_num [multiObj, Obj.make, D2Q9.stencil]

omit [IsStrictOrderedRing K] in
/-- The multistep collision on D3Q19 does not collide: the populations and the former values stay as they are. -/
theorem C66_multistepD3Q19_no_collision {b : Obj K 3 19} {first inInit : Bool} {x x' : MultiNode K 3 19} (h : multistepD3Q19Node b first inInit x = .ok x') :
    x'.node.f = x.node.f := by
  unfold multistepD3Q19Node at h
  obtain ⟨-, rfl⟩ := ite_ok h
  rfl

end

/-! ## Every exact stencil -/

theorem dir_zero (t : StencilType) (ht : t.exact = true) (c : ℝ) (i : Fin t.Q) (hi : i.val = 0) (a : Fin t.D) : (t.stencil c).dir i a = 0 := by
  cases t <;> simp only [StencilType.exact, Bool.false_eq_true] at ht
  all_goals
    have h0 : i = ⟨0, by decide⟩ := Fin.ext hi
    subst h0
    first
      | (change Fin 2 at a; fin_cases a <;> rfl)
      | (change Fin 3 at a; fin_cases a <;> rfl)

theorem stencil_equilibrium (t : StencilType) (ht : t.exact = true) {c : ℝ} (hc : c ≠ 0) :
    (∀ u rho, mass (equilibrium (t.stencil c) u rho) = rho) ∧
    ∀ u rho a, momentum (t.stencil c).dir (equilibrium (t.stencil c) u rho) a = rho * u a :=
  ⟨fun u rho => equilibrium_mass _ (C03_isotropy t ht c).toIso4 (t.cs2_ne ht hc) (dir_zero t ht c) u rho,
    fun u rho a => equilibrium_momentum _ (C03_isotropy t ht c).toIso4 (t.cs2_ne ht hc) (dir_zero t ht c) u rho a⟩

/-- **C66 (BGK standard)**: on every exact stencil, a collision without external force conserves mass and momentum, and the density and velocity
it reports are those of the populations.  On all stencils but D2Q9 and D3Q19 this is so even with a force, which is ignored. -/
theorem C66_standard (t : StencilType) (ht : t.exact = true) {c : ℝ} (hc : c ≠ 0) (b : Obj ℝ t.D t.Q) (hS : b.stencil = t.stencil c)
    (hf : b.forceType = .noForcing ∨ (t ≠ .D2Q9 ∧ t ≠ .D3Q19)) (n n' : Node ℝ t.D t.Q) (h : standardNode t b false n = .ok n') :
    Conserves (t.stencil c).dir n.f n'.f ∧ Reports (t.stencil c).dir n.f 0 n'.rho n'.u := by
  have gen : genericNode equilibrium b false n = .ok n' →
      Conserves (t.stencil c).dir n.f n'.f ∧ Reports (t.stencil c).dir n.f 0 n'.rho n'.u := by
    intro h
    obtain ⟨hm, hp⟩ := stencil_equilibrium t ht hc
    rw [← hS] at hm hp ⊢
    exact generic_conserves hm hp h
  cases t
  case D2Q9 => exact C66_standardD2Q9 hc hS (hf.resolve_right fun h => h.1 rfl) h
  case D3Q19 => exact (C66_standardD3Q19 hc hS h).1 (hf.resolve_right fun h => h.2 rfl)
  case D3Q15 => exact (C66_standardD3Q15 hc hS).1 h
  all_goals exact gen h

/-- **C66 (BGK steady state)** on every exact stencil. -/
theorem C66_steady (t : StencilType) (ht : t.exact = true) {c gamma : ℝ} (hc : c ≠ 0) (hg : gamma ≠ 0) (b : Obj ℝ t.D t.Q)
    (hS : b.stencil = t.stencil c) (n n' : Node ℝ t.D t.Q) (h : steadyNode gamma t b false n = .ok n') :
    Conserves (t.stencil c).dir n.f n'.f ∧ Reports (t.stencil c).dir n.f 0 n'.rho n'.u := by
  have gen : genericNode (equilibriumSteady gamma) b false n = .ok n' →
      Conserves (t.stencil c).dir n.f n'.f ∧ Reports (t.stencil c).dir n.f 0 n'.rho n'.u := by
    intro h
    have hm := equilibriumSteady_mass gamma _ (C03_isotropy t ht c).toIso4 (t.cs2_ne ht hc) (dir_zero t ht c)
    have hp := equilibriumSteady_momentum gamma _ (C03_isotropy t ht c).toIso4 (t.cs2_ne ht hc) (dir_zero t ht c)
    rw [← hS] at hm hp ⊢
    exact generic_conserves hm hp h
  cases t
  case D2Q9 => exact C66_steadyD2Q9 hc hg hS h
  all_goals exact gen h

/-- **C66 (BGK transformed)**: on D2Q9 mass and momentum are conserved; on every other exact stencil every single collision loses mass. -/
theorem C66_transformed (t : StencilType) (ht : t.exact = true) {c : ℝ} (hc : c ≠ 0) (b : Obj ℝ t.D t.Q) (hS : b.stencil = t.stencil c)
    (hv : b.Valid) (n n' : Node ℝ t.D t.Q) (h : transformedNode t b false n = .ok n') :
    (t = .D2Q9 → Conserves (t.stencil c).dir n.f n'.f) ∧ (t ≠ .D2Q9 → mass n'.f < mass n.f) := by
  have gen : genericNode equilibriumTransformed b false n = .ok n' → mass n'.f < mass n.f := by
    intro h
    have hm := (stencil_equilibrium t ht hc).1
    have hw := (C03_isotropy t ht c).m0
    rw [← hS] at hm hw
    rw [(C66_transformed_fails hw hv hm h).1, hv.prefactor]
    have h1 : 0 < 1 / (b.tau + 1 / 2) := by have := hv.tau; positivity
    have h2 : -1 / (b.tau + 1 / 2) = -(1 / (b.tau + 1 / 2)) := by ring
    rw [h2]; linarith
  cases t
  case D2Q9 => exact ⟨fun _ => (C66_transformedD2Q9 hc hS h).1, fun h => absurd rfl h⟩
  all_goals exact ⟨fun ht' => (nomatch ht'), fun _ => gen h⟩

/-- A node in which the populations are the weights. -/
noncomputable def weights (t : StencilType) (c : ℝ) : Node ℝ t.D t.Q := { f := (t.stencil c).weight, rho := 1, u := 0 }

theorem generic_ok_weights (t : StencilType) (ht : t.exact = true) (c : ℝ) (feq : Stencil ℝ t.D t.Q → (Fin t.D → ℝ) → ℝ → Fin t.Q → ℝ) :
    ∃ n', genericNode feq (Obj.make 1 1 (t.stencil c)) false (weights t c) = .ok n' := by
  have iso := C03_isotropy t ht c
  have hd : density (weights t c).f = 1 := iso.m0
  have hs : ∀ a, ∑ k, (weights t c).f k * (Obj.make 1 1 (t.stencil c)).stencil.dir k a = 0 := iso.m1
  unfold genericNode
  dsimp only
  simp only [hd, hs]
  rw [if_neg (by norm_num), if_pos ⟨by norm_num, fun a _ => by norm_num⟩]
  exact ⟨_, rfl⟩

example (c : ℝ) : ∃ n', standardNode .D2Q25H (Obj.make 1 1 (StencilType.D2Q25H.stencil c)) false (weights .D2Q25H c) = .ok n' :=
  generic_ok_weights .D2Q25H rfl c equilibrium
example (c : ℝ) : ∃ n', steadyNode 2 .D3Q13 (Obj.make 1 1 (StencilType.D3Q13.stencil c)) false (weights .D3Q13 c) = .ok n' :=
  generic_ok_weights .D3Q13 rfl c (equilibriumSteady 2)
example (c : ℝ) : ∃ n', transformedNode .D3Q27 (Obj.make 1 1 (StencilType.D3Q27.stencil c)) false (weights .D3Q27 c) = .ok n' :=
  generic_ok_weights .D3Q27 rfl c equilibriumTransformed

end NATriuM.Legacy
