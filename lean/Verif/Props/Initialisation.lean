import Verif.Lemmas.Initialisation
import Verif.Props.Compressible
import Verif.Props.LegacyBGK
import Mathlib.Tactic.NormNum

/-!
# Properties C106, C107 and C108: initial fields and distributions
-/

namespace NATriuM.Init

open Finset NATriuM.Spec

/-! ## C106 -/

section C106

variable {ι K : Type*} [DecidableEq ι]

/-- **C106 (initial fields)**: if every degree of freedom of this process belongs to one of its cells, then after the loop every one of them
has the value of the initial function at its support point, and nothing else has changed.  This is so for every order of the cells, also
if several cells share a degree of freedom. -/
theorem C106_initial (isOwned : ι → Bool) (value : ι → K) (cells : List (FieldCell ι)) (v : ι → K)
    (h : ∀ n, isOwned n = true → InOwnedCell cells n) (n : ι) :
    applyInitial isOwned value cells v n = if isOwned n = true then value n else v n := by
  classical
  rw [applyInitial_apply]
  by_cases hn : isOwned n = true
  · rw [if_pos ⟨hn, h n hn⟩, if_pos hn]
  · rw [if_neg fun h => hn h.1, if_neg hn]

/-- **C106 (adding a field)**: `addToVelocity` adds the function exactly once at every degree of freedom of the cells of this process, however many
cells share it, and changes nothing else. -/
theorem C106_add [Add K] (value : ι → K) (cells : List (FieldCell ι)) (v : ι → K) (n : ι) :
    (InOwnedCell cells n → addToVelocity value cells v n = v n + value n) ∧
    (¬ InOwnedCell cells n → addToVelocity value cells v n = v n) := by
  classical
  constructor <;> intro h
  · rw [addToVelocity_apply, if_pos h]
  · rw [addToVelocity_apply, if_neg h]

/-- Two cells that share the node 1, one cell of another process. -/
def sampleCells : List (FieldCell ℕ) := [⟨true, [0, 1]⟩, ⟨true, [1, 2]⟩, ⟨false, [2, 3]⟩]

example : (List.range 5).map (applyInitial (fun n => decide (n ≤ 2)) (fun n => 10 + n) sampleCells fun _ => 0) = [10, 11, 12, 0, 0]
    ∧ (List.range 5).map (addToVelocity (fun n => 10 + n) sampleCells fun _ => 1) = [11, 12, 13, 1, 1] := by decide

example : ∀ n, decide (n ≤ 2) = true → InOwnedCell sampleCells n := by
  intro n hn
  simp only [decide_eq_true_eq] at hn
  obtain rfl | rfl | rfl : n = 0 ∨ n = 1 ∨ n = 2 := by omega
  · exact ⟨⟨true, [0, 1]⟩, by simp [sampleCells], rfl, by decide⟩
  · exact ⟨⟨true, [0, 1]⟩, by simp [sampleCells], rfl, by decide⟩
  · exact ⟨⟨true, [1, 2]⟩, by simp [sampleCells], rfl, by decide⟩

/-- **C106 (distributions)**: on every exact stencil, the distributions set by the standard collision models have at every node of this process the
density and the momentum of the fields; the nodes of other processes are not touched.  This holds for the schemes `EQUILIBRIUM`,
`COMPRESSIBLE_ITERATIVE` and (whatever gradients are added) `GRADIENTS`. -/
theorem C106_distributions (t : StencilType) (ht : t.exact = true) {c : ℝ} (hc : c ≠ 0) (scheme : Scheme) (hs : scheme ≠ .iterative) (tau : ℝ)
    (owned : List ι) (cells : List (Bool × List (GradPoint ι ℝ t.D))) (hp : ∀ p ∈ ownedPoints cells, p.dof ∈ owned) (iterate)
    (rho : ι → ℝ) (u : Fin t.D → ι → ℝ) (f : ι → Fin t.Q → ℝ) (n : ι) :
    let f' := initializeDistributions scheme (t.stencil c) (Legacy.equilibrium (t.stencil c)) tau owned cells iterate rho u f
    (n ∈ owned → mass (f' n) = rho n ∧ ∀ a, momentum (t.stencil c).dir (f' n) a = rho n * u a n) ∧ (n ∉ owned → f' n = f n) := by
  intro f'
  have iso := (C03_isotropy t ht c).toIso4
  obtain ⟨hm, hmom⟩ := Legacy.stencil_equilibrium t ht hc
  have h0 : ∀ m, m ∈ owned → toEquilibrium (Legacy.equilibrium (t.stencil c)) owned rho u f m
      = Legacy.equilibrium (t.stencil c) (fun j => u j m) (rho m) := fun m hmem => by rw [toEquilibrium_apply, if_pos hmem]
  have hfin : (n ∈ owned → mass (toEquilibrium (Legacy.equilibrium (t.stencil c)) owned rho u f n) = rho n ∧
      ∀ a, momentum (t.stencil c).dir (toEquilibrium (Legacy.equilibrium (t.stencil c)) owned rho u f n) a = rho n * u a n) ∧
      (n ∉ owned → toEquilibrium (Legacy.equilibrium (t.stencil c)) owned rho u f n = f n) := by
    refine ⟨fun hn => ?_, fun hn => by rw [toEquilibrium_apply, if_neg hn]⟩
    rw [h0 n hn]
    exact ⟨hm _ _, fun a => hmom _ _ a⟩
  cases scheme with
  | equilibrium => exact hfin
  | compressibleIterative => exact hfin
  | iterative => exact absurd rfl hs
  | gradients =>
    have hf' : f' = addPoints (t.stencil c) tau (ownedPoints cells) (toEquilibrium (Legacy.equilibrium (t.stencil c)) owned rho u f) :=
      addGradients_eq _ _ _ _
    refine ⟨fun hn => ⟨?_, fun a => ?_⟩, fun hn => ?_⟩
    · have := addPoints_linear (t.stencil c) tau (ownedPoints cells) (toEquilibrium (Legacy.equilibrium (t.stencil c)) owned rho u f) n fun _ => 1
      simp only [fneq_mass iso] at this
      simp only [mul_one, List.map_const', List.sum_replicate, smul_zero, add_zero] at this
      rw [hf']
      exact this.trans (hfin.1 hn).1
    · have := addPoints_linear (t.stencil c) tau (ownedPoints cells) (toEquilibrium (Legacy.equilibrium (t.stencil c)) owned rho u f) n
        fun i => (t.stencil c).dir i a
      simp only [fneq_momentum iso] at this
      simp only [List.map_const', List.sum_replicate, smul_zero, add_zero] at this
      rw [hf']
      exact this.trans ((hfin.1 hn).2 a)
    · rw [hf']
      have key : ∀ (points : List (GradPoint ι ℝ t.D)), (∀ p ∈ points, p.dof ∈ owned) → ∀ g, addPoints (t.stencil c) tau points g n = g n := by
        intro points
        induction points with
        | nil => intro _ g; rfl
        | cons p rest ih =>
          intro hpts g
          have h1 : addPoints (t.stencil c) tau (p :: rest) g
            = addPoints (t.stencil c) tau rest (Function.update g p.dof fun i => g p.dof i + fneq (t.stencil c) (tau + 1 / 2) p i) := rfl
          rw [h1, ih (fun q hq => hpts q (List.mem_cons_of_mem _ hq)), Function.update_of_ne]
          exact fun h => hn (h ▸ hpts p List.mem_cons_self)
      rw [key _ hp]
      exact hfin.2 hn

/-- **C106 (changing the velocity)**: after `addToVelocity` and `scaleVelocity` the distributions of every node of this process have the changed
velocity and the old density. -/
theorem C106_changed (t : StencilType) (ht : t.exact = true) {c : ℝ} (hc : c ≠ 0) (tau : ℝ) (owned : List ι) (iterate)
    (cells : List (FieldCell ι)) (hcell : ∀ n ∈ owned, InOwnedCell cells n)
    (rho : ι → ℝ) (u value : Fin t.D → ι → ℝ) (s : ℝ) (f : ι → Fin t.Q → ℝ) (n : ι) (hn : n ∈ owned) :
    let init := initializeDistributions .equilibrium (t.stencil c) (Legacy.equilibrium (t.stencil c)) tau owned [] iterate rho
    (mass (init (fun a => addToVelocity (value a) cells (u a)) f n) = rho n ∧
      ∀ a, momentum (t.stencil c).dir (init (fun a => addToVelocity (value a) cells (u a)) f n) a = rho n * (u a n + value a n)) ∧
    mass (init (fun a => scaleVelocity s (u a)) f n) = rho n ∧
      ∀ a, momentum (t.stencil c).dir (init (fun a => scaleVelocity s (u a)) f n) a = s * (rho n * u a n) := by
  intro init
  have h1 := fun v => (C106_distributions t ht hc .equilibrium (by decide) tau owned [] (by simp [ownedPoints]) iterate rho v f n).1 hn
  refine ⟨⟨(h1 _).1, fun a => ?_⟩, (h1 _).1, fun a => ?_⟩
  · rw [← (C106_add (value a) cells (u a) n).1 (hcell n hn)]
    exact (h1 fun a => addToVelocity (value a) cells (u a)).2 a
  · rw [show s * (rho n * u a n) = rho n * (u a n * s) by ring]
    exact (h1 fun a => scaleVelocity s (u a)).2 a

example : StencilType.D3Q19.exact = true ∧ ∀ n ∈ [0, 1, 2], InOwnedCell sampleCells n := by
  refine ⟨rfl, fun n hn => ?_⟩
  simp only [List.mem_cons, List.not_mem_nil, or_false] at hn
  rcases hn with rfl | rfl | rfl
  · exact ⟨⟨true, [0, 1]⟩, by simp [sampleCells], rfl, by decide⟩
  · exact ⟨⟨true, [0, 1]⟩, by simp [sampleCells], rfl, by decide⟩
  · exact ⟨⟨true, [1, 2]⟩, by simp [sampleCells], rfl, by decide⟩

end C106

/-! ## C107 -/

section C107

variable {ι : Type*} [DecidableEq ι] (t : StencilType) {c viscosity dt tau : ℝ} {owned : List ι}
  {cells : List (Bool × List (GradPoint ι ℝ t.D))} {rho : ι → ℝ} {u : Fin t.D → ι → ℝ} {f : ι → Fin t.Q → ℝ} {n : ι}

/-- The distributions after the initialisation with velocity gradients by a solver with a standard collision model. -/
noncomputable abbrev gradientInit (t : StencilType) (c viscosity dt : ℝ) (bgk : Bool) (owned : List ι) (cells : List (Bool × List (GradPoint ι ℝ t.D)))
    (rho : ι → ℝ) (u : Fin t.D → ι → ℝ) (f : ι → Fin t.Q → ℝ) : ι → Fin t.Q → ℝ :=
  initializeDistributions .gradients (t.stencil c) (Legacy.equilibrium (t.stencil c)) (getTau bgk viscosity dt (t.stencil c)) owned cells id rho u f

/-- **C107 (exact stress)**: the deviation of the momentum flux of a node from equilibrium is the sum over all the quadrature points whose index is that
of the node; a point contributes `-ρ (ν/dt + cs²/2) (∇u + ∇uᵀ)`. -/
theorem C107_stress_partial (ht : t.exact = true) (hc : c ≠ 0) (hdt : dt ≠ 0) (hn : n ∈ owned) (a b : Fin t.D) :
    momentumFlux (t.stencil c).dir (gradientInit t c viscosity dt true owned cells rho u f n) a b
      - momentumFlux (t.stencil c).dir (Legacy.equilibrium (t.stencil c) (fun j => u j n) (rho n)) a b
      = (((ownedPoints cells).filter (·.dof = n)).map fun p =>
          -(p.rho * (viscosity / dt + (t.stencil c).cs2 / 2)) * (p.grad a b + p.grad b a)).sum := by
  have iso := (C03_isotropy t ht c).toIso4
  have hcs := t.cs2_ne ht hc
  have h1 : gradientInit t c viscosity dt true owned cells rho u f
      = addPoints (t.stencil c) (getTau true viscosity dt (t.stencil c)) (ownedPoints cells)
        (toEquilibrium (Legacy.equilibrium (t.stencil c)) owned rho u f) := addGradients_eq _ _ _ _
  have h2 := addPoints_linear (t.stencil c) (getTau true viscosity dt (t.stencil c)) (ownedPoints cells)
    (toEquilibrium (Legacy.equilibrium (t.stencil c)) owned rho u f) n fun i => (t.stencil c).dir i a * (t.stencil c).dir i b
  simp only [fneq_flux iso hcs] at h2
  rw [h1]
  unfold momentumFlux
  rw [h2, toEquilibrium_apply, if_pos hn, add_sub_cancel_left]
  congr 1
  refine List.map_congr_left fun p _ => ?_
  have : (getTau true viscosity dt (t.stencil c) + 1 / 2) * p.rho * (t.stencil c).cs2
      = p.rho * (viscosity / dt + (t.stencil c).cs2 / 2) := by
    simp only [getTau, Legacy.calculateRelaxationParameter, if_true]
    field_simp
  rw [this]

/-- **C107 (when it is right)**: at a node that is met `k` times, with the gradient `G` and density `ρ` each time, the stress is
`k/dt` times that of a Newtonian fluid. -/
theorem C107_factor (ht : t.exact = true) (hc : c ≠ 0) (hdt : dt ≠ 0) (hn : n ∈ owned) {G : Fin t.D → Fin t.D → ℝ} {r : ℝ}
    (hp : ∀ p ∈ ownedPoints cells, p.dof = n → p.rho = r ∧ p.grad = G) (a b : Fin t.D) :
    momentumFlux (t.stencil c).dir (gradientInit t c viscosity dt true owned cells rho u f n) a b
      - momentumFlux (t.stencil c).dir (Legacy.equilibrium (t.stencil c) (fun j => u j n) (rho n)) a b
      = ((ownedPoints cells).countP (·.dof = n) : ℝ) / dt * (-(r * (viscosity + (t.stencil c).cs2 * dt / 2)) * (G a b + G b a)) := by
  rw [C107_stress_partial t ht hc hdt hn]
  have h1 : (((ownedPoints cells).filter (·.dof = n)).map fun p =>
      -(p.rho * (viscosity / dt + (t.stencil c).cs2 / 2)) * (p.grad a b + p.grad b a))
      = ((ownedPoints cells).filter (·.dof = n)).map fun _ => -(r * (viscosity / dt + (t.stencil c).cs2 / 2)) * (G a b + G b a) := by
    refine List.map_congr_left fun p hp' => ?_
    rw [List.mem_filter, decide_eq_true_eq] at hp'
    obtain ⟨h1, h2⟩ := hp p hp'.1 hp'.2
    rw [h1, h2]
  rw [h1, List.map_const', List.sum_replicate, nsmul_eq_mul, ← List.countP_eq_length_filter]
  field_simp

/-- **C107 fails**: at a node with a nonzero density and a nonzero rate of strain, met `k` times, the stress is Newtonian exactly if `k = dt`: never for a
time step less than one. -/
theorem C107_newtonian_iff (ht : t.exact = true) (hc : c ≠ 0) (hdt : 0 < dt) (hnu : 0 < viscosity) (hn : n ∈ owned)
    {G : Fin t.D → Fin t.D → ℝ} {r : ℝ} (hr : r ≠ 0) (hG : ∃ a b, G a b + G b a ≠ 0)
    (hp : ∀ p ∈ ownedPoints cells, p.dof = n → p.rho = r ∧ p.grad = G) :
    Newtonian (t.stencil c).dir (t.stencil c).cs2 viscosity dt r G (gradientInit t c viscosity dt true owned cells rho u f n)
      (Legacy.equilibrium (t.stencil c) (fun j => u j n) (rho n)) ↔ ((ownedPoints cells).countP (·.dof = n) : ℝ) = dt := by
  have hcs : 0 < (t.stencil c).cs2 := by
    have h2 := (C03_isotropy t ht c).m2
    have hpos : 0 ≤ (t.stencil c).cs2 := by
      cases t <;> simp only [StencilType.exact, Bool.false_eq_true] at ht
      all_goals
        simp only [StencilType.stencil, D2Q9.stencil, D3Q19.stencil, D3Q15.stencil, D3Q27.stencil, D2Q25H.stencil, D3Q13.stencil, RD3Q27.stencil]
        first | positivity | nlinarith [sq_nonneg c]
    exact lt_of_le_of_ne hpos (t.cs2_ne ht hc).symm
  unfold Newtonian
  simp only [C107_factor t ht hc hdt.ne' hn hp]
  obtain ⟨a, b, hab⟩ := hG
  have hX : -(r * (viscosity + (t.stencil c).cs2 * dt / 2)) * (G a b + G b a) ≠ 0 :=
    mul_ne_zero (neg_ne_zero.mpr (mul_ne_zero hr (by positivity))) hab
  constructor
  · intro h
    have h1 := h a b
    have h2 : ((ownedPoints cells).countP (·.dof = n) : ℝ) / dt = 1 := mul_right_cancel₀ hX (h1.trans (one_mul _).symm)
    rwa [div_eq_one_iff_eq hdt.ne'] at h2
  · intro h a b
    rw [h, div_self hdt.ne', one_mul]

/-- A shear flow on two cells that share the node 1. -/
def shearCells : List (Bool × List (GradPoint ℕ ℝ 2)) :=
  [(true, [⟨0, 1, ![![0, 1], ![0, 0]]⟩, ⟨1, 1, ![![0, 1], ![0, 0]]⟩]), (true, [⟨1, 1, ![![0, 1], ![0, 0]]⟩, ⟨2, 1, ![![0, 1], ![0, 0]]⟩])]

theorem shear_point : ∀ p ∈ ownedPoints shearCells, p.rho = 1 ∧ p.grad = ![![0, 1], ![0, 0]] := by
  simp [ownedPoints, shearCells]

/-- **C107 fails** on a uniform shear flow: with the time step one the inner nodes are right and the shared node has twice the stress; with any other time step
up to one, both are wrong. -/
theorem C107_fails {dt : ℝ} (hdt : 0 < dt) :
    let ok (n : ℕ) : Prop := Newtonian (D2Q9.stencil 1).dir (D2Q9.stencil 1).cs2 1 dt 1 ![![0, 1], ![0, 0]]
      (gradientInit .D2Q9 1 1 dt true [0, 1, 2] shearCells (fun _ => 1) (fun _ _ => 0) (fun _ _ => 0) n)
      (Legacy.equilibrium (D2Q9.stencil 1) (fun _ => 0) 1)
    (ok 0 ↔ dt = 1) ∧ (ok 1 ↔ dt = 2) := by
  intro ok
  have key : ∀ n ∈ [0, 1, 2], (ok n ↔ (((ownedPoints shearCells).countP (·.dof = n) : ℕ) : ℝ) = dt) := fun n hn =>
    C107_newtonian_iff .D2Q9 (c := 1) rfl one_ne_zero hdt one_pos hn one_ne_zero ⟨(0 : Fin 2), (1 : Fin 2), by norm_num⟩ fun p hp _ => shear_point p hp
  constructor
  · rw [key 0 (by simp)]
    have : (ownedPoints shearCells).countP (·.dof = 0) = 1 := by simp [ownedPoints, shearCells]
    rw [this, Nat.cast_one, eq_comm]
  · rw [key 1 (by simp)]
    have : (ownedPoints shearCells).countP (·.dof = 1) = 2 := by simp [ownedPoints, shearCells]
    rw [this, eq_comm]
    norm_num

/-- **C107 (other collision schemes)**: with a collision scheme other than the standard BGK models the viscosity is ignored. -/
theorem C107_ignored (viscosity' : ℝ) : gradientInit t c viscosity dt false owned cells rho u f = gradientInit t c viscosity' dt false owned cells rho u f := rfl

end C107

/-! ## C108 -/

section C108

variable {ι : Type*} [DecidableEq ι] (t : StencilType) {c gamma : ℝ}

/-- The initial distributions are those of the quartic equilibrium of the collision. -/
theorem compressible_eq (ht : t.exact = true) (hc : c ≠ 0) (viscosity dt : ℝ) (cfg : CollisionConfig t.D) (rho : ℝ) (u : Fin t.D → ℝ) (T : ℝ) :
    (compressibleNode (t.stencil c) gamma rho u T).1
      = t.equilibrium .quartic (collisionData t c viscosity dt cfg) { rho := rho, u := fun a => u a / c, T := T } := by
  have hcs := t.data_cs2_ne (viscosity := viscosity) (dt := dt) cfg ht hc
  cases t <;> simp only [StencilType.exact, Bool.false_eq_true] at ht
  all_goals first
    | exact calcQuartic2 (collisionData _ c viscosity dt cfg) { rho := rho, u := fun a => u a / c, T := T } hcs
    | exact calcQuartic3 (collisionData _ c viscosity dt cfg) { rho := rho, u := fun a => u a / c, T := T }

/-- The node after the initialisation of the compressible solver with density `rho`, velocity `u` and temperature `T`. -/
noncomputable def initialNode (c gamma rho : ℝ) (u : Fin t.D → ℝ) (T : ℝ) : GNode t.D t.Q :=
  { f := (compressibleNode (t.stencil c) gamma rho u T).1, g := (compressibleNode (t.stencil c) gamma rho u T).2, rho := rho, u := u, T := T, shock := 0 }

/-- **C108 (density, momentum)**: on every exact stencil, the compressible solver starts with the given density and momentum. -/
theorem C108_fields (ht : t.exact = true) (hc : c ≠ 0) (rho : ℝ) (u : Fin t.D → ℝ) (T : ℝ) :
    mass (initialNode t c gamma rho u T).f = rho ∧ ∀ a, momentum (t.stencil c).dir (initialNode t c gamma rho u T).f a = rho * u a := by
  let cfg : CollisionConfig t.D :=
    { scheme := .bgkStandard, eq := .quartic, mrtBasis := .dellarD2Q9, relaxMode := .relaxFull, gamma := 1, forceType := .noForcing, force := none }
  have hcons := t.conservative (viscosity := 1) (dt := 1) (c := c) cfg ht hc .quartic
  simp only [initialNode, compressible_eq t (gamma := gamma) ht hc 1 1 cfg]
  refine ⟨hcons.mass _, fun a => ?_⟩
  rw [momentum_scale (t.data_e (viscosity := 1) (dt := 1) cfg) hc, hcons.momentum]
  field_simp

/-- **C108 (temperature)**: on every exact stencil that is isotropic to sixth order, it starts with the given temperature. -/
theorem C108_temperature (ht : t.exact = true) (h6 : Sixth t c) (hc : c ≠ 0) (hg : gamma ≠ 1) {rho : ℝ} (hr : rho ≠ 0) (u : Fin t.D → ℝ) (T : ℝ) :
    nodeTemperature t c gamma (initialNode t c gamma rho u T) = T := by
  let cfg : CollisionConfig t.D :=
    { scheme := .bgkStandard, eq := .quartic, mrtBasis := .dellarD2Q9, relaxMode := .relaxFull, gamma := 1, forceType := .noForcing, force := none }
  let d := collisionData t c 1 1 cfg
  have hcs : d.cs2 ≠ 0 := t.data_cs2_ne cfg ht hc
  have hcs2 : (t.stencil c).cs2 = c * c * d.cs2 := by
    have : d.cs2 = (t.stencil c).cs2 / (c * c) := by simp only [d, collisionData, CollData.mk', StencilType.scaling_eq]
    rw [this]; field_simp
  obtain ⟨hm, hp⟩ := C108_fields t (gamma := gamma) ht hc rho u T
  have hflux := quartic_flux t (viscosity := 1) (dt := 1) cfg ht h6 hc { rho := rho, u := fun a => u a / c, T := T }
  have he : totalEnergy d.e d.cs2 (initialNode t c gamma rho u T).f (initialNode t c gamma rho u T).g
      = rho * (∑ a, u a / c * (u a / c)) / d.cs2 + 2 * rho * T / (gamma - 1) + rho * t.D * (T - T) := by
    refine equilibrium_energy (d := d) (feq := (initialNode t c gamma rho u T).f) (gamma := gamma) (T := T) (T' := T) hm hcs fun a b => ?_
    have := hflux a b
    rw [← compressible_eq t (gamma := gamma) ht hc 1 1 cfg] at this
    exact this
  have hs : ∑ a, momentum (t.stencil c).dir (initialNode t c gamma rho u T).f a ^ 2 = c * c * (rho * rho) * ∑ a, u a / c * (u a / c) := by
    rw [Finset.mul_sum]; exact Finset.sum_congr rfl fun a _ => by rw [hp]; field_simp
  unfold nodeTemperature
  rw [data_energy t (viscosity := 1) (dt := 1) cfg ht hc, he, hs, hm, hcs2]
  have h1 : gamma - 1 ≠ 0 := sub_ne_zero.mpr hg
  have h2 : (c * c) * d.cs2 ≠ 0 := mul_ne_zero (mul_ne_zero hc hc) hcs
  field_simp
  ring

/-- **C108 (the first collision)**: with the quartic equilibrium and without a force, the collision with which `run` begins leaves the distributions of
every node as they were initialised and stores the given density, velocity and temperature, for every viscosity, time step, Prandtl number and
viscosity law. -/
theorem C108_first_collision (ht : t.exact = true) (h6 : Sixth t c) (hc : c ≠ 0) {viscosity dt : ℝ} (cfg : CollisionConfig t.D) {cc : CompressibleConfig}
    (hg : cc.gamma ≠ 1) (he : cfg.eq = .quartic) (hf : cfg.force = none) {owned : List ι} (hn : owned.Nodup)
    {rho T : ι → ℝ} {u : Fin t.D → ι → ℝ} {nodes' : ι → GNode t.D t.Q}
    (h : compressibleCollide t c viscosity dt cfg cc false owned
      (fun j => initialNode t c cc.gamma (rho j) (fun a => u a j) (T j)) = .ok nodes') {j : ι} (hj : j ∈ owned) :
    (nodes' j).f = (initialNode t c cc.gamma (rho j) (fun a => u a j) (T j)).f ∧
    (nodes' j).g = (initialNode t c cc.gamma (rho j) (fun a => u a j) (T j)).g ∧
    (nodes' j).rho = rho j ∧ (∀ a, (nodes' j).u a = u a j) ∧ (nodes' j).T = T j := by
  set n := initialNode t c cc.gamma (rho j) (fun a => u a j) (T j) with hnn
  obtain ⟨hm, hp⟩ := C108_fields t (gamma := cc.gamma) ht hc (rho j) (fun a => u a j) (T j)
  rw [← hnn] at hm hp
  obtain ⟨ec, hec, hd, h1⟩ := comp_node t cfg hn h hj
  have hr : rho j ≠ 0 := by
    have := (dens_pos hd).ne'
    rwa [← hnn, hm] at this
  obtain ⟨e1, e2, e3⟩ := C11_compressible_fields t cfg ht hc hg hf hn h hj
  rw [← hnn] at e1 e2 e3 hd h1
  have hT : nodeTemperature t c cc.gamma n = T j := C108_temperature t ht h6 hc hg hr _ _
  have hec' : ec = .quartic := by
    rcases hec with ⟨h2, -⟩ | ⟨-, h2⟩
    · rw [he] at h2; cases h2
    · exact h2
  subst hec'
  have hmacro : macroG t.velocity cc (collisionData t c viscosity dt cfg) n = { rho := rho j, u := fun a => u a j / c, T := T j } := by
    have hv : (macroG t.velocity cc (collisionData t c viscosity dt cfg) n).u = fun a => u a j / c := by
      funext a
      have h2 := velocity_rho (c := c) (viscosity := viscosity) (dt := dt) t cfg hc n hd a
      have h3 := momentum_scale (t.data_e (viscosity := viscosity) (dt := dt) cfg) hc n.f a
      rw [hp, h2, hm] at h3
      change t.velocity (collisionData t c viscosity dt cfg) n.f (mass n.f) a = _
      rw [hm]
      field_simp
      have : rho j * (u a j - c * t.velocity (collisionData t c viscosity dt cfg) n.f (rho j) a) = 0 := by linear_combination h3
      have := (mul_eq_zero.mp this).resolve_left hr
      linarith
    have hT' := node_temperature t (viscosity := viscosity) (dt := dt) cfg ht hc hg n hd
    rw [hT] at hT'
    have hrho : (macroG t.velocity cc (collisionData t c viscosity dt cfg) n).rho = rho j := hm
    cases hx : macroG t.velocity cc (collisionData t c viscosity dt cfg) n with
    | mk r v τ =>
      rw [hx] at hv hT' hrho
      simp only at hv hT' hrho
      rw [hv, hT', hrho]
  have hfeq : t.equilibrium .quartic (collisionData t c viscosity dt cfg) { rho := rho j, u := fun a => u a j / c, T := T j } = n.f :=
    (compressible_eq t (gamma := cc.gamma) ht hc viscosity dt cfg (rho j) (fun a => u a j) (T j)).symm
  have hgeq : calculateGeqFromFeq (D := t.D) cc.gamma (T j) n.f = n.g := rfl
  rw [hf] at h1
  simp only [Option.isSome_none] at h1
  rw [collideNodeG_free _ _ _ _ _ hd, Except.ok.injEq] at h1
  refine ⟨?_, ?_, e1.trans hm, fun a => ?_, e3.trans hT⟩
  · rw [← h1]
    simp only [hmacro, relaxWithG_f, hfeq, sub_self, mul_zero]
    funext p
    have : starF cc (collisionData t c viscosity dt cfg) { rho := rho j, u := fun a => u a j / c, T := T j } (fun _ => 0) p = 0 := by
      cases hpr : cc.prandtl <;> simp [starF, hpr, calculateFStar, calculateCenteredHeatFluxTensor]
    rw [this]; ring
  · rw [← h1]
    simp only [hmacro, relaxWithG_g, hfeq, hgeq, sub_self, mul_zero]
    funext p
    have : starG cc (collisionData t c viscosity dt cfg) { rho := rho j, u := fun a => u a j / c, T := T j } (fun _ => 0) p = 0 := by
      cases hpr : cc.prandtl <;> simp [starG, hpr, calculateGStar, calculateCenteredMomentumFlux]
    rw [this]; ring
  · rw [e2, hp, hm]; field_simp

/-- **C108 (all nodes, other schemes)**: the initialisation sets these distributions at all nodes of this process and at no other ones; the schemes
`ITERATIVE` and `GRADIENTS` raise an exception. -/
theorem C108_all (scheme : Scheme) (owned : List ι) (iterate) (rho T : ι → ℝ) (u : Fin t.D → ι → ℝ) (fg : ι → (Fin t.Q → ℝ) × (Fin t.Q → ℝ)) :
    (initializeCompressible scheme (t.stencil c) gamma owned iterate rho u T fg = none ↔ scheme = .iterative ∨ scheme = .gradients) ∧
    ∀ r, initializeCompressible .equilibrium (t.stencil c) gamma owned iterate rho u T fg = some r → ∀ n,
      (n ∈ owned → r n = ((initialNode t c gamma (rho n) (fun a => u a n) (T n)).f, (initialNode t c gamma (rho n) (fun a => u a n) (T n)).g)) ∧
      (n ∉ owned → r n = fg n) := by
  constructor
  · cases scheme <;> simp [initializeCompressible]
  · intro r hr n
    simp only [initializeCompressible, Option.some.injEq] at hr
    rw [← hr, foldl_update_apply]
    exact ⟨fun h => by rw [if_pos h]; rfl, fun h => by rw [if_neg h]⟩

/-- A hot moving node of air on D2Q25H. -/
example : ∃ nodes', compressibleCollide .D2Q25H 2 (1 / 10) (1 / 100) sampleCompCfg sampleComp false [0, 1, 2]
      (fun j : ℕ => initialNode .D2Q25H 2 sampleComp.gamma (1 + j) (fun _ => 1 / 10) (12 / 10)) = .ok nodes' ∧
    ∀ j ∈ [0, 1, 2], (nodes' j).T = 12 / 10 := by
  have hm : ∀ j : ℕ, mass (initialNode .D2Q25H 2 sampleComp.gamma (1 + j) (fun _ => 1 / 10) (12 / 10)).f = 1 + j := fun j =>
    (C108_fields .D2Q25H (c := 2) rfl two_ne_zero _ _ _).1
  obtain ⟨n', h⟩ := comp_step_succeeds .D2Q25H (c := 2) (viscosity := 1 / 10) (dt := 1 / 100) sampleCompCfg (cc := sampleComp) (owned := [0, 1, 2])
    (nodes := fun j : ℕ => initialNode .D2Q25H 2 sampleComp.gamma (1 + j) (fun _ => 1 / 10) (12 / 10)) (.inr ⟨rfl, rfl⟩) ⟨_, rfl⟩ rfl (by decide) (by decide)
    (fun j _ => by rw [hm]; have : (0 : ℝ) ≤ j := Nat.cast_nonneg j; norm_num; linarith)
  exact ⟨n', h, fun j hj => (C108_first_collision .D2Q25H (cc := sampleComp) (ι := ℕ) (owned := [0, 1, 2]) rfl (C03_isotropy6_D2Q25H 2) two_ne_zero sampleCompCfg
    (by norm_num [sampleComp]) rfl rfl (by decide) (rho := fun j : ℕ => 1 + (j : ℝ)) (T := fun _ => 12 / 10) (u := fun _ _ => 1 / 10) h hj).2.2.2.2⟩

end C108

end NATriuM.Init
