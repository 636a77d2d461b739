import Verif.Lemmas.SlSimilaritySolver
import Verif.Props.SlSolver
import Verif.Props.Similarity

/-!
# Property C139: the same semi-Lagrangian simulation in other units and with another origin

`Solver.run cfg (parts s) start s0` is a complete run of the semi-Lagrangian solver `s`; `transform L V b s` is the same solver with the origin moved by
`b`, in units in which lengths are `L` times and velocities `V` times as large.
-/

namespace NATriuM

/-! ## The matrix -/

namespace Paths

variable {K : Type*} [Field K] [LinearOrder K] {m : ℕ} {C : Type*} {L V : K}

/-- **C139** The streaming matrix does not depend on the units and on the origin: for every mesh, mapping, finite element, set of directions and time
step the same entries are assembled, or the same error is raised; paths hit boundaries at the same points.  There is no tolerance that has a unit. -/
theorem C139_matrix (hL : 0 < L) (hV : 0 < V) (b : Fin (m + 2) → K) (mesh : Mesh K m C) (s : Setup K (m + 2))
    (hs : s.RootHomogeneous ∨ mesh.NoBounceBack) (row : Option ℕ) :
    fillSparseObject (moveMesh L b mesh) (moveSetup L V s) row = (fillSparseObject mesh s row).map (moveAssembly L b) :=
  fillSparseObject_move hL hV b mesh s hs row

/-- … the square root of the real numbers is homogeneous. -/
theorem C139_root {d : ℕ} (s : Setup ℝ d) (h : s.sqrt = Real.sqrt) : s.RootHomogeneous := by
  intro k x hk
  rw [h, Real.sqrt_mul (mul_self_nonneg k), Real.sqrt_mul_self hk.le]

namespace Sample

/-- Square roots of squares of rational numbers -/
def root (x : ℚ) : ℚ := if Rat.sqrt x * Rat.sqrt x = x then Rat.sqrt x else 0

theorem root_homogeneous (k x : ℚ) (hk : 0 < k) : root (k * k * x) = k * root x := by
  have key : ∀ x : ℚ, (Rat.sqrt x * Rat.sqrt x = x) ↔ ∃ q, q * q = x := fun x => (Rat.exists_mul_self x).symm
  unfold root
  by_cases h : ∃ q, q * q = x
  · obtain ⟨q, rfl⟩ := h
    have h1 : ∃ r, r * r = k * k * (q * q) := ⟨k * q, by ring⟩
    rw [if_pos ((key _).mpr h1), if_pos ((key _).mpr ⟨q, rfl⟩), show k * k * (q * q) = k * q * (k * q) by ring, Rat.sqrt_eq, Rat.sqrt_eq, abs_mul,
      abs_of_pos hk]
  · have h1 : ¬∃ r, r * r = k * k * x := by
      rintro ⟨r, hr⟩
      exact h ⟨r / k, by field_simp; rw [pow_two, pow_two, hr]⟩
    rw [if_neg fun h' => h1 ((key _).mp h'), if_neg fun h' => h ((key _).mp h'), mul_zero]

/-- Directions to the four sides, with this root -/
def wallSides : Setup ℚ 2 := { sides (3 / 2) with sqrt := root }

/-- Paths to the four sides between walls, in metres and in centimetres with another origin: assembled, with hits, and with the same entries -/
example : ∃ as as', fillSparseObject walls wallSides none = .ok as ∧ as.hits ≠ [] ∧
    fillSparseObject (moveMesh 100 ![7, -3] walls) (moveSetup 100 10 wallSides) none = .ok as' ∧ as'.entries = as.entries := by
  have h : (match fillSparseObject walls wallSides none with
    | .ok as => !as.hits.isEmpty | .error _ => false) = true := by decide +kernel
  cases hf : fillSparseObject walls wallSides none with
  | error e => rw [hf] at h; cases h
  | ok as =>
    rw [hf] at h
    refine ⟨as, moveAssembly 100 ![7, -3] as, rfl, fun h0 => by simp [h0] at h, ?_, rfl⟩
    rw [C139_matrix (by norm_num) (by norm_num) ![7, -3] walls wallSides (Or.inl root_homogeneous), hf]
    rfl

end Sample

end Paths

/-! ## Whole runs -/

namespace SlSolver

open Solver

variable {t : StencilType} {K : Type*} [Field K] [LinearOrder K] [IsStrictOrderedRing K] {m n N : ℕ} {C : Type*} {s : Setup t K m n N C}
  {cfg : RunConfig} {start : ℕ} {s0 : Snapshot (Fin N → Node ℝ t.D t.Q)} {L V : K} {b : Fin (m + 2) → K}

omit [IsStrictOrderedRing K] in
/-- **C139** A simulation that is set up in other units and with another origin gives the same result: the program assembles the same matrix, performs the
same number of steps, writes the same output, and ends in the same state or with the same error – in the other units.  This holds on every lattice, for
every collision, mesh and finite element. -/
theorem C139_units (hL : 0 < L) (hV : 0 < V) (hmono : StrictMono s.toReal) (hc : s.c ≠ 0) (hs : s.paths.RootHomogeneous ∨ s.mesh.NoBounceBack)
    (ha : Assembled s) (h1 : cfg.convergenceThreshold ≤ 1) (h2 : s.toReal V * cfg.convergenceThreshold ≤ 1) :
    Assembled (transform L V b s) ∧
    (run (SedgSolver.transformConfig (s.toReal L) (s.toReal V) cfg) (parts (transform L V b s)) start
        (transformSnapshot (s.toReal L) (s.toReal V) s0)).map SedgSolver.outcome =
      (run cfg (parts s) start s0).map fun st =>
        (st.i, transformSnapshot (s.toReal L) (s.toReal V) st.snap, st.log.map (transformEvent (s.toReal L) (s.toReal V))) := by
  have hl : 0 < s.toReal L := by have := hmono hL; rwa [map_zero] at this
  have hv : 0 < s.toReal V := by have := hmono hV; rwa [map_zero] at this
  have hkd : s.toReal (L / V) = s.toReal L / s.toReal V := map_div₀ s.toReal L V
  refine ⟨?_, ?_⟩
  · unfold Assembled at ha ⊢
    show Paths.fillSparseObject (Paths.moveMesh L b s.mesh) (Paths.moveSetup L V s.paths) none = .ok (Paths.moveAssembly L b s.assembly)
    rw [Paths.C139_matrix hL hV b s.mesh s.paths hs none, ha]
    rfl
  · have hk : 0 < s.toReal L / s.toReal V := div_pos hl hv
    have hp := parts_correspond hL.ne' hV.ne' b s hl hv hc
    rw [hkd] at hp
    have key := hp.run hk hv (cfg := cfg) (cfg' := SedgSolver.transformConfig (s.toReal L) (s.toReal V) cfg)
      ⟨rfl, rfl, rfl, h1, h2, rfl, rfl, rfl, rfl, rfl, rfl⟩ start s0
    have e0 : mapSnapshot (transformNodes (s.toReal V)) (s.toReal L / s.toReal V) s0 = transformSnapshot (s.toReal L) (s.toReal V) s0 := rfl
    rw [e0] at key
    revert key
    cases run cfg (parts s) start s0 with
    | error e =>
      cases run (SedgSolver.transformConfig (s.toReal L) (s.toReal V) cfg) (parts (transform L V b s)) start
        (transformSnapshot (s.toReal L) (s.toReal V) s0) with
      | error e' => intro h; exact congrArg Except.error h
      | ok st => intro h; exact h.elim
    | ok st =>
      cases run (SedgSolver.transformConfig (s.toReal L) (s.toReal V) cfg) (parts (transform L V b s)) start
        (transformSnapshot (s.toReal L) (s.toReal V) s0) with
      | error e' => intro h; exact h.elim
      | ok st' =>
        intro h
        refine congrArg Except.ok (Prod.ext h.i (Prod.ext h.snap (h.log.trans ?_)))
        refine List.map_congr_left fun e _ => ?_
        cases e <;> rfl

/-- … for instance the flow of C113, in centimetres and with another origin: completed, with the same number of steps. -/
example : ∃ st st', run Sample.config (parts (Sample.solver 2 (Sample.periodic 2) (1 / 4) none)) 0 Sample.flow = .ok st ∧
    run (SedgSolver.transformConfig 100 10 Sample.config) (parts (transform 100 10 ![7, -3] (Sample.solver 2 (Sample.periodic 2) (1 / 4) none))) 0
      (transformSnapshot 100 10 Sample.flow) = .ok st' ∧ st'.i = st.i ∧ ∀ y a, (st'.snap.x y).u a = 10 * (st.snap.x y).u a := by
  obtain ⟨st, h, -⟩ := Sample.completed
  have e1 : (Sample.solver 2 (Sample.periodic 2) (1 / 4) none).toReal 100 = 100 := map_ofNat _ _
  have e2 : (Sample.solver 2 (Sample.periodic 2) (1 / 4) none).toReal 10 = 10 := map_ofNat _ _
  have key := (C139_units (s := Sample.solver 2 (Sample.periodic 2) (1 / 4) none) (cfg := Sample.config) (start := 0) (s0 := Sample.flow) (L := 100)
    (V := 10) (b := ![7, -3]) (by norm_num) (by norm_num) Sample.sound_periodic.embedding Sample.sound_periodic.scaling
    (Or.inr Paths.Sample.periodic_noBounceBack) Sample.sound_periodic.assembled (by simp [Sample.config]) (by simp [Sample.config])).2
  rw [e1, e2, h] at key
  cases h' : run (SedgSolver.transformConfig 100 10 Sample.config) (parts (transform 100 10 ![7, -3] (Sample.solver 2 (Sample.periodic 2) (1 / 4) none))) 0
      (transformSnapshot 100 10 Sample.flow) with
  | error e => rw [h'] at key; cases key
  | ok st' =>
    rw [h'] at key
    have e := Except.ok.inj key
    refine ⟨st, st', h, rfl, congrArg Prod.fst e, fun y a => ?_⟩
    exact congrFun (congrArg Node.u (congrFun (congrArg (fun z => z.2.1.x) e) y)) a

/-! ## The boundary conditions -/

omit [LinearOrder K] [IsStrictOrderedRing K] in
/-- **C139** A velocity wall does the same in the new units if its velocity is the same everywhere on it (it may depend on time). -/
theorem C139_walls_partial (hV : s.toReal V ≠ 0) (velocity : ℝ → (Fin t.D → ℝ) → Fin t.D → ℝ) (hu : ∀ τ x y, velocity τ x = velocity τ y)
    (points points' : Paths.Tracker K (m + 2) C × ℕ → Walls.HitPoint ℝ t.D) (eps eps' : Paths.Tracker K (m + 2) C × ℕ → ℝ)
    (he : ∀ hit, eps' hit = s.toReal (L / V) * eps (Paths.moveTrackerBack L b hit.1, hit.2)) (hk : s.toReal (L / V) ≠ 0)
    (h : s.applyHit = wallHit s.c velocity points eps) :
    (transform L V b s).applyHit =
      wallHit (s.toReal V * s.c) (fun τ x a => s.toReal V * velocity (τ / s.toReal (L / V)) x a) points' eps' := by
  funext time hit old new
  show s.applyHit (time / s.toReal (L / V)) (Paths.moveTrackerBack L b hit.1, hit.2) old new = _
  rw [h]
  unfold wallHit
  show (if hb : hit.1.direction < t.Q then if hi : hit.1.index < N then _ else _ else _) = _
  by_cases hb : hit.1.direction < t.Q
  · rw [dif_pos hb, dif_pos hb]
    by_cases hi : hit.1.index < N
    · rw [dif_pos hi, dif_pos hi]
      unfold Walls.velocityWall
      congr 2
      unfold Walls.toAdd Walls.evaluatedVelocity
      rw [t.weight_scale (s.toReal V * s.c) s.c, t.cs2_scale]
      simp only [t.dir_scale]
      rw [he, sub_div, mul_div_cancel_left₀ _ hk, hu _ (Walls.getPoint (points' hit)) (Walls.getPoint (points (Paths.moveTrackerBack L b hit.1, hit.2)))]
      have : ∀ u : Fin t.D → ℝ, ∀ e : Fin t.D → ℝ, ∑ a, s.toReal V * u a * (s.toReal V * e a) = s.toReal V * s.toReal V * ∑ a, u a * e a := by
        intro u e
        rw [Finset.mul_sum]
        exact Finset.sum_congr rfl fun a _ => by ring
      rw [this, mul_left_comm, mul_div_mul_left _ _ (mul_ne_zero hV hV)]
      rfl
    · rw [dif_neg hi, dif_neg hi]
  · rw [dif_neg hb, dif_neg hb]

end SlSolver

namespace Walls

/-- **C139 is false** for walls whose velocity depends on the position: it is evaluated at a point of the unit cell (finding 25), which is the same in all
units.  Here, the velocity of a wall through `(1, 0)` is the position, per second; in centimetres the wall moves a hundred times slower than in metres. -/
theorem C139_position_fails : ∃ (velocity : ℝ → (Fin 2 → ℝ) → Fin 2 → ℝ) (h : HitPoint ℝ 2) (f : Store ℝ 9 (Fin 1)),
    velocityWall (D2Q9.stencil 100) (fun τ x a => 100 * velocity τ (fun a => x a / 100) a)
        ⟨fun a => 100 * h.hitPoint a, fun p => h.toUnit fun a => p a / 100⟩ 1 0 0 0 f ≠
      velocityWall (D2Q9.stencil 1) velocity h 1 0 0 0 f := by
  refine ⟨fun _ x => x, ⟨![1, 0], id⟩, 0, fun h => ?_⟩
  have h1 := congrFun (congrFun h 1) 0
  simp [velocityWall, Store.set, toAdd, evaluatedVelocity, getPoint, D2Q9.stencil, D2Q9.dir, D2Q9.weight, Fin.sum_univ_two] at h1
  norm_num at h1

end Walls

namespace Hits

variable {K : Type*} [Field K] [LinearOrder K] {d : ℕ} {α : Type*}

/-- A hit in other units -/
def Hit.scale (L : K) (h : Hit K d α) : Hit K d α := { h with point := fun a => L * h.point a }

/-- **C139 is false** for the lists of hits: points are compared with a tolerance of `1e-10` in the units of the mesh.  Of two hits further apart, the
second is processed with the boundary values at the point of the first; in units in which they are closer together, at its own point. -/
theorem C139_hits_fails (shape : List (Entry K d α) → Tree (Entry K d α)) (hshape : ∀ l, (shape l).toList = l) (h h' : Hit K d α)
    (hcell : h'.cell = h.cell) (L : K) (far : pointComp h.point h'.point = false) (near : pointComp (h.scale L).point (h'.scale L).point = true) :
    (HitList.addHit shape (HitList.addHit shape [] h) h').calls = [(h.cell, h.point, h), (h.cell, h.point, h')] ∧
    (HitList.addHit shape (HitList.addHit shape [] (h.scale L)) (h'.scale L)).calls =
      [(h.cell, (h'.scale L).point, h'.scale L), (h.cell, (h.scale L).point, h.scale L)] := by
  constructor
  · simp only [HitList.addHit, hcell, if_true, add_first shape hshape, add_far shape hshape h h' far, HitList.calls]
    rfl
  · have hc : (h'.scale L).cell = (h.scale L).cell := hcell
    simp only [HitList.addHit, hc, if_true, add_first shape hshape, add_near shape hshape (h.scale L) (h'.scale L) near, HitList.calls]
    rfl

/-- … for instance hits a tenth of a nanometre apart, in nanometres and in metres. -/
example : pointComp ![(0 : ℚ), 0] ![1 / 10, 0] = false ∧
    pointComp (Hit.scale (1 / 10 ^ 10 : ℚ) ⟨0, ![0, 0], ()⟩).point (Hit.scale (1 / 10 ^ 10 : ℚ) ⟨0, ![1 / 10, 0], ()⟩).point = true := by
  decide +kernel

end Hits
end NATriuM
