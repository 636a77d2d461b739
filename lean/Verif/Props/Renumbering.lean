import Verif.Lemmas.Renumbering
import Verif.Props.Similarity

/-!
# Properties C130 and C131: symmetric flows stay symmetric, and numbering does not matter
-/

namespace NATriuM
namespace SedgSolver

open Solver

variable {t : StencilType} {n nQ nf nq : ℕ} {C : Type*} [DecidableEq C] [Fintype C] {s s' : Setup t n nQ nf nq C} {cfg : RunConfig} {start : ℕ}
  {s0 : Snapshot (C × Fin n → Node ℝ t.D t.Q)}

/-- **C131** (partial: provided that both runs are completed) The result of a run does not depend on how cells, degrees of freedom, quadrature points
and faces are numbered: number of steps, final state and all output are the same. -/
theorem C131_numbering_partial (r : Renumbering s s') (hn : s.cells.Nodup) {st st'} (h : run cfg (parts s) start s0 = .ok st)
    (h' : run cfg (parts s') start (r.snapshot s0) = .ok st') :
    st'.i = st.i ∧ st'.snap = r.snapshot st.snap ∧ st'.log = st.log.map r.event := by
  have hs : ∀ x, mapSnapshot r.nodes 1 x = r.snapshot x := fun x => by
    simp only [mapSnapshot, Renumbering.snapshot, one_mul]
  have key := (r.agrees hn).run cfg start s0
  rw [hs, h, h'] at key
  have key : StateAgrees r.nodes _ st st' := key
  refine ⟨key.i, key.snap.trans (hs _), key.log.trans (List.map_congr_left fun e _ => ?_)⟩
  cases e <;> simp only [mapEvent, Renumbering.event, hs]

/-- **C130** A symmetric flow stays symmetric: if the simulation and the initial state have a symmetry, then everything that is written and the final
state have it. -/
theorem C130_symmetric {y : t.Symmetry} (r : SymmetricSetup y s) (hn : s.cells.Nodup) (hc : s.c ≠ 0) (hr : y.RelaxationSymmetric s.collision)
    (h1 : cfg.convergenceThreshold ≤ 1) (h0 : SymmetricState r s0.x) {st} (h : run cfg (parts s) start s0 = .ok st) :
    SymmetricState r st.snap.x ∧ ∀ e ∈ st.log, SymmetricEvent r e := by
  have hcfg : transformConfig 1 1 cfg = cfg := by
    simp only [transformConfig, div_one, one_mul]
  have hsim := C129_similar (s := s) (cfg := cfg) (start := start) (s0 := s0) (y := y) one_pos one_pos hc hr h1 (by rw [one_mul]; exact h1)
  rw [hcfg, h] at hsim
  cases hrun : run cfg (parts (transform y 1 1 s)) start (transformSnapshot y 1 1 s0) with
  | error e => rw [hrun] at hsim; cases hsim
  | ok st1 =>
    rw [hrun] at hsim
    have hsim := Except.ok.inj hsim
    have hstart : r.snapshot (transformSnapshot y 1 1 s0) = s0 := by
      have hx : r.nodes (transformSnapshot y 1 1 s0).x = s0.x := by
        funext k
        show y.node 1 (s0.x (r.dofs.symm k)) = s0.x k
        rw [← h0 (r.dofs.symm k), Equiv.apply_symm_apply]
      have e : r.snapshot (transformSnapshot y 1 1 s0) =
          { x := r.nodes (transformSnapshot y 1 1 s0).x, time := (transformSnapshot y 1 1 s0).time, dt := (transformSnapshot y 1 1 s0).dt } := rfl
      rw [e, hx]
      simp only [transformSnapshot, div_one, one_mul]
    have hnum := C131_numbering_partial r (show (transform y 1 1 s).cells.Nodup from hn) hrun (by rw [hstart]; exact h)
    have hsnap : st1.snap = transformSnapshot y 1 1 st.snap := congrArg (fun z => z.2.1) hsim
    have hlog : st1.log = st.log.map (transformEvent y 1 1) := congrArg (fun z => z.2.2) hsim
    have hstate : ∀ x, x = r.snapshot (transformSnapshot y 1 1 x) → SymmetricState r x.x := by
      intro x hx k
      have : x.x (r.dofs k) = y.node 1 (x.x (r.dofs.symm (r.dofs k))) := congrFun (congrArg Snapshot.x hx) (r.dofs k)
      rwa [Equiv.symm_apply_apply] at this
    refine ⟨hstate _ (by rw [← hsnap]; exact hnum.2.1), ?_⟩
    have hev : st.log = st.log.map fun e => r.event (transformEvent y 1 1 e) := by
      have := hnum.2.2
      rw [hlog, List.map_map] at this
      exact this
    intro e he
    obtain ⟨i, hi, rfl⟩ := List.mem_iff_getElem.mp he
    have e1 : st.log[i] = r.event (transformEvent y 1 1 st.log[i]) := by
      have := congrArg (fun l => l[i]?) hev
      simp only [List.getElem?_map, List.getElem?_eq_getElem hi, Option.map_some, Option.some.injEq] at this
      exact this
    revert e1
    cases st.log[i] with
    | grid j => intro _; trivial
    | solution j x => intro e1; exact hstate _ (Event.solution.inj e1).2
    | tableLine j x => intro e1; exact hstate _ (Event.tableLine.inj e1).2
    | checkpoint j x => intro e1; exact hstate _ (Event.checkpoint.inj e1).2
    | errorLine j x => intro e1; exact hstate _ (Event.errorLine.inj e1).2

/-! ## The channel: reflection at the centre line -/

namespace Sample

theorem reflect (y : StencilType.D2Q9.Symmetry) (ha : y.axes = Equiv.refl _)
    (hs : y.sign = fun a => if (![false, true] : Fin 2 → Bool) a then -1 else 1) (u : Fin 2 → ℝ) (a : Fin 2) :
    y.vector u a = (![1, -1] : Fin 2 → ℝ) a * u a := by
  have h1 : y.axes a = a := by rw [ha]; rfl
  have h2 : y.sign a = (![1, -1] : Fin 2 → ℝ) a := by
    rw [hs]
    fin_cases a <;> simp
  show y.sign a * u (y.axes a) = _
  rw [h1, h2]

theorem faceDof_reflect : ∀ (f : Fin 4) (q : Fin 2),
    (![![0, 2], ![1, 3], ![0, 1], ![2, 3]] : Fin 4 → Fin 2 → Fin 4) (Equiv.swap 2 3 f) ((if f.val < 2 then Equiv.swap 0 1 else Equiv.refl _ : Equiv.Perm (Fin 2)) q) =
      (![![0, 2], ![1, 3], ![0, 1], ![2, 3]] : Fin 4 → Fin 2 → Fin 4) f q + 2 := by decide

theorem grad_reflect (c : Fin 2) (i q : Fin 4) (a : Fin 2) :
    (mesh true).grad c (i + 2) (q + 2) a = (![1, -1] : Fin 2 → ℝ) a * (mesh true).grad c i q a := by
  fin_cases i <;> fin_cases q <;> fin_cases a <;> simp [mesh]

theorem normal_reflect (c : Fin 2) (f : Fin 4) (q q' a : Fin 2) :
    (mesh true).normal c (Equiv.swap 2 3 f) q a = (![1, -1] : Fin 2 → ℝ) a * (mesh true).normal c f q' a := by
  have h : ∀ f : Fin 4, Equiv.swap 2 3 f = (![0, 1, 3, 2] : Fin 4 → Fin 4) f := by decide
  rw [h]
  fin_cases f <;> fin_cases a <;> simp [mesh]

theorem neighbor_reflect (c : Fin 2) (f : Fin 4) (c' : Fin 2) (f' : Fin 4) (h : (mesh true).neighbor c f = some (c', f')) :
    (if f'.val < 2 then Equiv.swap 0 1 else Equiv.refl _ : Equiv.Perm (Fin 2)) = if f.val < 2 then Equiv.swap 0 1 else Equiv.refl _ := by
  have h' : f'.val < 2 ∧ f.val < 2 := by
    revert h
    fin_cases f <;> simp [mesh] <;> intro _ e <;> rw [← e] <;> decide
  rw [if_pos h'.1, if_pos h'.2]

theorem wall_reflect (a : Fin 2) : (![1 / 10, 0] : Fin 2 → ℝ) a = (![1, -1] : Fin 2 → ℝ) a * (![1 / 10, 0] : Fin 2 → ℝ) a := by
  fin_cases a <;> simp

/-- Cells keep their numbers; lower and upper degrees of freedom, and the lower and the upper wall change places. -/
noncomputable def reflection (y : StencilType.D2Q9.Symmetry) (ha : y.axes = Equiv.refl _)
    (hs : y.sign = fun a => if (![false, true] : Fin 2 → Bool) a then -1 else 1) : SymmetricSetup y (plain true none) where
  cell := Equiv.refl _
  dof := Equiv.addRight 2
  point := Equiv.addRight 2
  face := Equiv.swap 2 3
  facePoint f := if f.val < 2 then Equiv.swap 0 1 else Equiv.refl _
  cells := by simp [plain, transform]
  value c i q := by simp [plain, transform, transformMesh, mesh]
  grad c i q a := (grad_reflect c i q a).trans ((reflect y ha hs _ a).symm.trans (div_one _).symm)
  jxw c q := by simp [plain, transform, transformMesh, mesh]
  toQ i := rfl
  faceDof f q := by
    exact faceDof_reflect f q
  faceJxw c f q := by simp [plain, transform, transformMesh, mesh]
  normal c f q a := (normal_reflect c f _ q a).trans (reflect y ha hs _ a).symm
  neighbor c f := by
    show (mesh true).neighbor c (Equiv.swap 2 3 f) = ((mesh true).neighbor c f).map fun z => (z.1, Equiv.swap 2 3 z.2)
    fin_cases f <;> rfl
  neighborPoint c f c' f' h := neighbor_reflect c f c' f' h
  wallVelocity c f q a := (wall_reflect a).trans ((reflect y ha hs _ a).symm.trans (one_mul _).symm)
  filter i j := by
    show ∑ k, (1 : Matrix (Fin 4) (Fin 4) ℝ) (i + 2) k * (1 * (1 : Matrix (Fin 4) (Fin 4) ℝ) k (j + 2)) =
      ∑ k, (1 : Matrix (Fin 4) (Fin 4) ℝ) i k * (1 * (1 : Matrix (Fin 4) (Fin 4) ℝ) k j)
    simp [Matrix.one_apply]
  integrator := rfl
  processors := rfl
  c := by simp [plain, transform]
  central := rfl
  viscosity := by simp [plain, transform]
  dt := by simp [plain, transform]
  collision := rfl

theorem reflection_symmetric (y : StencilType.D2Q9.Symmetry) (ha : y.axes = Equiv.refl _)
    (hs : y.sign = fun a => if (![false, true] : Fin 2 → Bool) a then -1 else 1) : SymmetricState (reflection y ha hs) flow.x := by
  intro k
  have hd := StencilType.Symmetry.collisionData_corresponds (c := (2 : ℝ)) (ν := 1 / 100) (dt := 1 / 50) (L := 1) (V := 1) y one_ne_zero one_ne_zero
    (plain true none).collision
  simp only [one_mul, div_one] at hd
  have hm : ∀ u : Fin 2 → ℝ, u 1 = 0 → y.vector u = u := by
    intro u hu
    funext a
    refine (reflect y ha hs u a).trans ?_
    revert a
    exact Fin.forall_fin_two.mpr ⟨by simp, by simp [hu]⟩
  refine Node.ext ?_ rfl ?_
  · show uniform (plain true none) .bgk 1 ![1 / 10, 0] = y.populations (uniform (plain true none) .bgk 1 ![1 / 10, 0])
    refine y.eq_populations fun i => ?_
    unfold uniform
    rw [StencilType.bgk_eq _ _ (by simp [plain])]
    have := hd.bgk { rho := 1, u := fun a => (![1 / 10, 0] : Fin 2 → ℝ) a / 2, T := 1 } i
    have hu : y.macro' { rho := 1, u := fun a => (![1 / 10, 0] : Fin 2 → ℝ) a / 2, T := 1 } = { rho := 1, u := fun a => (![1 / 10, 0] : Fin 2 → ℝ) a / 2, T := 1 } :=
      congrArg (fun u => ({ rho := 1, u := u, T := 1 } : Macro ℝ 2)) (hm (fun a => (![1 / 10, 0] : Fin 2 → ℝ) a / 2) (by simp))
    exact (congrFun (congrArg _ hu.symm) _).trans this
  · show (0 : Fin 2 → ℝ) = fun a => 1 * y.vector 0 a
    funext a
    exact ((one_mul _).trans (congrFun (hm 0 rfl) a)).symm

/-- the run of 250 steps: symmetric at the end -/
example (y : StencilType.D2Q9.Symmetry) (ha : y.axes = Equiv.refl _)
    (hs : y.sign = fun a => if (![false, true] : Fin 2 → Bool) a then -1 else 1) :
    ∃ st, run config (parts (plain true none)) 0 flow = .ok st ∧ SymmetricState (reflection y ha hs) st.snap.x := by
  obtain ⟨st, h, -⟩ := completed
  exact ⟨st, h, (C130_symmetric (reflection y ha hs) (by simp [plain]) (by simp [plain]) (fun _ => y.C129_mrt _ (by simp [plain, sampleConfig]))
    (by simp [config]) (reflection_symmetric y ha hs) h).1⟩

/-- … and the reflection is a symmetry of the lattice -/
example : ∃ y : StencilType.D2Q9.Symmetry, y.axes = Equiv.refl _ ∧ y.sign = fun a => if (![false, true] : Fin 2 → Bool) a then -1 else 1 :=
  StencilType.Symmetry.C129_lattices .D2Q9 (by decide) (Equiv.refl _) ![false, true]

/-- The channel with the cells in the other order -/
noncomputable def swapped : Setup .D2Q9 4 4 4 2 (Fin 2) := { plain true none with cells := [1, 0] }

theorem swapped_completed : ∃ st, run config (parts swapped) 0 flow = .ok st := by
  have hs : Sound swapped :=
    let h := sound true none
    ⟨h.nodal, h.gradients, h.divergence, h.matching, h.mass, by simp [swapped], fun c => by fin_cases c <;> simp [swapped], h.scaling⟩
  obtain ⟨st, h, -⟩ := C110_completes_partial (cfg := config) (start := 0) (s0 := flow) hs rfl rfl rfl (fun _ _ h => by cases h) (ec := .bgk) rfl 1 ![1 / 10, 0]
    (fun c g q _ => ⟨(one_smul ℝ _).symm, .inl rfl⟩) (fun h => by cases h) (fun q hq => by cases hq) (fun _ => rfl)
    (show (0 : ℝ) < 1 / 50 by norm_num) (r := ⟨2, 9, .D2Q9, .mrtStandard, .bgk, .mrt, .bgk⟩) (by simp [owned, swapped]) (by decide) rfl (by norm_num)
  exact ⟨st, h⟩

noncomputable def swapping : Renumbering (plain true none) swapped where
  cell := Equiv.refl _
  dof := Equiv.refl _
  point := Equiv.refl _
  face := Equiv.refl _
  facePoint _ := Equiv.refl _
  cells := by
    show [1, 0].Perm ([0, 1].map id)
    rw [List.map_id]
    exact List.Perm.swap _ _ _
  value _ _ _ := rfl
  grad _ _ _ _ := rfl
  jxw _ _ := rfl
  toQ _ := rfl
  faceDof _ _ := rfl
  faceJxw _ _ _ := rfl
  normal _ _ _ _ := rfl
  neighbor _ _ := (congrFun Option.map_id _).symm
  neighborPoint _ _ _ _ _ := rfl
  wallVelocity _ _ _ _ := rfl
  filter _ _ := rfl
  integrator := rfl
  processors := rfl
  c := rfl
  central := rfl
  viscosity := rfl
  dt := rfl
  collision := rfl

/-- both runs are completed, with the same state at the end -/
example : ∃ st st', run config (parts (plain true none)) 0 flow = .ok st ∧ run config (parts swapped) 0 (swapping.snapshot flow) = .ok st' ∧
    st'.snap = swapping.snapshot st.snap := by
  obtain ⟨st, h, -⟩ := completed
  obtain ⟨st', h'⟩ := swapped_completed
  exact ⟨st, st', h, h', (C131_numbering_partial swapping (by simp [plain]) h h').2.1⟩

end Sample

end SedgSolver
end NATriuM
