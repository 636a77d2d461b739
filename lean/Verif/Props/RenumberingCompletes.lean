import Verif.Lemmas.RenumberingCompletes

/-!
# Property C131: with other numbers, the same runs are completed
-/

namespace NATriuM
namespace SedgSolver

open Solver

variable {t : StencilType} {n nQ nf nq : ℕ} {C : Type*} [DecidableEq C] [Fintype C] {s s' : Setup t n nQ nf nq C} {cfg : RunConfig} {start : ℕ}
  {s0 : Snapshot (C × Fin n → Node ℝ t.D t.Q)}

/-- **C131** (partial: no density is exactly `1e-10`; data processors keep the density, and forces are those of exact differences) If a run is completed, so is the run with any other numbers for
cells, degrees of freedom, quadrature points and faces; it makes the same number of steps and has the same final state and output. -/
theorem C131_completes_partial (r : Renumbering s s') (hn : s.cells.Nodup) (ht : t.exact = true) (hc : s.c ≠ 0)
    (hforce : s.collision.force = none ∨ s.collision.forceType = .exactDifference)
    (hproc : ∀ q ∈ s.processors, ∀ i time x y, Spec.mass (q i time x y).f = Spec.mass (x y).f) {st} (h : run cfg (parts s) start s0 = .ok st)
    (hb : ∀ k snap, runTrajectory cfg (parts s) start s0 k = .ok snap → ∀ y, Spec.mass (snap.x y).f ≠ 1 / 10 ^ 10) :
    ∃ st', run cfg (parts s') start (r.snapshot s0) = .ok st' ∧ st'.i = st.i ∧ st'.snap = r.snapshot st.snap ∧ st'.log = st.log.map r.event := by
  obtain ⟨st', h'⟩ := (r.agrees hn).run_ok (Q := fun x => ∀ y, Spec.mass (x y).f ≠ 1 / 10 ^ 10)
    (fun q hq i time x hQ y => by rw [← hproc q hq i time x y]; exact hQ y) (fun x x1 hx hQ => by
    refine r.collide_ok hn hx fun y => ?_
    have h' := collide_ok (s := s) hx
    have hm : Spec.mass (x1 y).f = Spec.mass (x y).f := by
      cases hF : s.collision.force with
      | none => exact (step_conserves t s.collision ht hc hF (Renumbering.nodup_owned hn) h' y).1
      | some F =>
        by_cases hy : y ∈ owned s
        · exact (C16_exactDifference t s.collision ht hc hF (hforce.resolve_left (by rw [hF]; simp)) (Renumbering.nodup_owned hn) h' hy).1
        · obtain ⟨_, _, -, -, -, hout, -⟩ := (isothermalCollide_ok t s.collision false _ (Renumbering.nodup_owned hn) x x1).mp h'
          rw [hout y hy]
    rw [← hm]
    exact hQ y) (fun k s1 h1 => hb k s1 h1) h
  have e : mapSnapshot r.nodes 1 s0 = r.snapshot s0 := by
    simp only [mapSnapshot, Renumbering.snapshot, one_mul]
  rw [e] at h'
  exact ⟨st', h', C131_numbering_partial r hn h h'⟩

/-! ## The channel with the cells in the other order -/

namespace Sample

example : ∃ st st', run config (parts (plain true none)) 0 flow = .ok st ∧ run config (parts swapped) 0 (swapping.snapshot flow) = .ok st' ∧
    st'.snap = swapping.snapshot st.snap := by
  obtain ⟨st, h, -⟩ := completed
  obtain ⟨st', h', -, h2, -⟩ := C131_completes_partial swapping (by simp [plain]) rfl (sound true none).scaling (.inl rfl) (fun q hq => by cases hq) h fun k snap hk y => by
    have hu := (C110_uniform_partial (soundPlain true none) rfl rfl rfl (fun _ _ h => by cases h) (ec := .bgk) rfl 1 ![1 / 10, 0]
      (fun c g q _ => ⟨(one_smul ℝ _).symm, .inl rfl⟩) (fun h => by cases h) (fun q hq => by cases hq) (fun _ => rfl)).1 k snap hk y
    have hm : Spec.mass (uniform (plain true none) .bgk 1 ![1 / 10, 0]) = 1 :=
      (StencilType.conservative (viscosity := (plain true none).viscosity) (dt := (plain true none).dt) .D2Q9 (plain true none).collision rfl
        (sound true none).scaling .bgk).mass _
    rw [hu]
    show Spec.mass (uniform (plain true none) .bgk 1 ![1 / 10, 0]) ≠ _
    rw [hm]
    norm_num
  exact ⟨st, st', h, h', h2⟩

end Sample
end SedgSolver
end NATriuM
