import Verif.Props.ImplicitConvergence

/-!
# Property C110, continued: walls that move with a fluid of another density disturb it
-/

namespace NATriuM
namespace SedgSolver

variable {t : StencilType} {n nQ nf nq : ℕ} {C : Type*} [DecidableEq C] [Fintype C] {s : Setup t n nQ nf nq C}

/-- The terms of the walls are proportional to their velocity. -/
theorem vector_scaled (s : Setup t n nQ nf nq C) (r : ℝ) (V : C → Fin nf → Fin nq → Fin t.D → ℝ)
    (h : ∀ c g q, s.mesh.neighbor c g = none → V c g q = r • s.wallVelocity c g q) :
    systemVector { s with wallVelocity := V } = r • systemVector s := by
  funext i x
  simp only [systemVector, Pi.smul_apply, smul_eq_mul]
  split_ifs with hi
  · simp
  · unfold wallSum
    simp only
    split_ifs with hx
    · rw [Finset.mul_sum]
      refine Finset.sum_congr rfl fun g _ => ?_
      split_ifs with hg
      · rw [Finset.mul_sum]
        refine Finset.sum_congr rfl fun q _ => ?_
        split_ifs with hq
        · rw [h _ _ _ (Option.isNone_iff_eq_none.1 hg)]
          have hsum : ∑ a, (r • s.wallVelocity x.1 g q) a * (t.stencil s.c).dir i a = r * ∑ a, s.wallVelocity x.1 g q a * (t.stencil s.c).dir i a := by
            rw [Finset.mul_sum]
            exact Finset.sum_congr rfl fun a _ => by simp [mul_assoc]
          unfold Walls.faceEntries
          simp only [hsum]
          split_ifs <;> simp only <;> ring
        · simp
      · simp
    · simp

/-- **C110** What walls do to a uniform flow that moves with them: they change it at a rate proportional to the difference of its density from 1. -/
theorem C110_rate (hs : Sound s) (ht : t.exact = true) (hcen : s.central = false) (rho : ℝ) (v : Fin t.D → ℝ)
    (hw : ∀ c g q, s.mesh.neighbor c g = none → s.wallVelocity c g q = v) (f : Block t n C)
    (hf : ∀ i y, f i y = uniform s .bgk rho v i) : systemMatrix s f + systemVector s = (1 - rho) • systemVector s := by
  let s' : Setup t n nQ nf nq C := { s with wallVelocity := fun _ _ _ => rho • v }
  have hs' : Sound s' := ⟨hs.nodal, hs.gradients, hs.divergence, hs.matching, hs.mass, hs.nodup, hs.complete, hs.scaling⟩
  have h := uniform_steady (ec := .bgk) hs' ht hcen rho v (fun c g q _ => ⟨rfl, .inl rfl⟩) f hf
  have hm : systemMatrix s' f = systemMatrix s f := by
    funext i x
    show matrixTimes s' f i x = matrixTimes s f i x
    have hown : wallSum s' Walls.FaceEntries.own i x = wallSum s Walls.FaceEntries.own i x := by
      unfold wallSum Walls.faceEntries
      refine if_congr Iff.rfl (Finset.sum_congr rfl fun g _ => if_congr Iff.rfl (Finset.sum_congr rfl fun q _ => if_congr Iff.rfl ?_ rfl) rfl) rfl
      simp only
      split_ifs <;> rfl
    have hopp : wallSum s' Walls.FaceEntries.opposite i x = wallSum s Walls.FaceEntries.opposite i x := by
      unfold wallSum Walls.faceEntries
      refine if_congr Iff.rfl (Finset.sum_congr rfl fun g _ => if_congr Iff.rfl (Finset.sum_congr rfl fun q _ => if_congr Iff.rfl ?_ rfl) rfl) rfl
      simp only
      split_ifs <;> rfl
    unfold matrixTimes
    rw [hown, hopp]
  have hv : systemVector s' = rho • systemVector s := vector_scaled s rho _ fun c g q hg => by rw [hw c g q hg]
  rw [hm, hv] at h
  rw [sub_smul, one_smul, ← sub_eq_zero, ← h]
  abel

namespace Sample

theorem entry_ne : (Walls.faceEntries (NATriuM.D2Q9.stencil (2 : ℝ)) false (1 / 2) ![0, -1] ![1 / 10, 0] (5 : Fin 9)).vector ≠ 0 := by
  have e0 : (NATriuM.D2Q9.stencil (2 : ℝ)).dir (5 : Fin 9) 0 = 2 := rfl
  have e1 : (NATriuM.D2Q9.stencil (2 : ℝ)).dir (5 : Fin 9) 1 = 2 := rfl
  have e2 : (NATriuM.D2Q9.stencil (2 : ℝ)).weight (5 : Fin 9) = 1 / 36 := rfl
  have e3 : (NATriuM.D2Q9.stencil (2 : ℝ)).cs2 = (2 : ℝ) * 2 / 3 := rfl
  simp only [Walls.faceEntries, Fin.sum_univ_two, e0, e1, e2, e3]
  norm_num

theorem vector_ne : systemVector (implicit true ![1 / 10, 0] (1 / 2)) ≠ 0 := fun h => entry_ne (by
  have h1 : systemVector (implicit true ![1 / 10, 0] (1 / 2)) (5 : Fin 9) (0, 0) = 0 := congrFun (congrFun h (5 : Fin 9)) (0, 0)
  have h2 : systemVector (implicit true ![1 / 10, 0] (1 / 2)) (5 : Fin 9) (0, 0) =
      (Walls.faceEntries (NATriuM.D2Q9.stencil (2 : ℝ)) false (1 / 2) ![0, -1] ![1 / 10, 0] (5 : Fin 9)).vector * 4 := by
    simp [systemVector, wallSum, implicit, plain, mesh, Fin.sum_univ_four, Fin.sum_univ_two, Sedg.inverseMass, Sedg.mass]
    rfl
  rw [h2] at h1
  linarith)

/-- **C110** fails for fluids whose density is not 1: a uniform flow that moves with the walls, at density 2, is changed by every step. -/
theorem C110_density_fails {dt : ℝ} (hdt : 0 < dt) (x : Fin 2 × Fin 4 → Node ℝ StencilType.D2Q9.D StencilType.D2Q9.Q)
    (hx : ∀ y, (x y).f = uniform (implicit true ![1 / 10, 0] (1 / 2)) .bgk 2 ![1 / 10, 0]) :
    ∃ x' d, integrate (implicit true ![1 / 10, 0] (1 / 2)) dt x = .ok (x', d) ∧ populations x' ≠ populations x := by
  obtain ⟨x', d, h⟩ := implicit_steps true ![1 / 10, 0] hdt.le x
  refine ⟨x', d, h, fun heq => vector_ne ?_⟩
  have hε : SolvesWithin (implicit true ![1 / 10, 0] (1 / 2)) (fun _ => 1) fun _ => 0 := fun θ solve h M x rhs y hy => by
    rw [implicit_solves true ![1 / 10, 0] (1 / 2) θ solve h M x rhs y hy, sub_self, size_zero]
  obtain ⟨r, hr, he⟩ := step_residual rfl hε h
  have hp := implicit_positive true ![1 / 10, 0] (1 / 2)
  have hr0 : r = 0 := energy_eq_zero hp (w := fun _ => 1) (fun _ => one_pos) (by
    rw [← size_sq hp (fun _ => zero_le_one), le_antisymm hr (size_nonneg r)]
    norm_num)
  have hrate := C110_rate (implicit_sound true ![1 / 10, 0] (1 / 2)) rfl rfl 2 ![1 / 10, 0] (fun _ _ _ _ => rfl) (populations x)
    fun i y => congrFun (hx y) i
  rw [heq, hr0, sub_self, add_zero, ← add_smul, show (1 / 2 + (1 - 1 / 2) : ℝ) = 1 by norm_num, one_smul, hrate, smul_smul, eq_comm, smul_eq_zero] at he
  rcases he with he | he
  · exact absurd he (mul_ne_zero hdt.ne' (by norm_num))
  · exact he

end Sample
end SedgSolver
end NATriuM
