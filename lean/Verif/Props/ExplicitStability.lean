import Verif.Lemmas.ExplicitStability

/-!
# Property C144: explicit streaming is stable for small time steps

`excess z` is `z ^ 4 / 70`, but for a part of relative size `1e-25` from the rounding of the coefficients in the source.
-/

namespace NATriuM
namespace SedgSolver

open TimeIntegration

variable {t : StencilType} {n nQ nf nq : ℕ} {C : Type*} [DecidableEq C] [Fintype C] {s : Setup t n nQ nf nq C} {w : Fin t.Q → ℝ}

/-- There is a bound for the rate. -/
theorem C144_rate (s : Setup t n nQ nf nq C) (hp : PositiveWeights s) (hpos : ∀ i, 0 < w i) : ∃ L, 0 ≤ L ∧ RateBound s w L := by
  let e := scaled s w hp hpos
  let A := LinearMap.toContinuousLinearMap (e.toLinearMap ∘ₗ systemMatrix s ∘ₗ e.symm.toLinearMap)
  refine ⟨‖A‖, norm_nonneg A, fun f => ?_⟩
  have h := A.le_opNorm (e f)
  rw [show A (e f) = e (systemMatrix s f) by
    show e (systemMatrix s (e.symm (e f))) = _
    rw [e.symm_apply_apply], norm_scaled, norm_scaled] at h
  exact h

/-- **C144** The distance of two flows grows in a streaming step of size `h` with the Runge-Kutta method by a factor that differs from 1 only by the fifth
power of `L h`: in the time `T = k h` it grows by at most `exp (L T (L h) ^ 4 / 70)`, which tends to 1 with the step size. -/
theorem C144_growth (hs : Sound s) (hP : s.mesh.ByParts) (ht : t.exact = true) (hcen : s.central = false) (hp : PositiveWeights s)
    (hw : EnergyWeights s w) (hpos : ∀ i, 0 < w i) {L : ℝ} (hL0 : 0 ≤ L) (hL : RateBound s w L) (hint : s.integrator = .rungeKutta5) {h : ℝ} (hh : 0 ≤ h)
    {x z : ℕ → C × Fin n → Node ℝ t.D t.Q} {d e : ℕ → ℝ} (hx : ∀ k, integrate s h (x k) = .ok (x (k + 1), d k))
    (hz : ∀ k, integrate s h (z k) = .ok (z (k + 1), e k)) (k : ℕ) :
    size s w (populations (x k) - populations (z k)) ≤ Real.exp (L * (k * h) * excess (L * h)) * size s w (populations (x 0) - populations (z 0)) := by
  induction k with
  | zero => simp
  | succ k ih =>
    rw [runge_step hint (hx k), runge_step hint (hz k)]
    refine (runge_difference hs hP ht hcen hp hw hpos hL0 hL hh _ _).trans ?_
    have hq : 0 ≤ L * h * excess (L * h) := mul_nonneg (mul_nonneg hL0 hh) (excess_nonneg (mul_nonneg hL0 hh))
    have h1 : 1 + L * h * excess (L * h) ≤ Real.exp (L * h * excess (L * h)) := by linarith [Real.add_one_le_exp (L * h * excess (L * h))]
    calc _ ≤ Real.exp (L * h * excess (L * h)) * (Real.exp (L * (k * h) * excess (L * h)) * size s w (populations (x 0) - populations (z 0))) :=
          mul_le_mul h1 ih (size_nonneg _) (Real.exp_nonneg _)
      _ = _ := by
        rw [← mul_assoc, ← Real.exp_add]
        congr 2
        push_cast
        ring

/-- **C144** So the error against exact streaming is of fourth order, and grows only linearly with time for small steps: `G` is the size of the rate of change
at the beginning. -/
theorem C144_error (hs : Sound s) (hP : s.mesh.ByParts) (ht : t.exact = true) (hcen : s.central = false) (hp : PositiveWeights s)
    (hw : EnergyWeights s w) (hpos : ∀ i, 0 < w i) {L : ℝ} (hL0 : 0 ≤ L) (hL : RateBound s w L) (hint : s.integrator = .rungeKutta5) {h : ℝ} (hh : 0 ≤ h)
    {x : ℕ → C × Fin n → Node ℝ t.D t.Q} {d : ℕ → ℝ} (hx : ∀ k, integrate s h (x k) = .ok (x (k + 1), d k)) {y : ℝ → Block t n C} (hy : Streams s y)
    (h0 : y 0 = populations (x 0)) (k : ℕ) :
    size s w (populations (x k) - y (k * h)) ≤
      k * h * Real.exp (L * (k * h) * excess (L * h)) * size s w (systemMatrix s (y 0) + systemVector s) * excess (L * h) := by
  have hq : 0 ≤ L * h * excess (L * h) := mul_nonneg (mul_nonneg hL0 hh) (excess_nonneg (mul_nonneg hL0 hh))
  have hstep : ∀ j < k, size s w (populations (x (j + 1)) - y ((j + 1 : ℕ) * h)) ≤ (1 + L * h * excess (L * h)) * size s w (populations (x j) - y (j * h)) +
      h * (size s w (systemMatrix s (y 0) + systemVector s) * excess (L * h)) := by
    intro j _
    rw [runge_step hint (hx j)]
    have hloc := runge_local hp hpos hL0 hL (systemVector s) hy (τ := j * h) hh (G := size s w (systemMatrix s (y 0) + systemVector s)) fun σ hσ =>
      size_antitone hs hP ht hcen hp hw hy (v := fun σ => systemMatrix s (y σ) + systemVector s) (velocity_deriv hy)
        ((mul_nonneg (Nat.cast_nonneg j) hh).trans hσ)
    have hdif := runge_difference hs hP ht hcen hp hw hpos hL0 hL hh (populations (x j)) (y (j * h))
    have htime : ((j + 1 : ℕ) : ℝ) * h = j * h + h := by push_cast; ring
    rw [htime]
    have hadd := size_add hp hw.nonneg
      ((populations (x j) + poly (systemMatrix s) h (systemMatrix s (populations (x j)) + systemVector s) gamma) -
        (y (j * h) + poly (systemMatrix s) h (systemMatrix s (y (j * h)) + systemVector s) gamma))
      (y (j * h) + poly (systemMatrix s) h (systemMatrix s (y (j * h)) + systemVector s) gamma - y (j * h + h))
    rw [sub_add_sub_cancel] at hadd
    linarith
  have hd : 0 ≤ h * (size s w (systemMatrix s (y 0) + systemVector s) * excess (L * h)) :=
    mul_nonneg hh (mul_nonneg (size_nonneg _) (excess_nonneg (mul_nonneg hL0 hh)))
  have acc := accumulate (fun j => size s w (populations (x j) - y (j * h))) _ _ k (le_add_of_nonneg_right hq) hd
    (by simp [h0, size_zero]) hstep
  have h1 : (1 + L * h * excess (L * h)) ^ k ≤ Real.exp (L * (k * h) * excess (L * h)) := by
    have : 1 + L * h * excess (L * h) ≤ Real.exp (L * h * excess (L * h)) := by linarith [Real.add_one_le_exp (L * h * excess (L * h))]
    calc _ ≤ Real.exp (L * h * excess (L * h)) ^ k := pow_le_pow_left₀ (by linarith) this k
      _ = _ := by
        rw [← Real.exp_nat_mul]
        congr 1
        ring
  refine acc.trans ?_
  calc _ ≤ (k : ℝ) * Real.exp (L * (k * h) * excess (L * h)) * (h * (size s w (systemMatrix s (y 0) + systemVector s) * excess (L * h))) := by gcongr
    _ = _ := by ring

/-! ## A channel -/

namespace Sample

/-- The channel with the Runge-Kutta method and moving walls -/
noncomputable def explicit (u : Fin 2 → ℝ) : Setup .D2Q9 4 4 4 2 (Fin 2) := { implicit true u 1 with integrator := .rungeKutta5 }

theorem explicit_sound (u : Fin 2 → ℝ) : Sound (explicit u) :=
  let h := sound true none
  ⟨h.nodal, h.gradients, h.divergence, h.matching, h.mass, h.nodup, h.complete, h.scaling⟩

theorem explicit_positive (u : Fin 2 → ℝ) : PositiveWeights (explicit u) :=
  let h := implicit_positive true u 1
  ⟨h.cell, h.face⟩

theorem explicit_steps (u : Fin 2 → ℝ) (h : ℝ) (x : Fin 2 × Fin 4 → Node ℝ StencilType.D2Q9.D StencilType.D2Q9.Q) :
    ∃ r, integrate (explicit u) h x = .ok r := by
  have hpro : prologue h h = .ok (h, h) := by
    by_cases h0 : h = 0 <;> simp [prologue, h0]
  unfold integrate step
  simp only [show (explicit u).integrator = .rungeKutta5 from rfl, rkStep, hpro]
  exact ⟨_, rfl⟩

/-- There are a rate bound, runs from any two states and an exact flow; they stay close. -/
example (u : Fin 2 → ℝ) {h : ℝ} (hh : 0 ≤ h) (x0 z0 : Fin 2 × Fin 4 → Node ℝ StencilType.D2Q9.D StencilType.D2Q9.Q) :
    ∃ (L : ℝ) (x z : ℕ → Fin 2 × Fin 4 → Node ℝ StencilType.D2Q9.D StencilType.D2Q9.Q) (y : ℝ → Block .D2Q9 4 (Fin 2)), x 0 = x0 ∧ z 0 = z0 ∧
      Streams (explicit u) y ∧ y 0 = populations x0 ∧
      (∀ k : ℕ, size (explicit u) (fun _ => 1) (populations (x k) - populations (z k)) ≤
        Real.exp (L * (k * h) * excess (L * h)) * size (explicit u) (fun _ => 1) (populations x0 - populations z0)) ∧
      ∀ k : ℕ, size (explicit u) (fun _ => 1) (populations (x k) - y (k * h)) ≤ k * h * Real.exp (L * (k * h) * excess (L * h)) *
        size (explicit u) (fun _ => 1) (systemMatrix (explicit u) (y 0) + systemVector (explicit u)) * excess (L * h) := by
  choose r hr using fun x => explicit_steps u h x
  let run : (Fin 2 × Fin 4 → Node ℝ StencilType.D2Q9.D StencilType.D2Q9.Q) → ℕ → Fin 2 × Fin 4 → Node ℝ StencilType.D2Q9.D StencilType.D2Q9.Q :=
    fun a k => Nat.rec a (fun _ y => (r y).1) k
  have hrun : ∀ a k, integrate (explicit u) h (run a k) = .ok (run a (k + 1), (r (run a k)).2) := fun a k => hr (run a k)
  obtain ⟨L, hL0, hL⟩ := C144_rate (explicit u) (explicit_positive u) (w := fun _ => 1) fun _ => one_pos
  obtain ⟨y, hy, h0, -⟩ := C143_exact (explicit u) (explicit_sound u) (byParts true) rfl rfl (explicit_positive u) (populations x0)
  exact ⟨L, run x0, run z0, y, rfl, rfl, hy, h0,
    C144_growth (explicit_sound u) (byParts true) rfl rfl (explicit_positive u) ⟨fun _ => zero_le_one, fun _ => rfl⟩ (fun _ => one_pos) hL0 hL rfl hh
      (hrun x0) (hrun z0),
    C144_error (explicit_sound u) (byParts true) rfl rfl (explicit_positive u) ⟨fun _ => zero_le_one, fun _ => rfl⟩ (fun _ => one_pos) hL0 hL rfl hh
      (hrun x0) hy h0⟩

end Sample
end SedgSolver
end NATriuM
