import Verif.Lemmas.Rounding
import Verif.Props.SlMaximum
import Verif.Props.ExplicitStability

/-!
# Property C146: rounding errors of streaming

The model computes with real numbers.  A run with rounding is a sequence of states `z`, each of which differs a little from the exact result of the step
before: by at most `δ`.
-/

namespace NATriuM

namespace SlSolver

variable {t : StencilType} {K : Type*} [Field K] [LinearOrder K] [IsStrictOrderedRing K] {m n N : ℕ} {C : Type*} {s : Setup t K m n N C}

/-- **C146** With semi-Lagrangian streaming and shape functions that are not negative, errors of up to `δ` in each population and step add up to at most
`k δ` in `k` steps: none is amplified, in the largest norm, whatever the size of the time step. -/
theorem C146_semiLagrangian (hs : Sound s) (hsm : NoSmallWeights s) (hw : WallsKeepClose s) (hp : NonnegativeShapes s.mesh) {time : ℕ → ℝ}
    {x z : ℕ → Fin N → Node ℝ t.D t.Q} {d δ : ℝ} (hx : ∀ k, x (k + 1) = advect s (time k) (x k))
    (hz : ∀ k i y, |(z (k + 1) y).f i - (advect s (time k) (z k) y).f i| ≤ δ) (h0 : ∀ i y, |(x 0 y).f i - (z 0 y).f i| ≤ d) (k : ℕ) :
    ∀ i y, |(x k y).f i - (z k y).f i| ≤ d + k * δ := by
  induction k with
  | zero => simpa using h0
  | succ k ih =>
    intro i y
    have h1 := hz k i y
    rw [abs_sub_comm] at h1
    rw [hx]
    have h2 : |(advect s (time k) (x k) y).f i - (advect s (time k) (z k) y).f i| ≤ d + k * δ :=
      advect_keeps_close hs hsm hw hp (time k) (x := x k) (z := z k) ih i y
    have h3 := abs_sub_le ((advect s (time k) (x k) y).f i) ((advect s (time k) (z k) y).f i) ((z (k + 1) y).f i)
    push_cast
    linarith

/-- **C146** The condition on the walls is met by velocity walls, also moving ones, by bounce back of first order, by boundaries with a prescribed
equilibrium and by those that do nothing. -/
theorem C146_walls {Q D : ℕ} {ι : Type*} [DecidableEq ι] (S : Stencil ℝ D Q) (velocity : ℝ → (Fin D → ℝ) → Fin D → ℝ) (h : Walls.HitPoint ℝ D) (T : ℝ)
    (i : Fin Q) (x : ι) (eps time : ℝ) :
    KeepsClose (fun _ new => Walls.velocityWall S velocity h i x eps time new) ∧ KeepsClose (fun _ new => Walls.firstOrderBounceBack S i x new) ∧
    KeepsClose (fun _ new => Walls.equilibriumBoundary S T velocity h i x eps time new) ∧ KeepsClose (fun _ new => Walls.doNothing i x new) := by
  have key : ∀ (B : ℝ) (f g : Walls.Store ℝ Q ι) (a b : ℝ), Close B f g → |a - b| ≤ B → Close B (f.set i x a) (g.set i x b) := by
    intro B f g a b hc hab j y
    simp only [Walls.Store.set]
    split_ifs
    · exact hab
    · exact hc j y
  have h0 : ∀ (B : ℝ) (f g : Walls.Store ℝ Q ι), Close B f g → 0 ≤ B := fun B f g hc => (abs_nonneg _).trans (hc i x)
  refine ⟨fun B _ _ f g _ hc => key B f g _ _ hc ?_, fun B _ _ f g _ hc => key B f g _ _ hc (hc _ _), fun B _ _ f g _ hc => key B f g _ _ hc ?_,
    fun B _ _ f g _ hc => hc⟩
  · rw [add_sub_add_right_eq_sub]
    exact hc i x
  · rw [sub_self, abs_zero]
    exact h0 B f g hc

omit [LinearOrder K] [IsStrictOrderedRing K] in
/-- **C146** A simulation whose walls all are velocity walls, at rest or moving, meets the condition. -/
theorem C146_velocityWalls {s : Setup t K m n N C} (velocity : ℝ → (Fin t.D → ℝ) → Fin t.D → ℝ)
    (points : Paths.Tracker K (m + 2) C × ℕ → Walls.HitPoint ℝ t.D) (eps : Paths.Tracker K (m + 2) C × ℕ → ℝ)
    (h : s.applyHit = wallHit s.c velocity points eps) : WallsKeepClose s := by
  intro hit _ time
  rw [h]
  intro B old old' new new' ho hn
  unfold wallHit
  split_ifs
  · exact (C146_walls (t.stencil s.c) velocity (points hit) 0 ⟨hit.1.direction, ‹_›⟩ ⟨hit.1.index, ‹_›⟩ (eps hit) time).1 B old old' new new' ho hn
  · exact hn
  · exact hn

end SlSolver

namespace SedgSolver

variable {t : StencilType} {n nQ nf nq : ℕ} {C : Type*} [DecidableEq C] [Fintype C] {s : Setup t n nQ nf nq C} {w : Fin t.Q → ℝ}

/-- **C146** With the Runge-Kutta integrator, errors of up to `δ` in each step make a difference of at most `k δ` after `k` steps, times the factor of
C144, which tends to 1 with the step size. -/
theorem C146_explicit (hs : Sound s) (hP : s.mesh.ByParts) (ht : t.exact = true) (hcen : s.central = false) (hp : PositiveWeights s)
    (hw : EnergyWeights s w) (hpos : ∀ i, 0 < w i) {L : ℝ} (hL0 : 0 ≤ L) (hL : RateBound s w L) (hint : s.integrator = .rungeKutta5) {h : ℝ} (hh : 0 ≤ h)
    {x z z' : ℕ → C × Fin n → Node ℝ t.D t.Q} {d e : ℕ → ℝ} {δ : ℝ} (hx : ∀ k, integrate s h (x k) = .ok (x (k + 1), d k))
    (hz : ∀ k, integrate s h (z k) = .ok (z' k, e k)) (hδ : ∀ k, size s w (populations (z' k) - populations (z (k + 1))) ≤ δ) (k : ℕ) :
    size s w (populations (x k) - populations (z k)) ≤
      Real.exp (L * (k * h) * excess (L * h)) * (size s w (populations (x 0) - populations (z 0)) + k * δ) := by
  induction k with
  | zero => simp
  | succ k ih =>
    have hq : 0 ≤ L * h * excess (L * h) := mul_nonneg (mul_nonneg hL0 hh) (excess_nonneg (mul_nonneg hL0 hh))
    have hadd := size_add hp hw.nonneg (populations (x (k + 1)) - populations (z' k)) (populations (z' k) - populations (z (k + 1)))
    rw [sub_add_sub_cancel] at hadd
    have hdif := runge_difference hs hP ht hcen hp hw hpos hL0 hL hh (populations (x k)) (populations (z k))
    rw [← runge_step hint (hx k), ← runge_step hint (hz k)] at hdif
    have hδ0 : 0 ≤ δ := (size_nonneg _).trans (hδ k)
    set q := L * h * excess (L * h) with hqdef
    have h1 : 1 + q ≤ Real.exp q := by linarith [Real.add_one_le_exp q]
    have hexp : Real.exp (L * ((k + 1 : ℕ) * h) * excess (L * h)) = Real.exp q * Real.exp (L * (k * h) * excess (L * h)) := by
      rw [← Real.exp_add]
      congr 1
      rw [hqdef]
      push_cast
      ring
    have hbig : 1 ≤ Real.exp (L * ((k + 1 : ℕ) * h) * excess (L * h)) := by
      rw [hexp, ← one_mul (1 : ℝ)]
      refine mul_le_mul (Real.one_le_exp hq) (Real.one_le_exp ?_) zero_le_one (Real.exp_nonneg _)
      have : L * (k * h) * excess (L * h) = k * q := by rw [hqdef]; ring
      rw [this]
      positivity
    calc size s w (populations (x (k + 1)) - populations (z (k + 1)))
        ≤ (1 + q) * size s w (populations (x k) - populations (z k)) + δ := by linarith [hδ k]
      _ ≤ Real.exp q * (Real.exp (L * (k * h) * excess (L * h)) * (size s w (populations (x 0) - populations (z 0)) + k * δ)) +
          Real.exp (L * ((k + 1 : ℕ) * h) * excess (L * h)) * δ :=
        add_le_add (mul_le_mul h1 ih (size_nonneg _) (Real.exp_nonneg _)) (le_mul_of_one_le_left hδ0 hbig)
      _ = _ := by
        rw [hexp]
        push_cast
        ring

end SedgSolver

/-! ## A box with walls and a channel -/

namespace SlSolver.Sample

/-- The sample with walls that move with velocity (1/10, 0) -/
noncomputable def moving : Setup .D2Q9 ℚ 0 4 9 (Fin 2 × Fin 2) :=
  { solver 1 (walls 1) (1 / 4) none with applyHit := wallHit (t := .D2Q9) 1 (fun _ _ => ![1 / 10, 0]) (fun _ => ⟨0, id⟩) (fun _ => 0) }

/-- It has been set up as the sample with walls at rest -/
theorem sound_moving : Sound moving where
  assembled := sound_walls.assembled
  everywhere := sound_walls.everywhere
  inside := sound_walls.inside
  unity := sound_walls.unity
  embedding := sound_walls.embedding
  dimension := sound_walls.dimension
  number := sound_walls.number
  directions := sound_walls.directions
  step := sound_walls.step
  opposite := sound_walls.opposite
  kinds := sound_walls.kinds
  scaling := sound_walls.scaling

/-- Its walls do not amplify differences -/
theorem keepClose_moving : WallsKeepClose moving := C146_velocityWalls (fun _ _ => ![1 / 10, 0]) (fun _ => ⟨0, id⟩) (fun _ => 0) rfl

/-- Two states that differ by a thousandth, one of them with errors of a millionth in each step -/
example (x z : ℕ → Fin 9 → Node ℝ 2 9) (hx : ∀ k, x (k + 1) = advect moving 0 (x k))
    (hz : ∀ k i y, (z (k + 1) y).f i = (advect moving 0 (z k) y).f i + (-1) ^ k / 10 ^ 6)
    (h0 : ∀ i y, |(x 0 y).f i - (z 0 y).f i| ≤ 1 / 1000) (k : ℕ) (i y : Fin 9) : |(x k y).f i - (z k y).f i| ≤ 1 / 1000 + k * (1 / 10 ^ 6) :=
  C146_semiLagrangian (s := moving) sound_moving (noSmallWeights 1 (walls 1) (1 / 4) none (by decide +kernel)) keepClose_moving
    (linear_nonnegative _ _) (time := fun _ => 0) hx (fun k i y => by
      refine (congrArg abs (sub_eq_of_eq_add' (hz k i y))).trans_le ?_
      rw [abs_div, abs_pow]
      simp) h0 k i y

end SlSolver.Sample

namespace SedgSolver.Sample

/-- Runs in the channel from any state, one of them with a disturbance `r k` of size at most `δ` after each step -/
example (u : Fin 2 → ℝ) {h δ : ℝ} (hh : 0 ≤ h) (x0 : Fin 2 × Fin 4 → Node ℝ StencilType.D2Q9.D StencilType.D2Q9.Q)
    (r : ℕ → Block .D2Q9 4 (Fin 2)) (hr : ∀ k, size (explicit u) (fun _ => 1) (r k) ≤ δ) :
    ∃ (L : ℝ) (x z : ℕ → Fin 2 × Fin 4 → Node ℝ StencilType.D2Q9.D StencilType.D2Q9.Q), x 0 = x0 ∧ z 0 = x0 ∧
      (∀ k, ∃ z' e, integrate (explicit u) h (z k) = .ok (z', e) ∧ populations z' - populations (z (k + 1)) = r k) ∧
      ∀ k : ℕ, size (explicit u) (fun _ => 1) (populations (x k) - populations (z k)) ≤ Real.exp (L * (k * h) * excess (L * h)) * (k * δ) := by
  choose st hst using fun x => explicit_steps u h x
  let x : ℕ → Fin 2 × Fin 4 → Node ℝ StencilType.D2Q9.D StencilType.D2Q9.Q := fun k => Nat.rec x0 (fun _ y => (st y).1) k
  let z : ℕ → Fin 2 × Fin 4 → Node ℝ StencilType.D2Q9.D StencilType.D2Q9.Q :=
    fun k => Nat.rec x0 (fun k y => setPopulations (st y).1 (populations (st y).1 - r k)) k
  have hz : ∀ k, populations (st (z k)).1 - populations (z (k + 1)) = r k := fun k => by
    rw [show populations (z (k + 1)) = populations (st (z k)).1 - r k from rfl, sub_sub_cancel]
  obtain ⟨L, hL0, hL⟩ := C144_rate (explicit u) (explicit_positive u) (w := fun _ => 1) fun _ => one_pos
  refine ⟨L, x, z, rfl, rfl, fun k => ⟨(st (z k)).1, (st (z k)).2, hst (z k), hz k⟩, fun k => ?_⟩
  have := C146_explicit (explicit_sound u) (byParts true) rfl rfl (explicit_positive u) (w := fun _ => 1) ⟨fun _ => zero_le_one, fun _ => rfl⟩
    (fun _ => one_pos) hL0 hL rfl hh (x := x) (z := z) (z' := fun k => (st (z k)).1) (d := fun k => (st (x k)).2) (e := fun k => (st (z k)).2) (δ := δ)
    (fun k => hst (x k)) (fun k => hst (z k)) (fun k => by rw [hz k]; exact hr k) k
  rwa [show populations (x 0) - populations (z 0) = 0 from sub_self _, size_zero, zero_add] at this

end SedgSolver.Sample
end NATriuM
