import Verif.Lemmas.Walls
import Verif.Props.Stencils
import Mathlib.Data.Fin.VecNotation
import Mathlib.Tactic.FinCases

/-!
# Properties C46, C49, C64, C74: walls, equilibrium inflow, Grad's distribution

`S.dir`, `S.cs2`, `S.weight`, `S.opp` are what the stencil object reports.
-/

namespace NATriuM.Walls

open Finset NATriuM.Spec

section C46

variable {K : Type*} [Field K] {D Q : ℕ} {ι : Type*} [DecidableEq ι] (S : Stencil K D Q)

/-! ## C46 -/

/-- **C46** (partial: the wall moves uniformly, see `C46_position_fails`) The population arriving at the degree of freedom `x` in
direction `i` gains `2 w ρ (e·u) / cs²` with `ρ = 1`; every other population is unchanged. -/
theorem C46_gain_partial (velocity : K → (Fin D → K) → Fin D → K) (u : Fin D → K) (h : HitPoint K D) (i : Fin Q) (x : ι) (eps t : K)
    (hu : ∀ p, velocity (t - eps) p = u) (f : Store K Q ι) :
    velocityWall S velocity h i x eps t f i x = f i x + 2 * S.weight i * dot (S.dir i) u / S.cs2 ∧
      ∀ j y, ¬ (j = i ∧ y = x) → velocityWall S velocity h i x eps t f j y = f j y := by
  refine ⟨?_, fun j y hj => ?_⟩
  · simp only [velocityWall, Store.set, and_self, if_true, toAdd, evaluatedVelocity, hu, dot]
    rw [mul_one]
    congr 3
    exact Finset.sum_congr rfl fun a _ => mul_comm _ _
  · simp only [velocityWall, Store.set]
    rw [if_neg hj]

example : velocityWall (D2Q9.stencil (1 : ℚ)) (fun _ _ => ![1 / 10, 0]) ⟨![0, 0], id⟩ 5 (0 : ℕ) 0 0 (fun _ _ => 1) 5 0 = 1 + 1 / 60 := by
  rw [(C46_gain_partial _ _ ![1 / 10, 0] _ _ _ _ _ (fun _ => rfl) _).1]
  simp [D2Q9.stencil, D2Q9.weight, D2Q9.dir, dot, Fin.sum_univ_two]
  norm_num

/-- **C46** A wall at rest changes nothing, wherever its velocity is evaluated. -/
theorem C46_rest (velocity : K → (Fin D → K) → Fin D → K) (h : HitPoint K D) (i : Fin Q) (x : ι) (eps t : K)
    (hu : ∀ s p, velocity s p = 0) (f : Store K Q ι) : velocityWall S velocity h i x eps t f = f := by
  funext j y
  simp only [velocityWall, Store.set, toAdd, evaluatedVelocity, hu, Pi.zero_apply, zero_mul, Finset.sum_const_zero, mul_zero, zero_div,
    add_zero]
  split
  · next h => rw [h.1, h.2]
  · rfl

/-- **C46** The gains of opposite directions cancel, so walls on opposite sides of a channel that move together add no mass. -/
theorem C46_cancel (ho : OppositeTable S.weight S.dir S.opp) (velocity velocity' : K → (Fin D → K) → Fin D → K) (u : Fin D → K)
    (h h' : HitPoint K D) (i : Fin Q) (x y : ι) (eps eps' t : K) (hu : ∀ s p, velocity s p = u) (hu' : ∀ s p, velocity' s p = u)
    (f : Store K Q ι) :
    (velocityWall S velocity h i x eps t f i x - f i x)
      + (velocityWall S velocity' h' (S.opp i) y eps' t f (S.opp i) y - f (S.opp i) y) = 0 := by
  rw [(C46_gain_partial S velocity u h i x eps t (hu _) f).1, (C46_gain_partial S velocity' u h' (S.opp i) y eps' t (hu' _) f).1,
    ho.same_weight]
  have : dot (S.dir (S.opp i)) u = -dot (S.dir i) u := by
    simp only [dot, ho.reverses, neg_mul, Finset.sum_neg_distrib]
  rw [this]; ring

example : OppositeTable (D2Q9.stencil (2 : ℝ)).weight (D2Q9.stencil (2 : ℝ)).dir (D2Q9.stencil (2 : ℝ)).opp :=
  C01_opposite .D2Q9 2

/-- **C46** If all directions are reflected at a degree of freedom, the gains add no mass and the momentum `2 ρ u`. -/
theorem C46_moments (hi : Iso2 S.weight S.dir S.cs2) (hc : S.cs2 ≠ 0) (velocity : K → (Fin D → K) → Fin D → K)
    (u : Fin D → K) (h : HitPoint K D) (x : ι) (eps t : K) (hu : ∀ s p, velocity s p = u) (f : Store K Q ι) :
    let f' : Fin Q → K := fun i => velocityWall S velocity h i x eps t f i x
    mass f' = mass (fun i => f i x) ∧ ∀ a, momentum S.dir f' a = momentum S.dir (fun i => f i x) a + 2 * u a := by
  have e1 : ∀ i, velocityWall S velocity h i x eps t f i x = f i x + 2 / S.cs2 * (S.weight i * ∑ b, u b * S.dir i b) := fun i => by
    rw [(C46_gain_partial S velocity u h i x eps t (hu _) f).1, dot]
    rw [show ∑ a, S.dir i a * u a = ∑ a, u a * S.dir i a from Finset.sum_congr rfl fun a _ => mul_comm _ _]; ring
  have e2 : ∑ i, S.weight i * ∑ b, u b * S.dir i b = 0 := by
    have : ∀ i, S.weight i * ∑ b, u b * S.dir i b = ∑ b, u b * (S.weight i * S.dir i b) := fun i => by
      rw [Finset.mul_sum]; exact Finset.sum_congr rfl fun b _ => by ring
    simp only [this]
    rw [Finset.sum_comm]
    simp only [← Finset.mul_sum, hi.m1, mul_zero, Finset.sum_const_zero]
  have e3 : ∀ a, ∑ i, S.weight i * (∑ b, u b * S.dir i b) * S.dir i a = S.cs2 * u a := fun a => by
    have : ∀ i, S.weight i * (∑ b, u b * S.dir i b) * S.dir i a = ∑ b, u b * (S.weight i * (S.dir i b * S.dir i a)) := fun i => by
      rw [Finset.mul_sum, Finset.sum_mul]; exact Finset.sum_congr rfl fun b _ => by ring
    simp only [this]
    rw [Finset.sum_comm]
    simp only [← Finset.mul_sum, hi.m2]
    have : ∀ b, u b * (S.cs2 * δ b a) = S.cs2 * (u b * δ b a) := fun b => by ring
    simp only [this, ← Finset.mul_sum, sum_δ]
  refine ⟨?_, fun a => ?_⟩
  · simp only [mass, e1, Finset.sum_add_distrib, ← Finset.mul_sum, e2, mul_zero, add_zero]
  · simp only [momentum, e1, add_mul, Finset.sum_add_distrib]
    congr 1
    have : ∀ i, 2 / S.cs2 * (S.weight i * ∑ b, u b * S.dir i b) * S.dir i a
      = 2 / S.cs2 * (S.weight i * (∑ b, u b * S.dir i b) * S.dir i a) := fun i => by ring
    simp only [this, ← Finset.mul_sum, e3]
    field_simp

omit [Field K] in
/-- **C46** First-order bounce-back: the population of direction `i` becomes that of the opposite direction, unchanged; no other
population changes.  For a wall at rest this reverses the particles. -/
theorem C46_first_order (i : Fin Q) (x : ι) (f : Store K Q ι) :
    firstOrderBounceBack S i x f i x = f (S.opp i) x ∧ ∀ j y, ¬ (j = i ∧ y = x) → firstOrderBounceBack S i x f j y = f j y := by
  refine ⟨by simp [firstOrderBounceBack, Store.set], fun j y hj => ?_⟩
  simp only [firstOrderBounceBack, Store.set]
  rw [if_neg hj]

/-- **C46**, finding: the wall velocity is evaluated at the coordinates of the hit point *in the unit cell*.  For every cell that is
not its own unit cell at the hit point there is a wall velocity field for which the wall at the hit point is at rest and the
population still changes. -/
theorem C46_position_fails (hc : S.cs2 ≠ 0) (h2 : (2 : K) ≠ 0) (h : HitPoint K D) (hp : h.toUnit h.hitPoint ≠ h.hitPoint) (i : Fin Q)
    (hw : S.weight i ≠ 0) (a : Fin D) (ha : S.dir i a ≠ 0) (x : ι) (eps t : K) (f : Store K Q ι) :
    ∃ velocity : K → (Fin D → K) → Fin D → K, (∀ s, velocity s h.hitPoint = 0) ∧ velocityWall S velocity h i x eps t f i x ≠ f i x := by
  classical
  refine ⟨fun _ p => if p = h.hitPoint then 0 else Pi.single a 1, fun s => if_pos rfl, ?_⟩
  have hp' : getPoint h ≠ h.hitPoint := hp
  simp only [velocityWall, Store.set, and_self, if_true, toAdd, evaluatedVelocity, if_neg hp']
  intro hcon
  rw [add_eq_left] at hcon
  have : ∑ b, (Pi.single a 1 : Fin D → K) b * S.dir i b = S.dir i a := by
    rw [Finset.sum_eq_single a]
    · simp
    · intro b _ hb; simp [hb]
    · intro h; exact absurd (Finset.mem_univ a) h
  rw [this, mul_one] at hcon
  exact div_ne_zero (mul_ne_zero (mul_ne_zero h2 hw) ha) hc hcon

/-- a cell `[1,2]²`: its lower left corner is the origin of the unit cell -/
example : ∃ velocity : ℚ → (Fin 2 → ℚ) → Fin 2 → ℚ, (∀ s, velocity s ![1, 1] = 0) ∧
    velocityWall (D2Q9.stencil 1) velocity ⟨![1, 1], fun p a => p a - 1⟩ 1 (0 : ℕ) 0 0 (fun _ _ => 1) 1 0 ≠ 1 := by
  refine C46_position_fails (D2Q9.stencil (1 : ℚ)) ?_ two_ne_zero ⟨![1, 1], fun p a => p a - 1⟩ ?_ 1 ?_ 0 ?_ (0 : ℕ) 0 0 (fun _ _ => 1)
  · norm_num [D2Q9.stencil]
  · intro h
    have := congrFun h 0
    norm_num at this
  · norm_num [D2Q9.stencil, D2Q9.weight]
  · norm_num [D2Q9.stencil, D2Q9.dir]

end C46

section C46dg

variable {K : Type*} [Field K] [LinearOrder K] [IsStrictOrderedRing K] {D Q : ℕ} (S : Stencil K D Q)

/-- **C46** (discontinuous Galerkin, upwind flux) A direction pointing into the domain is driven towards the reflected population
plus `2 w ρ (e·u)/cs²`, with the rate `(n·e)·JxW/M`; a direction pointing to the wall is left alone. -/
theorem C46_dg_upwind (jxw minv : K) (n u : Fin D → K) (f : Fin Q → K) (i : Fin Q) :
    faceRate S false jxw minv n u f i
      = if dot n (S.dir i) < 0 then
          minv * jxw * dot n (S.dir i) * (f i - (f (S.opp i) + 2 * S.weight i * dot u (S.dir i) / S.cs2))
        else 0 := by
  unfold faceRate faceEntries dot
  simp only [Bool.false_eq_true, if_false]
  split
  · ring
  · ring

/-- **C46** (discontinuous Galerkin, upwind flux) Together with the outflow `n·e f` of the advection term, the wall lets pass the
mass flux `ρ n·u` of the wall motion and nothing else: none at all if the wall moves tangentially or is at rest. -/
theorem C46_dg_mass (ho : OppositeTable S.weight S.dir S.opp) (hi : Iso2 S.weight S.dir S.cs2) (hc : S.cs2 ≠ 0) (jxw : K)
    (n u : Fin D → K) (f : Fin Q → K) :
    ∑ i, (faceRate S false jxw 1 n u f i - jxw * dot n (S.dir i) * f i) = -(jxw * dot n u) := by
  have e1 : ∀ i, faceRate S false jxw 1 n u f i - jxw * dot n (S.dir i) * f i
      = (if dot n (S.dir i) < 0 then -(jxw * dot n (S.dir i) * f (S.opp i)) else 0)
        + (if dot n (S.dir i) < 0 then -(2 * jxw / S.cs2) * (S.weight i * (dot n (S.dir i) * dot u (S.dir i))) else 0)
        - (if dot n (S.dir i) < 0 then 0 else jxw * dot n (S.dir i) * f i) := fun i => by
    rw [C46_dg_upwind]
    split <;> ring
  have e2 : ∑ i, (if dot n (S.dir i) < 0 then -(jxw * dot n (S.dir i) * f (S.opp i)) else 0)
      = ∑ i, (if dot n (S.dir i) < 0 then 0 else jxw * dot n (S.dir i) * f i) := by
    rw [← sum_opp ho]
    refine Finset.sum_congr rfl fun i _ => ?_
    have : dot n (S.dir (S.opp i)) = -dot n (S.dir i) := dot_opp ho n i
    rw [this, ho.involutive]
    rcases lt_trichotomy (dot n (S.dir i)) 0 with hl | he | hg
    · rw [if_neg (by simpa using hl.le), if_pos hl]
    · rw [he]; simp
    · rw [if_pos (by simpa using hg), if_neg (not_lt.mpr hg.le)]; ring
  have e3 : 2 * ∑ i, (if dot n (S.dir i) < 0 then S.weight i * (dot n (S.dir i) * dot u (S.dir i)) else 0) = S.cs2 * dot n u := by
    rw [sum_half ho (fun i => dot n (S.dir i)) (fun i => S.weight i * (dot n (S.dir i) * dot u (S.dir i)))]
    · exact sum_dot_dot hi n u
    · exact fun i => dot_opp ho n i
    · intro i
      rw [ho.same_weight, show dot n (S.dir (S.opp i)) = -dot n (S.dir i) from dot_opp ho n i,
        show dot u (S.dir (S.opp i)) = -dot u (S.dir i) from dot_opp ho u i]; ring
    · intro i h; rw [h]; ring
  simp only [e1, Finset.sum_sub_distrib, Finset.sum_add_distrib, e2]
  have e4 : ∑ i, (if dot n (S.dir i) < 0 then -(2 * jxw / S.cs2) * (S.weight i * (dot n (S.dir i) * dot u (S.dir i))) else 0)
      = -(jxw / S.cs2) * (2 * ∑ i, (if dot n (S.dir i) < 0 then S.weight i * (dot n (S.dir i) * dot u (S.dir i)) else 0)) := by
    rw [← mul_assoc, Finset.mul_sum]
    exact Finset.sum_congr rfl fun i _ => by split <;> ring
  rw [e4, e3]
  have : jxw / S.cs2 * (S.cs2 * dot n u) = jxw * dot n u := by field_simp
  linear_combination -this

example : ∑ i, (faceRate (D2Q9.stencil (2 : ℝ)) false 3 1 ![0, 1] ![1 / 10, 0] (fun i => i) i
    - 3 * dot ![0, 1] ((D2Q9.stencil (2 : ℝ)).dir i) * i) = 0 := by
  have := C46_dg_mass (D2Q9.stencil (2 : ℝ)) (C01_opposite .D2Q9 2) (C03_isotropy .D2Q9 rfl 2).toIso2
    (by norm_num [D2Q9.stencil]) 3 ![0, 1] ![1 / 10, 0] (fun i => i)
  rw [this]
  simp [dot, Fin.sum_univ_two]

/-- **C46**, finding: with the central flux the coupling to the opposite direction has the wrong sign.  A fluid at rest next to a
wall at rest does not stay at rest: every direction not parallel to the wall changes. -/
theorem C46_dg_central_fails (ho : OppositeTable S.weight S.dir S.opp) (jxw minv : K) (hj : jxw ≠ 0) (hm : minv ≠ 0) (n : Fin D → K)
    (i : Fin Q) (hn : dot n (S.dir i) ≠ 0) (hw : S.weight i ≠ 0) : faceRate S true jxw minv n 0 S.weight i ≠ 0 := by
  have : faceRate S true jxw minv n 0 S.weight i = minv * jxw * dot n (S.dir i) * S.weight i := by
    unfold faceRate faceEntries dot
    simp only [if_true, ho.same_weight, Pi.zero_apply, zero_mul, Finset.sum_const_zero, mul_zero, zero_div, add_zero]
    ring
  rw [this]
  exact mul_ne_zero (mul_ne_zero (mul_ne_zero hm hj) hn) hw

example : faceRate (D2Q9.stencil (1 : ℝ)) true 1 1 ![0, 1] 0 (D2Q9.stencil (1 : ℝ)).weight 2 ≠ 0 := by
  refine C46_dg_central_fails (D2Q9.stencil (1 : ℝ)) (C01_opposite .D2Q9 1) 1 1 one_ne_zero one_ne_zero _ _ ?_ ?_
  · simp [D2Q9.stencil, D2Q9.dir, dot, Fin.sum_univ_two]
  · change (1 / 9 : ℝ) ≠ 0; norm_num

end C46dg

/-! ## C64 -/

section C64

variable {K : Type*} [Field K] [CharZero K] {D Q : ℕ}

/-- **C64** Grad's distribution has density `ρ`, momentum `j` and the symmetric part of `P` as momentum flux (`P` itself if `P` is
symmetric, as a stress tensor is). -/
theorem C64_grad (S : Stencil K D Q) (h : Iso4 S.weight S.dir S.cs2) (hc : S.cs2 ≠ 0) (rho : K) (j : Fin D → K) (P : Fin D → Fin D → K) :
    let f := gradsFunction S rho j P
    mass f = rho ∧ (∀ a, momentum S.dir f a = j a) ∧ (∀ a b, momentumFlux S.dir f a b = (P a b + P b a) / 2) ∧
      ((∀ a b, P a b = P b a) → ∀ a b, momentumFlux S.dir f a b = P a b) := by
  have hflux : ∀ a b, momentumFlux S.dir (gradsFunction S rho j P) a b = (P a b + P b a) / 2 := by
    intro a b
    set P' : Fin D → Fin D → K := fun a b => P a b - rho * S.cs2 * δ a b with hP'
    have hs : ∀ i, gradsFunction S rho j P i = poly2 S.weight S.dir S.cs2 j rho 1 0 i
        + fi1 (plainData S) (fun a b => (P' a b + P' b a) / 2) i := fun i => by
      unfold gradsFunction poly2 fi1 ue
      rw [← Finset.sum_div]
      have e : ∑ b, ∑ c, (plainData S).weight i / (2 * (plainData S).cs2 * (plainData S).cs2) * regularizedQ (plainData S) i b c
          * ((P' b c + P' c b) / 2) = S.weight i * ((∑ a, ∑ b, (P a b - if a = b then rho * S.cs2 else 0)
            * (S.dir i a * S.dir i b - if a = b then S.cs2 else 0)) * (1 / (2 * S.cs2 * S.cs2))) := by
        have e1 : ∀ b c, (plainData S).weight i / (2 * (plainData S).cs2 * (plainData S).cs2) * regularizedQ (plainData S) i b c
          * ((P' b c + P' c b) / 2) = S.weight i / (2 * S.cs2 * S.cs2) * (1 / 2) * ((P' b c) * (S.dir i b * S.dir i c - S.cs2 * δ b c))
            + S.weight i / (2 * S.cs2 * S.cs2) * (1 / 2) * ((P' c b) * (S.dir i c * S.dir i b - S.cs2 * δ c b)) := fun b c => by
          rw [regularizedQ_eq, δ_comm c b]; simp only [plainData]; ring
        simp only [e1, Finset.sum_add_distrib]
        rw [Finset.sum_comm (f := fun b c => S.weight i / (2 * S.cs2 * S.cs2) * (1 / 2)
          * ((P' c b) * (S.dir i c * S.dir i b - S.cs2 * δ c b)))]
        simp only [← Finset.mul_sum]
        have e2 : ∀ a b, (P a b - if a = b then rho * S.cs2 else 0) * (S.dir i a * S.dir i b - if a = b then S.cs2 else 0)
          = P' a b * (S.dir i a * S.dir i b - S.cs2 * δ a b) := fun a b => by
          rw [hP']; unfold δ; dsimp only; split <;> ring
        simp only [e2]
        ring
      rw [e]; ring
    have e3 : momentumFlux S.dir (gradsFunction S rho j P) a b
        = momentumFlux S.dir (poly2 S.weight S.dir S.cs2 j rho 1 0) a b
          + momentumFlux (plainData S).e (fi1 (plainData S) (fun a b => (P' a b + P' b a) / 2)) a b := by
      unfold momentumFlux
      rw [← Finset.sum_add_distrib]
      exact Finset.sum_congr rfl fun i _ => by rw [hs, add_mul]; rfl
    rw [e3, poly2_flux h hc, fi1_flux (d := plainData S) h hc _ (fun a b => by ring), hP']
    simp only [δ_comm b a]; ring
  have hP : ∀ (g : Fin Q → K), (∀ a b, ∑ i, S.weight i * (S.dir i a * S.dir i b * g i) = S.cs2 * δ a b * ∑ i, S.weight i * g i) →
      ∑ i, gradsFunction S rho j P i * g i = ∑ i, poly2 S.weight S.dir S.cs2 j rho 1 0 i * g i := fun g hg => by
    have hs : ∀ i, gradsFunction S rho j P i * g i = poly2 S.weight S.dir S.cs2 j rho 1 0 i * g i
        + ∑ a, ∑ b, (P a b - if a = b then rho * S.cs2 else 0) * (1 / (2 * S.cs2 * S.cs2))
          * (S.weight i * (S.dir i a * S.dir i b * g i) - S.cs2 * δ a b * (S.weight i * g i)) := fun i => by
      unfold gradsFunction poly2 ue
      rw [← Finset.sum_div]
      have : ∑ a, ∑ b, (P a b - if a = b then rho * S.cs2 else 0) * (1 / (2 * S.cs2 * S.cs2))
          * (S.weight i * (S.dir i a * S.dir i b * g i) - S.cs2 * δ a b * (S.weight i * g i))
          = (S.weight i * g i) * ((∑ a, ∑ b, (P a b - if a = b then rho * S.cs2 else 0)
            * (S.dir i a * S.dir i b - if a = b then S.cs2 else 0)) * (1 / (2 * S.cs2 * S.cs2))) := by
        rw [Finset.sum_mul, Finset.mul_sum]
        refine Finset.sum_congr rfl fun a _ => ?_
        rw [Finset.sum_mul, Finset.mul_sum]
        refine Finset.sum_congr rfl fun b _ => ?_
        unfold δ; split <;> ring
      rw [this]; ring
    simp only [hs]
    rw [Finset.sum_add_distrib, add_eq_left, Finset.sum_comm]
    refine Finset.sum_eq_zero fun a _ => ?_
    rw [Finset.sum_comm]
    refine Finset.sum_eq_zero fun b _ => ?_
    rw [← Finset.mul_sum, Finset.sum_sub_distrib, hg, ← Finset.mul_sum, sub_self, mul_zero]
  refine ⟨?_, fun a => ?_, hflux, fun hs a b => ?_⟩
  · have := hP (fun _ => 1) (fun a b => by simp only [mul_one, h.m2, h.m0])
    simp only [mul_one] at this
    refine Eq.trans this ?_
    have := poly2_mass h.toIso2 hc j rho 1 0
    rw [mass] at this
    rw [this]; ring
  · have := hP (fun i => S.dir i a) (fun b c => by rw [h.m3, h.m1, mul_zero])
    refine Eq.trans this ?_
    have := poly2_momentum h hc j rho 1 0 a
    rw [momentum] at this
    rw [this, one_mul]
  · rw [hflux, hs b a]; ring

example : Iso4 (D3Q19.stencil (2 : ℝ)).weight (D3Q19.stencil 2).dir (D3Q19.stencil 2).cs2 ∧ (D3Q19.stencil (2 : ℝ)).cs2 ≠ 0 :=
  ⟨(C03_isotropy .D3Q19 rfl 2).toIso4, by norm_num [D3Q19.stencil]⟩

end C64

/-! ## C74 -/

section C74

variable {K : Type*} [Field K] [CharZero K] {D Q : ℕ}

/-- **C74** The populations imposed by the equilibrium boundary are those of a fluid of density 1 with the prescribed velocity and
temperature: moments `1`, `u`, `cs² T I + u u`. -/
theorem C74_moments (S : Stencil K D Q) (h : Iso6 S.weight S.dir S.cs2) (hc : S.cs2 ≠ 0) (T : K) (u : Fin D → K) :
    mass (slEquilibrium S T u) = 1 ∧ (∀ a, momentum S.dir (slEquilibrium S T u) a = u a) ∧
      ∀ a b, momentumFlux S.dir (slEquilibrium S T u) a b = S.cs2 * T * δ a b + u a * u b := by
  have h' : Iso6 (plainData S).weight (plainData S).e (plainData S).cs2 := h
  have hc' : (plainData S).cs2 ≠ 0 := hc
  refine ⟨?_, fun a => ?_, fun a b => ?_⟩
  · have h1 := slEquilibrium_moment S T u (fun _ => 1) (E_H3_1 h.toIso4) (E_H4_1 h.toIso4)
    rw [quarticBase_moment, temp_mass h'.toIso2] at h1
    simp only [mul_one, mul_zero, add_zero] at h1
    exact h1.trans ((bgk_conservative h'.toIso4 hc').mass ⟨1, u, T⟩)
  · have h1 := slEquilibrium_moment S T u (fun i => S.dir i a) (E_H3_e h.toIso4 a) (E_H4_e h.toIso5 a)
    have t := temp_momentum h'.toIso4 a
    rw [quarticBase_moment] at h1
    refine h1.trans ?_
    rw [show (∑ a_1, ∑ i, (plainData S).weight i * ((plainData S).e i a_1 * (plainData S).e i a_1 * S.dir i a))
      - (plainData S).cs2 * D * ∑ i, (plainData S).weight i * S.dir i a = 0 from t, mul_zero, add_zero]
    exact ((bgk_conservative h'.toIso4 hc').momentum ⟨1, u, T⟩ a).trans (one_mul _)
  · have h1 := slEquilibrium_moment S T u (fun i => S.dir i a * S.dir i b) (E_H3_ee h.toIso5 a b) (E_H4_ee h a b)
    have t := temp_flux h'.toIso4 a b
    rw [quarticBase_moment] at h1
    refine h1.trans ?_
    rw [show (∑ a_1, ∑ i, (plainData S).weight i * ((plainData S).e i a_1 * (plainData S).e i a_1 * (S.dir i a * S.dir i b)))
      - (plainData S).cs2 * D * ∑ i, (plainData S).weight i * (S.dir i a * S.dir i b) = 2 * (plainData S).cs2 ^ 2 * δ a b from t]
    have := bgk_flux h'.toIso4 hc' ⟨1, u, T⟩ a b
    rw [momentumFlux] at this
    change (∑ i, bgkEquilibrium (plainData S) ⟨1, u, T⟩ i * ((plainData S).e i a * (plainData S).e i b)) + _ = _
    rw [this]
    simp only [plainData]
    field_simp
    ring

/-- C74 on the stencil with exact sixth-order isotropy. -/
example : mass (slEquilibrium (D2Q25H.stencil (2 : ℝ)) (3 / 2) ![1 / 10, 0]) = 1 :=
  (C74_moments (D2Q25H.stencil (2 : ℝ)) (C03_isotropy6_D2Q25H 2) (by norm_num [D2Q25H.stencil]) _ _).1

omit [CharZero K] in
/-- **C74** The value is stored for the direction and degree of freedom of the hit, and nothing else changes. -/
theorem C74_stored {ι : Type*} [DecidableEq ι] (S : Stencil K D Q) (T : K) (velocity : K → (Fin D → K) → Fin D → K) (u : Fin D → K)
    (h : HitPoint K D) (i : Fin Q) (x : ι) (eps t : K) (hu : ∀ p, velocity (t - eps) p = u) (f : Store K Q ι) :
    equilibriumBoundary S T velocity h i x eps t f i x = slEquilibrium S T u i ∧
      ∀ j y, ¬ (j = i ∧ y = x) → equilibriumBoundary S T velocity h i x eps t f j y = f j y := by
  refine ⟨?_, fun j y hj => ?_⟩
  · simp only [equilibriumBoundary, Store.set, and_self, if_true, evaluatedVelocity, hu]
  · simp only [equilibriumBoundary, Store.set]; rw [if_neg hj]

omit [CharZero K] in
/-- What `applyToG` makes of the internal-energy populations if all directions are hit. -/
theorem applyToG_value {ι : Type*} [DecidableEq ι] (gamma : K) (x : ι) (f g : Store K Q ι) (i : Fin Q) :
    applyToG D gamma i x f g i x = f i x * (2 * (1 / (gamma - 1)) - D) := by
  simp [applyToG, Store.set]

/-- Temperature of a node all of whose populations were imposed by the equilibrium boundary. -/
theorem C74_temperature_partial {ι : Type*} [DecidableEq ι] (S : Stencil K D Q) (h : Iso6 S.weight S.dir S.cs2) (hc : S.cs2 ≠ 0) (T : K)
    (u : Fin D → K) (gamma : K) (hg : gamma - 1 ≠ 0) (x : ι) (f g : Store K Q ι) (hf : ∀ i, f i x = slEquilibrium S T u i) :
    temperature S.dir S.cs2 gamma (fun i => f i x) (fun i => applyToG D gamma i x f g i x)
      = 1 + D * (gamma - 1) / 2 * (T - 1) := by
  obtain ⟨h0, h1, h2⟩ := C74_moments S h hc T u
  have hf' : (fun i => f i x) = slEquilibrium S T u := funext hf
  have hg' : (fun i => applyToG D gamma i x f g i x) = fun i => slEquilibrium S T u i * (2 * (1 / (gamma - 1)) - D) := by
    funext i; rw [applyToG_value, hf]
  rw [hf', hg']
  unfold temperature
  rw [totalEnergy_eq, h0]
  simp only [h1, h2, δ_self, Finset.sum_add_distrib, Finset.sum_const, Finset.card_univ, Fintype.card_fin, nsmul_eq_mul]
  have : mass (fun i => slEquilibrium S T u i * (2 * (1 / (gamma - 1)) - D)) = 2 * (1 / (gamma - 1)) - D := by
    unfold mass at h0 ⊢
    rw [← Finset.sum_mul, h0, one_mul]
  rw [this]
  field_simp
  ring

/-- **C74**, finding: the temperature of the inflow is not the prescribed one unless it is 1 (or the gas has no internal degrees of
freedom, `D (γ - 1) = 2`), because `g` is always computed with temperature 1. -/
theorem C74_temperature_fails {ι : Type*} [DecidableEq ι] (S : Stencil K D Q) (h : Iso6 S.weight S.dir S.cs2) (hc : S.cs2 ≠ 0) (T : K)
    (u : Fin D → K) (gamma : K) (hg : gamma - 1 ≠ 0) (x : ι) (f g : Store K Q ι) (hf : ∀ i, f i x = slEquilibrium S T u i) :
    temperature S.dir S.cs2 gamma (fun i => f i x) (fun i => applyToG D gamma i x f g i x) = T ↔ T = 1 ∨ D * (gamma - 1) = 2 := by
  rw [C74_temperature_partial S h hc T u gamma hg x f g hf]
  constructor
  · intro h
    have : (T - 1) * (D * (gamma - 1) - 2) = 0 := by linear_combination 2 * h
    rcases mul_eq_zero.mp this with h | h
    · exact Or.inl (sub_eq_zero.mp h)
    · exact Or.inr (sub_eq_zero.mp h)
  · rintro (rfl | h)
    · ring
    · rw [h]; ring

/-- two-dimensional air (`γ = 1.4`) at temperature 2 comes in with temperature 1.4 -/
example : temperature (D2Q25H.stencil (1 : ℝ)).dir (D2Q25H.stencil 1).cs2 (14 / 10)
    (fun i => slEquilibrium (D2Q25H.stencil (1 : ℝ)) 2 ![1 / 10, 0] i)
    (fun i => applyToG 2 (14 / 10) i () (fun i _ => slEquilibrium (D2Q25H.stencil (1 : ℝ)) 2 ![1 / 10, 0] i) (fun _ _ => 0) i ())
      = 14 / 10 := by
  have := C74_temperature_partial (D2Q25H.stencil (1 : ℝ)) (C03_isotropy6_D2Q25H 1) (by norm_num [D2Q25H.stencil]) 2 ![1 / 10, 0] (14 / 10)
    (by norm_num) () (fun i _ => slEquilibrium (D2Q25H.stencil (1 : ℝ)) 2 ![1 / 10, 0] i) (fun _ _ => 0) (fun _ => rfl)
  rw [this]; norm_num

end C74

end NATriuM.Walls
