import Mathlib.Data.Rat.BigOperators
import Mathlib.Algebra.BigOperators.Fin
import Mathlib.Tactic.FinCases
import Mathlib.Tactic.Ring
import Mathlib.Tactic.FieldSimp
import Verif.Model.Stabilizer
import Verif.Spec.Collision

/-!
# Property C22: the pseudo-entropic stabilizer
-/

namespace NATriuM

open Finset NATriuM.Spec

namespace Stabilizer

/-! ## Helpers -/

section helpers

variable {Q : ℕ} {M : Fin Q → Fin Q → ℚ}

/-- The matrix keeps the linear functional with coefficients `w`. -/
def Keeps (M : Fin Q → Fin Q → ℚ) (w : Fin Q → ℚ) : Prop := ∀ j, ∑ i, w i * M i j = w j

theorem Keeps.sum {w : Fin Q → ℚ} (h : Keeps M w) (f : Fin Q → ℝ) : ∑ i, multiply M f i * (w i : ℝ) = ∑ i, f i * (w i : ℝ) := by
  unfold multiply
  simp only [Finset.sum_mul]
  rw [Finset.sum_comm]
  refine Finset.sum_congr rfl fun j _ => ?_
  have := congrArg (Rat.cast : ℚ → ℝ) (h j)
  push_cast at this
  rw [← this, Finset.mul_sum]
  exact Finset.sum_congr rfl fun i _ => by ring

/-- The matrix is a projection. -/
def Idem (M : Fin Q → Fin Q → ℚ) : Prop := ∀ i j, ∑ k, M i k * M k j = M i j

theorem Idem.multiply (h : Idem M) (f : Fin Q → ℝ) : multiply M (multiply M f) = multiply M f := by
  funext i
  unfold Stabilizer.multiply
  simp only [Finset.mul_sum]
  rw [Finset.sum_comm]
  refine Finset.sum_congr rfl fun j _ => ?_
  have := congrArg (Rat.cast : ℚ → ℝ) (h i j)
  push_cast at this
  rw [← this, Finset.sum_mul]
  exact Finset.sum_congr rfl fun k _ => by ring

/-- After the loop every owned node holds the product of the matrix and its original populations (a node listed twice is no exception,
because the matrix is a projection). -/
theorem fold_eq {ι : Type*} [DecidableEq ι] (h : Idem M) (owned : List ι) (f : ι → Fin Q → ℝ) (i : ι) :
    owned.foldl (fun f i => Function.update f i (multiply M (f i))) f i = if i ∈ owned then multiply M (f i) else f i := by
  induction owned generalizing f with
  | nil => simp
  | cons x xs ih =>
    rw [List.foldl_cons, ih]
    by_cases hx : i = x
    · subst hx
      simp [h.multiply]
    · simp [hx]

theorem d2q9_idem : Idem fun i j => n i j / d i j := by unfold Idem; decide +kernel
theorem withE_idem : Idem withE := by unfold Idem; decide +kernel
theorem d3q19_idem : Idem d3q19 := by unfold Idem; decide +kernel

theorem D2Q9_dir (c : ℝ) (i : Fin 9) (a : Fin 2) : (StencilType.D2Q9.stencil c).dir i a = c * ((D2Q9.dir (1 : ℚ) i a : ℚ) : ℝ) := by
  change D2Q9.dir c i a = _
  fin_cases i <;> fin_cases a <;> first
    | (show (0 : ℝ) = c * ((0 : ℚ) : ℝ); simp)
    | (show c = c * ((1 : ℚ) : ℝ); simp)
    | (show -c = c * ((-1 : ℚ) : ℝ); simp)

theorem D3Q19_dir (c : ℝ) (i : Fin 19) (a : Fin 3) : (StencilType.D3Q19.stencil c).dir i a = c * ((D3Q19.dir (1 : ℚ) i a : ℚ) : ℝ) := by
  change D3Q19.dir c i a = _
  fin_cases i <;> fin_cases a <;> first
    | (show (0 : ℝ) = c * ((0 : ℚ) : ℝ); simp)
    | (show c = c * ((1 : ℚ) : ℝ); simp)
    | (show -c = c * ((-1 : ℚ) : ℝ); simp)

theorem d2q9_keeps : Keeps (fun i j => n i j / d i j) (fun _ => 1) ∧ (∀ a, Keeps (fun i j => n i j / d i j) fun i => D2Q9.dir 1 i a) ∧
    ∀ a b, Keeps (fun i j => n i j / d i j) fun i => D2Q9.dir 1 i a * D2Q9.dir 1 i b := by unfold Keeps; decide +kernel
theorem withE_keeps : Keeps withE (fun _ => 1) ∧ (∀ a, Keeps withE fun i => D2Q9.dir 1 i a) ∧
    Keeps withE (fun i => D2Q9.dir 1 i 0 * D2Q9.dir 1 i 1) ∧
    Keeps withE (fun i => D2Q9.dir 1 i 0 * D2Q9.dir 1 i 0 - D2Q9.dir 1 i 1 * D2Q9.dir 1 i 1) ∧
    ∀ j, ∑ i, (D2Q9.dir (1 : ℚ) i 0 * D2Q9.dir 1 i 0 + D2Q9.dir 1 i 1 * D2Q9.dir 1 i 1) * withE i j = 2 / 3 := by unfold Keeps; decide +kernel
theorem d3q19_keeps : Keeps d3q19 (fun _ => 1) ∧ (∀ a, Keeps d3q19 fun i => D3Q19.dir 1 i a) ∧
    ∀ a b, Keeps d3q19 fun i => D3Q19.dir 1 i a * D3Q19.dir 1 i b := by unfold Keeps; decide +kernel

theorem Keeps.mass (h : Keeps M fun _ => 1) (f : Fin Q → ℝ) : Spec.mass (Stabilizer.multiply M f) = Spec.mass f := by
  have := h.sum f
  unfold Spec.mass
  simpa only [Rat.cast_one, mul_one] using this

theorem Keeps.momentum {D : ℕ} {e : Fin Q → Fin D → ℝ} {w : Fin Q → Fin D → ℚ} {c : ℝ} (he : ∀ i a, e i a = c * (w i a : ℝ)) {a : Fin D}
    (h : Keeps M fun i => w i a) (f : Fin Q → ℝ) : Spec.momentum e (Stabilizer.multiply M f) a = Spec.momentum e f a := by
  have := congrArg (c * ·) (h.sum f)
  simp only [Finset.mul_sum] at this
  unfold Spec.momentum
  simp only [he]
  convert this using 2 <;> ring

theorem Keeps.flux {D : ℕ} {e : Fin Q → Fin D → ℝ} {w : Fin Q → Fin D → ℚ} {c : ℝ} (he : ∀ i a, e i a = c * (w i a : ℝ)) {a b : Fin D}
    (h : Keeps M fun i => w i a * w i b) (f : Fin Q → ℝ) :
    Spec.momentumFlux e (Stabilizer.multiply M f) a b = Spec.momentumFlux e f a b := by
  have := congrArg (c * c * ·) (h.sum f)
  simp only [Finset.mul_sum] at this
  unfold Spec.momentumFlux
  simp only [he]
  convert this using 2 <;> (push_cast; ring)

/-- Case distinction over the stencils: what the matrix does to the moments. -/
theorem apply_node {ι : Type*} [DecidableEq ι] (t : StencilType) (e : Bool) (owned : List ι) (f : ι → Fin t.Q → ℝ) (i : ι) :
    apply t e owned f i = f i ∨ ∃ M, matrix t e = some M ∧ apply t e owned f i = multiply M (f i) := by
  unfold apply
  cases hm : matrix t e with
  | none => exact .inl rfl
  | some M =>
    have hi : Idem M := by
      cases t <;> cases e <;> simp only [matrix] at hm <;> first
        | (cases hm; done)
        | (rw [← Option.some.inj hm]; first | exact d2q9_idem | exact withE_idem | exact d3q19_idem)
    simp only
    rw [fold_eq hi]
    split
    · exact .inr ⟨M, rfl, rfl⟩
    · exact .inl rfl

end helpers

/-! ## Property -/

section C22

variable {ι : Type*} [DecidableEq ι] (t : StencilType) (e : Bool) (owned : List ι) (f : ι → Fin t.Q → ℝ)

/-- **C22** (mass and momentum) Applying the stabilizer leaves density and momentum of every node unchanged, for every stencil, scaling, mode,
set of owned nodes and populations. -/
theorem C22_mass_momentum (c : ℝ) (i : ι) :
    mass (apply t e owned f i) = mass (f i) ∧
      ∀ a, momentum (t.stencil c).dir (apply t e owned f i) a = momentum (t.stencil c).dir (f i) a := by
  rcases apply_node t e owned f i with h | ⟨M, hM, h⟩
  · rw [h]; exact ⟨rfl, fun _ => rfl⟩
  rw [h]
  cases t <;> cases e <;> simp only [matrix] at hM <;> first
    | (cases hM; done)
    | (rw [← Option.some.inj hM]; exact ⟨d2q9_keeps.1.mass _, fun a => (d2q9_keeps.2.1 a).momentum (D2Q9_dir c) _⟩)
    | (rw [← Option.some.inj hM]; exact ⟨withE_keeps.1.mass _, fun a => (withE_keeps.2.1 a).momentum (D2Q9_dir c) _⟩)
    | (rw [← Option.some.inj hM]; exact ⟨d3q19_keeps.1.mass _, fun a => (d3q19_keeps.2.1 a).momentum (D3Q19_dir c) _⟩)

/-- **C22** (stress) Without the option "with e" the whole momentum flux is unchanged.  Missing for the full property: "with e", see
`C22_withE`. -/
theorem C22_stress_partial (c : ℝ) (i : ι) (a b : Fin t.D) :
    momentumFlux (t.stencil c).dir (apply t false owned f i) a b = momentumFlux (t.stencil c).dir (f i) a b := by
  rcases apply_node t false owned f i with h | ⟨M, hM, h⟩
  · rw [h]
  rw [h]
  cases t <;> simp only [matrix] at hM <;> first
    | (cases hM; done)
    | (rw [← Option.some.inj hM]; exact (d2q9_keeps.2.2 a b).flux (D2Q9_dir c) _)
    | (rw [← Option.some.inj hM]; exact (d3q19_keeps.2.2 a b).flux (D3Q19_dir c) _)

/-- **C22** (idempotence) Applying the stabilizer twice equals applying it once. -/
theorem C22_idempotent : apply t e owned (apply t e owned f) = apply t e owned f := by
  funext i
  cases hm : matrix t e with
  | none => simp only [apply, hm]
  | some M =>
    have hi : Idem M := by
      cases t <;> cases e <;> simp only [matrix] at hm <;> first
        | (cases hm; done)
        | (rw [← Option.some.inj hm]; first | exact d2q9_idem | exact withE_idem | exact d3q19_idem)
    simp only [apply, hm]
    rw [fold_eq hi, fold_eq hi]
    split
    · rw [hi.multiply]
    · rfl

/-- Only owned nodes are changed; no node depends on another. -/
theorem C22_local (g : ι → Fin t.Q → ℝ) (i : ι) (h : f i = g i) : apply t e owned f i = apply t e owned g i := by
  cases hm : matrix t e with
  | none => simpa only [apply, hm] using h
  | some M =>
    have hi : Idem M := by
      cases t <;> cases e <;> simp only [matrix] at hm <;> first
        | (cases hm; done)
        | (rw [← Option.some.inj hm]; first | exact d2q9_idem | exact withE_idem | exact d3q19_idem)
    simp only [apply, hm]
    rw [fold_eq hi, fold_eq hi, h]

end C22

/-- **C22** (D2Q9 "with e") The shear stresses `σxy` and `σxx - σyy` are unchanged, the trace is set to its equilibrium value at rest `2 ρ cs²`. -/
theorem C22_withE {ι : Type*} [DecidableEq ι] (owned : List ι) (f : ι → Fin 9 → ℝ) (c : ℝ) {i : ι} (hi : i ∈ owned) :
    let e := (D2Q9.stencil c).dir
    let f' := apply .D2Q9 true owned f i
    momentumFlux e f' 0 1 = momentumFlux e (f i) 0 1 ∧
    momentumFlux e f' 0 0 - momentumFlux e f' 1 1 = momentumFlux e (f i) 0 0 - momentumFlux e (f i) 1 1 ∧
    momentumFlux e f' 0 0 + momentumFlux e f' 1 1 = 2 * mass (f i) * (D2Q9.stencil c).cs2 := by
  intro e f'
  have hf' : f' = multiply withE (f i) := by
    have := fold_eq withE_idem owned f i
    rw [if_pos hi] at this
    exact this
  rw [hf']
  have he : ∀ i a, e i a = c * ((D2Q9.dir (1 : ℚ) i a : ℚ) : ℝ) := D2Q9_dir c
  refine ⟨withE_keeps.2.2.1.flux he _, ?_, ?_⟩
  · have := congrArg (c * c * ·) (withE_keeps.2.2.2.1.sum (f i))
    simp only [Finset.mul_sum] at this
    unfold momentumFlux
    rw [← Finset.sum_sub_distrib, ← Finset.sum_sub_distrib]
    simp only [he]
    convert this using 2 <;> (push_cast; ring)
  · unfold momentumFlux mass
    rw [← Finset.sum_add_distrib]
    have h : ∀ j, ∑ x, (e x 0 * e x 0 + e x 1 * e x 1) * (withE x j : ℝ) = 2 / 3 * (c * c) := fun j => by
      have := congrArg (Rat.cast : ℚ → ℝ) (withE_keeps.2.2.2.2 j)
      push_cast at this
      rw [← this, Finset.sum_mul]
      simp only [he]
      exact Finset.sum_congr rfl fun x _ => by ring
    calc ∑ x, (multiply withE (f i) x * (e x 0 * e x 0) + multiply withE (f i) x * (e x 1 * e x 1))
        = ∑ j, (∑ x, (e x 0 * e x 0 + e x 1 * e x 1) * (withE x j : ℝ)) * f i j := by
          simp only [← mul_add]
          unfold multiply
          simp only [Finset.sum_mul]
          rw [Finset.sum_comm]
          exact Finset.sum_congr rfl fun j _ => Finset.sum_congr rfl fun x _ => by ring
      _ = _ := by
          simp only [h, ← Finset.mul_sum]
          have : (D2Q9.stencil c).cs2 = c * c / 3 := rfl
          rw [this]; ring

/-- **C22 fails** for "with e" as far as the full stress is concerned. -/
theorem C22_withE_stress_changed :
    ∃ f : Unit → Fin 9 → ℝ, momentumFlux (D2Q9.stencil 1).dir (apply .D2Q9 true [()] f ()) 0 0
      ≠ momentumFlux (D2Q9.stencil 1).dir (f ()) 0 0 := by
  refine ⟨fun _ i => if i = 0 then 1 else 0, fun h => ?_⟩
  obtain ⟨-, h2, h3⟩ := C22_withE [()] (fun _ i => if i = 0 then 1 else 0) 1 (i := ()) (by simp)
  have z : ∀ a, momentumFlux (D2Q9.stencil (1 : ℝ)).dir (fun i : Fin 9 => if i = 0 then 1 else 0) a a = 0 := fun a => by
    unfold momentumFlux
    refine Finset.sum_eq_zero fun i _ => ?_
    simp only
    split
    · subst_vars; fin_cases a <;> simp [D2Q9.stencil, D2Q9.dir]
    · simp
  have m : mass (fun i : Fin 9 => if i = 0 then (1 : ℝ) else 0) = 1 := by simp [mass]
  have cs : (D2Q9.stencil (1 : ℝ)).cs2 = 1 / 3 := by simp [D2Q9.stencil]
  simp only at h h2 h3
  rw [z] at h h2
  rw [z] at h2
  rw [m, cs] at h3
  rw [h] at h2 h3
  norm_num at h2 h3
  linarith

-- a distribution that is really changed by the stabilizer
example : multiply (fun i j => n i j / d i j) (fun i => if i = 0 then 1 else 0) 0 = 8 / 9 := by
  simp [multiply, n, d]

end Stabilizer

end NATriuM
