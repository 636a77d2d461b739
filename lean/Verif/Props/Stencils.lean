import Verif.Lemmas.MaxVelocity
import Verif.Lemmas.MomentBasis
import Verif.Model.TimeStep

/-!
# C01–C06: properties of the stencils
-/

namespace NATriuM

open Finset NATriuM.Spec

/-! ## C01 -/

/-- **C01.** For every stencil class, every scaling and every direction index the opposite index has the negated velocity, the
same weight, and its opposite is the original index. -/
theorem C01_opposite (t : StencilType) (c : ℝ) :
    OppositeTable (t.stencil c).weight (t.stencil c).dir (t.stencil c).opp :=
  match t with
  | .D2Q9 => D2Q9.opposite c
  | .D3Q19 => D3Q19.opposite c
  | .D3Q15 => D3Q15.opposite c
  | .D3Q27 => D3Q27.opposite c
  | .D2Q19H => (D2Q19H.opposite_and_approx c).1
  | .D2Q19V => (D2Q19V.opposite_and_approx c).1
  | .D2Q777 => (D2Q777.opposite_and_approx c).1
  | .D2Q25H => D2Q25H.opposite c
  | .D3Q13 => D3Q13.opposite c
  | .D3Q21 => D3Q21.opposite c
  | .RD3Q27 => RD3Q27.opposite c
  | .D3Q45 => (D3Q45.opposite_and_approx c).1
  | .D3Q77 => (D3Q77.opposite_and_approx c).1
  | .D3V27 => (D3V27.opposite_and_approx c).1

/-- The table is not trivial: direction 1 of D2Q9 and its opposite 3 have the velocities `(c,0)` and `(-c,0)`. -/
example (c : ℝ) : (StencilType.D2Q9.stencil c).opp (1 : Fin 9) = (3 : Fin 9) ∧
    (D2Q9.stencil c).dir 1 = ![c, 0] ∧ (D2Q9.stencil c).dir 3 = ![-c, 0] := ⟨rfl, rfl, rfl⟩

/-! ## C02, C03 -/

/-- The stencils whose tables are given in closed form and are exact. -/
def StencilType.exact : StencilType → Bool
  | .D2Q9 | .D3Q19 | .D3Q15 | .D3Q27 | .D2Q25H | .D3Q13 | .RD3Q27 => true
  | _ => false

/-- **C02, C03** for the exact stencils: the moments of order 0, 1, 2, 3, 4 (and 5) are the isotropic ones with the reported speed
of sound, for every scaling. -/
theorem C03_isotropy (t : StencilType) (ht : t.exact = true) (c : ℝ) :
    Iso5 (t.stencil c).weight (t.stencil c).dir (t.stencil c).cs2 :=
  match t, ht with
  | .D2Q9, _ => D2Q9.iso5 c
  | .D3Q19, _ => D3Q19.iso5 c
  | .D3Q15, _ => D3Q15.iso5 c
  | .D3Q27, _ => D3Q27.iso5 c
  | .D2Q25H, _ => (D2Q25H.iso6 c).toIso5
  | .D3Q13, _ => D3Q13.iso5 c
  | .RD3Q27, _ => RD3Q27.iso5 c

/-- **C02**: weights sum to one, mean velocity zero, second moment `cs2 * identity`. -/
theorem C02_quadrature (t : StencilType) (ht : t.exact = true) (c : ℝ) :
    ∑ i, (t.stencil c).weight i = 1 ∧
    (∀ a, ∑ i, (t.stencil c).weight i * (t.stencil c).dir i a = 0) ∧
    (∀ a b, ∑ i, (t.stencil c).weight i * ((t.stencil c).dir i a * (t.stencil c).dir i b)
      = if a = b then (t.stencil c).cs2 else 0) := by
  have h := C03_isotropy t ht c
  exact ⟨h.m0, h.m1, fun a b => by rw [h.m2]; unfold δ; split <;> simp⟩

/-- D2Q25H is even isotropic to sixth order (needed for the compressible equilibrium). -/
theorem C03_isotropy6_D2Q25H (c : ℝ) :
    Iso6 (StencilType.D2Q25H.stencil c).weight (StencilType.D2Q25H.stencil c).dir (StencilType.D2Q25H.stencil c).cs2 :=
  D2Q25H.iso6 c

example : (D2Q25H.stencil 2).cs2 = 4 / 3 := by norm_num [D2Q25H.stencil]

/-- The tabulated stencils and the tolerance to which their decimal tables are isotropic. -/
def StencilType.tolerance : StencilType → Option ℚ
  | .D2Q19H | .D2Q19V | .D3Q45 | .D3V27 => some 1e-13
  | .D3Q77 => some 1e-12
  | .D2Q777 => some 1e-4
  | _ => none

/-- **C02, C03** for the tabulated stencils: isotropy up to sixth order with an explicit tolerance. -/
theorem C03_isotropy_tabulated (t : StencilType) (ε : ℚ) (ht : t.tolerance = some ε) (c : ℝ) :
    ApproxIso6 (t.stencil c).weight (t.stencil c).dir (t.stencil c).cs2 c (ε : ℝ) := by
  cases t <;> simp only [StencilType.tolerance, Option.some.injEq, reduceCtorEq] at ht <;> subst ht
  · exact (D2Q19H.opposite_and_approx c).2
  · exact (D2Q19V.opposite_and_approx c).2
  · exact (D2Q777.opposite_and_approx c).2
  · exact (D3Q45.opposite_and_approx c).2
  · exact (D3Q77.opposite_and_approx c).2
  · exact (D3V27.opposite_and_approx c).2

/-- D3Q21 divides its directions by the literal `0.774596669241483` instead of `√0.6`: it is isotropic with a second moment that
differs from the reported speed of sound by a constant relative factor, which is within `2·10⁻¹⁵` of one. -/
theorem C03_isotropy_D3Q21 : ∃ κ : ℝ, |κ - 1| ≤ 2 / 10 ^ 15 ∧
    ∀ c, Iso5 (StencilType.D3Q21.stencil c).weight (StencilType.D3Q21.stencil c).dir
      (κ * (StencilType.D3Q21.stencil c).cs2) :=
  ⟨D3Q21.kappa, D3Q21.kappa_close, D3Q21.iso5⟩

/-- … and it is *not* exactly isotropic with the reported speed of sound (finding F01). -/
theorem C02_D3Q21_inexact (c : ℝ) (hc : c ≠ 0) :
    ¬ Iso2 (StencilType.D3Q21.stencil c).weight (StencilType.D3Q21.stencil c).dir (StencilType.D3Q21.stencil c).cs2 := by
  intro h
  have h1 := (D3Q21.iso5 c).m2 0 0
  have h2 := h.m2 (0 : Fin 3) (0 : Fin 3)
  have h3 : D3Q21.kappa * (D3Q21.stencil c).cs2 = (D3Q21.stencil c).cs2 := by
    have e : (δ (0 : Fin 3) 0 : ℝ) = 1 := by simp [δ]
    have := h1.symm.trans h2
    change D3Q21.kappa * (D3Q21.stencil c).cs2 * δ (0 : Fin 3) 0 = (D3Q21.stencil c).cs2 * δ (0 : Fin 3) 0 at this
    rwa [e, mul_one, mul_one] at this
  have h4 : (D3Q21.stencil c).cs2 ≠ 0 := by
    change c * c / 3 ≠ 0
    exact div_ne_zero (mul_ne_zero hc hc) (by norm_num)
  have h5 : D3Q21.kappa = 1 := by
    have : (D3Q21.kappa - 1) * (D3Q21.stencil c).cs2 = 0 := by linear_combination h3
    have := (mul_eq_zero.mp this).resolve_right h4
    linarith
  unfold D3Q21.kappa D3Q21.lit at h5
  norm_num at h5

/-- Every stencil is covered by one of the three theorems. -/
theorem C03_coverage (t : StencilType) : t.exact = true ∨ (∃ ε, t.tolerance = some ε) ∨ t = .D3Q21 := by
  cases t <;> simp [StencilType.exact, StencilType.tolerance]

/-! ## C04 -/

/-- The reported maximum velocity is an upper bound of the Euclidean norm of every direction. -/
def StencilType.MaxVelocityIsBound (t : StencilType) (c : ℝ) : Prop :=
  ∀ i, √(∑ a, (t.stencil c).dir i a ^ 2) ≤ t.maxVelocity c

/-- The stencils for which `getMaxParticleVelocityMagnitude` is right. -/
def StencilType.boundedSpeed : StencilType → Bool
  | .D2Q9 | .D3Q19 | .D3Q15 | .D3Q13 | .D3Q21 | .RD3Q27 => true
  | _ => false

/-- **C04** holds for these six stencils (for every nonnegative scaling). -/
theorem C04_maxVelocity_partial (t : StencilType) (ht : t.boundedSpeed = true) (c : ℝ) (hc : 0 ≤ c) :
    t.MaxVelocityIsBound c := by
  intro i
  cases t <;> simp only [StencilType.boundedSpeed, Bool.false_eq_true] at ht
  · exact le_mul_sqrt hc (by exact_mod_cast speed_le_of_table _ (D2Q9.dir_eq c) 2 (by decide +kernel) i)
  · exact le_mul_sqrt hc (by exact_mod_cast speed_le_of_table _ (D3Q19.dir_eq c) 2 (by decide +kernel) i)
  · exact le_mul_sqrt hc (by exact_mod_cast speed_le_of_table _ (D3Q15.dir_eq c) 3 (by decide +kernel) i)
  · exact le_mul_sqrt hc (D3Q13.speed_le c i)
  · exact le_mul_sqrt hc (D3Q21.speed_le c i)
  · exact le_mul_sqrt hc (by exact_mod_cast speed_le_of_table _ (RD3Q27.dir_eq c) 2 (by decide +kernel) i)

/-- **C04 is false** for the other eight stencils: for every positive scaling some direction is faster than the reported maximum
(finding F02). -/
theorem C04_maxVelocity_wrong (t : StencilType) (ht : t.boundedSpeed = false) (c : ℝ) (hc : 0 < c) :
    ¬ t.MaxVelocityIsBound c := by
  have hc' := hc.le
  intro h
  cases t <;> simp only [StencilType.boundedSpeed, Bool.true_eq_false] at ht
  · refine absurd (h (19 : Fin 27)) (not_le.mpr (mul_sqrt_lt hc' (by norm_num) ?_))
    exact_mod_cast speed_gt_of_table hc _ (D3Q27.dir_eq c) 2 (19 : Fin 27) (by decide +kernel)
  · refine absurd (h (18 : Fin 19)) (not_le.mpr (mul_sqrt_lt hc' (by norm_num) ?_))
    exact speed_gt_of_table3 hc (fun i => D2Q19H.swapped.getD i 0)
      (fun i a => by rw [← D2Q19H.swapped_eq]; rfl) (18 : Fin 19) (by decide +kernel)
  · refine absurd (h (18 : Fin 19)) (not_le.mpr (mul_sqrt_lt hc' (by norm_num) ?_))
    exact speed_gt_of_table3 hc (fun i => D2Q19V.dirTable.getD i 0) (fun i a => rfl) (18 : Fin 19) (by decide +kernel)
  · refine absurd (h (776 : Fin 777)) (not_le.mpr (mul_sqrt_lt hc' (by norm_num) ?_))
    exact speed_gt_of_table3 hc (fun i => D2Q777.dirTable.getD i 0) (fun i a => rfl) (776 : Fin 777) (by decide +kernel)
  · refine absurd (h (13 : Fin 25)) (not_le.mpr (mul_sqrt_lt hc' (by norm_num) ?_))
    change _ < ∑ a : Fin 2, D2Q25H.dir c 13 a ^ 2
    rw [Fin.sum_univ_two]
    change 2 * c ^ 2 < D2Q25H.cn c ^ 2 + D2Q25H.cn c ^ 2
    rw [D2Q25H.cn2]
    have h1 := D2Q25H.s10_gt
    have h2 : 0 < c ^ 2 := by positivity
    nlinarith
  · refine absurd (h (44 : Fin 45)) (not_le.mpr (mul_sqrt_lt hc' (by norm_num) ?_))
    exact speed_gt_of_table3 hc (fun i => D3Q45.dirTable.getD i 0) (fun i a => rfl) (44 : Fin 45) (by decide +kernel)
  · refine absurd (h (1 : Fin 77)) (not_le.mpr (mul_sqrt_lt hc' (by norm_num) ?_))
    exact speed_gt_of_table3 hc (fun i => D3Q77.dirTable.getD i 0) (fun i a => rfl) (1 : Fin 77) (by decide +kernel)
  · refine absurd (h (7 : Fin 27)) (not_le.mpr (mul_sqrt_lt hc' (by norm_num) ?_))
    exact speed_gt_of_table3 hc (fun i => D3V27.dirTable.getD i 0) (fun i a => rfl) (7 : Fin 27) (by decide +kernel)

example : StencilType.D2Q9.boundedSpeed = true ∧ StencilType.D3Q27.boundedSpeed = false := ⟨rfl, rfl⟩

/-! ## C05 -/

theorem localMin_le_aux (cells : List MeshCell) (m0 : ℝ) :
    let m := cells.foldl (fun m cell => if cell.owned then (if cell.minDist < m then cell.minDist else m) else m) m0
    m ≤ m0 ∧ ∀ cell ∈ cells, cell.owned = true → m ≤ cell.minDist := by
  induction cells generalizing m0 with
  | nil => simp
  | cons x xs ih =>
    simp only [List.foldl_cons, List.mem_cons, forall_eq_or_imp]
    obtain ⟨h1, h2⟩ := ih (if x.owned then (if x.minDist < m0 then x.minDist else m0) else m0)
    refine ⟨h1.trans ?_, fun hx => h1.trans ?_, h2⟩
    · split_ifs with hx hlt
      · exact hlt.le
      · exact le_rfl
      · exact le_rfl
    · rw [if_pos hx]
      split_ifs with hlt
      · exact le_rfl
      · exact not_lt.mp hlt

theorem minDistance_le (p0 : List MeshCell) (ps : List (List MeshCell)) (cells : List MeshCell) (hp : cells ∈ p0 :: ps)
    (cell : MeshCell) (hc : cell ∈ cells) (ho : cell.owned = true) : getMinimumVertexDistance p0 ps ≤ cell.minDist := by
  unfold getMinimumVertexDistance
  have aux : ∀ (ps : List (List MeshCell)) (m0 : ℝ),
      ps.foldl (fun m cells => min m (localMinDistance cells)) m0 ≤ m0 ∧
      ∀ cells ∈ ps, ps.foldl (fun m cells => min m (localMinDistance cells)) m0 ≤ localMinDistance cells := by
    intro ps
    induction ps with
    | nil => intro m0; simp
    | cons x xs ih =>
      intro m0
      simp only [List.foldl_cons, List.mem_cons, forall_eq_or_imp]
      obtain ⟨h1, h2⟩ := ih (min m0 (localMinDistance x))
      exact ⟨h1.trans (min_le_left _ _), h1.trans (min_le_right _ _), h2⟩
  have hl := (localMin_le_aux cells 100000000000).2 cell hc ho
  rcases List.mem_cons.mp hp with rfl | hp
  · exact ((aux ps _).1).trans hl
  · exact ((aux ps _).2 cells hp).trans hl

/-- **C05.** With a time step from `calculateTimestep`, no particle of a stencil with a correct maximum velocity moves farther in
one step than `CFL / p²` times the smallest vertex distance of *any* cell owned by *any* process. -/
theorem C05_cfl (t : StencilType) (c : ℝ) (hc : 0 < c) (hb : t.MaxVelocityIsBound c)
    (p0 : List MeshCell) (ps : List (List MeshCell)) (p : ℕ) (hp : 1 ≤ p) (cFL : ℝ) (hcfl : 0 ≤ cFL)
    (cells : List MeshCell) (hcells : cells ∈ p0 :: ps) (cell : MeshCell) (hcell : cell ∈ cells) (ho : cell.owned = true)
    (hd : 0 ≤ getMinimumVertexDistance p0 ps) (i : Fin t.Q) :
    √(∑ a, (t.stencil c).dir i a ^ 2) * calculateTimestep p0 ps p (t.maxVelocity c) cFL ≤ cFL * cell.minDist / p ^ 2 := by
  have hu : 0 < t.maxVelocity c := by cases t <;> exact mul_pos hc (Real.sqrt_pos.mpr (by norm_num))
  have hp' : (0 : ℝ) < p := by exact_mod_cast hp
  have hmin := minDistance_le p0 ps cells hcells cell hcell ho
  unfold calculateTimestep
  have h1 : 0 ≤ cFL * getMinimumVertexDistance p0 ps / (t.maxVelocity c * p * p) := by positivity
  calc √(∑ a, (t.stencil c).dir i a ^ 2) * (cFL * getMinimumVertexDistance p0 ps / (t.maxVelocity c * p * p))
      ≤ t.maxVelocity c * (cFL * getMinimumVertexDistance p0 ps / (t.maxVelocity c * p * p)) :=
        mul_le_mul_of_nonneg_right (hb i) h1
    _ = cFL * getMinimumVertexDistance p0 ps / p ^ 2 := by field_simp
    _ ≤ cFL * cell.minDist / p ^ 2 := by gcongr

/-- Non-vacuity: two processes, three cells, D2Q9. -/
example : (0.4 : ℝ) * 0.25 / 2 ^ 2 ≥ √(∑ a, (StencilType.D2Q9.stencil 1).dir (5 : Fin 9) a ^ 2) *
    calculateTimestep [⟨true, 0.5⟩, ⟨false, 0.25⟩] [[⟨true, 0.25⟩]] 2 (StencilType.D2Q9.maxVelocity 1) 0.4 := by
  refine C05_cfl .D2Q9 1 one_pos (C04_maxVelocity_partial .D2Q9 rfl 1 zero_le_one) [⟨true, 0.5⟩, ⟨false, 0.25⟩]
    [[⟨true, 0.25⟩]] 2 (by norm_num) 0.4 (by norm_num) [⟨true, 0.25⟩] (by simp) ⟨true, 0.25⟩ (by simp) rfl ?_ (5 : Fin 9)
  norm_num [getMinimumVertexDistance, localMinDistance]

/-! ## C06 -/

/-- `M` has a two-sided inverse. -/
def HasInverse {K : Type*} [Field K] {Q : ℕ} (M : Matrix (Fin Q) (Fin Q) K) : Prop :=
  ∃ N : Matrix (Fin Q) (Fin Q) K, M * N = 1 ∧ N * M = 1

theorem hasInverse_of_kernel {K : Type*} [Field K] {Q : ℕ} (M : Matrix (Fin Q) (Fin Q) K)
    (h : ∀ v : Fin Q → K, (∀ i, ∑ α, M i α * v α = 0) → v = 0) : HasInverse M := by
  have hinj : Function.Injective M.mulVec := by
    intro x y hxy
    have h0 := h (x - y) fun i => by
      have : (M.mulVec (x - y)) i = 0 := by rw [Matrix.mulVec_sub, hxy, sub_self]; rfl
      exact this
    exact sub_eq_zero.mp h0
  have hu : IsUnit M := Matrix.mulVec_injective_iff_isUnit.mp hinj
  obtain ⟨u, rfl⟩ := hu
  exact ⟨↑u⁻¹, u.mul_inv, u.inv_mul⟩

/-- **C06.** For every nonzero scaling the moment bases of D2Q9, D3Q15, D3Q19 and D3Q27 are invertible (all other stencils use the
unit matrix). -/
theorem C06_momentBasis_invertible {K : Type*} [Field K] [CharZero K] (c : K) (hc : c ≠ 0) :
    HasInverse (D2Q9.momentBasis c) ∧ HasInverse (D3Q15.momentBasis c) ∧ HasInverse (D3Q19.momentBasis c) ∧
      HasInverse (D3Q27.momentBasis c) :=
  ⟨hasInverse_of_kernel _ (D2Q9.kernel_trivial hc), hasInverse_of_kernel _ (D3Q15.kernel_trivial hc),
    hasInverse_of_kernel _ (D3Q19.kernel_trivial hc), hasInverse_of_kernel _ (D3Q27.kernel_trivial hc)⟩

/-- … hence converting distributions to moments and back is lossless, and the scaling must indeed be nonzero. -/
theorem C06_roundtrip {K : Type*} [Field K] [CharZero K] (c : K) (hc : c ≠ 0) :
    ∃ N : Matrix (Fin 9) (Fin 9) K, ∀ f, N.mulVec ((D2Q9.momentBasis c).mulVec f) = f := by
  obtain ⟨N, _, h⟩ := (C06_momentBasis_invertible c hc).1
  exact ⟨N, fun f => by rw [Matrix.mulVec_mulVec, h, Matrix.one_mulVec]⟩

example : ¬ HasInverse (D2Q9.momentBasis (0 : ℚ)) := by
  rintro ⟨N, h, _⟩
  have h1 := congrFun (congrFun h (3 : Fin 9)) (3 : Fin 9)
  rw [Matrix.mul_apply, Finset.sum_eq_zero] at h1
  · simp at h1
  · intro α _
    have : D2Q9.momentBasis (0 : ℚ) 3 α = 0 := by revert α; decide +kernel
    rw [this, zero_mul]

end NATriuM
