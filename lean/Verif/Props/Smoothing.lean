import Verif.Lemmas.Smoothing
import Mathlib.Tactic.FinCases
import Mathlib.Tactic.FieldSimp
import Mathlib.LinearAlgebra.Matrix.Notation
import Mathlib.LinearAlgebra.Matrix.Determinant.Basic

/-!
# C57, C58: filters and the limiter
-/

namespace NATriuM
namespace Smoothing

/-! ## The factors -/

/-- The degree that counts never exceeds the maximal degree, so that the quotient in the exponent is never formed with a zero denominator. -/
theorem degree_le (bySum : Bool) (p dim i : ℕ) (hd : dim = 1 ∨ dim = 2 ∨ dim = 3) (hi : i < (p + 1) ^ dim) :
    degree bySum p dim i ≤ maxDegree bySum p dim := by
  have hm : i % (p + 1) ≤ p := Nat.lt_succ_iff.1 (Nat.mod_lt _ (Nat.succ_pos p))
  have hk : i % (p + 1) * (p + 1) / (p + 1) ≤ p := by rw [Nat.mul_div_cancel _ (Nat.succ_pos p)]; exact hm
  rcases hd with rfl | rfl | rfl
  · have : i ≤ p := by rw [pow_one] at hi; omega
    cases bySum <;> simp [degree, maxDegree, degreeSum, degreeMax, this]
  · have h1 : i / (p + 1) ≤ p := by
      have : i / (p + 1) < p + 1 := by rw [Nat.div_lt_iff_lt_mul (Nat.succ_pos p)]; rw [pow_two] at hi; exact hi
      omega
    cases bySum
    · simp only [degree, maxDegree, degreeMax, runMax_eq, Bool.false_eq_true, if_false]; exact max_le h1 hm
    · simp only [degree, maxDegree, degreeSum, if_true]; omega
  · have h1 : i / ((p + 1) * (p + 1)) ≤ p := by
      have : i / ((p + 1) * (p + 1)) < p + 1 := by
        rw [Nat.div_lt_iff_lt_mul (Nat.mul_pos (Nat.succ_pos p) (Nat.succ_pos p))]
        have : (p + 1) ^ 3 = (p + 1) * ((p + 1) * (p + 1)) := by ring
        rw [← this]; exact hi
      omega
    cases bySum
    · simp only [degree, maxDegree, degreeMax, runMax_eq, Bool.false_eq_true, if_false]; exact max_le (max_le h1 hk) hm
    · simp only [degree, maxDegree, degreeSum, if_true]; omega

/-- **C57** Every factor lies in (0,1]; it is one below the cut-off; and it does not increase with the degree. The highest degree is multiplied with
`exp (-alpha)`. -/
theorem C57_factor (alpha s : ℝ) (Nc maxDeg : ℕ) (ha : 0 ≤ alpha) (hs : 0 ≤ s) :
    (∀ deg ≤ maxDeg, 0 < sigma alpha s Nc maxDeg deg ∧ sigma alpha s Nc maxDeg deg ≤ 1) ∧
    (∀ deg < Nc, sigma alpha s Nc maxDeg deg = 1) ∧
    (∀ deg deg', deg ≤ deg' → deg' ≤ maxDeg → sigma alpha s Nc maxDeg deg' ≤ sigma alpha s Nc maxDeg deg) ∧
    (Nc ≤ maxDeg → sigma alpha s Nc maxDeg maxDeg = Real.exp (-alpha)) := by
  have hle : ∀ deg ≤ maxDeg, sigma alpha s Nc maxDeg deg ≤ 1 := by
    intro deg hdeg
    unfold sigma
    split
    · rename_i h
      have h1 : (Nc : ℝ) ≤ deg := by exact_mod_cast h
      have h2 : (deg : ℝ) ≤ maxDeg := by exact_mod_cast hdeg
      rw [Real.exp_le_one_iff]
      have : 0 ≤ (((deg : ℝ) + 1 - Nc) / ((maxDeg : ℝ) + 1 - Nc)) ^ s :=
        Real.rpow_nonneg (div_nonneg (by linarith) (by linarith)) _
      nlinarith
    · exact le_refl 1
  refine ⟨fun deg hdeg => ⟨?_, hle deg hdeg⟩, fun deg h => ?_, fun deg deg' h hdeg' => ?_, fun h => ?_⟩
  · unfold sigma; split
    · exact Real.exp_pos _
    · exact one_pos
  · unfold sigma; rw [if_neg (by omega)]
  · by_cases hN : deg ≥ Nc
    · have h1 : (Nc : ℝ) ≤ deg := by exact_mod_cast hN
      have h2 : (deg : ℝ) ≤ deg' := by exact_mod_cast h
      have h3 : (deg' : ℝ) ≤ maxDeg := by exact_mod_cast hdeg'
      unfold sigma
      rw [if_pos hN, if_pos (le_trans hN h), Real.exp_le_exp]
      have hpos : (0 : ℝ) < (maxDeg : ℝ) + 1 - Nc := by linarith
      have : (((deg : ℝ) + 1 - Nc) / ((maxDeg : ℝ) + 1 - Nc)) ^ s ≤ (((deg' : ℝ) + 1 - Nc) / ((maxDeg : ℝ) + 1 - Nc)) ^ s := by
        apply Real.rpow_le_rpow (div_nonneg (by linarith) hpos.le) _ hs
        exact div_le_div_of_nonneg_right (by linarith) hpos.le
      nlinarith
    · have : sigma alpha s Nc maxDeg deg = 1 := by unfold sigma; rw [if_neg hN]
      rw [this]; exact hle deg' hdeg'
  · have h1 : (Nc : ℝ) ≤ maxDeg := by exact_mod_cast h
    unfold sigma
    rw [if_pos h, div_self (ne_of_gt (by linarith)), Real.one_rpow, mul_one]

/-- Non-vacuity: the default strength 10, exponent 20 and cut-off 1, for order 4 -/
example : sigma 10 20 1 4 0 = 1 ∧ sigma 10 20 1 4 4 = Real.exp (-10) ∧ sigma 10 20 1 4 4 ≤ sigma 10 20 1 4 2 :=
  have h := C57_factor 10 20 1 4 (by norm_num) (by norm_num)
  ⟨h.2.1 0 (by norm_num), h.2.2.2 (by norm_num), h.2.2.1 2 4 (by norm_num) (by norm_num)⟩

/-! ## The degrees -/

/-- The modes are the products of one-dimensional polynomials of the degrees `modeDegrees`, in all dimensions. -/
theorem C57_modes_tensor (leg : ℕ → ℝ → ℝ) (p dim i : ℕ) (hd : dim = 1 ∨ dim = 2 ∨ dim = 3) (x : ℕ → ℝ) :
    evaluateLegendre leg p dim i x = tensor leg (modeDegrees p dim i) x := by
  rcases hd with rfl | rfl | rfl
  · simp [evaluateLegendre, tensor, modeDegrees]
  · simp [evaluateLegendre, tensor, modeDegrees]
  · have h1 : i % ((p + 1) * (p + 1)) / (p + 1) = i / (p + 1) % (p + 1) := by
      rw [Nat.mod_mul_right_div_self]
    simp [evaluateLegendre, tensor, modeDegrees, h1, Nat.div_div_eq_div_mul, mul_assoc]

/-- **C57** In one and two dimensions the filter acts on each mode according to its largest one-dimensional degree, or the sum of its one-dimensional
degrees. (Not in three dimensions: `C57_degree_fails`.) -/
theorem C57_degree_partial (p dim i : ℕ) (hd : dim = 1 ∨ dim = 2) :
    degree false p dim i = maxOf (modeDegrees p dim i) ∧ degree true p dim i = (modeDegrees p dim i).sum ∧
    newDegreeSum p dim i = (modeDegrees p dim i).sum := by
  rcases hd with rfl | rfl <;>
    simp [degree, degreeMax, degreeSum, newDegreeSum, modeDegrees, maxOf, runMax_eq]

/-- **C57 (negation)** In three dimensions, for every order from 1 on, the mode that is linear in y only (number `p + 1`) is taken to have degree 0,
and the mode that is linear in z only (number 1) is taken to have degree 2, if degrees are summed; in the new filter the mode linear in x only has
degree `p + 2`. -/
theorem C57_degree_fails (p : ℕ) (hp : 1 ≤ p) :
    modeDegrees p 3 (p + 1) = [0, 1, 0] ∧ degree false p 3 (p + 1) = 0 ∧ degree true p 3 (p + 1) = 0 ∧
    modeDegrees p 3 1 = [0, 0, 1] ∧ degree true p 3 1 = 2 ∧
    modeDegrees p 3 ((p + 1) * (p + 1)) = [1, 0, 0] ∧ newDegreeSum p 3 ((p + 1) * (p + 1)) = p + 2 := by
  have h0 : 0 < p + 1 := Nat.succ_pos p
  have h1 : (p + 1) / (p + 1) = 1 := Nat.div_self h0
  have h2 : 1 / (p + 1) = 0 := Nat.div_eq_of_lt (by omega)
  have h3 : 1 % (p + 1) = 1 := Nat.mod_eq_of_lt (by omega)
  have h4 : (p + 1) / ((p + 1) * (p + 1)) = 0 := Nat.div_eq_of_lt (by nlinarith)
  have h5 : 1 / ((p + 1) * (p + 1)) = 0 := Nat.div_eq_of_lt (by nlinarith)
  have h6 : (p + 1) * (p + 1) / (p + 1) = p + 1 := Nat.mul_div_cancel _ h0
  have h7 : (p + 1) * (p + 1) / ((p + 1) * (p + 1)) = 1 := Nat.div_self (Nat.mul_pos h0 h0)
  refine ⟨?_, ?_, ?_, ?_, ?_, ?_, ?_⟩
  · simp [modeDegrees, h1, h2, h3]
  · simp [degree, degreeMax, runMax_eq, h4]
  · simp [degree, degreeSum, h4]
  · simp [modeDegrees, h2, h3]
  · simp [degree, degreeSum, h3, h5, h1]
  · simp [modeDegrees, h6, h1, h2, h3]
  · simp [newDegreeSum, h6, h7]; omega

/-- **C57 (negation)** In three dimensions the modes of highest degree in y, which depend on y only, are not damped at all, whatever the strength, with
any cut-off from 1 on. -/
theorem C57_damps_fails (alpha s : ℝ) (Nc p : ℕ) (bySum : Bool) (hN : 1 ≤ Nc) :
    modeDegrees p 3 (p * (p + 1)) = [0, p, 0] ∧ exponentialFactor alpha s Nc bySum p 3 (p * (p + 1)) = 1 := by
  have h0 : 0 < p + 1 := Nat.succ_pos p
  have h1 : p * (p + 1) / (p + 1) = p := Nat.mul_div_cancel _ h0
  have h2 : p * (p + 1) / ((p + 1) * (p + 1)) = 0 := Nat.div_eq_of_lt (by nlinarith)
  have h3 : p / (p + 1) = 0 := Nat.div_eq_of_lt (by omega)
  have h4 : p % (p + 1) = p := Nat.mod_eq_of_lt (by omega)
  have h5 : degree bySum p 3 (p * (p + 1)) = 0 := by
    cases bySum <;> simp [degree, degreeMax, degreeSum, runMax_eq, h2]
  refine ⟨by simp [modeDegrees, h1, h3, h4], ?_⟩
  unfold exponentialFactor sigma
  rw [h5, if_neg (by omega)]

/-- **C57** In one and two dimensions: modes whose degree is below the cut-off are unchanged, all modes get a factor in (0,1], and of two modes the one
of higher degree gets the smaller factor (or an equal one). -/
theorem C57_damps_partial (alpha s : ℝ) (Nc p dim : ℕ) (hd : dim = 1 ∨ dim = 2) (ha : 0 ≤ alpha) (hs : 0 ≤ s) (i j : ℕ)
    (hi : i < (p + 1) ^ dim) (hj : j < (p + 1) ^ dim) :
    (0 < exponentialFactor alpha s Nc false p dim i ∧ exponentialFactor alpha s Nc false p dim i ≤ 1) ∧
    (0 < exponentialFactor alpha s Nc true p dim i ∧ exponentialFactor alpha s Nc true p dim i ≤ 1) ∧
    (maxOf (modeDegrees p dim i) < Nc → exponentialFactor alpha s Nc false p dim i = 1) ∧
    ((modeDegrees p dim i).sum < Nc → exponentialFactor alpha s Nc true p dim i = 1) ∧
    (maxOf (modeDegrees p dim i) ≤ maxOf (modeDegrees p dim j) →
      exponentialFactor alpha s Nc false p dim j ≤ exponentialFactor alpha s Nc false p dim i) ∧
    ((modeDegrees p dim i).sum ≤ (modeDegrees p dim j).sum →
      exponentialFactor alpha s Nc true p dim j ≤ exponentialFactor alpha s Nc true p dim i) := by
  have hd' : dim = 1 ∨ dim = 2 ∨ dim = 3 := hd.imp_right Or.inl
  have hl : ∀ b k, k < (p + 1) ^ dim → degree b p dim k ≤ maxDegree b p dim := fun b k hk => degree_le b p dim k hd' hk
  have hc := C57_degree_partial p dim
  have hF : ∀ b, _ := fun b => C57_factor alpha s Nc (maxDegree b p dim) ha hs
  rw [← (hc i hd).1, ← (hc i hd).2.1, ← (hc j hd).1, ← (hc j hd).2.1]
  exact ⟨(hF false).1 _ (hl _ _ hi), (hF true).1 _ (hl _ _ hi), (hF false).2.1 _, (hF true).2.1 _,
    fun h => (hF false).2.2.1 _ _ h (hl _ _ hj), fun h => (hF true).2.2.1 _ _ h (hl _ _ hj)⟩

/-- Non-vacuity: order 2 in two dimensions; mode 5 has degrees 1 and 2, mode 3 has degrees 1 and 0. -/
example : modeDegrees 2 2 5 = [1, 2] ∧ modeDegrees 2 2 3 = [1, 0] ∧
    exponentialFactor 10 20 1 false 2 2 5 ≤ exponentialFactor 10 20 1 false 2 2 3 ∧ exponentialFactor 10 20 1 true 2 2 0 = 1 :=
  ⟨rfl, rfl, (C57_damps_partial 10 20 1 2 2 (Or.inr rfl) (by norm_num) (by norm_num) 3 5 (by norm_num) (by norm_num)).2.2.2.2.1 (by decide),
    (C57_damps_partial 10 20 1 2 2 (Or.inr rfl) (by norm_num) (by norm_num) 0 0 (by norm_num) (by norm_num)).2.2.2.1 (by decide)⟩

/-! ## The new filter -/

/-- **C57** The new filter, too: factors in (0,1], the constant mode is unchanged, and in one and two dimensions the factor does not increase with the sum of
the degrees. -/
theorem C57_new_partial (alpha s : ℝ) (p dim : ℕ) (hd : dim = 1 ∨ dim = 2 ∨ dim = 3) (hp : 1 ≤ p) (ha : 0 ≤ alpha) (hs : 0 < s) :
    (∀ i, ∃ v, newFactor alpha s p dim i = some v ∧ 0 < v ∧ v ≤ 1) ∧ newFactor alpha s p dim 0 = some 1 ∧
    (dim ≠ 3 → ∀ i j v v', newFactor alpha s p dim i = some v → newFactor alpha s p dim j = some v' →
      (modeDegrees p dim i).sum ≤ (modeDegrees p dim j).sum → v' ≤ v) := by
  have hdp : dim * p ≠ 0 := Nat.mul_ne_zero (by omega) (by omega)
  have hnn : ∀ i, 0 ≤ (newDegreeSum p dim i : ℝ) / ((dim * p : ℕ) : ℝ) := fun i => by positivity
  refine ⟨fun i => ⟨_, by unfold newFactor; rw [if_neg hdp], Real.exp_pos _, ?_⟩, ?_, ?_⟩
  · rw [Real.exp_le_one_iff]
    have := Real.rpow_nonneg (hnn i) s
    nlinarith
  · have h0 : newDegreeSum p dim 0 = 0 := by rcases hd with rfl | rfl | rfl <;> simp [newDegreeSum]
    unfold newFactor
    rw [if_neg hdp, h0]
    simp [Real.zero_rpow (ne_of_gt hs)]
  · intro h3 i j v v' hv hv' hij
    have hd2 : dim = 1 ∨ dim = 2 := by omega
    unfold newFactor at hv hv'
    rw [if_neg hdp] at hv hv'
    cases hv; cases hv'
    rw [Real.exp_le_exp]
    have h1 : (newDegreeSum p dim i : ℝ) ≤ newDegreeSum p dim j := by
      rw [(C57_degree_partial p dim i hd2).2.2, (C57_degree_partial p dim j hd2).2.2]; exact_mod_cast hij
    have h2 := Real.rpow_le_rpow (hnn i) (div_le_div_of_nonneg_right h1 (by positivity)) hs.le
    nlinarith

/-- **C57 (negation)** For order 0 the factors of the new filter are not numbers. -/
theorem C57_new_order_zero_fails (alpha s : ℝ) (dim i : ℕ) : newFactor alpha s 0 dim i = none := by simp [newFactor]

example : ∃ v, newFactor 10 20 2 2 5 = some v ∧ 0 < v ∧ v ≤ 1 :=
  (C57_new_partial 10 20 2 2 (by norm_num) (by norm_num) (by norm_num) (by norm_num)).1 5

/-! ## The filtered function -/

section Function
variable {n nq : ℕ} {X : Type*}

/-- **C57** What the filter does in one cell: if the function in the cell has coefficients `m` with respect to the modes, then the filtered function has
the coefficients `factor k * m k`. -/
theorem C57_modes (shape mode : Fin n → X → ℝ) (hA : SpannedBy shape mode) (w : Fin nq → ℝ) (pt : Fin nq → X)
    {T F : Matrix (Fin n) (Fin n) ℝ} (hTF : projections w (fun i q => shape i (pt q)) (fun k q => mode k (pt q)) = some (T, F))
    (factor u m : Fin n → ℝ) (hum : ∀ x, field shape u x = field mode m x) (x : X) :
    field shape (filterCell T F factor u) x = field mode (fun k => factor k * m k) x := by
  obtain ⟨A, hA⟩ := hA
  have hrep : ∀ (v : Fin n → ℝ) y, field shape v y = field mode (fun k => ∑ i, v i * A k i) y := by
    intro v y
    unfold field
    simp only [hA, Finset.mul_sum, Finset.sum_mul]
    rw [Finset.sum_comm]
    refine Finset.sum_congr rfl fun k _ => Finset.sum_congr rfl fun i _ => by ring
  have h1 : T.mulVec u = m := toModes_eq hTF u m fun q => hum (pt q)
  have h2 := toModes_filterCell hTF factor u
  have h3 := toModes_eq hTF (filterCell T F factor u) _ fun q => hrep (filterCell T F factor u) (pt q)
  rw [hrep]
  congr 1
  rw [← h3, h2, h1]

/-- **C57** The mean of the function over the cell is unchanged if the constant mode is (cut-off from 1 on). -/
theorem C57_mean (shape mode : Fin n → X → ℝ) (hA : SpannedBy shape mode) (w : Fin nq → ℝ) (pt : Fin nq → X)
    {T F : Matrix (Fin n) (Fin n) ℝ} (hTF : projections w (fun i q => shape i (pt q)) (fun k q => mode k (pt q)) = some (T, F))
    (factor u : Fin n → ℝ) (M : (X → ℝ) →ₗ[ℝ] ℝ) (hM : MeanOf M mode) (h0 : ∀ k : Fin n, (k : ℕ) = 0 → factor k = 1) :
    M (field shape (filterCell T F factor u)) = M (field shape u) := by
  have hlin : ∀ v : Fin n → ℝ, M (field mode v) = ∑ k, v k * M (mode k) := by
    intro v
    have : field mode v = ∑ k, v k • mode k := by
      funext y; simp [field, Finset.sum_apply]
    rw [this, map_sum]
    simp
  obtain ⟨A, hA'⟩ := id hA
  have hrep : ∀ y, field shape u y = field mode (fun k => ∑ i, u i * A k i) y := by
    intro y
    unfold field
    simp only [hA', Finset.mul_sum, Finset.sum_mul]
    rw [Finset.sum_comm]
    refine Finset.sum_congr rfl fun k _ => Finset.sum_congr rfl fun i _ => by ring
  rw [funext fun x => C57_modes shape mode hA w pt hTF factor u _ hrep x, funext hrep]
  rw [hlin, hlin]
  refine Finset.sum_congr rfl fun k _ => ?_
  by_cases hk : (k : ℕ) = 0
  · rw [h0 k hk, one_mul]
  · rw [hM k hk, mul_zero, mul_zero]

/-- **C57** On a mesh whose cells do not share degrees of freedom (discontinuous elements), the filter changes each cell as if it was alone, and
degrees of freedom of other cells not at all. (For continuous elements see `C57_continuous_fails`.) -/
theorem C57_mesh_partial {C D : Type*} [DecidableEq D] (T F : Matrix (Fin n) (Fin n) ℝ) (factor : Fin n → ℝ) (dof : C → Fin n → D)
    (hdof : ∀ c c' i i', dof c i = dof c' i' → c = c' ∧ i = i') (cells : List C) (hc : cells.Nodup) (u : D → ℝ) :
    (∀ c ∈ cells, (fun i => applyFilter T F factor dof cells u (dof c i)) = filterCell T F factor fun i => u (dof c i)) ∧
    (∀ d, (∀ c ∈ cells, ∀ i, dof c i ≠ d) → applyFilter T F factor dof cells u d = u d) :=
  ⟨fun c h => funext fun i => applyFilter_own T F factor dof hdof cells hc u c h i,
    fun d hd => applyFilter_other T F factor dof cells u d hd⟩

end Function

/-- **C57 (negation)** With cut-off 0, which the configuration accepts, the constant mode is damped, too: the mean is not kept. -/
theorem C57_cutoff_zero_fails (alpha s : ℝ) (p dim : ℕ) (hd : dim = 1 ∨ dim = 2 ∨ dim = 3) (ha : 0 < alpha) (bySum : Bool) :
    exponentialFactor alpha s 0 bySum p dim 0 < 1 := by
  have h0 : degree bySum p dim 0 = 0 := by
    rcases hd with rfl | rfl | rfl <;> cases bySum <;> simp [degree, degreeMax, degreeSum, runMax_eq]
  unfold exponentialFactor sigma
  rw [h0, if_pos (Nat.zero_le _), Real.exp_lt_one_iff]
  have : 0 < ((((0 : ℕ) : ℝ) + 1 - ((0 : ℕ) : ℝ)) / ((maxDegree bySum p dim : ℝ) + 1 - ((0 : ℕ) : ℝ))) ^ s := by
    apply Real.rpow_pos_of_pos
    apply div_pos
    · norm_num
    · have : (0 : ℝ) ≤ maxDegree bySum p dim := Nat.cast_nonneg _
      push_cast; linarith
  nlinarith

/-! ## A sample: linear elements in one dimension -/

namespace Sample

/-- The hat functions on the unit interval -/
def shape (i : Fin 2) (x : ℕ → ℝ) : ℝ := if i = 0 then 1 - x 0 else x 0

/-- The polynomials 1 and 2x-1 -/
def leg : ℕ → ℝ → ℝ
  | 0, _ => 1
  | _ + 1, x => 2 * x - 1

def mode (k : Fin 2) (x : ℕ → ℝ) : ℝ := evaluateLegendre leg 1 1 k x

/-- The end points of the interval, with equal weights -/
def pt (q : Fin 2) : ℕ → ℝ := fun _ => if q = 0 then 0 else 1

noncomputable def toM : Matrix (Fin 2) (Fin 2) ℝ := !![1 / 2, 1 / 2; -1 / 2, 1 / 2]
def fromM : Matrix (Fin 2) (Fin 2) ℝ := !![1, -1; 1, 1]

theorem quadLegendre_eq : quadLegendre (fun _ => 1 / 2) (fun k q => mode k (pt q)) = 1 := by
  ext i j
  fin_cases i <;> fin_cases j <;> simp [quadLegendre, mode, pt, evaluateLegendre, leg, Fin.sum_univ_two] <;> norm_num

theorem quadSource_eq : quadSource (fun _ => 1 / 2) (fun i q => shape i (pt q)) (fun k q => mode k (pt q)) = toM := by
  ext i j
  fin_cases i <;> fin_cases j <;>
    simp [quadSource, mode, pt, shape, evaluateLegendre, leg, Fin.sum_univ_two, toM] <;> norm_num

/-- The projections are computed for this element. -/
theorem projections_eq : projections (fun _ => 1 / 2) (fun i q => shape i (pt q)) (fun k q => mode k (pt q)) = some (toM, fromM) := by
  have h1 : invert (1 : Matrix (Fin 2) (Fin 2) ℝ) = some 1 := by simp [invert]
  have hm : toM * fromM = 1 := by
    ext i j
    fin_cases i <;> fin_cases j <;> simp [toM, fromM, Matrix.mul_apply, Fin.sum_univ_two] <;> norm_num
  have h2 : invert toM = some fromM := by
    have hd : toM.det ≠ 0 := by simp [toM, Matrix.det_fin_two]; norm_num
    unfold invert
    rw [if_pos hd, Matrix.inv_eq_right_inv hm]
  unfold projections
  rw [quadLegendre_eq, h1]
  simp only [Matrix.one_mul, quadSource_eq, h2]

theorem spanned : SpannedBy shape mode := by
  refine ⟨fun k i => if k = 0 then 1 / 2 else if i = 0 then -1 / 2 else 1 / 2, fun i x => ?_⟩
  fin_cases i <;> simp [shape, mode, evaluateLegendre, leg, Fin.sum_univ_two] <;> ring

/-- The mean by the trapezoidal rule (exact for linear functions) -/
noncomputable def mean : ((ℕ → ℝ) → ℝ) →ₗ[ℝ] ℝ where
  toFun f := (f (pt 0) + f (pt 1)) / 2
  map_add' f g := by simp; ring
  map_smul' c f := by simp; ring

theorem meanOf : MeanOf mean mode := by
  intro k hk
  have : k = 1 := by omega
  subst this
  simp [mean, mode, pt, evaluateLegendre, leg]; norm_num

/-- Non-vacuity of `C57_modes` and `C57_mean`: the function with values 0 and 1 in the end points has modes 1/2 and 1/2; filtered with the default
parameters, the second one becomes `exp (-10) / 2`, and the mean is kept. -/
example : (∀ x, field shape (filterCell toM fromM (fun k => exponentialFactor 10 20 1 false 1 1 k) ![0, 1]) x =
      1 / 2 + Real.exp (-10) * (1 / 2) * (2 * x 0 - 1)) ∧
    mean (field shape (filterCell toM fromM (fun k => exponentialFactor 10 20 1 false 1 1 k) ![0, 1])) = 1 / 2 := by
  have h0 : exponentialFactor 10 20 1 false 1 1 0 = 1 := by simp [exponentialFactor, sigma, degree, degreeMax]
  have h1 : exponentialFactor 10 20 1 false 1 1 1 = Real.exp (-10) := by simp [exponentialFactor, sigma, degree, degreeMax, maxDegree]
  constructor
  · intro x
    rw [C57_modes shape mode spanned _ _ projections_eq _ ![0, 1] ![1 / 2, 1 / 2]]
    · simp [field, mode, evaluateLegendre, leg, Fin.sum_univ_two, h0, h1]
    · intro x
      simp [field, mode, shape, evaluateLegendre, leg, Fin.sum_univ_two]; ring
  · rw [C57_mean shape mode spanned _ _ projections_eq _ ![0, 1] mean meanOf]
    · simp [mean, field, shape, pt, Fin.sum_univ_two]
    · intro k hk
      rw [hk]; exact h0

theorem filterCell_eq (σ a b : ℝ) : filterCell toM fromM ![1, σ] ![a, b] = ![(a + b) / 2 - σ * ((b - a) / 2), (a + b) / 2 + σ * ((b - a) / 2)] := by
  funext i
  fin_cases i <;> simp [filterCell, toM, fromM, Matrix.mulVec, dotProduct, Fin.sum_univ_two] <;> ring

/-- Two neighbouring cells that share a degree of freedom: continuous linear elements -/
def dof (c : Fin 2) (i : Fin 2) : Fin 3 := ⟨c + i, by omega⟩

/-- **C57 (negation)** With continuous elements, as the semi-Lagrangian scheme uses them, cells share degrees of freedom and are filtered one after the
other, each with values its neighbours have already changed: the mean of the second cell and the total change, for every factor of the linear mode but 1. -/
theorem C57_continuous_fails (σ : ℝ) (hσ : σ ≠ 1) (hσ0 : 0 ≤ σ) (u : Fin 3 → ℝ) (hu : u = ![0, 1, 0]) :
    (∀ v, v = applyFilter toM fromM ![1, σ] dof [0, 1] u → (v 1 + v 2) / 2 ≠ (u 1 + u 2) / 2 ∧
      (v 0 + v 1) / 2 + (v 1 + v 2) / 2 ≠ (u 0 + u 1) / 2 + (u 1 + u 2) / 2) := by
  subst hu
  have d00 : dof 0 0 = 0 := rfl
  have d01 : dof 0 1 = 1 := rfl
  have d10 : dof 1 0 = 1 := rfl
  have d11 : dof 1 1 = 2 := rfl
  have hw : ∀ (c : Fin 2) (w : Fin 2 → ℝ) (f : Fin 3 → ℝ), writeCell (dof c) w f =
      Function.update (Function.update f (dof c 0) (w 0)) (dof c 1) (w 1) := fun c w f => rfl
  have hv : ∀ f : Fin 3 → ℝ, ∀ c, (fun i => f (dof c i)) = ![f (dof c 0), f (dof c 1)] := by
    intro f c; funext i; fin_cases i <;> rfl
  have key : applyFilter toM fromM ![1, σ] dof [0, 1] ![0, 1, 0] = ![(1 - σ) / 2, (1 + σ) ^ 2 / 4, (1 - σ ^ 2) / 4] := by
    unfold applyFilter
    simp only [List.foldl_cons, List.foldl_nil, hv, hw, filterCell_eq, d00, d01, d10, d11]
    funext i
    fin_cases i <;> simp [Function.update] <;> ring
  intro v hvv
  rw [hvv, key]
  constructor
  · simp
    intro h
    have h2 : (σ - 1) = 0 := by nlinarith
    exact hσ (by linarith)
  · simp
    intro h
    have h2 : (σ - 1) * (σ + 5 / 3) = 0 := by nlinarith
    rcases mul_eq_zero.1 h2 with h3 | h3
    · exact hσ (by linarith)
    · linarith

end Sample

/-! ## The limiter -/

/-- **C58 (negation)** The limiter does nothing: a value outside of the range of its sources stays outside. -/
theorem C58_fails : ∃ (matrix : Unit → List (Fin 2 × ℝ)) (source : Fin 2 → ℝ),
    ¬ InRange (matrix ()) source (limiterApply matrix (vmult matrix source) source ()) := by
  refine ⟨fun _ => [(0, 3 / 2), (1, -1 / 2)], fun i => if i = 0 then 1 else 0, ?_⟩
  rintro ⟨-, e, he, -, h⟩
  simp [limiterApply, vmult] at h he
  rcases he with rfl | rfl <;> norm_num at h

/-- **C58** What remains: the limiter does not change any value; and values streamed with non-negative coefficients that add up to one lie in the range of
their sources without it. -/
theorem C58_partial {R C : Type*} (matrix : R → List (C × ℝ)) (source : C → ℝ) :
    (∀ target, limiterApply matrix target source = target) ∧
    ∀ r, (∀ e ∈ matrix r, 0 ≤ e.2) → ((matrix r).map Prod.snd).sum = 1 →
      InRange (matrix r) source (limiterApply matrix (vmult matrix source) source r) := by
  refine ⟨fun _ => rfl, fun r h0 h1 => ?_⟩
  have lower : ∀ (l : List (C × ℝ)) (v : ℝ), (∀ e ∈ l, 0 ≤ e.2) → (∀ e ∈ l, e.2 ≠ 0 → v < source e.1) →
      v * (l.map Prod.snd).sum ≤ (l.map fun e => e.2 * source e.1).sum ∧
      ((l.map Prod.snd).sum ≠ 0 → v * (l.map Prod.snd).sum < (l.map fun e => e.2 * source e.1).sum) := by
    intro l v
    induction l with
    | nil => intro _ _; simp
    | cons a l ih =>
      intro hn hv
      obtain ⟨i1, i2⟩ := ih (fun e he => hn e (List.mem_cons_of_mem _ he)) fun e he => hv e (List.mem_cons_of_mem _ he)
      have ha := hn a List.mem_cons_self
      simp only [List.map_cons, List.sum_cons, mul_add]
      by_cases hz : a.2 = 0
      · rw [hz]; simp only [mul_zero, zero_mul, zero_add]; exact ⟨i1, i2⟩
      · have h2 := hv a List.mem_cons_self hz
        have h3 : 0 < a.2 := lt_of_le_of_ne ha (Ne.symm hz)
        have h4 : v * a.2 < a.2 * source a.1 := by nlinarith
        exact ⟨by linarith, fun _ => by linarith⟩
  have upper : ∀ (l : List (C × ℝ)) (v : ℝ), (∀ e ∈ l, 0 ≤ e.2) → (∀ e ∈ l, e.2 ≠ 0 → source e.1 < v) →
      (l.map fun e => e.2 * source e.1).sum ≤ v * (l.map Prod.snd).sum ∧
      ((l.map Prod.snd).sum ≠ 0 → (l.map fun e => e.2 * source e.1).sum < v * (l.map Prod.snd).sum) := by
    intro l v
    induction l with
    | nil => intro _ _; simp
    | cons a l ih =>
      intro hn hv
      obtain ⟨i1, i2⟩ := ih (fun e he => hn e (List.mem_cons_of_mem _ he)) fun e he => hv e (List.mem_cons_of_mem _ he)
      have ha := hn a List.mem_cons_self
      simp only [List.map_cons, List.sum_cons, mul_add]
      by_cases hz : a.2 = 0
      · rw [hz]; simp only [mul_zero, zero_mul, zero_add]; exact ⟨i1, i2⟩
      · have h2 := hv a List.mem_cons_self hz
        have h3 : 0 < a.2 := lt_of_le_of_ne ha (Ne.symm hz)
        have h4 : a.2 * source a.1 < v * a.2 := by nlinarith
        exact ⟨by linarith, fun _ => by linarith⟩
  constructor
  · by_contra hc
    push Not at hc
    have := (lower (matrix r) (limiterApply matrix (vmult matrix source) source r) h0 hc).2 (by rw [h1]; exact one_ne_zero)
    rw [h1, mul_one] at this
    exact lt_irrefl _ this
  · by_contra hc
    push Not at hc
    have := (upper (matrix r) (limiterApply matrix (vmult matrix source) source r) h0 hc).2 (by rw [h1]; exact one_ne_zero)
    rw [h1, mul_one] at this
    exact lt_irrefl _ this

/-- Non-vacuity: the mean of two values -/
example : InRange [((0 : Fin 2), (1 / 2 : ℝ)), (1, 1 / 2)] (fun i => if i = 0 then 1 else 3)
    (limiterApply (fun _ : Unit => [((0 : Fin 2), (1 / 2 : ℝ)), (1, 1 / 2)])
      (vmult (fun _ => [((0 : Fin 2), (1 / 2 : ℝ)), (1, 1 / 2)]) fun i => if i = 0 then 1 else 3) (fun i => if i = 0 then 1 else 3) ()) :=
  (C58_partial (fun _ : Unit => [((0 : Fin 2), (1 / 2 : ℝ)), (1, 1 / 2)]) fun i => if i = 0 then 1 else 3).2 ()
    (by simp) (by norm_num)

end Smoothing
end NATriuM
