import Verif.Spec.Statistics
import Mathlib.Data.Fintype.Basic
import Mathlib.Algebra.Order.BigOperators.Ring.Finset
import Mathlib.Tactic.Ring
import Mathlib.Tactic.Linarith
import Mathlib.Tactic.Positivity

/-!
# Lemmas about sums over processes and quadrature points
-/

namespace NATriuM
namespace Stats

section

variable {K : Type*} [Field K] {d n nq : ℕ} {C N : Type*}

theorem Distributed.coe_eq [Fintype C] [DecidableEq C] {processes : List (List C)} (h : Distributed processes) :
    (processes.flatten : Multiset C) = (Finset.univ : Finset C).val := by
  ext c
  rw [Multiset.coe_count, h c, Multiset.count_univ]

theorem overProcesses_eq [Fintype C] [DecidableEq C] {processes : List (List C)} (h : Distributed processes) (g : C → K) :
    overProcesses processes g = ∑ c, g c := by
  have e : overProcesses processes g = (processes.flatten.map g).sum := by
    rw [List.map_flatten, List.sum_flatten, List.map_map]
    rfl
  rw [e, Finset.sum, ← h.coe_eq, Multiset.map_coe, Multiset.sum_coe]

theorem functionValue_eq (fe : FE K d n nq C N) (u : N → K) : functionValue fe u = discrete fe u := rfl

theorem functionGradient_eq (fe : FE K d n nq C N) (u : N → K) (c : C) (q : Fin nq) (k : Fin d) :
    functionGradient fe u c q k = derivative fe u k c q := rfl

theorem integral_const [Fintype C] (fe : FE K d n nq C N) (r : K) : integral fe (fun _ _ => r) = r * volume fe := by
  simp only [volume, integral, Finset.mul_sum, one_mul]

theorem discrete_const (fe : FE K d n nq C N) (h : PartitionOfUnity fe) (r : K) (c : C) (q : Fin nq) :
    discrete fe (fun _ => r) c q = r := by
  rw [discrete, ← Finset.mul_sum, h c q, mul_one]

theorem discrete_collocated (fe : FE K d n nq C N) {node : Fin nq → Fin n} (h : Collocated fe node) (u : N → K) (c : C) (q : Fin nq) :
    discrete fe u c q = u (fe.dof c (node q)) := by
  simp [discrete, h c _ q]

theorem collocated_partitionOfUnity (fe : FE K d n nq C N) {node : Fin nq → Fin n} (h : Collocated fe node) : PartitionOfUnity fe := by
  intro c q
  simp [h c _ q]

end

section

variable {K : Type*} [Field K] [LinearOrder K] [IsStrictOrderedRing K] {d n nq : ℕ} {C N : Type*}

theorem integral_mono [Fintype C] (fe : FE K d n nq C N) (hw : ∀ c q, 0 ≤ fe.jxw c q) {g h : C → Fin nq → K}
    (le : ∀ c q, g c q ≤ h c q) : integral fe g ≤ integral fe h :=
  Finset.sum_le_sum fun c _ => Finset.sum_le_sum fun q _ => mul_le_mul_of_nonneg_right (le c q) (hw c q)

theorem integral_nonneg [Fintype C] (fe : FE K d n nq C N) (hw : ∀ c q, 0 ≤ fe.jxw c q) {g : C → Fin nq → K}
    (h : ∀ c q, 0 ≤ g c q) : 0 ≤ integral fe g :=
  Finset.sum_nonneg fun c _ => Finset.sum_nonneg fun q _ => mul_nonneg (h c q) (hw c q)

/-- The inequality of Cauchy and Schwarz for the quadrature. -/
theorem integral_cauchy_schwarz [Fintype C] (fe : FE K d n nq C N) (hw : ∀ c q, 0 ≤ fe.jxw c q) (g h : C → Fin nq → K) :
    integral fe (fun c q => g c q * h c q) ^ 2 ≤ integral fe (fun c q => g c q * g c q) * integral fe (fun c q => h c q * h c q) := by
  set A := integral fe (fun c q => g c q * g c q) with hA
  set B := integral fe (fun c q => g c q * h c q) with hB
  set D := integral fe (fun c q => h c q * h c q) with hD
  have quad : ∀ s t : K, 0 ≤ s * s * A + 2 * (s * t) * B + t * t * D := by
    intro s t
    have : s * s * A + 2 * (s * t) * B + t * t * D
        = integral fe (fun c q => (s * g c q + t * h c q) * (s * g c q + t * h c q)) := by
      simp only [hA, hB, hD, integral, Finset.mul_sum, ← Finset.sum_add_distrib]
      exact Finset.sum_congr rfl fun c _ => Finset.sum_congr rfl fun q _ => by ring
    rw [this]
    exact integral_nonneg fe hw fun c q => mul_self_nonneg _
  have hA0 : 0 ≤ A := integral_nonneg fe hw fun c q => mul_self_nonneg _
  rcases hA0.eq_or_lt with h0 | h0
  · -- the first integral vanishes: so does the mixed one
    have : B = 0 := by
      by_contra hne
      have := quad (-(D + 1) / (2 * B)) 1
      rw [← h0] at this
      have hs : 2 * (-(D + 1) / (2 * B) * 1) * B = -(D + 1) := by
        rw [mul_one]
        field_simp
      rw [hs] at this
      linarith
    rw [this, ← h0]
    simp
  · have := quad (-B) A
    have e : -B * -B * A + 2 * (-B * A) * B + A * A * D = A * (A * D - B ^ 2) := by ring
    rw [e] at this
    have := (mul_nonneg_iff_of_pos_left h0).1 this
    linarith

end

end Stats
end NATriuM
