import Verif.Spec.Tables
import Verif.Lemmas.Statistics
import Verif.Lemmas.SolverLoop
import Mathlib.Tactic.Linarith
import Mathlib.Tactic.FieldSimp
import Mathlib.Tactic.NormNum

/-!
# Lemmas on the tables
-/

namespace NATriuM
namespace Tables

section Plane

variable {N : Type*} [Fintype N] [DecidableEq N]

theorem sum_planes {processes : List (List N)} (h : Stats.Distributed processes) (coordinate : N → ℝ) (wall tol : ℝ) (g : N → ℝ) :
    ((processes.map (planeIndices coordinate wall tol)).map fun l => (l.map g).sum).sum = ∑ i ∈ plane coordinate wall tol, g i := by
  have e : ∀ l : List N, ((planeIndices coordinate wall tol l).map g).sum =
      (l.map fun i => if i ∈ plane coordinate wall tol then g i else 0).sum := by
    intro l
    induction l with
    | nil => rfl
    | cons i l ih =>
      have hi : i ∈ plane coordinate wall tol ↔ |coordinate i - wall| < tol := by simp [plane]
      rw [List.map_cons, List.sum_cons, ← ih, planeIndices, List.filter_cons]
      by_cases hc : |coordinate i - wall| < tol
      · rw [if_pos (by simpa using hc), if_pos (hi.2 hc), List.map_cons, List.sum_cons]; rfl
      · rw [if_neg (by simpa using hc), if_neg (fun m => hc (hi.1 m)), zero_add]; rfl
  rw [List.map_map]
  have : ((fun l => (l.map g).sum) ∘ planeIndices coordinate wall tol) =
      fun l : List N => (l.map fun i => if i ∈ plane coordinate wall tol then g i else 0).sum := funext e
  rw [this]
  have := Stats.overProcesses_eq h fun i => if i ∈ plane coordinate wall tol then g i else 0
  rw [Stats.overProcesses] at this
  rw [this, ← Finset.sum_filter]
  congr 1
  ext i; simp

theorem planeSize_eq {processes : List (List N)} (h : Stats.Distributed processes) (coordinate : N → ℝ) (wall tol : ℝ) :
    planeSize (processes.map (planeIndices coordinate wall tol)) = (plane coordinate wall tol).card := by
  have := sum_planes h coordinate wall tol fun _ => 1
  simp only [List.map_const', List.sum_replicate, mul_one, Finset.sum_const, nsmul_eq_mul] at this
  have e : (((processes.map (planeIndices coordinate wall tol)).map fun l => (l.length : ℝ)).sum) =
      ((planeSize (processes.map (planeIndices coordinate wall tol)) : ℕ) : ℝ) := by
    rw [planeSize, Nat.cast_list_sum, List.map_map (f := List.length)]
    rfl
  rw [e] at this
  exact_mod_cast this

end Plane

section Errors

open Stats

variable {d n nq : ℕ} {C N : Type*}

theorem cellError_sq (fe : FE ℝ d n nq C N) (hw : ∀ c q, 0 ≤ fe.jxw c q) (u : N → ℝ) (exact : C → Fin nq → ℝ) (c : C) :
    cellError fe u exact c ^ 2 = ∑ q, (discrete fe u c q - exact c q) ^ 2 * fe.jxw c q :=
  Real.sq_sqrt (Finset.sum_nonneg fun q _ => mul_nonneg (sq_nonneg _) (hw c q))

theorem localError_mul (fe : FE ℝ d n nq C N) (u : N → ℝ) (exact : C → Fin nq → ℝ) (owned : List C) :
    localError fe u exact owned * localError fe u exact owned = (owned.map fun c => cellError fe u exact c ^ 2).sum :=
  Real.mul_self_sqrt (List.sum_nonneg fun x hx => by obtain ⟨c, -, rfl⟩ := List.mem_map.1 hx; exact sq_nonneg _)

variable [DecidableEq N]

theorem writeCell_density (dof : C → Fin n → N) (reference : Buffers d N) (c : C) (l : List (Fin n)) (b : Buffers d N) (i : N) :
    (l.foldl (fun b i =>
      { density := Function.update b.density (dof c i) (reference.density (dof c i))
        velocity := fun a => Function.update (b.velocity a) (dof c i) (reference.velocity a (dof c i)) }) b).density i =
      if ∃ j ∈ l, dof c j = i then reference.density i else b.density i := by
  induction l generalizing b with
  | nil => simp
  | cons j l ih =>
    rw [List.foldl_cons, ih]
    by_cases h : ∃ j ∈ l, dof c j = i
    · rw [if_pos h, if_pos (by obtain ⟨j', h1, h2⟩ := h; exact ⟨j', List.mem_cons_of_mem _ h1, h2⟩)]
    · rw [if_neg h]
      by_cases hj : dof c j = i
      · subst hj
        rw [if_pos ⟨j, List.mem_cons_self, rfl⟩]
        exact Function.update_self ..
      · rw [if_neg]
        · exact Function.update_of_ne (Ne.symm hj) ..
        rintro ⟨j', h1, h2⟩
        rcases List.mem_cons.1 h1 with rfl | h1
        · exact hj h2
        · exact h ⟨j', h1, h2⟩

theorem writeCell_velocity (dof : C → Fin n → N) (reference : Buffers d N) (c : C) (l : List (Fin n)) (b : Buffers d N) (a : Fin d) (i : N) :
    (l.foldl (fun b i =>
      { density := Function.update b.density (dof c i) (reference.density (dof c i))
        velocity := fun a => Function.update (b.velocity a) (dof c i) (reference.velocity a (dof c i)) }) b).velocity a i =
      if ∃ j ∈ l, dof c j = i then reference.velocity a i else b.velocity a i := by
  induction l generalizing b with
  | nil => simp
  | cons j l ih =>
    rw [List.foldl_cons, ih]
    by_cases h : ∃ j ∈ l, dof c j = i
    · rw [if_pos h, if_pos (by obtain ⟨j', h1, h2⟩ := h; exact ⟨j', List.mem_cons_of_mem _ h1, h2⟩)]
    · rw [if_neg h]
      by_cases hj : dof c j = i
      · subst hj
        rw [if_pos ⟨j, List.mem_cons_self, rfl⟩]
        exact Function.update_self ..
      · rw [if_neg]
        · exact Function.update_of_ne (Ne.symm hj) ..
        rintro ⟨j', h1, h2⟩
        rcases List.mem_cons.1 h1 with rfl | h1
        · exact hj h2
        · exact h ⟨j', h1, h2⟩

theorem writeAnalytic_eq (dof : C → Fin n → N) (reference : Buffers d N) (processes : List (List C))
    (all : ∀ i, ∃ c ∈ processes.flatten, ∃ j, dof c j = i) (b : Buffers d N) : writeAnalytic dof reference processes b = reference := by
  have gen : ∀ (l : List C) (b : Buffers d N) (i : N), (∃ c ∈ l, ∃ j, dof c j = i) ∨ b.density i = reference.density i ∧
      (∀ a, b.velocity a i = reference.velocity a i) →
      (l.foldl (fun b c => (List.finRange n).foldl (fun b i =>
        { density := Function.update b.density (dof c i) (reference.density (dof c i))
          velocity := fun a => Function.update (b.velocity a) (dof c i) (reference.velocity a (dof c i)) }) b) b).density i =
          reference.density i ∧ ∀ a,
      (l.foldl (fun b c => (List.finRange n).foldl (fun b i =>
        { density := Function.update b.density (dof c i) (reference.density (dof c i))
          velocity := fun a => Function.update (b.velocity a) (dof c i) (reference.velocity a (dof c i)) }) b) b).velocity a i =
          reference.velocity a i := by
    intro l
    induction l with
    | nil =>
      rintro b i (⟨c, h, -⟩ | h)
      · cases h
      · exact h
    | cons c l ih =>
      intro b i h
      rw [List.foldl_cons]
      apply ih
      by_cases hl : ∃ c ∈ l, ∃ j, dof c j = i
      · exact .inl hl
      · right
        by_cases hc : ∃ j ∈ List.finRange n, dof c j = i
        · exact ⟨by rw [writeCell_density, if_pos hc], fun a => by rw [writeCell_velocity, if_pos hc]⟩
        · have hb : b.density i = reference.density i ∧ ∀ a, b.velocity a i = reference.velocity a i := by
            rcases h with ⟨c', hc', j, hj⟩ | h
            · rcases List.mem_cons.1 hc' with rfl | hc'
              · exact absurd ⟨j, List.mem_finRange j, hj⟩ hc
              · exact absurd ⟨c', hc', j, hj⟩ hl
            · exact h
          exact ⟨by rw [writeCell_density, if_neg hc]; exact hb.1, fun a => by rw [writeCell_velocity, if_neg hc]; exact hb.2 a⟩
  have h := fun i => gen processes.flatten b i (.inl (all i))
  rw [writeAnalytic]
  obtain ⟨r1, r2⟩ := reference
  generalize List.foldl _ b processes.flatten = x at h ⊢
  obtain ⟨x1, x2⟩ := x
  congr 1
  · exact funext fun i => (h i).1
  · exact funext fun a => funext fun i => (h i).2 a

end Errors

end Tables
end NATriuM
