import Verif.Lemmas.Tables
import Verif.Props.SolverLoop
import Mathlib.Algebra.BigOperators.Fin
import Mathlib.Tactic.FinCases

/-!
# C81, C82, C83, and C29 for the benchmark solver
-/

namespace NATriuM
namespace Tables

/-! ## C81: statistics in planes, averages over time -/

section Plane

variable {N : Type*} [Fintype N] [DecidableEq N] {processes : List (List N)} {coordinate : N → ℝ} {wall tol : ℝ}

/-- **C81**: the average in a plane is the mean over the nodes of the plane, however the nodes are distributed over the processes. -/
theorem C81_average_partial (h : Stats.Distributed processes) (hn : (plane coordinate wall tol).Nonempty) (u : N → ℝ) :
    planeAverage (processes.map (planeIndices coordinate wall tol)) u = some (mean (plane coordinate wall tol) u) := by
  have hc : (plane coordinate wall tol).card ≠ 0 := (Finset.card_pos.2 hn).ne'
  rw [planeAverage, planeSize_eq h, if_neg hc, sum_planes h, mean]

/-- **C81**: the fluctuation in a plane is the standard deviation over its nodes. -/
theorem C81_rms_partial (h : Stats.Distributed processes) (hn : (plane coordinate wall tol).Nonempty) (u : N → ℝ) :
    planeRms (processes.map (planeIndices coordinate wall tol)) u = some (deviation (plane coordinate wall tol) u) := by
  rw [planeRms, C81_average_partial h hn]
  simp only
  rw [planeSize_eq h, sum_planes h]
  rfl

omit [Fintype N] [DecidableEq N] in
theorem mean_sq_nonneg (s : Finset N) (g : N → ℝ) : 0 ≤ mean s fun i => g i ^ 2 :=
  div_nonneg (Finset.sum_nonneg fun _ _ => sq_nonneg _) (Nat.cast_nonneg _)

/-- The square of the fluctuation is the mean square minus the square of the mean. -/
theorem C81_rms_square (h : Stats.Distributed processes) (hn : (plane coordinate wall tol).Nonempty) (u : N → ℝ) {r : ℝ}
    (hr : planeRms (processes.map (planeIndices coordinate wall tol)) u = some r) :
    0 ≤ r ∧ r ^ 2 = mean (plane coordinate wall tol) (fun i => u i ^ 2) - mean (plane coordinate wall tol) u ^ 2 := by
  rw [C81_rms_partial h hn] at hr
  cases hr
  refine ⟨Real.sqrt_nonneg _, ?_⟩
  have hc : ((plane coordinate wall tol).card : ℝ) ≠ 0 := by exact_mod_cast (Finset.card_pos.2 hn).ne'
  rw [deviation, Real.sq_sqrt (mean_sq_nonneg _ _)]
  simp only [mean, sub_sq, Finset.sum_add_distrib, Finset.sum_sub_distrib, Finset.sum_const, nsmul_eq_mul, ← Finset.sum_mul,
    ← Finset.mul_sum]
  field_simp
  ring

/-- The fluctuation vanishes exactly if the quantity is the same in all nodes of the plane. -/
theorem C81_rms_zero (h : Stats.Distributed processes) (hn : (plane coordinate wall tol).Nonempty) (u : N → ℝ) :
    planeRms (processes.map (planeIndices coordinate wall tol)) u = some 0 ↔
      ∀ i ∈ plane coordinate wall tol, ∀ j ∈ plane coordinate wall tol, u i = u j := by
  have hc : (0 : ℝ) < (plane coordinate wall tol).card := by exact_mod_cast Finset.card_pos.2 hn
  rw [C81_rms_partial h hn, Option.some_inj, deviation,
    Real.sqrt_eq_zero (mean_sq_nonneg _ _)]
  conv_lhs => rw [mean]
  rw [div_eq_zero_iff, or_iff_left hc.ne', Finset.sum_eq_zero_iff_of_nonneg fun i _ => sq_nonneg _]
  constructor
  · intro h i hi j hj
    have h1 := h i hi
    have h2 := h j hj
    rw [pow_eq_zero_iff two_ne_zero] at h1 h2
    linarith
  · intro h i hi
    have : mean (plane coordinate wall tol) u = u i := by
      rw [mean, Finset.sum_congr rfl fun j hj => h j hj i hi, Finset.sum_const, nsmul_eq_mul, mul_div_cancel_left₀ _ hc.ne']
    rw [this, sub_self, zero_pow two_ne_zero]

/-- The average lies between the bounds of the quantity in the plane. -/
theorem C81_average_bounds (h : Stats.Distributed processes) (u : N → ℝ) {lo hi m : ℝ}
    (hb : ∀ i ∈ plane coordinate wall tol, lo ≤ u i ∧ u i ≤ hi)
    (hm : planeAverage (processes.map (planeIndices coordinate wall tol)) u = some m) : lo ≤ m ∧ m ≤ hi := by
  rcases (plane coordinate wall tol).eq_empty_or_nonempty with he | hn
  · rw [planeAverage, planeSize_eq h, he] at hm
    simp at hm
  rw [C81_average_partial h hn] at hm
  cases hm
  have hc : (0 : ℝ) < (plane coordinate wall tol).card := by exact_mod_cast Finset.card_pos.2 hn
  rw [mean, le_div_iff₀ hc, div_le_iff₀ hc]
  constructor
  · rw [mul_comm, ← nsmul_eq_mul, ← Finset.sum_const]
    exact Finset.sum_le_sum fun i hi => (hb i hi).1
  · rw [mul_comm, ← nsmul_eq_mul, ← Finset.sum_const]
    exact Finset.sum_le_sum fun i hi => (hb i hi).2

omit [DecidableEq N] in
/-- If the layers of nodes are at least two tolerances apart, a plane does not mix layers. -/
theorem C81_one_layer (apart : ∀ i j, coordinate i ≠ coordinate j → 2 * tol ≤ |coordinate i - coordinate j|) {i j : N}
    (hi : i ∈ plane coordinate wall tol) (hj : j ∈ plane coordinate wall tol) : coordinate i = coordinate j := by
  simp only [plane, Finset.mem_filter, Finset.mem_univ, true_and] at hi hj
  by_contra hne
  have h1 := apart i j hne
  have h2 : |coordinate i - coordinate j| ≤ |coordinate i - wall| + |coordinate j - wall| := by
    rw [abs_sub_comm (coordinate j) wall]
    exact abs_sub_le _ _ _
  linarith

/-- C81 fails for a plane in which there are no nodes: there is no average, the program divides zero by zero and prints the result. -/
theorem C81_empty_fails (h : Stats.Distributed processes) (hn : ∀ i, tol ≤ |coordinate i - wall|) (u : N → ℝ) :
    planeAverage (processes.map (planeIndices coordinate wall tol)) u = none ∧
    planeRms (processes.map (planeIndices coordinate wall tol)) u = none := by
  have he : plane coordinate wall tol = ∅ := by
    ext i
    simpa [plane] using hn i
  have ha : planeAverage (processes.map (planeIndices coordinate wall tol)) u = none := by
    rw [planeAverage, planeSize_eq h, he, Finset.card_empty, if_pos rfl]
  exact ⟨ha, by rw [planeRms, ha]⟩

end Plane

theorem reynolds_fold {N : Type*} {d : ℕ} (l : List (Fin d → N → ℝ)) (r : Reynolds d N) :
    (l.foldl Reynolds.add r).statSize = r.statSize + l.length ∧
    ∀ a i, (l.foldl Reynolds.add r).average a i * (l.foldl Reynolds.add r).statSize =
      r.average a i * r.statSize + (l.map fun u => u a i).sum := by
  induction l generalizing r with
  | nil => simp
  | cons u l ih =>
    obtain ⟨h1, h2⟩ := ih (r.add u)
    rw [List.foldl_cons]
    refine ⟨by rw [h1, List.length_cons]; simp only [Reynolds.add]; omega, fun a i => ?_⟩
    rw [h2, List.map_cons, List.sum_cons]
    have : ((r.statSize : ℝ) + 1) ≠ 0 := by positivity
    simp only [Reynolds.add, Nat.cast_add, Nat.cast_one]
    field_simp
    ring

/-- **C81**: after any sequence of fields the averaged field is their arithmetic mean, in every node. -/
theorem C81_reynolds {N : Type*} {d : ℕ} (l : List (Fin d → N → ℝ)) (hl : l ≠ []) :
    (l.foldl Reynolds.add Reynolds.init).statSize = l.length ∧
    ∀ a i, (l.foldl Reynolds.add Reynolds.init).average a i = (l.map fun u => u a i).sum / l.length := by
  obtain ⟨h1, h2⟩ := reynolds_fold l (Reynolds.init : Reynolds d N)
  have h1' : (l.foldl Reynolds.add Reynolds.init).statSize = l.length := by rw [h1]; simp [Reynolds.init]
  refine ⟨h1', fun a i => ?_⟩
  have := h2 a i
  rw [h1'] at this
  have hl' : (l.length : ℝ) ≠ 0 := by exact_mod_cast (List.length_pos_of_ne_nil hl).ne'
  rw [eq_div_iff hl', this]
  simp [Reynolds.init]

/-- Two layers of two nodes, on two processes; the plane `y = 0` with tolerance 1/10 holds the first layer. -/
example : Stats.Distributed [[((0, 0) : Fin 2 × Fin 2), (1, 1)], [(0, 1), (1, 0)]] ∧
    plane (fun i : Fin 2 × Fin 2 => (i.1 : ℝ)) 0 (1 / 10) = {(0, 0), (0, 1)} ∧
    planeAverage ([[((0, 0) : Fin 2 × Fin 2), (1, 1)], [(0, 1), (1, 0)]].map (planeIndices (fun i => (i.1 : ℝ)) 0 (1 / 10)))
      (fun i => 5 * i.1 + 2 * i.2 + 1) = some 2 := by
  have hd : Stats.Distributed [[((0, 0) : Fin 2 × Fin 2), (1, 1)], [(0, 1), (1, 0)]] := by unfold Stats.Distributed; decide
  have hp : plane (fun i : Fin 2 × Fin 2 => (i.1 : ℝ)) 0 (1 / 10) = {(0, 0), (0, 1)} := by
    ext ⟨a, b⟩
    fin_cases a <;> fin_cases b <;> simp [plane] <;> norm_num
  refine ⟨hd, hp, ?_⟩
  rw [C81_average_partial hd (by rw [hp]; exact ⟨_, Finset.mem_insert_self _ _⟩), hp, mean]
  simp
  norm_num

/-! ## C82: errors -/

section Errors

open Stats

variable {d n nq : ℕ} {C N : Type*} [Fintype C] [DecidableEq C] {processes : List (List C)}

theorem sum_localError (h : Distributed processes) (fe : FE ℝ d n nq C N) (hw : ∀ c q, 0 ≤ fe.jxw c q) (u : N → ℝ) (exact : C → Fin nq → ℝ) :
    (processes.map fun owned => localError fe u exact owned * localError fe u exact owned).sum =
      integral fe fun c q => (discrete fe u c q - exact c q) ^ 2 := by
  simp only [localError_mul, cellError_sq fe hw]
  exact overProcesses_eq h fun c => ∑ q, (discrete fe u c q - exact c q) ^ 2 * fe.jxw c q

/-- **C82**: the density error is the `L²` norm of the difference between the discrete density and the reference, however the cells are
distributed over the processes. -/
theorem C82_density (h : Distributed processes) (fe : FE ℝ d n nq C N) (hw : ∀ c q, 0 ≤ fe.jxw c q) (rho : N → ℝ) (exact : C → Fin nq → ℝ) :
    l2DensityError fe processes rho exact = l2Norm fe rho exact := by
  rw [l2DensityError, sum_localError h fe hw, l2Norm]

/-- **C82**: the square of the velocity error is the sum of the squares of the `L²` norms of the errors of the components. -/
theorem C82_velocity (h : Distributed processes) (fe : FE ℝ d n nq C N) (hw : ∀ c q, 0 ≤ fe.jxw c q) (u : Fin d → N → ℝ)
    (exact : Fin d → C → Fin nq → ℝ) :
    0 ≤ l2VelocityError fe processes u exact ∧ l2VelocityError fe processes u exact ^ 2 = ∑ a, l2Norm fe (u a) (exact a) ^ 2 := by
  refine ⟨Real.sqrt_nonneg _, ?_⟩
  have e : (processes.map fun owned => ∑ a, localError fe (u a) (exact a) owned * localError fe (u a) (exact a) owned).sum =
      ∑ a, integral fe fun c q => (discrete fe (u a) c q - exact a c q) ^ 2 := by
    rw [← Finset.sum_congr rfl fun a _ => sum_localError h fe hw (u a) (exact a)]
    clear h
    induction processes with
    | nil => simp
    | cons x l ih => simp only [List.map_cons, List.sum_cons, Finset.sum_add_distrib, ih]
  rw [l2VelocityError, e, Real.sq_sqrt (Finset.sum_nonneg fun a _ => integral_nonneg fe hw fun c q => sq_nonneg _)]
  exact Finset.sum_congr rfl fun a _ => (Real.sq_sqrt (integral_nonneg fe hw fun c q => sq_nonneg _)).symm

omit [DecidableEq C] in
theorem l2Norm_eq_zero (fe : FE ℝ d n nq C N) (hw : ∀ c q, 0 < fe.jxw c q) (u : N → ℝ) (exact : C → Fin nq → ℝ) :
    l2Norm fe u exact = 0 ↔ ∀ c q, discrete fe u c q = exact c q := by
  have hw' : ∀ c q, 0 ≤ fe.jxw c q := fun c q => (hw c q).le
  rw [l2Norm, Real.sqrt_eq_zero (integral_nonneg fe hw' fun c q => sq_nonneg _), integral,
    Finset.sum_eq_zero_iff_of_nonneg fun c _ => Finset.sum_nonneg fun q _ => mul_nonneg (sq_nonneg _) (hw' c q)]
  constructor
  · intro h c q
    have := (Finset.sum_eq_zero_iff_of_nonneg fun q _ => mul_nonneg (sq_nonneg _) (hw' c q)).1 (h c (Finset.mem_univ _)) q (Finset.mem_univ _)
    rw [mul_eq_zero, or_iff_left (hw c q).ne', pow_eq_zero_iff two_ne_zero] at this
    linarith
  · intro h c _
    exact Finset.sum_eq_zero fun q _ => by rw [h c q, sub_self, zero_pow two_ne_zero, zero_mul]

/-- **C82**: the density error vanishes exactly if the discrete density is the reference in all quadrature points. -/
theorem C82_density_zero (h : Distributed processes) (fe : FE ℝ d n nq C N) (hw : ∀ c q, 0 < fe.jxw c q) (rho : N → ℝ)
    (exact : C → Fin nq → ℝ) : l2DensityError fe processes rho exact = 0 ↔ ∀ c q, discrete fe rho c q = exact c q := by
  rw [C82_density h fe (fun c q => (hw c q).le), l2Norm_eq_zero fe hw]

/-- **C82**: the velocity error vanishes exactly if all components are those of the reference in all quadrature points. -/
theorem C82_velocity_zero (h : Distributed processes) (fe : FE ℝ d n nq C N) (hw : ∀ c q, 0 < fe.jxw c q) (u : Fin d → N → ℝ)
    (exact : Fin d → C → Fin nq → ℝ) : l2VelocityError fe processes u exact = 0 ↔ ∀ a c q, discrete fe (u a) c q = exact a c q := by
  obtain ⟨-, h2⟩ := C82_velocity h fe (fun c q => (hw c q).le) u exact
  rw [← pow_eq_zero_iff two_ne_zero, h2, Finset.sum_eq_zero_iff_of_nonneg fun a _ => sq_nonneg _]
  refine ⟨fun h a => (l2Norm_eq_zero fe hw _ _).1 ((pow_eq_zero_iff two_ne_zero).1 (h a (Finset.mem_univ _))), fun h a _ => ?_⟩
  rw [(l2Norm_eq_zero fe hw _ _).2 (h a), zero_pow two_ne_zero]

/-- **C82**: if the discrete density is nowhere further than `e` from the reference, the error is at most `e` times the square root of the
volume. -/
theorem C82_density_bound (h : Distributed processes) (fe : FE ℝ d n nq C N) (hw : ∀ c q, 0 ≤ fe.jxw c q) (rho : N → ℝ)
    (exact : C → Fin nq → ℝ) {e : ℝ} (he : 0 ≤ e) (hb : ∀ c q, |discrete fe rho c q - exact c q| ≤ e) :
    l2DensityError fe processes rho exact ≤ e * √(volume fe) := by
  rw [C82_density h fe hw, l2Norm, Real.sqrt_le_left (mul_nonneg he (Real.sqrt_nonneg _)), mul_pow,
    Real.sq_sqrt (show 0 ≤ volume fe from integral_nonneg fe hw fun _ _ => zero_le_one), ← integral_const]
  refine integral_mono fe hw fun c q => ?_
  rw [← sq_abs]
  exact pow_le_pow_left₀ (abs_nonneg _) (hb c q) 2

variable [Fintype N]

omit [Fintype C] [DecidableEq C] in
/-- **C82**: the maximum density error is the largest distance from the reference over all nodes. -/
theorem C82_max_density [Nonempty N] (analytic numeric : N → ℝ) :
    IsGreatest (Set.range fun i => |numeric i - analytic i|) (maxDensityError analytic numeric) := by
  obtain ⟨i, hi⟩ := Finite.exists_max fun i => |analytic i - numeric i|
  have e : maxDensityError analytic numeric = |analytic i - numeric i| := by
    refine le_antisymm ((pi_norm_le_iff_of_nonneg (abs_nonneg _)).2 fun j => ?_) ?_
    · exact hi j
    · exact norm_le_pi_norm (fun i => analytic i - numeric i) i
  rw [e]
  refine ⟨⟨i, abs_sub_comm _ _⟩, ?_⟩
  rintro _ ⟨j, rfl⟩
  simp only [abs_sub_comm (numeric _)]
  exact hi j

omit [Fintype C] [DecidableEq C] in
/-- **C82**: the maximum velocity error is the largest Euclidean distance from the reference over all nodes. -/
theorem C82_max_velocity [Nonempty N] (analytic numeric : Fin d → N → ℝ) :
    IsGreatest (Set.range fun i => √(∑ a, (numeric a i - analytic a i) ^ 2)) (maxVelocityError analytic numeric) := by
  have e0 : (fun i => √(∑ a, (numeric a i - analytic a i) ^ 2)) = velocityErrorNorm analytic numeric := by
    funext i
    rw [velocityErrorNorm]
    congr 1
    exact Finset.sum_congr rfl fun a _ => by ring
  rw [e0]
  obtain ⟨i, hi⟩ := Finite.exists_max (velocityErrorNorm analytic numeric)
  have hnn : ∀ j, ‖velocityErrorNorm analytic numeric j‖ = velocityErrorNorm analytic numeric j := fun j =>
    Real.norm_of_nonneg (Real.sqrt_nonneg _)
  have e : maxVelocityError analytic numeric = velocityErrorNorm analytic numeric i := by
    refine le_antisymm ((pi_norm_le_iff_of_nonneg (Real.sqrt_nonneg _)).2 fun j => ?_) ?_
    · rw [hnn]; exact hi j
    · rw [← hnn i]; exact norm_le_pi_norm (velocityErrorNorm analytic numeric) i
  rw [e]
  refine ⟨⟨i, rfl⟩, ?_⟩
  rintro _ ⟨j, rfl⟩
  exact hi j

omit [Fintype C] [DecidableEq C] [Fintype N] in
/-- **C82**: whatever has been done with the buffers before, what is written next to the numerical solution as the analytic solution is the
reference solution of the moment, provided that every degree of freedom belongs to a cell owned by some process. -/
theorem C82_output [DecidableEq N] (dof : C → Fin n → N) (processes : List (List C))
    (all : ∀ i, ∃ c ∈ processes.flatten, ∃ j, dof c j = i) (history : List (BufferCall d N)) (b reference : Buffers d N) :
    addAnalyticSolutionToOutput dof reference processes (history.foldl (BufferCall.apply dof processes) b) = reference :=
  writeAnalytic_eq dof reference processes all _

omit [Fintype C] [DecidableEq C] [Fintype N] in
/-- **C82**: the maximum errors are formed with the reference solution of the moment in all nodes. -/
theorem C82_update [DecidableEq N] (dof : C → Fin n → N) (processes : List (List C))
    (all : ∀ i, ∃ c ∈ processes.flatten, ∃ j, dof c j = i) (b reference numeric : Buffers d N) (i : N) :
    (BufferCall.apply dof processes b (.update reference numeric)).density i = reference.density i - numeric.density i := by
  rw [BufferCall.apply, writeAnalytic_eq dof reference processes all]
  rfl

end Errors

/-- A line with two cells of length 2, one node in each, and one quadrature point with weight 2. -/
noncomputable def line : Stats.FE ℝ 1 1 1 (Fin 2) (Fin 2) where
  dof := fun c _ => c
  value := fun _ _ _ => 1
  grad := fun _ _ _ _ => 0
  jxw := fun _ _ => 2

/-- The documentation of the error (`P/solver/ErrorStats.h:107-123`) gives the root of the sum of the squared errors of the nodes.  That is
another number: the code weights them by the volume. -/
theorem C82_documented_fails : ∃ (rho exact : Fin 2 → ℝ), Stats.Distributed [[(0 : Fin 2)], [1]] ∧ (∀ c q, 0 < line.jxw c q) ∧
    l2DensityError line [[0], [1]] rho (fun c _ => exact c) ≠ √(∑ i, (rho i - exact i) ^ 2) := by
  refine ⟨fun _ => 1, fun _ => 0, ?_, fun _ _ => by simp [line], ?_⟩
  · unfold Stats.Distributed; decide
  · rw [C82_density (by unfold Stats.Distributed; decide) line (fun _ _ => by simp [line]), l2Norm]
    simp only [Stats.integral, Stats.discrete, line, Fin.sum_univ_two, Fin.sum_univ_one]
    rw [Ne, Real.sqrt_inj (by norm_num) (by norm_num)]
    norm_num

/-- Non-vacuity of C82 -/
example : l2DensityError line [[0], [1]] (fun _ => 3) (fun _ _ => 1) = 4 ∧
    (∀ i : Fin 2, ∃ c ∈ [[(0 : Fin 2)], [1]].flatten, ∃ j : Fin 1, line.dof c j = i) := by
  constructor
  · rw [C82_density (by unfold Stats.Distributed; decide) line (fun _ _ => by simp [line]), l2Norm]
    simp only [Stats.integral, Stats.discrete, line, Fin.sum_univ_two, Fin.sum_univ_one]
    rw [show (3 * 1 - 1 : ℝ) ^ 2 * 2 + (3 * 1 - 1) ^ 2 * 2 = 4 ^ 2 by norm_num]
    exact Real.sqrt_sq (by norm_num)
  · intro i
    fin_cases i
    · exact ⟨0, by simp, 0, rfl⟩
    · exact ⟨1, by simp, 0, rfl⟩

/-! ## C83: lines of the tables -/

section Lines

variable {β : Type*}

theorem lines_eq (calls : List (StatsCall β)) : ∀ (c : Cached β),
    (∀ x ∈ calls, ∀ y ∈ calls, x.iteration = y.iteration → x.current = y.current) →
    (∀ x ∈ calls, x.iteration = c.iteration → c.data = some x.current) →
    c.lines calls = (calls.filterMap StatsCall.line).map fun l => (l.1, some l.2) := by
  induction calls with
  | nil => exact fun _ _ _ => rfl
  | cons x calls ih =>
    intro c hc hd
    have hc' : ∀ x ∈ calls, ∀ y ∈ calls, x.iteration = y.iteration → x.current = y.current := fun x hx y hy =>
      hc x (List.mem_cons_of_mem _ hx) y (List.mem_cons_of_mem _ hy)
    have hx : ∀ y ∈ calls, y.iteration = x.iteration → some x.current = some y.current := fun y hy e =>
      congrArg some (hc x List.mem_cons_self y (List.mem_cons_of_mem _ hy) e.symm)
    have hcase : ∀ i cur, x.iteration = i → x.current = cur → ∀ y ∈ calls, y.iteration = (c.update i cur).iteration →
        (c.update i cur).data = some y.current := by
      rintro i cur rfl rfl y hy e
      rw [Cached.update] at e ⊢
      split at e
      next h => rw [if_pos h]; exact hd y (List.mem_cons_of_mem _ hy) e
      next h => rw [if_neg h]; exact hx y hy e
    cases x with
    | update i cur =>
      rw [Cached.lines, ih _ hc' (hcase i cur rfl rfl), List.filterMap_cons_none rfl]
    | forceUpdate i cur =>
      rw [Cached.lines, ih _ hc' fun y hy e => hx y hy e, List.filterMap_cons_none rfl]
    | print i cur =>
      have e1 : (c.printNewLine i cur).1 = c.update i cur := by
        rw [Cached.printNewLine]
        by_cases h : c.iteration = i
        · simp [h, Cached.update]
        · simp [h]
      have e2 : (c.printNewLine i cur).2 = (i, some cur) := by
        by_cases h : c.iteration = i
        · have := hd (.print i cur) List.mem_cons_self h.symm
          simp only [Cached.printNewLine, h, if_true]
          rw [this]; rfl
        · simp [Cached.printNewLine, h, Cached.update]
      rw [Cached.lines, e1, e2, ih _ hc' (hcase i cur rfl rfl)]
      rfl

/-- **C83** (partial: for sequences of calls in which the data belong to the iteration, and which avoid the iteration that marks a new
object): every line printed has the number of the iteration in which it is printed, and the data of that moment, whatever updates were
asked for in between. -/
theorem C83_lines_partial (c : Cached β) (hnew : c = .errorStats ∨ c = .solverStats ∨ c = .turbulenceStats) (calls : List (StatsCall β))
    (same : ∀ x ∈ calls, ∀ y ∈ calls, x.iteration = y.iteration → x.current = y.current)
    (below : ∀ x ∈ calls, x.iteration < 10 ^ 11) :
    c.lines calls = (calls.filterMap StatsCall.line).map fun l => (l.1, some l.2) := by
  refine lines_eq calls c same fun x hx e => ?_
  have := below x hx
  rcases hnew with rfl | rfl | rfl <;> simp only [Cached.errorStats, Cached.solverStats, Cached.turbulenceStats] at e <;> omega

/-- C83 fails when an iteration number comes back with other data and no other line was printed in between, as in a second `run()` of the same
solver with a table interval larger than the number of steps (`run` starts again from the iteration number of the first one): the line
shows the old data. -/
theorem C83_second_run_fails (c : Cached β) (i : ℕ) (x y : β) (hi : c.iteration ≠ i) :
    c.lines [.print i x, .print i y] = [(i, some x), (i, some x)] := by
  simp [Cached.lines, Cached.printNewLine, Cached.update, hi]

/-- C83 fails in the iteration that marks a new object: the line shows the values of the constructor. -/
theorem C83_marker_fails (x : β) : (Cached.errorStats : Cached β).lines [.print 100000000037 x] = [(100000000037, none)] := by
  simp [Cached.lines, Cached.printNewLine, Cached.errorStats]

/-- Non-vacuity of C83 -/
example : (Cached.solverStats : Cached ℕ).lines [.update 0 5, .print 0 5, .update 1 6, .print 2 7, .print 2 7] =
    [(0, some 5), (2, some 7), (2, some 7)] := by decide

theorem count_rows (interval j : ℕ) (l : List ℕ) :
    ((l.filter fun i => i % interval = 0).map FileLine.row).count (.row j) = if interval ∣ j then l.count j else 0 := by
  have hinj : Function.Injective FileLine.row := fun a b h => by cases h; rfl
  rw [List.count_map_of_injective _ _ hinj]
  by_cases h : interval ∣ j
  · rw [if_pos h, List.count_filter (by simpa using Nat.mod_eq_zero_of_dvd h)]
  · rw [if_neg h, List.count_eq_zero]
    intro hm
    have := (List.mem_filter.1 hm).2
    exact h (Nat.dvd_of_mod_eq_zero (by simpa using this))

theorem runTables_count (interval j : ℕ) (rest : List (ℕ × ℕ)) (hrest : ∀ r ∈ rest, 0 < r.1) (old : List FileLine) :
    (runTables interval rest old).count (.row j) =
      old.count (.row j) + if interval ∣ j then rest.countP (fun r => r.1 ≤ j ∧ j ≤ r.2) else 0 := by
  induction rest generalizing old with
  | nil => simp [runTables]
  | cons r rest ih =>
    have h1 : runTables interval (r :: rest) old = runTables interval rest (runTable interval r.1 r.2 old) := rfl
    rw [h1, ih fun r hr => hrest r (List.mem_cons_of_mem _ hr), runTable, openTable, if_pos (hrest r List.mem_cons_self), List.count_append,
      count_rows, List.countP_cons]
    have hcount : (List.range' r.1 (r.2 + 1 - r.1)).count j = if r.1 ≤ j ∧ j ≤ r.2 then 1 else 0 := by
      rw [List.Nodup.count List.nodup_range']
      congr 1
      rw [List.mem_range'_1]
      exact propext (by omega)
    rw [hcount]
    by_cases hd : interval ∣ j
    · simp only [hd, if_true, decide_eq_true_eq]; omega
    · simp only [hd, if_false]

/-- What a table file holds after a first run, and continuations of it: how often an iteration occurs is the number of runs that went
through it. -/
theorem C83_file (interval final j : ℕ) (rest : List (ℕ × ℕ)) (hrest : ∀ r ∈ rest, 0 < r.1) (old : List FileLine) :
    (runTables interval ((0, final) :: rest) old).count (.row j) =
      if interval ∣ j then ((0, final) :: rest).countP (fun r => r.1 ≤ j ∧ j ≤ r.2) else 0 := by
  have h1 : runTables interval ((0, final) :: rest) old = runTables interval rest (runTable interval 0 final old) := rfl
  have hcount : (List.range' 0 (final + 1 - 0)).count j = if j ≤ final then 1 else 0 := by
    rw [List.Nodup.count List.nodup_range']
    congr 1
    rw [List.mem_range'_1]
    exact propext (by omega)
  rw [h1, runTables_count interval j rest hrest, runTable, openTable, if_neg (by omega), List.count_append, count_rows, hcount,
    List.countP_cons]
  have hh : [FileLine.header].count (.row j) = 0 := by simp
  rw [hh]
  by_cases hd : interval ∣ j
  · simp only [hd, if_true, decide_eq_true_eq, Nat.zero_le, true_and]; omega
  · simp only [hd, if_false]

/-- The file begins with its only header. -/
theorem C83_header (interval final : ℕ) (rest : List (ℕ × ℕ)) (hrest : ∀ r ∈ rest, 0 < r.1) (old : List FileLine) :
    ∃ rows, runTables interval ((0, final) :: rest) old = .header :: rows ∧ .header ∉ rows := by
  have h1 : runTables interval ((0, final) :: rest) old = runTables interval rest (runTable interval 0 final old) := rfl
  rw [h1]
  have h0 : ∃ rows, runTable interval 0 final old = .header :: rows ∧ .header ∉ rows :=
    ⟨_, by rw [runTable, openTable, if_neg (by omega)]; rfl, by simp⟩
  generalize runTable interval 0 final old = file at h0
  clear h1
  induction rest generalizing file with
  | nil => exact h0
  | cons r rest ih =>
    refine ih (fun r hr => hrest r (List.mem_cons_of_mem _ hr)) (runTable interval r.1 r.2 file) ?_
    obtain ⟨rows, rfl, hr⟩ := h0
    refine ⟨_, by rw [runTable, openTable, if_pos (hrest r List.mem_cons_self)]; rfl, ?_⟩
    simp [hr]

theorem continued_le {a e : ℕ} {l : List (ℕ × ℕ)} (h : Continued a e l) : a ≤ e ∧ ∀ r ∈ l, a ≤ r.1 := by
  induction h with
  | last h => exact ⟨h, by simp⟩
  | run h hl ih =>
    refine ⟨h.trans ih.1, fun r hr => ?_⟩
    rcases List.mem_cons.1 hr with rfl | hr
    · exact le_rfl
    · exact h.trans (ih.2 r hr)

theorem continued_count {a e : ℕ} {l : List (ℕ × ℕ)} (h : Continued a e l) {j : ℕ} (ha : a ≤ j) (he : j ≤ e)
    (hj : ∀ r ∈ l.tail, r.1 ≠ j) : l.countP (fun r => r.1 ≤ j ∧ j ≤ r.2) = 1 := by
  induction h with
  | last h => simp [ha, he]
  | @run a b e l h hl ih =>
    rw [List.countP_cons]
    by_cases hb : j ≤ b
    · have hlt : ∀ r ∈ l, ¬(r.1 ≤ j ∧ j ≤ r.2) := by
        rintro r hr ⟨h1, -⟩
        have := (continued_le hl).2 r hr
        exact hj r hr (by omega)
      have : l.countP (fun r => r.1 ≤ j ∧ j ≤ r.2) = 0 := by
        rw [List.countP_eq_zero]
        exact fun r hr => by simpa using hlt r hr
      rw [this]; simp [ha, hb]
    · rw [ih (by omega) he fun r hr => hj r (List.mem_of_mem_tail hr)]
      simp [hb]

/-- **C83** (partial: for iterations other than those in which the computation was interrupted): a computation in several runs, each
continuing where the one before ended, leaves exactly one line for every multiple of the interval up to its last iteration. -/
theorem C83_continued_partial {interval e : ℕ} {final : ℕ} {rest : List (ℕ × ℕ)} (h : Continued 0 e ((0, final) :: rest))
    (hrest : ∀ r ∈ rest, 0 < r.1) (old : List FileLine) {j : ℕ} (hj : interval ∣ j) (he : j ≤ e) (hne : ∀ r ∈ rest, r.1 ≠ j) :
    (runTables interval ((0, final) :: rest) old).count (.row j) = 1 := by
  rw [C83_file interval final j rest hrest, if_pos hj, continued_count h (Nat.zero_le _) he hne]

/-- C83 fails where the computation was interrupted: the line is there twice, whereas in one run it is there once. -/
theorem C83_interrupted_fails : ∃ (interval : ℕ) (runs : List (ℕ × ℕ)), Continued 0 8 runs ∧
    (runTables interval runs []).count (.row 4) = 2 ∧ (runTables interval [(0, 8)] []).count (.row 4) = 1 :=
  ⟨2, [(0, 4), (4, 8)], .run (by norm_num) (.last (by norm_num)), by decide, by decide⟩

/-- Non-vacuity -/
example : runTables 2 [(0, 3), (3, 5)] [.row 7] = [.header, .row 0, .row 2, .row 4] := by decide

end Lines

/-! ## C29 for the benchmark solver -/

section Benchmark

open Solver Spec

variable {σ ε ι : Type*} {D : ℕ} [Fintype ι] {cfg : RunConfig} {p : Parts σ ε ι D} {start : ℕ} {s0 : Snapshot σ}

theorem benchmarkRun_ok {st : RunState σ ι D} (h : benchmarkRun cfg p start s0 = .ok st) :
    start ≤ st.i ∧ runTrajectory cfg p start s0 (st.i - start) = .ok st.snap ∧
    Stops cfg.stopRule Snapshot.time (vel p) start (runTrajectory cfg p start s0) st.i ∧
    (∀ j, start ≤ j → j < st.i → ¬Stops cfg.stopRule Snapshot.time (vel p) start (runTrajectory cfg p start s0) j) ∧
    st.log = logUpTo start (runTrajectory cfg p start s0) (benchmarkOutput cfg start) st.i ++ benchmarkOutput cfg start st.i true st.snap := by
  unfold benchmarkRun at h
  cases hc : collide p s0 with
  | error e => rw [hc] at h; cases h
  | ok s =>
    rw [hc] at h
    simp only at h
    have hl := loop_spec (cfg := cfg) (p := p) (start := start) (out := benchmarkOutput cfg start) (upd := advance cfg p start)
      (init := collide p s0) _ { i := start, snap := s, res := Residuals.init, log := [] } rfl le_rfl
      (by simp only [Nat.sub_self]; exact hc) (resInv_start _) (fun j h h' => by simp only at h'; omega)
      (by simp [logUpTo])
    cases hloop : loop cfg p start (benchmarkOutput cfg start) (advance cfg p start)
        { i := start, snap := s, res := Residuals.init, log := [] } with
    | error e => rw [hloop] at h; cases h
    | ok st' =>
      rw [hloop] at h
      cases h
      obtain ⟨h1, h2, h3, h4, h5, -⟩ := hl.1 st' hloop
      exact ⟨h1, h2, h3, h4, by rw [h5]; rfl⟩

theorem benchmark_mem_log {st : RunState σ ι D} (h : benchmarkRun cfg p start s0 = .ok st) {e : Event σ} :
    e ∈ st.log ↔ ∃ j s, start ≤ j ∧ j ≤ st.i ∧ runTrajectory cfg p start s0 (j - start) = .ok s ∧ e ∈ benchmarkOutput cfg start j false s := by
  obtain ⟨h0, h1, -, -, h5⟩ := benchmarkRun_ok h
  have hf : benchmarkOutput cfg start st.i true st.snap = benchmarkOutput cfg start st.i false st.snap := rfl
  rw [h5, List.mem_append, mem_logUpTo, hf]
  constructor
  · rintro (⟨j, a, b, s, hs, he⟩ | he)
    · exact ⟨j, s, a, b.le, hs, he⟩
    · exact ⟨st.i, st.snap, h0, le_rfl, h1, he⟩
  · rintro ⟨j, s, a, b, hs, he⟩
    rcases Nat.lt_or_eq_of_le b with hlt | rfl
    · exact Or.inl ⟨j, a, hlt, s, hs, he⟩
    · rw [h1] at hs
      cases hs
      exact Or.inr he

/-- **C29** for the benchmark solver, the table of errors: one line at every multiple of the table interval, with the data of that
iteration. -/
theorem C29_benchmark_errors {st : RunState σ ι D} (h : benchmarkRun cfg p start s0 = .ok st) (j : ℕ) (s : Snapshot σ) :
    Event.errorLine j s ∈ st.log ↔ cfg.switchOutputOff = false ∧ start ≤ j ∧ j ≤ st.i ∧ cfg.tableInterval ∣ j ∧
      runTrajectory cfg p start s0 (j - start) = .ok s := by
  rw [benchmark_mem_log h]
  constructor
  · rintro ⟨j', s', a, b, hs, he⟩
    unfold benchmarkOutput output at he
    cases hoff : cfg.switchOutputOff with
    | true => simp [hoff] at he
    | false =>
      simp only [hoff, Bool.false_eq_true, if_false, List.mem_append, List.mem_ite_nil_right, List.mem_singleton, reduceCtorEq,
        and_false, false_or, or_false, Event.errorLine.injEq] at he
      obtain ⟨hc, rfl, rfl⟩ := he
      exact ⟨rfl, a, b, Nat.dvd_of_mod_eq_zero hc, hs⟩
  · rintro ⟨hoff, a, b, hc, hs⟩
    refine ⟨j, s, a, b, hs, ?_⟩
    unfold benchmarkOutput output
    simp only [hoff, Bool.false_eq_true, if_false, List.mem_append, List.mem_ite_nil_right, List.mem_singleton, reduceCtorEq,
        and_false, false_or, or_false, and_true]
    exact Nat.mod_eq_zero_of_dvd hc

/-- What the benchmark solver writes as solutions: only the multiples of the interval, nothing extra at the final iteration. -/
theorem C29_benchmark_solution_partial {st : RunState σ ι D} (h : benchmarkRun cfg p start s0 = .ok st) (j : ℕ) (s : Snapshot σ) :
    Event.solution j s ∈ st.log ↔ cfg.switchOutputOff = false ∧ start ≤ j ∧ j ≤ st.i ∧
      cfg.solutionInterval ∣ j ∧ cfg.solutionInterval ≤ 10 ^ 8 ∧ runTrajectory cfg p start s0 (j - start) = .ok s := by
  rw [benchmark_mem_log h]
  constructor
  · rintro ⟨j', s', a, b, hs, he⟩
    unfold benchmarkOutput output at he
    cases hoff : cfg.switchOutputOff with
    | true => simp [hoff] at he
    | false =>
      simp only [hoff, Bool.false_eq_true, if_false, List.mem_append, List.mem_ite_nil_right, List.mem_singleton, reduceCtorEq,
        and_false, false_or, or_false, Event.solution.injEq] at he
      obtain ⟨hc, rfl, rfl⟩ := he
      exact ⟨rfl, a, b, Nat.dvd_of_mod_eq_zero hc.1, hc.2, hs⟩
  · rintro ⟨hoff, a, b, hc, hc', hs⟩
    refine ⟨j, s, a, b, hs, ?_⟩
    unfold benchmarkOutput output
    simp only [hoff, Bool.false_eq_true, if_false, List.mem_append, List.mem_ite_nil_right, List.mem_singleton, reduceCtorEq,
        and_false, false_or, or_false, and_true]
    exact ⟨Nat.mod_eq_zero_of_dvd hc, hc'⟩

/-- What the benchmark solver writes as checkpoints: only the multiples of the interval, nothing extra at the final iteration. -/
theorem C29_benchmark_checkpoint_partial {st : RunState σ ι D} (h : benchmarkRun cfg p start s0 = .ok st) (j : ℕ) (s : Snapshot σ) :
    Event.checkpoint j s ∈ st.log ↔ cfg.switchOutputOff = false ∧ start < j ∧ j ≤ st.i ∧ cfg.checkpointInterval ∣ j ∧
      cfg.checkpointInterval ≤ 10 ^ 8 ∧ runTrajectory cfg p start s0 (j - start) = .ok s := by
  rw [benchmark_mem_log h]
  constructor
  · rintro ⟨j', s', a, b, hs, he⟩
    unfold benchmarkOutput output at he
    cases hoff : cfg.switchOutputOff with
    | true => simp [hoff] at he
    | false =>
      simp only [hoff, Bool.false_eq_true, if_false, List.mem_append, List.mem_ite_nil_right, List.mem_singleton, reduceCtorEq,
        and_false, false_or, or_false, Event.checkpoint.injEq] at he
      obtain ⟨⟨hc, hcp, hne⟩, rfl, rfl⟩ := he
      exact ⟨rfl, lt_of_le_of_ne a hne, b, Nat.dvd_of_mod_eq_zero hc, hcp, hs⟩
  · rintro ⟨hoff, a, b, hc, hcp, hs⟩
    refine ⟨j, s, a.le, b, hs, ?_⟩
    unfold benchmarkOutput output
    simp only [hoff, Bool.false_eq_true, if_false, List.mem_append, List.mem_ite_nil_right, List.mem_singleton, reduceCtorEq,
        and_false, false_or, or_false, and_true]
    exact ⟨Nat.mod_eq_zero_of_dvd hc, hcp, a.ne⟩

/-- The benchmark solver stops in the same iteration, and with the same state, as the plain solver. -/
theorem C28_benchmark {st st' : RunState σ ι D} (h : benchmarkRun cfg p start s0 = .ok st) (h' : run cfg p start s0 = .ok st') :
    st.i = st'.i ∧ st.snap = st'.snap := by
  obtain ⟨a1, a2, a3, a4, -⟩ := benchmarkRun_ok h
  obtain ⟨b1, b2, b3, b4, -⟩ := run_ok h'
  have : st.i = st'.i := le_antisymm (not_lt.1 fun hlt => a4 _ b1 hlt b3) (not_lt.1 fun hlt => b4 _ a1 hlt a3)
  refine ⟨this, ?_⟩
  rw [this, b2] at a2
  exact (Except.ok.inj a2).symm

theorem benchmark_demo (N table : ℕ) (htable : 0 < table) (hN : N ≤ 999) :
    ∃ st, benchmarkRun (demoCfg N table 0 htable) demo 0 demoStart = .ok st ∧ st.i = N := by
  obtain ⟨st', h', hi, -⟩ := demo_run_all N table htable hN
  have : ∃ st, benchmarkRun (demoCfg N table 0 htable) demo 0 demoStart = .ok st := by
    have hl := loop_spec (cfg := demoCfg N table 0 htable) (p := demo) (start := 0) (out := benchmarkOutput (demoCfg N table 0 htable) 0)
      (upd := advance (demoCfg N table 0 htable) demo 0) (init := collide demo demoStart) _
      { i := 0, snap := demoStart, res := Residuals.init, log := [] } rfl le_rfl
      (by simp [trajectory, collide, demo, demoStart]) (resInv_start _) (fun j h h' => by simp only at h'; omega) (by simp [logUpTo])
    have hc : collide demo demoStart = .ok demoStart := rfl
    rw [benchmarkRun, hc]
    simp only
    cases hloop : loop (demoCfg N table 0 htable) demo 0 (benchmarkOutput (demoCfg N table 0 htable) 0)
        (advance (demoCfg N table 0 htable) demo 0) { i := 0, snap := demoStart, res := Residuals.init, log := [] } with
    | ok st => exact ⟨_, rfl⟩
    | error e =>
      obtain ⟨k, -, -, hk, -⟩ := hl.2 e hloop
      have := demo_trajectory N table 0 htable (k - 0)
      rw [runTrajectory, hk] at this
      cases this
  obtain ⟨st, h⟩ := this
  exact ⟨st, h, by rw [(C28_benchmark h h').1, hi]⟩

/-- C29 fails for the benchmark solver: a run of seven steps with intervals 3 and 2 writes neither the solution nor a checkpoint at its end,
whereas the plain solver does. -/
theorem C29_benchmark_fails : ∃ st st' : RunState (ℕ × ℝ) (Fin 1) 2,
    benchmarkRun (demoCfg 7 2 0 (by norm_num)) demo 0 demoStart = .ok st ∧ st.i = 7 ∧
    (∀ s, Event.solution 7 s ∉ st.log) ∧ (∀ s, Event.checkpoint 7 s ∉ st.log) ∧ (∃ s, Event.errorLine 6 s ∈ st.log) ∧
    run (demoCfg 7 2 0 (by norm_num)) demo 0 demoStart = .ok st' ∧ (∃ s, Event.solution 7 s ∈ st'.log) ∧ ∃ s, Event.checkpoint 7 s ∈ st'.log := by
  obtain ⟨st', h', -, -, h1, h2, -⟩ := C29_table_final_fails
  obtain ⟨st, h, hi⟩ := benchmark_demo 7 2 (by norm_num) (by norm_num)
  refine ⟨st, st', h, hi, fun s hs => ?_, fun s hs => ?_, ⟨_, (C29_benchmark_errors h 6 _).2
    ⟨rfl, by norm_num, by omega, by simp [demoCfg], demo_trajectory _ _ _ _ _⟩⟩, h', h1, h2⟩
  · have := ((C29_benchmark_solution_partial h 7 s).1 hs).2.2.2.1
    simp [demoCfg] at this
  · have := ((C29_benchmark_checkpoint_partial h 7 s).1 hs).2.2.2.1
    simp [demoCfg] at this

end Benchmark

end Tables
end NATriuM
