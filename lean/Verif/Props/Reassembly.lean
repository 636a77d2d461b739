import Mathlib.Tactic.Linarith
import Mathlib.Tactic.NormNum
import Verif.Lemmas.Reassembly
import Verif.Props.PathTracking
import Verif.Props.SedgSolver

/-!
# C112: assembling the operators again
-/

namespace NATriuM
namespace Reassembly

section

variable {K : Type*} [Field K] [LinearOrder K] {m : ℕ} {C : Type*}

/-- **C112** The semi-Lagrangian operator, after any calls that have not stopped the program: streaming multiplies what the assembly for the last time step
gives by the number of assemblies since the time step was set. -/
theorem C112_semiLagrangian_partial (mesh : Paths.Mesh K m C) (s : Paths.Setup K (m + 2)) (dt : K) (cs : List (Call K)) (st : Lagrangian K (m + 2) C)
    (h : calls mesh s (.new dt) cs = .ok st) (hn : 0 < assemblies Call.isSetDeltaT 0 cs) :
    ∃ as, Paths.fillSparseObject mesh { s with dt := lastDeltaT dt cs } none = .ok as ∧ (as.hits ≠ [] → assemblies Call.isSetDeltaT 0 cs = 1) ∧
      ∀ f i, Paths.stream st.entries f 0 i = Paths.stream as.entries f 0 i ∧
        ∀ alpha, Paths.stream st.entries f (alpha + 1) i = (assemblies Call.isSetDeltaT 0 cs : K) * Paths.stream as.entries f (alpha + 1) i := by
  have := calls_hold cs (dt := dt) (n := 0) (st := .new dt) ⟨rfl, .inl ⟨rfl, rfl⟩⟩ h
  rcases this.entries with ⟨h0, _⟩ | ⟨as, hf, he, _, h1⟩
  · omega
  · refine ⟨as, hf, h1, fun f i => ⟨rfl, fun alpha => ?_⟩⟩
    rw [Paths.stream, Paths.stream, he, vmult_replicate]

/-- **C112** Once the boundary has been hit, every further assembly and every further time step stops the program. -/
theorem C112_hits (mesh : Paths.Mesh K m C) (s : Paths.Setup K (m + 2)) (st : Lagrangian K (m + 2) C) (hh : st.hits ≠ []) (hp : st.pattern ≠ .none)
    (hQ : 2 ≤ s.Q) : reassemble mesh s st = .error .hitsLeft ∧ ∀ dt ≠ 0, setDeltaT mesh s st dt = .error .hitsLeft := by
  constructor
  · simp [reassemble, hp, fill, hh]
  · intro dt hdt
    have hr : List.range (s.Q - 1) ≠ [] := by simp; omega
    simp [setDeltaT, hdt, fillPattern_hits (st := { st with dt := dt }) hh hr]

end

section

variable {t : StencilType} {n nQ nf nq : ℕ} {C : Type*} [DecidableEq C]

/-- **C112** The discontinuous Galerkin operator after any calls: matrix and vector are those of one assembly times the number of assemblies since `setupDoFs`;
a Runge-Kutta step of size `h` then does what a step of that many times `h` should do. -/
theorem C112_sedg_partial (s : SedgSolver.Setup t n nQ nf nq C) (cs : List (Call ℝ)) (st : Galerkin t n C) (h : Galerkin.new.calls s cs = some st)
    {A : SedgSolver.Block t n C →ₗ[ℝ] SedgSolver.Block t n C} {b : SedgSolver.Block t n C} (ho : st.operator = some (A, b)) :
    A = (assemblies Call.isSetupDoFs 0 cs : ℝ) • SedgSolver.systemMatrix s ∧ b = (assemblies Call.isSetupDoFs 0 cs : ℝ) • SedgSolver.systemVector s ∧
    (0 < assemblies Call.isSetupDoFs 0 cs → ∀ h, 0 < h → ∀ f, ∃ r r', TimeIntegration.rkStep A b h f 0 h = .ok r ∧
      TimeIntegration.rkStep (SedgSolver.systemMatrix s) (SedgSolver.systemVector s) (assemblies Call.isSetupDoFs 0 cs * h) f 0
        (assemblies Call.isSetupDoFs 0 cs * h) = .ok r' ∧
      r.f = r'.f ∧ r.t = h ∧ r'.t = assemblies Call.isSetupDoFs 0 cs * h) := by
  obtain ⟨hA, hb⟩ := galerkin_calls (s := s) cs (k := 0) (st := .new) (by intro A b h; cases h) h A b ho
  refine ⟨hA, hb, fun hn h hh f => ?_⟩
  rw [hA, hb]
  exact rkStep_smul _ _ _ f hh (by exact_mod_cast hn)

end

/-- **C112** The solver assembles once, and once more with each call of `reassemble`; neither operator starts anew. -/
theorem C112_solver {K : Type*} (dt : K) (again : ℕ) :
    assemblies Call.isSetDeltaT 0 (solverCalls dt again) = again + 1 ∧ assemblies Call.isSetupDoFs 0 (solverCalls dt again) = again + 1 ∧
    lastDeltaT dt (solverCalls dt again) = dt := by
  refine ⟨?_, ?_, ?_⟩
  · show assemblies Call.isSetDeltaT 1 (List.replicate again .reassemble) = _
    rw [assemblies_replicate _ rfl]; omega
  · show assemblies Call.isSetupDoFs 1 (List.replicate again .reassemble) = _
    rw [assemblies_replicate _ rfl]; omega
  · show lastDeltaT dt (List.replicate again .reassemble) = dt
    induction again with
    | zero => rfl
    | succ k ih => exact ih

/-! ## Calls that succeed, and a solver that is spoilt -/

namespace Sample

open Paths.Sample in
/-- A solver with one assembly: the uniform distribution stays as it is. -/
example : (match calls periodic (sides 0) (.new 0) (solverCalls 1 0) with
    | .ok st => decide (Paths.stream st.entries (fun _ _ => 1) 1 1 = 1 ∧ st.hits.length = 0) | .error _ => false) = true := by decide +kernel

open Paths.Sample in
/-- Setting the time step in between -/
example : (match calls periodic (sides 0) (.new 0) (solverCalls 1 0 ++ [.setDeltaT (1 / 2), .reassemble]) with
    | .ok st => decide (Paths.stream st.entries (fun _ _ => 1) 1 1 = 1 ∧ st.hits.length = 0) | .error _ => false) = true := by decide +kernel

open Paths.Sample in
/-- `C112_hits`: with walls -/
example : (match calls walls (sides 0) (.new 0) (solverCalls 1 0) with
    | .ok st => decide (st.hits.length ≠ 0 ∧ st.pattern ≠ .none) | .error _ => false) = true := by decide +kernel

open Paths.Sample in
/-- **C112** (finding) Calling `reassemble` of a solver on the periodic mesh doubles the distributions with each step of the semi-Lagrangian operator. -/
theorem _root_.NATriuM.Reassembly.C112_semiLagrangian_fails : ∃ st, calls periodic (sides 0) (.new 0) (solverCalls 1 1) = .ok st ∧
    Paths.stream st.entries (fun _ _ => 1) 1 1 = 2 := by
  have h : (match calls periodic (sides 0) (.new 0) (solverCalls 1 1) with
    | .ok st => decide (Paths.stream st.entries (fun _ _ => 1) 1 1 = 2) | .error _ => false) = true := by decide +kernel
  cases hf : calls periodic (sides 0) (.new 0) (solverCalls 1 1) with
  | error e => rw [hf] at h; cases h
  | ok st => rw [hf] at h; exact ⟨st, rfl, of_decide_eq_true h⟩

/-- What the upper wall adds -/
theorem wall_ne : (Walls.faceEntries (D2Q9.stencil (2 : ℝ)) false (1 / 2) ![0, 1] ![1 / 10, 0] 7).vector ≠ 0 := by
  have h0 : D2Q9.dir (2 : ℝ) 7 0 = -2 := rfl
  have h1 : D2Q9.dir (2 : ℝ) 7 1 = -2 := rfl
  have hw : D2Q9.weight (K := ℝ) 7 = 1 / 36 := rfl
  simp [Walls.faceEntries, D2Q9.stencil, Fin.sum_univ_two, h0, h1, hw]

open SedgSolver.Sample in
theorem vector_ne : SedgSolver.systemVector (plain true none) (7 : Fin 9) ((0 : Fin 2), (2 : Fin 4)) ≠ 0 := by
  have key : SedgSolver.systemVector (plain true none) (7 : Fin 9) ((0 : Fin 2), (2 : Fin 4)) =
      (Walls.faceEntries (D2Q9.stencil (2 : ℝ)) false (1 / 2) ![0, 1] ![1 / 10, 0] 7).vector * 4 := by
    have hm : Sedg.inverseMass (mesh true) 0 2 = 4 := by simp [Sedg.inverseMass, Sedg.mass, mesh]
    show (if (0 : Fin 2) ∈ ([0, 1] : List (Fin 2)) then ∑ f : Fin 4, if ((mesh true).neighbor 0 f).isNone then ∑ q : Fin 2,
      if (mesh true).faceDof f q = 2 then (Walls.faceEntries (D2Q9.stencil (2 : ℝ)) false (1 / 2) ((mesh true).normal 0 f q) ![1 / 10, 0] 7).vector *
        Sedg.inverseMass (mesh true) 0 2 else 0 else 0 else 0) = _
    rw [hm]
    simp [Fin.sum_univ_four, Fin.sum_univ_two, mesh]
  rw [key]
  exact mul_ne_zero wall_ne (by norm_num)

open SedgSolver.Sample in
/-- **C112** (finding) Calling `reassemble` of a solver with moving walls changes the vector of the discontinuous Galerkin operator. -/
theorem _root_.NATriuM.Reassembly.C112_sedg_fails : ∃ A b A' b', (Galerkin.new.calls (plain true none) (solverCalls (1 / 50) 0)) = some ⟨some (A, b)⟩ ∧
    (Galerkin.new.calls (plain true none) (solverCalls (1 / 50) 1)) = some ⟨some (A', b')⟩ ∧ b' ≠ b := by
  refine ⟨_, _, _, _, rfl, rfl, ?_⟩
  intro h
  have := congrFun (congrFun h (7 : Fin 9)) ((0 : Fin 2), (2 : Fin 4))
  refine vector_ne ?_
  have h2 : (0 + SedgSolver.systemVector (plain true none) (7 : Fin 9) ((0 : Fin 2), (2 : Fin 4)))
    + SedgSolver.systemVector (plain true none) (7 : Fin 9) ((0 : Fin 2), (2 : Fin 4))
    = 0 + SedgSolver.systemVector (plain true none) (7 : Fin 9) ((0 : Fin 2), (2 : Fin 4)) := this
  linarith

end Sample

end Reassembly
end NATriuM
