import Mathlib.Tactic.Ring
import Verif.Spec.Reassembly

/-!
# Lemmas: assembling again
-/

namespace NATriuM
namespace Reassembly

section

variable {K : Type*} [Field K] [LinearOrder K] {m : ℕ} {C : Type*}

theorem fill_ok {mesh : Paths.Mesh K m C} {s : Paths.Setup K (m + 2)} {row : Option ℕ} {st : Lagrangian K (m + 2) C} {as}
    (h : fill mesh s row st = .ok as) : st.hits = [] ∧ Paths.fillSparseObject mesh { s with dt := st.dt } row = .ok as := by
  unfold fill at h
  split at h
  · cases h
  · rename_i hh
    refine ⟨not_not.1 hh, ?_⟩
    split at h
    · cases h
    · rename_i h'; rw [h', Except.ok.inj h]

omit [LinearOrder K] in
theorem vmult_append (a b : List (Paths.Entry K)) (f : ℕ → ℕ → K) (r i : ℕ) :
    Paths.vmult (a ++ b) f r i = Paths.vmult a f r i + Paths.vmult b f r i := by
  unfold Paths.vmult
  rw [List.filter_append, List.map_append, List.sum_append]

theorem vmult_replicate (n : ℕ) (a : List (Paths.Entry K)) (f : ℕ → ℕ → K) (r i : ℕ) :
    Paths.vmult (List.replicate n a).flatten f r i = (n : K) * Paths.vmult a f r i := by
  induction n with
  | zero => simp [Paths.vmult]
  | succ n ih =>
    rw [List.replicate_succ, List.flatten_cons, vmult_append, ih]
    push_cast
    ring

/-- What holds after any calls: the entries are those of `n` assemblies with the last time step. -/
structure Holds (mesh : Paths.Mesh K m C) (s : Paths.Setup K (m + 2)) (dt : K) (n : ℕ) (st : Lagrangian K (m + 2) C) : Prop where
  step : st.dt = dt
  entries : n = 0 ∧ st.entries = [] ∨
    ∃ as, Paths.fillSparseObject mesh { s with dt := dt } none = .ok as ∧ st.entries = (List.replicate n as.entries).flatten ∧
      st.hits = as.hits ∧ (as.hits ≠ [] → n = 1)

theorem fillPattern_hits {mesh : Paths.Mesh K m C} {s : Paths.Setup K (m + 2)} {st : Lagrangian K (m + 2) C} (hh : st.hits ≠ []) {rows : List ℕ}
    (hr : rows ≠ []) : fillPattern mesh s st rows = .error .hitsLeft := by
  cases rows with
  | nil => exact absurd rfl hr
  | cons r rows => simp [fillPattern, fill, hh]

theorem call_holds {mesh : Paths.Mesh K m C} {s : Paths.Setup K (m + 2)} {dt : K} {n : ℕ} {st st' : Lagrangian K (m + 2) C} (h : Holds mesh s dt n st)
    (c : Call K) (hc : call mesh s st c = .ok st') :
    Holds mesh s (lastDeltaT dt [c]) (assemblies Call.isSetDeltaT n [c]) st' := by
  cases c with
  | setupDoFs => cases hc; exact h
  | setDeltaT dt' =>
    refine ⟨?_, .inl ⟨rfl, ?_⟩⟩ <;>
    · simp only [call, setDeltaT] at hc
      split at hc
      · split at hc
        · cases hc
        · cases hc; rfl
      · cases hc; rfl
  | reassemble =>
    simp only [call, reassemble] at hc
    split at hc
    · cases hc
    · split at hc
      · cases hc
      · rename_i as hf
        split at hc
        · cases hc
        · cases hc
          obtain ⟨hh, hf⟩ := fill_ok hf
          rw [h.step] at hf
          refine ⟨h.step, .inr ⟨as, hf, ?_, by simp [hh], ?_⟩⟩
          · show st.entries ++ as.entries = (List.replicate (n + 1) as.entries).flatten
            rcases h.entries with ⟨rfl, he⟩ | ⟨as', hf', he, _⟩
            · simp [he]
            · rw [hf] at hf'
              cases hf'
              rw [he, List.replicate_succ', List.flatten_append]
              simp
          · intro hne
            show n + 1 = 1
            rcases h.entries with ⟨rfl, he⟩ | ⟨as', hf', he, hh', h1⟩
            · rfl
            · rw [hf] at hf'
              cases hf'
              rw [hh] at hh'
              exact absurd hh'.symm hne

omit [Field K] [LinearOrder K] in
theorem assemblies_cons (resets : Call K → Bool) (n : ℕ) (c : Call K) (cs : List (Call K)) :
    assemblies resets n (c :: cs) = assemblies resets (assemblies resets n [c]) cs := rfl

omit [Field K] [LinearOrder K] in
theorem lastDeltaT_cons (dt : K) (c : Call K) (cs : List (Call K)) : lastDeltaT dt (c :: cs) = lastDeltaT (lastDeltaT dt [c]) cs := by
  cases c <;> rfl

theorem calls_hold {mesh : Paths.Mesh K m C} {s : Paths.Setup K (m + 2)} (cs : List (Call K)) {dt : K} {n : ℕ} {st st' : Lagrangian K (m + 2) C}
    (h : Holds mesh s dt n st) (hc : calls mesh s st cs = .ok st') : Holds mesh s (lastDeltaT dt cs) (assemblies Call.isSetDeltaT n cs) st' := by
  induction cs generalizing dt n st with
  | nil => cases hc; exact h
  | cons c cs ih =>
    rw [calls] at hc
    cases hk : call mesh s st c with
    | error e => rw [hk] at hc; cases hc
    | ok st1 =>
      rw [hk] at hc
      rw [assemblies_cons, lastDeltaT_cons]
      exact ih (call_holds h c hk) hc

end

section

variable {t : StencilType} {n nQ nf nq : ℕ} {C : Type*} [DecidableEq C]

theorem galerkin_calls {s : SedgSolver.Setup t n nQ nf nq C} (cs : List (Call ℝ)) {k : ℕ} {st st' : Galerkin t n C}
    (h : ∀ A b, st.operator = some (A, b) → A = (k : ℝ) • SedgSolver.systemMatrix s ∧ b = (k : ℝ) • SedgSolver.systemVector s)
    (hc : st.calls s cs = some st') :
    ∀ A b, st'.operator = some (A, b) → A = (assemblies Call.isSetupDoFs k cs : ℝ) • SedgSolver.systemMatrix s ∧
      b = (assemblies Call.isSetupDoFs k cs : ℝ) • SedgSolver.systemVector s := by
  induction cs generalizing k st with
  | nil => cases hc; exact h
  | cons c cs ih =>
    rw [Galerkin.calls] at hc
    cases hk : st.call s c with
    | none => rw [hk] at hc; cases hc
    | some st1 =>
      rw [hk] at hc
      rw [assemblies_cons]
      refine ih ?_ hc
      intro A b hA
      cases c with
      | setupDoFs =>
        cases hk
        cases hA
        show _ = (((0 : ℕ) : ℝ)) • _ ∧ _ = (((0 : ℕ) : ℝ)) • _
        simp
      | setDeltaT dt => cases hk; exact h A b hA
      | reassemble =>
        simp only [Galerkin.call] at hk
        cases ho : st.operator with
        | none => rw [ho] at hk; cases hk
        | some Ab =>
          rw [ho] at hk
          cases hk
          cases hA
          obtain ⟨h1, h2⟩ := h Ab.1 Ab.2 ho
          show Ab.1 + _ = ((k + 1 : ℕ) : ℝ) • _ ∧ Ab.2 + _ = ((k + 1 : ℕ) : ℝ) • _
          rw [h1, h2]
          push_cast
          rw [add_smul, add_smul, one_smul, one_smul]
          exact ⟨rfl, rfl⟩

end

section

variable {E : Type*} [AddCommGroup E] [Module ℝ E]

/-- A Runge-Kutta step with a multiple of the operator is a longer step. -/
theorem rkStep_smul (k : ℝ) (A : E →ₗ[ℝ] E) (b : E) (f : E) {h : ℝ} (hh : 0 < h) (hk : 0 < k) :
    ∃ r r', TimeIntegration.rkStep (k • A) (k • b) h f 0 h = .ok r ∧ TimeIntegration.rkStep A b (k * h) f 0 (k * h) = .ok r' ∧ r.f = r'.f ∧
      r.t = h ∧ r'.t = k * h := by
  have p1 : TimeIntegration.prologue h h = .ok (h, h) := by simp [TimeIntegration.prologue, hh.ne']
  have p2 : TimeIntegration.prologue (k * h) (k * h) = .ok (k * h, k * h) := by simp [TimeIntegration.prologue, (mul_pos hk hh).ne']
  have e : ∀ x : E, h • ((k • A) x + k • b) = (k * h) • (A x + b) := fun x => by
    rw [LinearMap.smul_apply, ← smul_add, smul_smul, mul_comm]
  have h1 : TimeIntegration.rkFirst (k • A) (k • b) h f = TimeIntegration.rkFirst A b (k * h) f := by
    unfold TimeIntegration.rkFirst; rw [e]
  have h2 : TimeIntegration.rkStage (k • A) (k • b) h = TimeIntegration.rkStage A b (k * h) := by
    funext s i
    unfold TimeIntegration.rkStage; rw [e]
  refine ⟨⟨([1, 2, 3, 4].foldl (TimeIntegration.rkStage A b (k * h)) (TimeIntegration.rkFirst A b (k * h) f)).1, 0 + h, h⟩, ⟨_, 0 + k * h, k * h⟩, ?_, ?_,
    rfl, zero_add _, zero_add _⟩
  · rw [TimeIntegration.rkStep, p1]
    simp only
    rw [h1, h2]
  · rw [TimeIntegration.rkStep, p2]

theorem assemblies_replicate {K : Type*} (resets : Call K → Bool) (hr : resets .reassemble = false) (n k : ℕ) :
    assemblies resets n (List.replicate k .reassemble) = n + k := by
  induction k generalizing n with
  | zero => rfl
  | succ k ih =>
    rw [List.replicate_succ, assemblies, hr]
    simp only [Bool.false_eq_true, if_false]
    rw [ih]; omega

end

end Reassembly
end NATriuM
