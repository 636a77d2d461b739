import Verif.Model.SolverLoop
import Verif.Spec.Run
import Mathlib.Tactic.IntervalCases
import Mathlib.Tactic.Linarith
import Mathlib.Tactic.Positivity

/-!
# Lemmas about the time loop
-/

namespace NATriuM
namespace Solver

open Spec

variable {σ ε ι : Type*} {D : ℕ}

section MaxChange

variable [Fintype ι]

theorem isMaxScalarChange_norm (u v : ι → ℝ) : IsMaxScalarChange u v ‖fun n => u n - v n‖ := by
  refine ⟨⟨norm_nonneg _, fun n => ?_⟩, fun b hb => ?_⟩
  · simpa using norm_le_pi_norm (fun n => u n - v n) n
  · exact (pi_norm_le_iff_of_nonneg hb.1).2 fun n => by simpa using hb.2 n

theorem isMaxChange_norm (u v : Fin D → ι → ℝ) :
    IsMaxChange u v √‖fun n => ∑ a, (u a n - v a n) * (u a n - v a n)‖ := by
  have hnn : ∀ n, 0 ≤ ∑ a, (u a n - v a n) * (u a n - v a n) := fun n => Finset.sum_nonneg fun a _ => mul_self_nonneg _
  have hsq : ∀ n, ∑ a, (u a n - v a n) ^ 2 = ∑ a, (u a n - v a n) * (u a n - v a n) := fun n =>
    Finset.sum_congr rfl fun a _ => by ring
  refine ⟨⟨Real.sqrt_nonneg _, fun n => ?_⟩, fun b hb => ?_⟩
  · rw [hsq]
    refine Real.sqrt_le_sqrt ?_
    have := norm_le_pi_norm (fun n => ∑ a, (u a n - v a n) * (u a n - v a n)) n
    rwa [Real.norm_eq_abs, abs_of_nonneg (hnn n)] at this
  · rw [Real.sqrt_le_left hb.1]
    refine (pi_norm_le_iff_of_nonneg (by positivity)).2 fun n => ?_
    rw [Real.norm_eq_abs, abs_of_nonneg (hnn n), ← hsq]
    exact (Real.sqrt_le_left hb.1).1 (hb.2 n)

omit [Fintype ι] in
theorem IsMaxChange.unique {u v : Fin D → ι → ℝ} {r r' : ℝ} (h : IsMaxChange u v r) (h' : IsMaxChange u v r') : r = r' :=
  IsLeast.unique h h'

end MaxChange

/-- The stop rule of a configuration. -/
def RunConfig.stopRule (cfg : RunConfig) : StopRule := ⟨cfg.numberOfTimeSteps, cfg.simulationEndTime, cfg.convergenceThreshold⟩

/-- The velocity field in a snapshot. -/
def vel (p : Parts σ ε ι D) (s : Snapshot σ) : Fin D → ι → ℝ := p.u s.x

/-- What is written in the (not final) iteration `j`, along the trajectory `T`. -/
def eventsAt {E : Type*} (start : ℕ) (T : ℕ → Except E (Snapshot σ)) (out : ℕ → Bool → Snapshot σ → List (Event σ)) (j : ℕ) :
    List (Event σ) :=
  match T (j - start) with
  | .ok s => out j false s
  | .error _ => []

/-- Everything written up to (not including) iteration `n`. -/
def logUpTo {E : Type*} (start : ℕ) (T : ℕ → Except E (Snapshot σ)) (out : ℕ → Bool → Snapshot σ → List (Event σ)) (n : ℕ) :
    List (Event σ) :=
  (List.range' start (n - start)).flatMap (eventsAt start T out)

section Loop

variable {E : Type*} [Fintype ι] {cfg : RunConfig} {p : Parts σ ε ι D} {start : ℕ}
  {out : ℕ → Bool → Snapshot σ → List (Event σ)} {upd : ℕ → Snapshot σ → Except E (Snapshot σ)} {init : Except E (Snapshot σ)}

/-- What the stored residual data are at the head of the loop in iteration `i`. -/
def ResInv (p : Parts σ ε ι D) (start : ℕ) (T : ℕ → Except E (Snapshot σ)) (i : ℕ) (r : Residuals ι D) : Prop :=
  (∀ v, start ≤ v → v < i → 100 ∣ v → i ≤ v + 100 →
    ResidualAt (vel p) start T v r.velocity ∧ ∃ s, T (v - start) = .ok s ∧ r.tmpVelocity = p.u s.x ∧ r.tmpDensity = p.rho s.x) ∧
  ((∀ v, start ≤ v → v < i → ¬100 ∣ v) → r.velocity = 1)

omit [Fintype ι] in
theorem resInv_start (T : ℕ → Except E (Snapshot σ)) : ResInv p start T start Residuals.init :=
  ⟨fun v h h' => by omega, fun _ => rfl⟩

/-- Outcome of one evaluation of the stop condition in terms of the specification. -/
theorem stop_spec (T : ℕ → Except E (Snapshot σ)) {i : ℕ} (hi : start ≤ i) {s : Snapshot σ} (hT : T (i - start) = .ok s)
    {r : Residuals ι D} (hr : ResInv p start T i r) :
    ((stopConditionMet cfg p start i s r).1 = true ↔ Stops cfg.stopRule Snapshot.time (vel p) start T i) ∧
    ((stopConditionMet cfg p start i s r).1 = false → ResInv p start T (i + 1) (stopConditionMet cfg p start i s r).2) ∧
    (100 ∣ i → i < cfg.numberOfTimeSteps → s.time < cfg.simulationEndTime →
      ResidualAt (vel p) start T i (stopConditionMet cfg p start i s r).2.velocity) := by
  by_cases h1 : cfg.numberOfTimeSteps ≤ i
  · refine ⟨?_, ?_, fun _ h => by omega⟩ <;> simp [stopConditionMet, h1, Stops, RunConfig.stopRule]
  by_cases h2 : cfg.simulationEndTime ≤ s.time
  · refine ⟨?_, ?_, fun _ _ h => absurd h2 (not_le.2 h)⟩
    · simp only [stopConditionMet, h1, h2, if_false, if_true, true_iff]
      exact Or.inr (Or.inl ⟨s, hT, h2⟩)
    · simp [stopConditionMet, h1, h2]
  by_cases h3 : i % 100 = 0
  · have hdvd : 100 ∣ i := Nat.dvd_of_mod_eq_zero h3
    have hval : stopConditionMet cfg p start i s r =
        (decide ((calculateResiduals start i (p.rho s.x) (p.u s.x) r).velocity < cfg.convergenceThreshold),
          calculateResiduals start i (p.rho s.x) (p.u s.x) r) := by
      simp only [stopConditionMet, h1, h2, h3, if_false, if_true]
    have hres : ResidualAt (vel p) start T i (calculateResiduals start i (p.rho s.x) (p.u s.x) r).velocity := by
      by_cases h4 : i - start < 100
      · refine Or.inl ⟨by omega, ?_⟩
        simp only [calculateResiduals, h4, not_true_eq_false, if_false]
        exact hr.2 fun v hv hvi hdv => by omega
      · refine Or.inr ⟨by omega, ?_⟩
        obtain ⟨_, s', hs', hu, _⟩ := hr.1 (i - 100) (by omega) (by omega) (by omega) (by omega)
        refine ⟨s', s, hs', hT, ?_⟩
        simp only [calculateResiduals, h4, not_false_eq_true, if_true, hu]
        exact isMaxChange_norm _ _
    have huniq : ∀ r', ResidualAt (vel p) start T i r' → r' = (calculateResiduals start i (p.rho s.x) (p.u s.x) r).velocity := by
      intro r' hr'
      rcases hr' with ⟨h, rfl⟩ | ⟨h, a, b, ha, hb, hab⟩
      · rcases hres with ⟨_, h'⟩ | ⟨h', _⟩
        · exact h'.symm
        · omega
      · rcases hres with ⟨h', _⟩ | ⟨_, a', b', ha', hb', hab'⟩
        · omega
        · rw [ha] at ha'; rw [hb] at hb'
          cases ha'; cases hb'
          exact hab.unique hab'
    rw [hval]
    refine ⟨?_, fun _ => ⟨?_, ?_⟩, fun _ _ _ => hres⟩
    · simp only [decide_eq_true_eq]
      constructor
      · exact fun h => Or.inr (Or.inr ⟨hdvd, _, hres, h⟩)
      · rintro (h | ⟨s', hs', h⟩ | ⟨_, r', hr', h⟩)
        · exact absurd h h1
        · rw [hT] at hs'; cases hs'; exact absurd h h2
        · rwa [← huniq r' hr']
    · intro v hv hvi hdv hiv
      have : v = i := by omega
      subst this
      refine ⟨hres, s, hT, ?_⟩
      simp only [calculateResiduals]
      split <;> exact ⟨rfl, rfl⟩
    · exact fun h => absurd hdvd (h i hi (by omega))
  · have hdvd : ¬100 ∣ i := fun h => h3 (Nat.mod_eq_zero_of_dvd h)
    have hval : stopConditionMet cfg p start i s r = (false, r) := by simp only [stopConditionMet, h1, h2, h3, if_false]
    rw [hval]
    refine ⟨?_, fun _ => ⟨?_, ?_⟩, fun h => absurd h hdvd⟩
    · constructor
      · simp
      · rintro (h | ⟨s', hs', h⟩ | ⟨h, _⟩)
        · exact absurd h h1
        · rw [hT] at hs'; cases hs'; exact absurd h h2
        · exact absurd h hdvd
    · intro v hv hvi hdv hiv
      have : v ≠ i := fun h => hdvd (h ▸ hdv)
      exact hr.1 v hv (by omega) hdv (by omega)
    · exact fun h => hr.2 fun v hv hvi => h v hv (by omega)

/-- The loop follows the trajectory to the first stop, or to the first failing update before it. -/
theorem loop_spec (n : ℕ) : ∀ st : RunState σ ι D, n = cfg.numberOfTimeSteps - st.i → start ≤ st.i →
    trajectory init upd start (st.i - start) = .ok st.snap → ResInv p start (trajectory init upd start) st.i st.res →
    (∀ j, start ≤ j → j < st.i → ¬Stops cfg.stopRule Snapshot.time (vel p) start (trajectory init upd start) j) →
    st.log = logUpTo start (trajectory init upd start) out st.i →
    (∀ st', loop cfg p start out upd st = .ok st' →
      st.i ≤ st'.i ∧ trajectory init upd start (st'.i - start) = .ok st'.snap ∧
      Stops cfg.stopRule Snapshot.time (vel p) start (trajectory init upd start) st'.i ∧
      (∀ j, start ≤ j → j < st'.i → ¬Stops cfg.stopRule Snapshot.time (vel p) start (trajectory init upd start) j) ∧
      st'.log = logUpTo start (trajectory init upd start) out st'.i ∧
      (100 ∣ st'.i → st'.i < cfg.numberOfTimeSteps → st'.snap.time < cfg.simulationEndTime →
        ResidualAt (vel p) start (trajectory init upd start) st'.i st'.res.velocity)) ∧
    (∀ e, loop cfg p start out upd st = .error e →
      ∃ k, st.i < k ∧ k ≤ cfg.numberOfTimeSteps ∧ trajectory init upd start (k - start) = .error e ∧
        ∀ j, start ≤ j → j < k → ¬Stops cfg.stopRule Snapshot.time (vel p) start (trajectory init upd start) j) := by
  induction n with
  | zero =>
    intro st hn hi hT hr hno hlog
    have hstop : (stopConditionMet cfg p start st.i st.snap st.res).1 = true := by
      by_contra h
      have := lt_of_not_stop h
      omega
    have hs := stop_spec (cfg := cfg) (p := p) _ hi hT hr
    rw [loop, dif_pos hstop]
    refine ⟨fun st' h => ?_, fun e h => by cases h⟩
    cases h
    exact ⟨le_rfl, hT, hs.1.1 hstop, hno, hlog, hs.2.2⟩
  | succ n ih =>
    intro st hn hi hT hr hno hlog
    have hs := stop_spec (cfg := cfg) (p := p) _ hi hT hr
    by_cases hstop : (stopConditionMet cfg p start st.i st.snap st.res).1 = true
    · rw [loop, dif_pos hstop]
      refine ⟨fun st' h => ?_, fun e h => by cases h⟩
      cases h
      exact ⟨le_rfl, hT, hs.1.1 hstop, hno, hlog, hs.2.2⟩
    · have hlt := lt_of_not_stop hstop
      have hns : ∀ j, start ≤ j → j < st.i + 1 → ¬Stops cfg.stopRule Snapshot.time (vel p) start (trajectory init upd start) j := by
        intro j hj hji
        rcases Nat.lt_succ_iff_lt_or_eq.1 hji with h | h
        · exact hno j hj h
        · subst h; exact fun h => hstop (hs.1.2 h)
      have hk : st.i + 1 - start = (st.i - start) + 1 := by omega
      have hnext : trajectory init upd start (st.i + 1 - start) = upd (st.i + 1) st.snap := by
        rw [hk, trajectory, hT]
        show upd (start + (st.i - start + 1)) st.snap = _
        congr 1; omega
      have hstopf : (stopConditionMet cfg p start st.i st.snap st.res).1 = false := by simpa using hstop
      rw [loop, dif_neg hstop]
      cases hu : upd (st.i + 1) st.snap with
      | error e =>
        refine ⟨fun st' h => (by cases h), fun e' h => ?_⟩
        cases h
        exact ⟨st.i + 1, by omega, by omega, by rw [hnext, hu], hns⟩
      | ok s =>
        have hlog' : st.log ++ out st.i false st.snap = logUpTo start (trajectory init upd start) out (st.i + 1) := by
          rw [hlog, logUpTo, logUpTo, hk, List.range'_concat, List.flatMap_append]
          congr 1
          have : start + 1 * (st.i - start) = st.i := by omega
          rw [this, List.flatMap_singleton, eventsAt, hT]
        have := ih { i := st.i + 1, snap := s, res := (stopConditionMet cfg p start st.i st.snap st.res).2,
                     log := st.log ++ out st.i false st.snap } (by simp only; omega) (by simp only; omega)
                  (by simp only; rw [hnext, hu]) (hs.2.1 hstopf) hns hlog'
        refine ⟨fun st' h => ?_, fun e h => ?_⟩
        · obtain ⟨h1, h2⟩ := this.1 st' h
          exact ⟨by simp only at h1; omega, h2⟩
        · obtain ⟨k, h1, h2⟩ := this.2 e h
          exact ⟨k, by simp only at h1; omega, h2⟩

end Loop

end Solver
end NATriuM
