import Verif.Spec.AdvectionBenchmark
import Mathlib.Algebra.Order.Archimedean.Basic
import Mathlib.Tactic.Ring
import Mathlib.Tactic.Tauto
import Mathlib.Tactic.Linarith
import Mathlib.Tactic.FieldSimp
import Mathlib.Tactic.Positivity
import Mathlib.Analysis.Calculus.Deriv.Abs

namespace NATriuM

namespace AdvectionBenchmark

open Real TimeIntegration

/-! ## The wrapping loops -/

theorem raise_mono {n x y} (h : raise n x = some y) : raise (n + 1) x = some y := by
  induction n generalizing x with
  | zero =>
    simp only [raise] at h ⊢
    split_ifs at h ⊢ with h1
    exact h
  | succ n ih =>
    rw [raise] at h ⊢
    split_ifs at h ⊢ with h1
    · exact ih h
    · exact h

theorem lower_mono {n x y} (h : lower n x = some y) : lower (n + 1) x = some y := by
  induction n generalizing x with
  | zero =>
    simp only [lower] at h ⊢
    split_ifs at h ⊢ with h1
    exact h
  | succ n ih =>
    rw [lower] at h ⊢
    split_ifs at h ⊢ with h1
    · exact ih h
    · exact h

theorem raise_mono' {n m x y} (hm : n ≤ m) (h : raise n x = some y) : raise m x = some y := by
  induction m, hm using Nat.le_induction with
  | base => exact h
  | succ m _ ih => exact raise_mono ih

theorem lower_mono' {n m x y} (hm : n ≤ m) (h : lower n x = some y) : lower m x = some y := by
  induction m, hm using Nat.le_induction with
  | base => exact h
  | succ m _ ih => exact lower_mono ih

theorem raise_ends (n : ℕ) (x : ℝ) (h : -(n : ℝ) ≤ x) : ∃ (k : ℕ), raise n x = some (x + k) ∧ (0 ≤ x + k) := by
  induction n generalizing x with
  | zero => exact ⟨0, by simp at h; simp [raise, not_lt.2 h], by simpa using h⟩
  | succ n ih =>
    rw [raise]
    split_ifs with h1
    · obtain ⟨k, hk, h2⟩ := ih (x + 1) (by push_cast at h; linarith)
      exact ⟨k + 1, by rw [hk]; push_cast; ring_nf, by push_cast; linarith⟩
    · exact ⟨0, by simp, by simpa using h1⟩

theorem lower_ends (n : ℕ) (x : ℝ) (h : x ≤ n + 1) : ∃ (k : ℕ), lower n x = some (x - k) ∧ (x - k ≤ 1) := by
  induction n generalizing x with
  | zero => exact ⟨0, by simp at h; simp [lower, not_lt.2 h], by simpa using h⟩
  | succ n ih =>
    rw [lower]
    split_ifs with h1
    · obtain ⟨k, hk, h2⟩ := ih (x - 1) (by push_cast at h; linarith)
      exact ⟨k + 1, by rw [hk]; push_cast; ring_nf, by push_cast; linarith⟩
    · exact ⟨0, by simp, by simpa using h1⟩

/-! ## The profile -/

theorem sign_mul_sq (h : ℝ) : ((if 0 < h then (1 : ℝ) else 0) - (if h < 0 then 1 else 0)) * |h| ^ 2 = h * |h| := by
  rcases lt_trichotomy h 0 with h1 | h1 | h1
  · simp [h1, not_lt.2 h1.le, abs_of_neg h1]
    ring
  · simp [h1]
  · simp [h1, not_lt.2 h1.le, abs_of_pos h1]
    ring

theorem profile_eq (b : Bool) (x : ℝ) : profile b x = wave b x := by
  have h1 : 8 * arctan 1 * x * 1 = 2 * π * x := by rw [arctan_one]; ring
  unfold profile wave
  simp only [h1, sign_mul_sq]

theorem sin_wrap (x : ℝ) (k m : ℕ) : sin (2 * π * (x + k - m)) = sin (2 * π * x) := by
  have : 2 * π * (x + k - m) = 2 * π * x + ((k : ℤ) - (m : ℤ) : ℤ) * (2 * π) := by push_cast; ring
  rw [this, sin_add_int_mul_two_pi]

theorem wave_wrap (b : Bool) (x : ℝ) (k m : ℕ) : wave b (x + k - m) = wave b x := by
  unfold wave
  rw [sin_wrap]

theorem wave_period (b : Bool) (x : ℝ) : wave b (x + 1) = wave b x := by
  simpa using wave_wrap b x 1 0

theorem analyticSolution_eq {m : ℕ} {t x : ℝ} {b : Bool} (n : ℕ) (h1 : |x - t| ≤ n) (hm : n + 1 ≤ m) :
    analyticSolution m t x b = some (wave b (x - t)) := by
  obtain ⟨h2, h3⟩ := abs_le.1 h1
  obtain ⟨k, hk, _⟩ := raise_ends n (x - t) h2
  have hk1 : x - t + k ≤ (n + 1 : ℕ) + 1 := by
    by_cases h : x - t < 0
    · -- the loop stops at the first nonnegative value
      have : ∀ (n : ℕ) (y z : ℝ), raise n y = some z → y < 1 → z < 1 := by
        intro n
        induction n with
        | zero =>
          intro y z h hy
          simp only [raise] at h
          split_ifs at h
          simp at h; linarith
        | succ n ih =>
          intro y z h hy
          rw [raise] at h
          split_ifs at h with h5
          · exact ih _ _ h (by linarith)
          · simp at h; linarith
      have := this n _ _ hk (by linarith)
      push_cast
      have : (0 : ℝ) ≤ n := Nat.cast_nonneg n
      linarith
    · have : raise n (x - t) = some (x - t) := by
        cases n <;> simp [raise, h]
      rw [this] at hk
      simp at hk
      subst hk
      push_cast
      linarith
  obtain ⟨l, hl, _⟩ := lower_ends (n + 1) (x - t + k) hk1
  have h5 := raise_mono' (show n ≤ m by omega) hk
  have h6 := lower_mono' hm hl
  simp only [analyticSolution, h5, h6, profile_eq, wave_wrap]

theorem analyticSolution_unique {m t x b y} (h : analyticSolution m t x b = some y) : y = wave b (x - t) := by
  obtain ⟨n, hn⟩ := exists_nat_ge |x - t|
  have h1 := analyticSolution_eq (b := b) n hn (le_max_right m (n + 1))
  have : analyticSolution (max m (n + 1)) t x b = some y := by
    unfold analyticSolution at h ⊢
    cases h2 : raise m (x - t) with
    | none => simp [h2] at h
    | some z =>
      rw [h2] at h
      rw [raise_mono' (le_max_left _ _) h2]
      simp only at h ⊢
      cases h3 : lower m z with
      | none => simp [h3] at h
      | some w =>
        rw [h3] at h
        rw [lower_mono' (le_max_left _ _) h3]
        exact h
  rw [h1] at this
  simpa using this.symm

theorem hasDerivAt_mul_abs (x : ℝ) : HasDerivAt (fun y : ℝ => y * |y|) (2 * |x|) x := by
  rcases eq_or_ne x 0 with rfl | hx
  · rw [hasDerivAt_iff_isLittleO_nhds_zero]
    simp only [zero_add, abs_zero, mul_zero, smul_eq_mul, sub_zero]
    have h := Asymptotics.IsBigO.mul_isLittleO (Asymptotics.isBigO_refl (fun h : ℝ => h) (nhds 0))
      (f₂ := fun h : ℝ => |h|) (g₂ := fun _ : ℝ => (1 : ℝ)) ?_
    · simpa using h
    · rw [Asymptotics.isLittleO_one_iff]
      have := (continuous_abs (G := ℝ)).tendsto 0
      simpa using this
  · have h := (hasDerivAt_id x).mul (hasDerivAt_abs hx)
    refine h.congr_deriv ?_
    simp only [id, one_mul]
    rcases lt_or_gt_of_ne hx with h1 | h1
    · simp [sign_neg h1, abs_of_neg h1]; ring
    · simp [sign_pos h1, abs_of_pos h1]; ring

theorem wave_hasDerivAt (b : Bool) (s : ℝ) : ∃ d, HasDerivAt (wave b) d s := by
  have h1 : HasDerivAt (fun s : ℝ => sin (2 * π * s)) (cos (2 * π * s) * (2 * π * 1)) s :=
    (hasDerivAt_sin _).comp s ((hasDerivAt_id s).const_mul (2 * π))
  cases b with
  | true => exact ⟨_, h1.congr_of_eventuallyEq (Filter.Eventually.of_forall fun y => by simp [wave])⟩
  | false =>
    have := (hasDerivAt_mul_abs (sin (2 * π * s))).comp s h1
    exact ⟨_, this.congr_of_eventuallyEq (Filter.Eventually.of_forall fun y => by simp [wave])⟩

theorem transported_wave (b : Bool) : Transported fun t x => wave b (x - t) := by
  intro t x
  obtain ⟨d, hd⟩ := wave_hasDerivAt b (x - t)
  refine ⟨-d, d, ?_, ?_, by ring⟩
  · have := HasDerivAt.comp t hd ((hasDerivAt_const t x).sub (hasDerivAt_id t))
    exact this.congr_deriv (by ring)
  · have := HasDerivAt.comp x hd ((hasDerivAt_id x).sub (hasDerivAt_const x t))
    exact this.congr_deriv (by ring)

/-! ## Degrees of freedom -/

theorem setDofs {localRange support value} (l : List ℕ) (v : ℕ → ℝ) :
    (∀ w, l.foldlM (setDof localRange support value) v = some w →
      ∀ j, (localRange j = true ∧ j ∈ l → ∃ x, support j = some x ∧ w j = value x) ∧
        (¬(localRange j = true ∧ j ∈ l) → w j = v j)) ∧
    (l.foldlM (setDof localRange support value) v = none ↔ ∃ j ∈ l, localRange j = true ∧ support j = none) := by
  induction l generalizing v with
  | nil => simp
  | cons a l ih =>
    simp only [List.foldlM_cons]
    by_cases ha : localRange a = true
    · cases hs : support a with
      | none =>
        refine ⟨?_, ?_⟩
        · intro w hw; simp [setDof, ha, hs] at hw
        · simp [setDof, ha, hs]
      | some x =>
        have e : setDof localRange support value v a = some (Function.update v a (value x)) := by simp [setDof, ha, hs]
        rw [e]
        simp only [Option.bind_eq_bind, Option.bind_some]
        obtain ⟨h1, h2⟩ := ih (Function.update v a (value x))
        refine ⟨?_, ?_⟩
        · intro w hw j
          obtain ⟨h3, h4⟩ := h1 w hw j
          refine ⟨?_, ?_⟩
          · rintro ⟨hj, hm⟩
            by_cases hjl : j ∈ l
            · exact h3 ⟨hj, hjl⟩
            · have hja : j = a := by simpa [hjl] using hm
              subst hja
              exact ⟨x, hs, by rw [h4 (by simp [hjl])]; simp⟩
          · intro hn
            have hja : j ≠ a := by rintro rfl; exact hn ⟨ha, by simp⟩
            rw [h4 (by intro h; exact hn ⟨h.1, by simp [h.2]⟩)]
            simp [hja]
        · rw [h2]
          constructor
          · rintro ⟨j, hj, h⟩; exact ⟨j, by simp [hj], h⟩
          · rintro ⟨j, hj, h, h'⟩
            rcases List.mem_cons.1 hj with rfl | hj
            · rw [hs] at h'; simp at h'
            · exact ⟨j, hj, h, h'⟩
    · have e : setDof localRange support value v a = some v := by simp [setDof, ha]
      rw [e]
      simp only [Option.bind_eq_bind, Option.bind_some]
      obtain ⟨h1, h2⟩ := ih v
      refine ⟨?_, ?_⟩
      · intro w hw j
        obtain ⟨h3, h4⟩ := h1 w hw j
        refine ⟨?_, ?_⟩
        · rintro ⟨hj, hm⟩
          have hja : j ≠ a := by rintro rfl; exact ha hj
          exact h3 ⟨hj, by simpa [hja] using hm⟩
        · intro hn
          exact h4 (by intro h; exact hn ⟨h.1, by simp [h.2]⟩)
      · rw [h2]
        constructor
        · rintro ⟨j, hj, h⟩; exact ⟨j, by simp [hj], h⟩
        · rintro ⟨j, hj, h, h'⟩
          rcases List.mem_cons.1 hj with rfl | hj
          · exact absurd h ha
          · exact ⟨j, hj, h, h'⟩

theorem setCells {localRange support value} (cells : List Cell) (v : ℕ → ℝ) :
    (∀ w, getAnalyticSolution localRange support value cells v = some w →
      ∀ j, (IsSet localRange cells j → ∃ x, support j = some x ∧ w j = value x) ∧ (¬IsSet localRange cells j → w j = v j)) ∧
    (getAnalyticSolution localRange support value cells v = none ↔ ∃ j, IsSet localRange cells j ∧ support j = none) := by
  unfold getAnalyticSolution
  induction cells generalizing v with
  | nil => simp [IsSet]
  | cons c cells ih =>
    have hset : ∀ j, IsSet localRange (c :: cells) j ↔ (localRange j = true ∧ c.owned = true ∧ j ∈ c.dofs) ∨ IsSet localRange cells j := by
      intro j; simp [IsSet]; tauto
    simp only [List.foldlM_cons]
    by_cases hc : c.owned = true
    · have e : setCell localRange support value v c = c.dofs.foldlM (setDof localRange support value) v := by simp [setCell, hc]
      rw [e]
      obtain ⟨h1, h2⟩ := setDofs (localRange := localRange) (support := support) (value := value) c.dofs v
      cases hf : c.dofs.foldlM (setDof localRange support value) v with
      | none =>
        refine ⟨by intro w hw; simp at hw, ?_⟩
        simp only [Option.bind_eq_bind, Option.bind_none, true_iff]
        obtain ⟨j, hj, h, h'⟩ := h2.1 hf
        exact ⟨j, (hset j).2 (Or.inl ⟨h, hc, hj⟩), h'⟩
      | some u =>
        simp only [Option.bind_eq_bind, Option.bind_some]
        obtain ⟨h3, h4⟩ := ih u
        refine ⟨?_, ?_⟩
        · intro w hw j
          obtain ⟨h5, h6⟩ := h3 w hw j
          obtain ⟨h7, h8⟩ := h1 u hf j
          refine ⟨?_, ?_⟩
          · intro hj
            by_cases hj' : IsSet localRange cells j
            · exact h5 hj'
            · rw [h6 hj']
              rcases (hset j).1 hj with h | h
              · exact h7 ⟨h.1, h.2.2⟩
              · exact absurd h hj'
          · intro hj
            rw [hset] at hj
            push Not at hj
            rw [h6 hj.2]
            exact h8 (fun h => hj.1 h.1 hc h.2)
        · rw [h4]
          constructor
          · rintro ⟨j, hj, h⟩; exact ⟨j, (hset j).2 (Or.inr hj), h⟩
          · rintro ⟨j, hj, h⟩
            rcases (hset j).1 hj with h' | h'
            · obtain ⟨x, hx, _⟩ := (h1 u hf j).1 ⟨h'.1, h'.2.2⟩
              rw [h] at hx; simp at hx
            · exact ⟨j, h', h⟩
    · have e : setCell localRange support value v c = some v := by simp [setCell, hc]
      rw [e]
      simp only [Option.bind_eq_bind, Option.bind_some]
      have hset' : ∀ j, IsSet localRange (c :: cells) j ↔ IsSet localRange cells j := by
        intro j; rw [hset]; tauto
      simp only [hset']
      exact ih v

/-! ## The time loop -/

section TimeLoop

variable {E : Type*} {output : Bool} {s : Stepper E} {deltaT tEnd : ℝ}

theorem loop_inv (Inv : Loop E → Prop) (hb : ∀ l l', l.t < tEnd → Inv l → body output s deltaT l = .ok l' → Inv l') {n : ℕ}
    {l l' : Loop E} (h0 : Inv l) (h : loop output s deltaT tEnd n l = some (.ok l')) : Inv l' ∧ tEnd ≤ l'.t := by
  induction n generalizing l with
  | zero =>
    simp only [loop] at h
    split_ifs at h with h1
    simp at h
    subst h
    exact ⟨h0, not_lt.1 h1⟩
  | succ n ih =>
    rw [loop] at h
    split_ifs at h with h1
    · cases h2 : body output s deltaT l with
      | error e => simp [h2] at h
      | ok m =>
        rw [h2] at h
        exact ih (hb l m h1 h0 h2) h
    · simp at h
      subst h
      exact ⟨h0, not_lt.1 h1⟩

theorem loop_ends (Inv : Loop E → Prop)
    (hb : ∀ l, Inv l → ∃ l', body output s deltaT l = .ok l' ∧ Inv l' ∧ l.t + deltaT ≤ l'.t) (n : ℕ)
    {l : Loop E} (h0 : Inv l) (hn : tEnd ≤ l.t + n * deltaT) : ∃ l', loop output s deltaT tEnd n l = some (.ok l') := by
  induction n generalizing l with
  | zero => exact ⟨l, by simp at hn; simp [loop, not_lt.2 hn]⟩
  | succ n ih =>
    rw [loop]
    split_ifs with h1
    · obtain ⟨m, h2, h3, h4⟩ := hb l h0
      rw [h2]
      exact ih h3 (by push_cast at hn; linarith)
    · exact ⟨l, rfl⟩

/-- Plain branch: what holds after each iteration -/
def InvPlain (s : Stepper E) (deltaT tEnd : ℝ) (f : E) (l : Loop E) : Prop :=
  l.t = l.i * deltaT ∧ l.stored = deltaT ∧ Advanced s deltaT f l.i l.f ∧ ∀ k < l.i, (k : ℝ) * deltaT < tEnd

theorem invPlain_body (hs : Clocked s) {f : E} {l l' : Loop E} (ht : l.t < tEnd) (h : InvPlain s deltaT tEnd f l)
    (hb : body false s deltaT l = .ok l') : InvPlain s deltaT tEnd f l' := by
  obtain ⟨h1, h2, h3, h4⟩ := h
  have h5 : ∀ k < l.i + 1, (k : ℝ) * deltaT < tEnd := by
    intro k hk
    rcases Nat.lt_succ_iff_lt_or_eq.1 hk with h | h
    · exact h4 k h
    · subst h; rw [← h1]; exact ht
  cases s with
  | semiLagrangian apply =>
    simp only [body, streamPlain, Bool.false_eq_true, if_false, Except.ok.injEq] at hb
    subst hb
    exact ⟨by simp only [h1]; push_cast; ring, h2, .matrix rfl h3, h5⟩
  | integrator step =>
    simp only [body, streamPlain, Bool.false_eq_true, if_false] at hb
    cases hr : step l.stored l.f l.t l.stored with
    | error e => simp [hr] at hb
    | ok r =>
      rw [hr] at hb
      simp only [Except.ok.injEq] at hb
      subst hb
      rw [h2] at hr
      obtain ⟨h6, h7⟩ := hs step rfl _ _ _ _ hr
      exact ⟨by simp only [h6, h1]; push_cast; ring, h7, .step rfl hr h3, h5⟩

/-- The files hold the states after the multiples of ten steps, together with the time reached then. -/
def Files (s : Stepper E) (deltaT : ℝ) (f : E) (i : ℕ) (w : List (ℝ × E)) : Prop :=
  w.length = i / 10 ∧ ∀ p ∈ w, ∃ k, k % 10 = 0 ∧ 0 < k ∧ k ≤ i ∧ p.1 = k * deltaT ∧ Advanced s deltaT f k p.2

theorem files_write {f : E} {l : Loop E} {i : ℕ} (hi : l.i = i + 1) (h : Files s deltaT f i l.written) (ha : Advanced s deltaT f l.i l.f) :
    Files s deltaT f (write deltaT l).i (write deltaT l).written ∧ (write deltaT l).i = l.i ∧ (write deltaT l).t = l.t ∧
      (write deltaT l).f = l.f ∧ (write deltaT l).stored = l.stored := by
  unfold write
  obtain ⟨h1, h2⟩ := h
  split_ifs with h3
  · refine ⟨⟨by simp only [List.length_append, h1, List.length_singleton]; omega, ?_⟩, rfl, rfl, rfl, rfl⟩
    intro p hp
    rcases List.mem_append.1 hp with hp | hp
    · obtain ⟨k, h5, h6, h7, h8⟩ := h2 p hp
      exact ⟨k, h5, h6, by simp only; omega, h8⟩
    · simp only [List.mem_singleton] at hp
      subst hp
      exact ⟨l.i, h3, by omega, le_rfl, by simp only; ring, ha⟩
  · refine ⟨⟨by omega, ?_⟩, rfl, rfl, rfl, rfl⟩
    intro p hp
    obtain ⟨k, h5, h6, h7, h8⟩ := h2 p hp
    exact ⟨k, h5, h6, by omega, h8⟩

/-- Output branch with a clock `T`: what holds after each iteration -/
def InvOutput (s : Stepper E) (deltaT tEnd : ℝ) (T : ℕ → ℝ) (f : E) (l : Loop E) : Prop :=
  l.t = T l.i ∧ l.stored = deltaT ∧ Advanced s deltaT f l.i l.f ∧ Files s deltaT f l.i l.written ∧ ∀ k < l.i, T k < tEnd

theorem lt_succ_times {T : ℕ → ℝ} {l : Loop E} (h1 : l.t = T l.i) (ht : l.t < tEnd) (h4 : ∀ k < l.i, T k < tEnd) :
    ∀ k < l.i + 1, T k < tEnd := by
  intro k hk
  rcases Nat.lt_succ_iff_lt_or_eq.1 hk with h | h
  · exact h4 k h
  · subst h; rw [← h1]; exact ht

theorem invOutput_matrix {apply : E → E} {f : E} {l l' : Loop E} (ht : l.t < tEnd)
    (h : InvOutput (.semiLagrangian apply) deltaT tEnd (fun i => i * deltaT) f l)
    (hb : body true (.semiLagrangian apply) deltaT l = .ok l') : InvOutput (.semiLagrangian apply) deltaT tEnd (fun i => i * deltaT) f l' := by
  obtain ⟨h1, h2, h3, h4, h5⟩ := h
  have h9 := lt_succ_times h1 ht h5
  simp only [body, streamOutput, if_true, Except.ok.injEq] at hb
  obtain ⟨k1, k2, k3, k4, k5⟩ := files_write (s := .semiLagrangian apply) (deltaT := deltaT) (f := f)
    (l := { l with t := l.t + deltaT, i := l.i + 1, f := apply l.f }) (i := l.i) rfl h4 (.matrix rfl h3)
  rw [hb] at k1 k2 k3 k4 k5
  refine ⟨?_, by rw [k5]; exact h2, ?_, k1, ?_⟩
  · rw [k3, k2]
    simp only [h1]
    push_cast
    ring
  · rw [k2, k4]
    exact .matrix rfl h3
  · rw [k2]
    exact h9

theorem invOutput_integrator {step} {f : E} {l l' : Loop E} (hs : Clocked (.integrator step : Stepper E)) (ht : l.t < tEnd)
    (h : InvOutput (.integrator step) deltaT tEnd (fun i => (2 ^ i - 1) * deltaT) f l)
    (hb : body true (.integrator step) deltaT l = .ok l') :
    InvOutput (.integrator step) deltaT tEnd (fun i => (2 ^ i - 1) * deltaT) f l' := by
  obtain ⟨h1, h2, h3, h4, h5⟩ := h
  have h9 := lt_succ_times h1 ht h5
  simp only [body, streamOutput, if_true] at hb
  cases hr : step l.stored l.f l.t l.stored with
  | error e => simp [hr] at hb
  | ok r =>
    rw [hr] at hb
    simp only [Except.ok.injEq] at hb
    rw [h2] at hr
    obtain ⟨h6, h7⟩ := hs step rfl _ _ _ _ hr
    obtain ⟨k1, k2, k3, k4, k5⟩ := files_write (s := .integrator step) (deltaT := deltaT) (f := f)
      (l := { l with t := l.t + r.t, i := l.i + 1, f := r.f, stored := r.timeStepSize }) (i := l.i) rfl h4 (.step rfl hr h3)
    rw [hb] at k1 k2 k3 k4 k5
    refine ⟨?_, by rw [k5]; exact h7, ?_, k1, ?_⟩
    · rw [k3, k2]
      simp only [h1, h6]
      ring
    · rw [k2, k4]
      exact .step rfl hr h3
    · rw [k2]
      exact h9

theorem invPlain_start (f : E) : InvPlain s deltaT tEnd f (start deltaT f) :=
  ⟨by simp [start], rfl, .zero, by simp [start]⟩

theorem invOutput_start {T : ℕ → ℝ} (hT : T 0 = 0) (f : E) : InvOutput s deltaT tEnd T f (start deltaT f) :=
  ⟨by simp [start, hT], rfl, .zero, ⟨by simp [start], by simp [start]⟩, by simp [start]⟩

end TimeLoop

/-! ## Norms -/

theorem foldl_max_le {v : List ℝ} {a : ℝ} : a ≤ v.foldl (fun m x => max m |x|) a ∧ (∀ x ∈ v, |x| ≤ v.foldl (fun m x => max m |x|) a) ∧
    (v.foldl (fun m x => max m |x|) a = a ∨ ∃ x ∈ v, v.foldl (fun m x => max m |x|) a = |x|) := by
  induction v generalizing a with
  | nil => simp
  | cons y v ih =>
    simp only [List.foldl_cons]
    obtain ⟨h1, h2, h3⟩ := ih (a := max a |y|)
    refine ⟨(le_max_left _ _).trans h1, ?_, ?_⟩
    · intro x hx
      rcases List.mem_cons.1 hx with rfl | hx
      · exact (le_max_right _ _).trans h1
      · exact h2 x hx
    · rcases h3 with h3 | ⟨x, hx, h3⟩
      · rw [h3]
        rcases max_choice a |y| with h | h
        · exact Or.inl h
        · exact Or.inr ⟨y, by simp, h⟩
      · exact Or.inr ⟨x, by simp [hx], h3⟩

theorem sum_sq_nonneg (v : List ℝ) : 0 ≤ (v.map fun x => x ^ 2).sum :=
  List.sum_nonneg (by simp only [List.mem_map]; rintro _ ⟨x, _, rfl⟩; positivity)

theorem sq_le_sum {v : List ℝ} {x : ℝ} (hx : x ∈ v) : x ^ 2 ≤ (v.map fun x => x ^ 2).sum := by
  induction v with
  | nil => simp at hx
  | cons y v ih =>
    simp only [List.map_cons, List.sum_cons]
    rcases List.mem_cons.1 hx with rfl | hx
    · linarith [sum_sq_nonneg v]
    · have := ih hx
      nlinarith [sq_nonneg y]

theorem sum_sq_le {v : List ℝ} {M : ℝ} (h : ∀ x ∈ v, |x| ≤ M) : (v.map fun x => x ^ 2).sum ≤ v.length * M ^ 2 := by
  induction v with
  | nil => simp
  | cons y v ih =>
    simp only [List.map_cons, List.sum_cons, List.length_cons]
    have h1 := ih fun x hx => h x (by simp [hx])
    have h2 : y ^ 2 ≤ M ^ 2 := by
      have := h y (by simp)
      exact sq_le_sq' (by linarith [neg_abs_le y]) ((le_abs_self y).trans this)
    push_cast
    linarith

end AdvectionBenchmark

end NATriuM
