import Verif.Lemmas.Problem
import Mathlib.Tactic.NormNum
import Mathlib.Data.Rat.Defs
import Mathlib.Algebra.Field.Rat
import Mathlib.Data.Fin.VecNotation

/-!
# Properties C45, C47, C50, C51, C67: problem description
-/

namespace NATriuM
namespace Problem

/-! ## C45 -/

/-- **C45** (partial: "registered" includes calls that failed, see `C45_failing_call_fails`) After any sequence of registrations, a lookup
returns the object of the first call that named the indicator, and throws if there is none. -/
theorem C45_first_partial (rs : List Registration) (i : ℕ) :
    getBoundary i (history rs) = match firstFor rs i with | some b => .ok b | none => .error .collection := by
  rw [getBoundary, history_lookup]
  cases firstFor rs i <;> rfl

/-- **C45** Lookup of an indicator that no call named throws; all others are found. -/
theorem C45_unknown (rs : List Registration) (i : ℕ) :
    (getBoundary i (history rs) = .error .collection ↔ i ∉ named rs) ∧ (hasID i (history rs) = true ↔ i ∈ named rs) := by
  rw [C45_first_partial, hasID, history_lookup, ← firstFor_none_iff, ← not_iff_not (b := i ∈ named rs), ← firstFor_none_iff]
  cases firstFor rs i <;> simp

/-- **C45** A periodic boundary is accepted exactly if both its indicators are new and different; other boundaries are always accepted, without
effect if the indicator is taken. -/
theorem C45_accepted (rs : List Registration) (i i2 t : ℕ) :
    ((addPeriodic i i2 t (history rs)).1 = .ok () ↔ Fresh rs (.periodic i i2 t)) ∧
    (addPlain i t (history rs)).1 = .ok () ∧
    (i ∈ named rs → (addPlain i t (history rs)).2 = history rs) := by
  refine ⟨addPeriodic_ok rs i i2 t, rfl, fun h => ?_⟩
  have h2 : (history rs).boundaries.lookup i ≠ none := by rwa [history_lookup, Ne, firstFor_none_iff, not_not]
  obtain ⟨b, hb⟩ := Option.ne_none_iff_exists'.1 h2
  simp [addPlain, Map.insert, hb]

/-- **C45** If all calls named new indicators, the two tables agree: an indicator is periodic exactly if the periodic boundary is found. -/
theorem C45_periodic_partial (rs : List Registration) (h : AllFresh rs) (i t : ℕ) :
    getPeriodicBoundary i (history rs) = .ok t ↔ getBoundary i (history rs) = .ok (.periodic t) := by
  have key : (history rs).periodic.lookup i = (firstFor rs i).bind fun b => match b with | .periodic t => some t | .plain _ => none := by
    induction rs using List.reverseRecOn with
    | nil => rfl
    | append_singleton rs c ih =>
      have ih := ih fun pre c' post e => h pre c' (post ++ [c]) (by rw [e]; simp)
      have hf : Fresh rs c := h rs c [] rfl
      have h1 : firstFor (rs ++ [c]) i = (firstFor rs i).or (c.wants.lookup i) := by
        rw [firstFor, firstFor, List.flatMap_append, lookup_append]; simp
      rw [history_append, h1]
      have hnew : i ∈ c.wants.map Prod.fst → firstFor rs i = none := fun hi => (firstFor_none_iff _ _).2 (hf.2 i hi)
      cases c with
      | plain k s =>
        simp only [Registration.exec, addPlain, ih]
        by_cases hk : i = k
        · subst hk
          simp [hnew (by simp [Registration.wants]), Registration.wants]
        · have : (Registration.plain k s).wants.lookup i = none := by rw [lookup_none_iff]; simpa [Registration.wants] using hk
          rw [this]; simp
      | periodic i1 i2 s =>
        have hok := (addPeriodic_ok rs i1 i2 s).2 hf
        have h2 : (addPeriodic i1 i2 s (history rs)).2.periodic = (((history rs).periodic.insert i1 s).1.insert i2 s).1 := by
          revert hok
          simp only [addPeriodic]
          split_ifs <;> simp
        rw [Registration.exec, h2, insert_lookup, insert_lookup, ih, Option.or_assoc, ← lookup_append]
        by_cases hk : i ∈ (Registration.periodic i1 i2 s).wants.map Prod.fst
        · rw [hnew hk]
          simp only [Registration.wants, List.map_cons, List.map_nil, List.mem_cons, List.not_mem_nil, or_false] at hk
          by_cases h3 : i = i1
          · subst h3; simp [Registration.wants]
          · have h4 : i = i2 := hk.resolve_left h3
            have h5 : (i == i1) = false := by simpa using h3
            subst h4
            simp [Registration.wants, List.lookup_cons, h5]
        · have h3 : (Registration.periodic i1 i2 s).wants.lookup i = none := (lookup_none_iff _ _).2 hk
          have h4 : ([(i1, s)] ++ [(i2, s)]).lookup i = none := (lookup_none_iff _ _).2 hk
          rw [h3, h4]; simp
  rw [getPeriodicBoundary, key, C45_first_partial]
  cases firstFor rs i with
  | none => simp
  | some b => cases b <;> simp

/-- **C45** The number of boundaries is the number of different indicators. -/
theorem C45_count (rs : List Registration) : numberOfBoundaries (history rs) = (named rs).dedup.length := by
  rw [numberOfBoundaries, ← List.length_map (f := Prod.fst)]
  refine List.Perm.length_eq ((List.perm_ext_iff_of_nodup (keys_nodup rs) (List.nodup_dedup _)).2 fun i => ?_)
  rw [mem_keys_iff, List.mem_dedup]

/-- Non-vacuity: two pairs of periodic boundaries and a wall. -/
example : AllFresh [.periodic 0 1 10, .plain 2 11, .periodic 3 4 12] ∧
    getPeriodicBoundary 4 (history [.periodic 0 1 10, .plain 2 11, .periodic 3 4 12]) = .ok 12 := by
  refine ⟨?_, by decide +kernel⟩
  intro pre c post h
  have h3 := congrArg List.length h
  match pre, h with
  | [], h => simp only [List.nil_append, List.cons.injEq] at h; rw [← h.1]; simp [Fresh, Registration.wants, named]
  | [a], h =>
    simp only [List.cons_append, List.nil_append, List.cons.injEq] at h
    rw [← h.1, ← h.2.1]; simp [Fresh, Registration.wants, named]
  | [a, b], h =>
    simp only [List.cons_append, List.nil_append, List.cons.injEq] at h
    rw [← h.1, ← h.2.1, ← h.2.2.1]; simp [Fresh, Registration.wants, named]
  | _ :: _ :: _ :: _, h => simp at h3

/-- **C45** fails: a call that throws leaves one of its indicators registered.  The indicator counts as periodic, but has no periodic
boundary. -/
theorem C45_failing_call_fails :
    (addPeriodic 0 1 20 (history [.plain 1 10])).1 = .error .collection ∧
    getBoundary 0 (history [.plain 1 10]) = .error .collection ∧
    getBoundary 0 (history [.plain 1 10, .periodic 0 1 20]) = .ok (.periodic 20) ∧
    isPeriodic 0 (history [.plain 1 10, .periodic 0 1 20]) = .ok true ∧
    getPeriodicBoundary 0 (history [.plain 1 10, .periodic 0 1 20]) = .error .collection := by
  decide +kernel

/-- **C45** A second wall for the same indicator is dropped without an error. -/
theorem C45_duplicate_fails :
    (addPlain 1 11 (history [.plain 1 10])).1 = .ok () ∧ getBoundary 1 (history [.plain 1 10, .plain 1 11]) = .ok (.plain 10) := by
  decide +kernel

/-! ## C51 -/

/-- **C51** (partial: for indicators that fit into `boundary_id`) The check succeeds exactly if mesh and registry have the same ids. -/
theorem C51_partial (w : ℕ) (mesh : List ℕ) (hm : mesh.Nodup) (rs : List Registration) (hw : ∀ i ∈ named rs, i < 2 ^ w) :
    checkBoundaryConditions w mesh (history rs) = true ↔ IdsAgree mesh (history rs) := by
  have hmap : ((history rs).boundaries.map fun b => b.1 % 2 ^ w) = (history rs).boundaries.map Prod.fst := by
    refine List.map_congr_left fun b hb => Nat.mod_eq_of_lt (hw _ ?_)
    rw [← mem_keys_iff]
    exact List.mem_map_of_mem hb
  obtain ⟨h1, h2⟩ := checkLoop_spec mesh ((history rs).boundaries.map Prod.fst) true hm (keys_nodup rs)
  rw [checkBoundaryConditions, hmap]
  simp only [h1, Bool.true_and, Bool.and_eq_true, decide_eq_true_eq, List.isEmpty_iff, List.eq_nil_iff_forall_not_mem, h2, mem_keys_iff]
  have h3 : ∀ i, (∃ b, getBoundary i (history rs) = .ok b) ↔ i ∈ named rs := by
    intro i
    rw [← not_iff_not, ← (C45_unknown rs i).1]
    rcases h : getBoundary i (history rs) with ⟨⟨⟩⟩ | b <;> simp
  simp only [IdsAgree, h3]
  constructor
  · rintro ⟨h4, h5⟩ i
    exact ⟨h4 i, fun h => by_contra fun hc => h5 i ⟨h, hc⟩⟩
  · intro h
    exact ⟨fun i hi => (h i).1 hi, fun i ⟨h4, h5⟩ => h5 ((h i).2 h4)⟩

/-- Non-vacuity -/
example : checkBoundaryConditions 8 [2, 0, 1] (history [.periodic 0 1 10, .plain 2 11]) = true ∧
    checkBoundaryConditions 8 [0, 1] (history [.periodic 0 1 10, .plain 2 11]) = false := by
  decide +kernel

/-- **C51** fails: an indicator that does not fit into `boundary_id` is cut off by the check, which then accepts a mesh for which there is no
boundary condition. -/
theorem C51_fails (w : ℕ) : checkBoundaryConditions w [0] (history [.plain (2 ^ w) 10]) = true ∧
    getBoundary 0 (history [.plain (2 ^ w) 10]) = .error .collection := by
  constructor
  · have : (history [.plain (2 ^ w) 10]).boundaries = [(2 ^ w, .plain 10)] := rfl
    simp [checkBoundaryConditions, this, checkLoop]
  · rw [(C45_unknown _ _).1]
    simp [named, Registration.wants]
    exact (Nat.two_pow_pos w).ne

/-! ## C67 -/

section Force

variable {K : Type*} [Field K] [DecidableEq K]

/-- **C67** In two and in three dimensions, a problem has an external force exactly if a force was set and is not the zero vector. -/
theorem C67_iff (p : ForcePtr K 2) (q : ForcePtr K 3) :
    (hasExternalForce2 p = true ↔ ∃ f, p = some f ∧ f ≠ 0) ∧ (hasExternalForce3 q = true ↔ ∃ f, q = some f ∧ f ≠ 0) := by
  constructor
  · cases p with
    | none => simp [hasExternalForce2]
    | some f =>
      have : f ≠ 0 ↔ f 0 ≠ 0 ∨ f 1 ≠ 0 := by
        rw [Ne, funext_iff, Fin.forall_fin_two]; simp only [Pi.zero_apply]; tauto
      simp only [hasExternalForce2, Option.some.injEq, exists_eq_left', this]
      split_ifs <;> simp_all
  · cases q with
    | none => simp [hasExternalForce3]
    | some f =>
      have : f ≠ 0 ↔ f 0 ≠ 0 ∨ f 1 ≠ 0 ∨ f 2 ≠ 0 := by
        rw [Ne, funext_iff, Fin.forall_fin_succ, Fin.forall_fin_two]; simp only [Pi.zero_apply]
        change ¬ (f 0 = 0 ∧ f 1 = 0 ∧ f 2 = 0) ↔ _
        tauto
      simp only [hasExternalForce3, Option.some.injEq, exists_eq_left', this]
      split_ifs <;> simp_all

omit [DecidableEq K] in
/-- **C67** Setting a force makes it the force, scaling it scales it, and the new value of a tensor is used; the last two need a force that was
set before. -/
theorem C67_calls {d : ℕ} (p : ForcePtr K d) (f g : Fin d → K) (c : K) :
    (ForceCall.set g).exec p = .ok (some g) ∧ (ForceCall.setTensor g).exec (some f) = .ok (some g) ∧
    (ForceCall.scale c).exec (some f) = .ok (some (c • f)) ∧
    (ForceCall.setTensor g).exec none = .error .nullPointer := by
  refine ⟨rfl, rfl, ?_, rfl⟩
  simp only [ForceCall.exec]
  congr 2
  funext a
  exact mul_comm _ _

end Force

/-- Non-vacuity: a force in the third direction only. -/
example : hasExternalForce3 (some ![0, 0, (1 : ℚ)]) = true ∧ hasExternalForce3 (some ![0, 0, (0 : ℚ)]) = false ∧
    hasExternalForce2 (none : ForcePtr ℚ 2) = false := by
  decide +kernel

/-! ## C50 -/

/-- **C50** Flag values behave as sets of flags: union, intersection, membership test, single flags, empty set. -/
theorem C50_sets (v w : ℕ) (f g : Flag) :
    (Holds (flagOr v w) f ↔ Holds v f ∨ Holds w f) ∧ (Holds (flagAnd v w) f ↔ Holds v f ∧ Holds w f) ∧
    (flagTest f.code v = true ↔ Holds v f) ∧ (Holds g.code f ↔ f = g) ∧ ¬ Holds onlyDistributions f := by
  obtain ⟨k, hk⟩ := code_pow f
  have one : ∀ v, Holds v f ↔ v.testBit k = true := by
    intro v
    constructor
    · rintro ⟨l, h1, h2⟩
      have : k = l := by by_contra hc; exact two_pow_ne hc (hk ▸ h1)
      rwa [this]
    · exact fun h => ⟨k, hk, h⟩
  refine ⟨?_, ?_, ?_, ?_, ?_⟩
  · simp [one, flagOr, Nat.testBit_or]
  · simp [one, flagAnd, Nat.testBit_and]
  · rw [one, flagTest, flagAnd, hk, decide_eq_true_eq, and_two_pow_ne]
  · rw [one]
    obtain ⟨l, hl⟩ := code_pow g
    rw [hl, Nat.testBit_two_pow, decide_eq_true_eq]
    constructor
    · rintro rfl; exact code_injective (hk.trans hl.symm)
    · rintro rfl; by_contra hc; exact two_pow_ne hc (hl ▸ hk)
  · simp [one, onlyDistributions]

/-- **C50** Values that hold the same flags, and nothing else, are equal. -/
theorem C50_ext (v w : ℕ) (hv : v < 2 ^ 9) (hw : w < 2 ^ 9) (h : ∀ f, Holds v f ↔ Holds w f) : v = w := by
  refine Nat.eq_of_testBit_eq fun j => ?_
  by_cases hj : j < 9
  · have : ∃ f : Flag, f.code = 2 ^ j := by
      match j, hj with
      | 0, _ => exact ⟨.rho, rfl⟩
      | 1, _ => exact ⟨.u, rfl⟩
      | 2, _ => exact ⟨.duDx, rfl⟩
      | 3, _ => exact ⟨.drhoDt, rfl⟩
      | 4, _ => exact ⟨.duDt, rfl⟩
      | 5, _ => exact ⟨.d2uDxdt, rfl⟩
      | 6, _ => exact ⟨.p, rfl⟩
      | 7, _ => exact ⟨.dpDt, rfl⟩
      | 8, _ => exact ⟨.pUT, rfl⟩
    obtain ⟨f, hf⟩ := this
    have one : ∀ v, Holds v f ↔ v.testBit j = true := by
      intro v
      constructor
      · rintro ⟨l, h1, h2⟩
        have : j = l := by by_contra hc; exact two_pow_ne hc (hf ▸ h1)
        rwa [this]
      · exact fun h => ⟨j, hf, h⟩
    have := h f
    rw [one, one] at this
    rwa [Bool.eq_iff_iff]
  · have e : ∀ v, v < 2 ^ 9 → v.testBit j = false := fun v hv =>
      Nat.testBit_lt_two_pow (hv.trans_le (Nat.pow_le_pow_right (by norm_num) (by omega)))
    rw [e v hv, e w hw]

/-- Non-vacuity -/
example : Holds (flagOr (Flag.code .rho) (Flag.code .drhoDt)) .drhoDt ∧ ¬ Holds (flagOr (Flag.code .rho) (Flag.code .drhoDt)) .u := by
  constructor
  · rw [(C50_sets _ _ _ .rho).1]; exact .inr ((C50_sets 0 0 _ _).2.2.2.1.2 rfl)
  · rw [(C50_sets _ _ _ .rho).1, (C50_sets 0 0 _ _).2.2.2.1, (C50_sets 0 0 _ _).2.2.2.1]; decide

/-! ## C47 -/

section Prescribed

variable {K : Type*} [Field K] {d : ℕ}

/-- **C47** (partial: not the temperature) The values given to a boundary are those evaluated later, at all times and points, after any number of
copies; nothing else is prescribed, and the flags say what is. -/
theorem C47_kept_partial (n : ℕ) (p : K) (u : Fin d → K) (g : Fin d → Fin d → K) (t : K) (x : Fin d → K) (a : Fin d) :
    ((Prescribed.copy^[n] (.ofPressure (d := d) p)).pressure.map fun f => f.value t x 0) = some p ∧
    (Prescribed.copy^[n] (.ofPressure (d := d) p)).velocity = none ∧
    (Prescribed.copy^[n] (.ofPressure (d := d) p)).flags = Flag.code .p ∧
    ((Prescribed.copy^[n] (.ofVelocity u)).velocity.map fun f => f.value t x a) = some (u a) ∧
    (Prescribed.copy^[n] (.ofVelocity u)).pressure = none ∧
    (Prescribed.copy^[n] (.ofVelocity u)).flags = Flag.code .u ∧
    ((Prescribed.copy^[n] (.ofGradient g)).velocityGradient.map fun f => f t x) = some g ∧
    (Prescribed.copy^[n] (.ofGradient g)).flags = Flag.code .duDx := by
  have key : ∀ v : Prescribed K d, (Prescribed.copy^[n] v).pressure = v.pressure ∧ (Prescribed.copy^[n] v).velocity = v.velocity ∧
      (Prescribed.copy^[n] v).flags = v.flags ∧ (Prescribed.copy^[n] v).velocityGradient = v.velocityGradient := by
    intro v
    induction n with
    | zero => exact ⟨rfl, rfl, rfl, rfl⟩
    | succ n ih => rw [Function.iterate_succ_apply']; exact ih
  simp [key, Prescribed.ofPressure, Prescribed.ofVelocity, Prescribed.ofGradient, Prescribed.none, constantFn, constantVelocity]

omit [Field K] in
/-- **C47** A function is taken as pressure or velocity according to its number of components, and evaluated unchanged by the boundary. -/
theorem C47_function (f : Fn K d) (hd : d ≠ 1) :
    (f.components = 1 → ∃ v, Prescribed.ofFn f = .ok v ∧ (boundaryValues v).pressure = some f ∧ (boundaryValues v).velocity = none) ∧
    (f.components = d → ∃ v, Prescribed.ofFn f = .ok v ∧ (boundaryValues v).velocity = some f ∧ (boundaryValues v).pressure = none) ∧
    (f.components ≠ 1 → f.components ≠ d → Prescribed.ofFn f = .error .components) := by
  refine ⟨fun h => ⟨_, by rw [Prescribed.ofFn, if_pos h], rfl, rfl⟩, fun h => ⟨_, by rw [Prescribed.ofFn, if_neg (fun h1 => hd (h.symm.trans h1)), if_pos h], rfl, rfl⟩,
    fun h1 h2 => by rw [Prescribed.ofFn, if_neg h1, if_neg h2]⟩

/-- **C47** The velocity and the pressure prescribed together with a temperature are kept. -/
theorem C47_put_partial (p : K) (u : Fin d → K) (T t : K) (x : Fin d → K) (a : Fin d) :
    ((boundaryValues (.ofPUT p u T)).pressure.map fun f => f.value t x 0) = some p ∧
    ((boundaryValues (.ofPUT p u T)).velocity.map fun f => f.value t x a) = some (u a) := by
  simp [boundaryValues, Prescribed.copy, Prescribed.ofPUT, constantFn, constantVelocity]

/-- **C47** fails: the prescribed temperature is replaced by the pressure, and dropped altogether when the values are copied into a boundary,
although the flag says that it is prescribed. -/
theorem C47_temperature_fails (p : K) (u : Fin d → K) (T t : K) (x : Fin d → K) :
    ((Prescribed.ofPUT p u T).temperature.map fun f => f.value t x 0) = some p ∧
    (boundaryValues (.ofPUT p u T)).temperature = none ∧ Holds (boundaryValues (.ofPUT p u T)).flags .pUT :=
  ⟨rfl, rfl, 8, rfl, by change Nat.testBit (Flag.code .pUT) 8 = true; decide⟩

end Prescribed

end Problem
end NATriuM
