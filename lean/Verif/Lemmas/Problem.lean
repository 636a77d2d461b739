import Verif.Spec.Problem
import Mathlib.Data.List.Nodup
import Mathlib.Data.List.Induction

/-!
# Lemmas about the problem description
-/

namespace NATriuM
namespace Problem

theorem lookup_append {α : Type*} (l m : List (ℕ × α)) (i : ℕ) : (l ++ m).lookup i = (l.lookup i).or (m.lookup i) := by
  induction l with
  | nil => simp
  | cons x l ih =>
    obtain ⟨k, a⟩ := x
    by_cases h : i = k
    · simp [List.lookup, h]
    · have hb : (i == k) = false := by simpa using h
      simp [List.lookup, hb, ih]

theorem lookup_none_iff {α : Type*} (l : List (ℕ × α)) (i : ℕ) : l.lookup i = none ↔ i ∉ l.map Prod.fst := by
  induction l with
  | nil => simp
  | cons x l ih =>
    obtain ⟨k, a⟩ := x
    by_cases h : i = k
    · simp [List.lookup, h]
    · have hb : (i == k) = false := by simpa using h
      rw [List.lookup_cons, hb, List.map_cons, List.mem_cons, not_or]
      simp only [ih, h, not_false_eq_true, true_and]

theorem insert_lookup {α : Type*} (m : Map α) (k : ℕ) (a : α) (i : ℕ) :
    (m.insert k a).1.lookup i = (m.lookup i).or ([(k, a)].lookup i) := by
  unfold Map.insert
  split
  · rename_i b hb
    by_cases h : i = k
    · subst h; rw [hb]; rfl
    · have : [(k, a)].lookup i = none := by simp [lookup_none_iff, h]
      simp [this]
  · rw [lookup_append]

theorem insert_keys {α : Type*} (m : Map α) (k : ℕ) (a : α) :
    (m.insert k a).1.map Prod.fst = if k ∈ m.map Prod.fst then m.map Prod.fst else m.map Prod.fst ++ [k] := by
  unfold Map.insert
  split
  · rename_i b hb
    have : ¬ m.lookup k = none := by rw [hb]; simp
    rw [lookup_none_iff, not_not] at this
    rw [if_pos this]
  · rename_i hb
    rw [lookup_none_iff] at hb
    rw [if_neg hb]
    simp

theorem insert_success {α : Type*} (m : Map α) (k : ℕ) (a : α) : (m.insert k a).2 = true ↔ m.lookup k = none := by
  unfold Map.insert
  split
  · rename_i b hb; simp [hb]
  · rename_i hb; simp [hb]

/-- The indices in the map of all boundaries, without exceptions from the calls. -/
theorem exec_boundaries (c : Registration) (r : Registry) (i : ℕ) :
    (c.exec r).2.boundaries.lookup i = (r.boundaries.lookup i).or (c.wants.lookup i) := by
  cases c with
  | plain k t => simp [Registration.exec, addPlain, insert_lookup, Registration.wants]
  | periodic i1 i2 t =>
    have h2 : ((r.boundaries.insert i1 (.periodic t)).1.insert i2 (.periodic t)).1.lookup i =
        (r.boundaries.lookup i).or ((Registration.periodic i1 i2 t).wants.lookup i) := by
      rw [insert_lookup, insert_lookup, Option.or_assoc, ← lookup_append]
      rfl
    simp only [Registration.exec, addPeriodic]
    split_ifs <;> exact h2

theorem history_append (rs : List Registration) (c : Registration) : history (rs ++ [c]) = (c.exec (history rs)).2 := by
  simp [history]

theorem history_lookup (rs : List Registration) (i : ℕ) : (history rs).boundaries.lookup i = firstFor rs i := by
  induction rs using List.reverseRecOn with
  | nil => rfl
  | append_singleton rs c ih =>
    rw [history_append, exec_boundaries, ih, firstFor, firstFor, List.flatMap_append, lookup_append]
    simp

theorem firstFor_none_iff (rs : List Registration) (i : ℕ) : firstFor rs i = none ↔ i ∉ named rs := lookup_none_iff _ _

theorem exec_keys_nodup (c : Registration) (r : Registry) (h : (r.boundaries.map Prod.fst).Nodup) :
    ((c.exec r).2.boundaries.map Prod.fst).Nodup := by
  have key : ∀ (m : Map Boundary) k a, (m.map Prod.fst).Nodup → ((m.insert k a).1.map Prod.fst).Nodup := by
    intro m k a hm
    rw [insert_keys]
    split_ifs with hk
    · exact hm
    · rw [List.nodup_append]
      exact ⟨hm, by simp, by intro x hx y hy; simp at hy; subst hy; rintro rfl; exact hk hx⟩
  cases c with
  | plain k t => exact key _ _ _ h
  | periodic i1 i2 t =>
    simp only [Registration.exec, addPeriodic]
    split_ifs <;> exact key _ _ _ (key _ _ _ h)

theorem keys_nodup (rs : List Registration) : ((history rs).boundaries.map Prod.fst).Nodup := by
  induction rs using List.reverseRecOn with
  | nil => simp [history, Registry.empty]
  | append_singleton rs c ih => rw [history_append]; exact exec_keys_nodup _ _ ih

theorem mem_keys_iff (rs : List Registration) (i : ℕ) : i ∈ (history rs).boundaries.map Prod.fst ↔ i ∈ named rs := by
  rw [← not_iff_not, ← lookup_none_iff, history_lookup, firstFor_none_iff]

/-- A periodic call succeeds if and only if its indicators are new. -/
theorem addPeriodic_ok (rs : List Registration) (i1 i2 t : ℕ) :
    (addPeriodic i1 i2 t (history rs)).1 = .ok () ↔ Fresh rs (.periodic i1 i2 t) := by
  have h1 : ((history rs).boundaries.insert i1 (.periodic t)).2 = true ↔ i1 ∉ named rs := by
    rw [insert_success, history_lookup, firstFor_none_iff]
  have h2 : (((history rs).boundaries.insert i1 (.periodic t)).1.insert i2 (.periodic t)).2 = true ↔ i2 ∉ named rs ∧ i2 ≠ i1 := by
    rw [insert_success, insert_lookup, Option.or_eq_none_iff, history_lookup, firstFor_none_iff, lookup_none_iff]
    simp
  simp only [addPeriodic]
  have : Fresh rs (.periodic i1 i2 t) ↔ i1 ∉ named rs ∧ i2 ∉ named rs ∧ i2 ≠ i1 := by
    simp only [Fresh, Registration.wants, List.map_cons, List.map_nil, List.nodup_cons, List.mem_singleton, List.not_mem_nil, not_false_eq_true,
      List.nodup_nil, and_self, and_true, List.mem_cons, or_false, forall_eq_or_imp, forall_eq]
    constructor
    · rintro ⟨h1, h2, h3⟩; exact ⟨h2, h3, Ne.symm h1⟩
    · rintro ⟨h2, h3, h1⟩; exact ⟨Ne.symm h1, h2, h3⟩
  rw [this, ← h2, ← h1]
  cases ((history rs).boundaries.insert i1 (.periodic t)).2 <;>
    cases (((history rs).boundaries.insert i1 (.periodic t)).1.insert i2 (.periodic t)).2 <;> simp

theorem checkLoop_spec (mesh coll : List ℕ) (b : Bool) (hm : mesh.Nodup) (hc : coll.Nodup) :
    (checkLoop mesh (coll, b)).2 = (b && decide (∀ i ∈ mesh, i ∈ coll)) ∧
    ∀ i, i ∈ (checkLoop mesh (coll, b)).1 ↔ i ∈ coll ∧ i ∉ mesh := by
  induction mesh generalizing coll b with
  | nil => simp [checkLoop]
  | cons k mesh ih =>
    rw [List.nodup_cons] at hm
    rw [checkLoop]
    split_ifs with hk
    · obtain ⟨h1, h2⟩ := ih (coll.erase k) b hm.2 (hc.erase k)
      constructor
      · rw [h1]
        congr 1
        rw [decide_eq_decide]
        simp only [List.mem_cons, forall_eq_or_imp, hk, true_and]
        exact forall₂_congr fun i hi => by rw [hc.mem_erase_iff]; exact ⟨fun h => h.2, fun h => ⟨fun e => hm.1 (e ▸ hi), h⟩⟩
      · intro i
        rw [h2, hc.mem_erase_iff, List.mem_cons, not_or]
        tauto
    · obtain ⟨h1, h2⟩ := ih coll false hm.2 hc
      constructor
      · rw [h1]
        have : ¬ ∀ i ∈ k :: mesh, i ∈ coll := fun h => hk (h k (by simp))
        rw [decide_eq_false this]
        simp
      · intro i
        rw [h2, List.mem_cons, not_or]
        constructor
        · rintro ⟨h3, h4⟩; exact ⟨h3, fun e => hk (e ▸ h3), h4⟩
        · rintro ⟨h3, -, h4⟩; exact ⟨h3, h4⟩

theorem code_pow (f : Flag) : ∃ k, f.code = 2 ^ k := by
  cases f <;> [exact ⟨0, rfl⟩; exact ⟨1, rfl⟩; exact ⟨2, rfl⟩; exact ⟨3, rfl⟩; exact ⟨4, rfl⟩; exact ⟨5, rfl⟩; exact ⟨6, rfl⟩; exact ⟨7, rfl⟩;
    exact ⟨8, rfl⟩]

theorem code_injective {f g : Flag} (h : f.code = g.code) : f = g := by
  cases f <;> cases g <;> first | rfl | (exact absurd h (by decide))

theorem two_pow_ne {k l : ℕ} (h : k ≠ l) : (2 ^ k : ℕ) ≠ 2 ^ l := fun e => h (Nat.pow_right_injective le_rfl e)

theorem and_two_pow_ne (v k : ℕ) : 2 ^ k &&& v ≠ 0 ↔ v.testBit k = true := by
  constructor
  · intro h
    by_contra hc
    refine h (Nat.eq_of_testBit_eq fun j => ?_)
    rw [Nat.testBit_and, Nat.zero_testBit, Nat.testBit_two_pow]
    by_cases hj : k = j
    · subst hj; simpa using hc
    · simp [hj]
  · intro h e
    have := congrArg (fun n => n.testBit k) e
    simp [Nat.testBit_and, h, Nat.testBit_two_pow] at this

end Problem
end NATriuM
