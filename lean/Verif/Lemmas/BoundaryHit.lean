import Verif.Spec.BoundaryHit
import Mathlib.Data.List.Perm.Basic
import Mathlib.Data.List.InsertIdx

/-!
# Lemmas on the lists of boundary hits
-/

namespace NATriuM
namespace Hits

theorem descend_le {β : Type*} (f : β → Bool) (t : Tree β) : t.descend f ≤ t.toList.length := by
  induction t with
  | leaf => simp [Tree.descend]
  | node l x r ihl ihr =>
    simp only [Tree.descend, Tree.toList, List.length_append, List.length_cons]
    split_ifs <;> omega

theorem descend_true {β : Type*} (f : β → Bool) (t : Tree β) (h : ∀ x ∈ t.toList, f x = true) : t.descend f = t.toList.length := by
  induction t with
  | leaf => simp [Tree.descend, Tree.toList]
  | node l x r ihl ihr =>
    simp only [Tree.toList, List.mem_append, List.mem_cons] at h
    simp only [Tree.descend, Tree.toList, List.length_append, List.length_cons, h x (by simp), if_true, ihr fun y hy => h y (by simp [hy])]
    omega

theorem descend_false {β : Type*} (f : β → Bool) (t : Tree β) (h : ∀ x ∈ t.toList, f x = false) : t.descend f = 0 := by
  induction t with
  | leaf => rfl
  | node l x r ihl ihr =>
    simp only [Tree.toList, List.mem_append, List.mem_cons] at h
    simp only [Tree.descend, h x (by simp), Bool.false_eq_true, if_false, ihl fun y hy => h y (by simp [hy])]

section

variable {K : Type*} [Field K] [LinearOrder K] {d : ℕ} {α : Type*}

omit [Field K] [LinearOrder K] in
theorem push_perm (l : List (Entry K d α)) (i : ℕ) (h : Hit K d α) (hi : i < l.length) :
    ((push l i h).flatMap Entry.hits).Perm (h :: l.flatMap Entry.hits) := by
  induction l generalizing i with
  | nil => simp at hi
  | cons e l ih =>
    cases i with
    | zero =>
      simp only [push, List.modify_zero_cons, List.flatMap_cons, List.append_assoc, List.singleton_append]
      exact List.perm_middle
    | succ i =>
      have := ih i (by simpa using hi)
      simp only [push, List.modify_succ_cons, List.flatMap_cons] at this ⊢
      exact (this.append_left _).trans List.perm_middle

omit [Field K] [LinearOrder K] in
theorem insertIdx_perm (l : List (Entry K d α)) (i : ℕ) (p : Fin d → K) (hi : i ≤ l.length) :
    ((l.insertIdx i ⟨p, []⟩).flatMap Entry.hits).Perm (l.flatMap Entry.hits) := by
  have := (List.perm_insertIdx ⟨p, []⟩ l hi).flatMap_right Entry.hits
  simpa using this

theorem find_lt (t : Tree (Entry K d α)) (k : Fin d → K) (i : ℕ) (h : find t k = some i) : i < t.toList.length := by
  unfold find at h
  dsimp only at h
  split at h
  · cases h
  · rename_i e he
    split_ifs at h
    cases h
    exact (List.getElem?_eq_some_iff.1 he).1

theorem insert_spec (t : Tree (Entry K d α)) (p : Fin d → K) :
    ((insert t ⟨p, []⟩).1.flatMap Entry.hits).Perm (t.toList.flatMap Entry.hits) ∧ (insert t ⟨p, []⟩).2 < (insert t ⟨p, []⟩).1.length := by
  have hle := descend_le (fun x : Entry K d α => ! pointComp p x.point) t
  unfold insert
  dsimp only
  split
  · exact ⟨insertIdx_perm _ _ _ (Nat.zero_le _), by simp⟩
  · rename_i j hj
    rw [hj] at hle
    have hlt : j < t.toList.length := hle
    rw [List.getElem?_eq_getElem hlt]
    dsimp only
    split_ifs
    · exact ⟨insertIdx_perm _ _ _ hle, by rw [List.length_insertIdx_of_le_length hle]; omega⟩
    · exact ⟨List.Perm.refl _, hlt⟩

theorem addToCell_perm (shape : List (Entry K d α) → Tree (Entry K d α)) (hs : IsShape shape) (l : List (Entry K d α)) (h : Hit K d α) :
    ((addToCell shape l h).flatMap Entry.hits).Perm (h :: l.flatMap Entry.hits) := by
  unfold addToCell
  split
  · rename_i i hi
    exact push_perm l i h (hs l ▸ find_lt _ _ _ hi)
  · obtain ⟨h1, h2⟩ := insert_spec (shape l) h.point
    rw [hs l] at h1
    exact (push_perm _ _ h h2).trans (h1.cons _)

theorem addHit_perm (shape : List (Entry K d α) → Tree (Entry K d α)) (hs : IsShape shape) (m : HitList K d α) (h : Hit K d α) :
    (stored (m.addHit shape h)).Perm (h :: stored m) := by
  induction m with
  | nil =>
    have := addToCell_perm shape hs [] h
    simpa [HitList.addHit, stored] using this
  | cons c m ih =>
    obtain ⟨c, l⟩ := c
    rw [HitList.addHit]
    split_ifs
    · simp only [stored, List.flatMap_cons]
      exact (addToCell_perm shape hs l h).append_right _
    · simp only [stored, List.flatMap_cons] at ih ⊢
      exact (ih.append_left _).trans List.perm_middle

theorem foldl_stored (shapes : ℕ → List (Entry K d α) → Tree (Entry K d α)) (hsh : ∀ n, IsShape (shapes n)) (hs : List (Hit K d α × ℕ))
    (m : HitList K d α) : (stored (hs.foldl (fun m h => m.addHit (shapes h.2) h.1) m)).Perm (stored m ++ hs.map Prod.fst) := by
  induction hs generalizing m with
  | nil => simp
  | cons h hs ih =>
    simp only [List.foldl_cons, List.map_cons]
    refine (ih _).trans (((addHit_perm _ (hsh _) m h.1).append_right _).trans ?_)
    exact List.perm_middle.symm

theorem history_stored (shapes : ℕ → List (Entry K d α) → Tree (Entry K d α)) (hsh : ∀ n, IsShape (shapes n)) (hs : List (Hit K d α)) :
    (stored (history shapes hs)).Perm hs := by
  have := foldl_stored shapes hsh hs.zipIdx []
  simpa [history, stored, List.zipIdx_map_fst] using this

omit [Field K] [LinearOrder K] in
theorem nHitsAtCell_eq (l : List (Entry K d α)) : nHitsAtCell l = (l.flatMap Entry.hits).length := by
  have : ∀ n, l.foldl (fun n e => n + e.hits.length) n = n + (l.flatMap Entry.hits).length := by
    induction l with
    | nil => simp
    | cons e l ih => intro n; rw [List.foldl_cons, ih, List.flatMap_cons, List.length_append]; omega
  rw [nHitsAtCell, this, Nat.zero_add]

omit [Field K] [LinearOrder K] in
theorem nHits_eq (m : HitList K d α) : m.nHits = (stored m).length := by
  have : ∀ n, m.foldl (fun n c => n + nHitsAtCell c.2) n = n + (stored m).length := by
    induction m with
    | nil => simp [stored]
    | cons e m ih =>
      intro n
      rw [List.foldl_cons, ih, nHitsAtCell_eq]
      simp only [stored, List.flatMap_cons, List.length_append]
      omega
  rw [HitList.nHits, this, Nat.zero_add]

omit [Field K] [LinearOrder K] in
theorem calls_hits (m : HitList K d α) : m.calls.map (fun c => c.2.2) = stored m := by
  simp only [HitList.calls, stored, List.map_flatMap, List.map_map]
  refine List.flatMap_congr fun c _ => ?_
  refine List.flatMap_congr fun e _ => ?_
  exact List.map_id _

/-- Each cell has one list, which holds hits of that cell only. -/
def WellFormed (m : HitList K d α) : Prop := (m.map Prod.fst).Nodup ∧ ∀ c ∈ m, ∀ e ∈ c.2, ∀ h ∈ e.hits, h.cell = c.1

theorem addToCell_mem (shape : List (Entry K d α) → Tree (Entry K d α)) (hs : IsShape shape) (l : List (Entry K d α)) (h : Hit K d α)
    (P : Hit K d α → Prop) (hl : ∀ e ∈ l, ∀ x ∈ e.hits, P x) (hp : P h) : ∀ e ∈ addToCell shape l h, ∀ x ∈ e.hits, P x := by
  intro e he x hx
  have : x ∈ (addToCell shape l h).flatMap Entry.hits := List.mem_flatMap.2 ⟨e, he, hx⟩
  rw [(addToCell_perm shape hs l h).mem_iff, List.mem_cons, List.mem_flatMap] at this
  rcases this with rfl | ⟨e', he', hx'⟩
  · exact hp
  · exact hl e' he' x hx'

theorem addHit_wellFormed (shape : List (Entry K d α) → Tree (Entry K d α)) (hs : IsShape shape) (m : HitList K d α) (h : Hit K d α)
    (hm : WellFormed m) :
    WellFormed (m.addHit shape h) ∧ ∀ c, c ∈ (m.addHit shape h).map Prod.fst ↔ c ∈ m.map Prod.fst ∨ c = h.cell := by
  induction m with
  | nil =>
    refine ⟨⟨by simp [HitList.addHit], ?_⟩, by simp [HitList.addHit]⟩
    intro c hc
    simp only [HitList.addHit, List.mem_singleton] at hc
    subst hc
    exact addToCell_mem shape hs [] h (fun x => x.cell = h.cell) (by simp) rfl
  | cons c m ih =>
    obtain ⟨c, l⟩ := c
    obtain ⟨hn, hw⟩ := hm
    simp only [List.map_cons, List.nodup_cons] at hn
    obtain ⟨⟨ih1, ih2⟩, ih3⟩ := ih ⟨hn.2, fun c hc => hw c (List.mem_cons_of_mem _ hc)⟩
    rw [HitList.addHit]
    split_ifs with hc
    · subst hc
      refine ⟨⟨by simpa using hn, ?_⟩, by simp⟩
      intro c' hc'
      rcases List.mem_cons.1 hc' with rfl | hc'
      · exact addToCell_mem shape hs l h (fun x => x.cell = h.cell) (hw (h.cell, l) List.mem_cons_self) rfl
      · exact hw c' (List.mem_cons_of_mem _ hc')
    · refine ⟨⟨?_, ?_⟩, ?_⟩
      · simp only [List.map_cons, List.nodup_cons, ih3, not_or]
        exact ⟨⟨hn.1, hc⟩, ih1⟩
      · intro c' hc'
        rcases List.mem_cons.1 hc' with rfl | hc'
        · exact hw _ List.mem_cons_self
        · exact ih2 c' hc'
      · intro c'
        rw [List.map_cons, List.mem_cons, ih3, List.map_cons, List.mem_cons]
        tauto

theorem foldl_wellFormed (shapes : ℕ → List (Entry K d α) → Tree (Entry K d α)) (hsh : ∀ n, IsShape (shapes n)) (hs : List (Hit K d α × ℕ))
    (m : HitList K d α) (hm : WellFormed m) :
    WellFormed (hs.foldl (fun m h => m.addHit (shapes h.2) h.1) m) ∧
    ∀ c, c ∈ (hs.foldl (fun m h => m.addHit (shapes h.2) h.1) m).map Prod.fst ↔ c ∈ m.map Prod.fst ∨ c ∈ hs.map fun h => h.1.cell := by
  induction hs generalizing m with
  | nil => exact ⟨hm, by simp⟩
  | cons h hs ih =>
    obtain ⟨h1, h2⟩ := addHit_wellFormed (shapes h.2) (hsh _) m h.1 hm
    obtain ⟨h3, h4⟩ := ih _ h1
    refine ⟨h3, fun c => ?_⟩
    rw [List.foldl_cons, h4, h2, List.map_cons, List.mem_cons]
    tauto

theorem pointComp_iff (p q : Fin d → K) : pointComp p q = true ↔ Near p q := by simp [pointComp, Near]

theorem pointComp_comm (p q : Fin d → K) : pointComp p q = pointComp q p := by
  have : ∀ a, (p a - q a) ^ 2 = (q a - p a) ^ 2 := fun a => by rw [← neg_sub, neg_sq]
  simp only [pointComp, this]

theorem pointComp_self [IsStrictOrderedRing K] (p : Fin d → K) : pointComp p p = true := by
  simp [pointComp]

/-- A hit far from the only entry is put into it. -/
theorem addToCell_far (shape : List (Entry K d α) → Tree (Entry K d α)) (hs : IsShape shape) (e : Entry K d α) (h : Hit K d α)
    (hf : ¬ Near e.point h.point) : addToCell shape [e] h = [⟨e.point, e.hits ++ [h]⟩] := by
  have h1 : pointComp e.point h.point = false := by rw [← Bool.not_eq_true, pointComp_iff]; exact hf
  have h2 : find (shape [e]) h.point = some 0 := by
    unfold find
    rw [hs, descend_false _ _ (by rw [hs]; simpa using h1)]
    simp [pointComp_comm, h1]
  simp [addToCell, h2, push]

/-- A hit at the point of all entries gets a new one. -/
theorem addToCell_same [IsStrictOrderedRing K] (shape : List (Entry K d α) → Tree (Entry K d α)) (hs : IsShape shape) (l : List (Entry K d α))
    (h : Hit K d α) (hl : ∀ e ∈ l, e.point = h.point) : addToCell shape l h = ⟨h.point, [h]⟩ :: l := by
  have h2 : find (shape l) h.point = none := by
    unfold find
    rw [descend_true _ _ (by rw [hs]; intro x hx; rw [hl x hx, pointComp_self])]
    simp
  have h3 : insert (shape l) ⟨h.point, []⟩ = (⟨h.point, []⟩ :: l, 0) := by
    unfold insert
    rw [descend_false _ _ (by rw [hs]; intro x hx; rw [hl x hx, pointComp_self]; rfl)]
    simp [hs l]
  simp [addToCell, h2, h3, push]

end

end Hits
end NATriuM
