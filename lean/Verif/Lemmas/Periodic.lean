import Verif.Spec.Periodic

/-!
# Lemmas on the map of periodic cells
-/

namespace NATriuM
namespace Periodic

variable {K : Type*} {d : ℕ} (childOnFace : Orientation → ℕ → ℕ → ℕ)

theorem insert_mono {m : CellMap K d} {k : ℕ} {v : FacePair K d} (k' : ℕ) (v' : FacePair K d) (h : m.lookup k = some v) :
    (m.insert k' v').lookup k = some v := by
  unfold CellMap.insert
  split
  · exact h
  · rw [List.lookup_append, h]; rfl

theorem insert_self (m : CellMap K d) (k : ℕ) (v : FacePair K d) : ∃ w, (m.insert k v).lookup k = some w := by
  unfold CellMap.insert
  split
  · exact ⟨_, ‹_›⟩
  · rename_i h
    rw [List.lookup_append, h]
    exact ⟨v, by simp⟩

theorem insert_sound {m : CellMap K d} {k k' : ℕ} {v v' : FacePair K d} (h : (m.insert k' v').lookup k = some v) :
    m.lookup k = some v ∨ (k = k' ∧ v = v') := by
  unfold CellMap.insert at h
  split at h
  · exact .inl h
  · rw [List.lookup_append] at h
    cases hm : m.lookup k with
    | some w => rw [hm] at h; exact .inl h
    | none =>
      rw [hm] at h
      by_cases hk : k = k'
      · subst hk; simp at h; exact .inr ⟨rfl, h.symm⟩
      · have hb : (k == k') = false := by simpa using hk
        simp [List.lookup_cons, hb] at h

theorem foldl_mono {α : Type*} (f : CellMap K d → α → CellMap K d) (l : List α)
    (hf : ∀ m a k v, m.lookup k = some v → (f m a).lookup k = some v) (m : CellMap K d) (k : ℕ) (v : FacePair K d)
    (h : m.lookup k = some v) : (l.foldl f m).lookup k = some v := by
  induction l generalizing m with
  | nil => exact h
  | cons a l ih => exact ih _ (hf _ _ _ _ h)

theorem foldl_sound {α : Type*} (f : CellMap K d → α → CellMap K d) (P : α → ℕ → FacePair K d → Prop) (l : List α)
    (hf : ∀ m a k v, a ∈ l → (f m a).lookup k = some v → m.lookup k = some v ∨ P a k v) (m : CellMap K d) (k : ℕ) (v : FacePair K d)
    (h : (l.foldl f m).lookup k = some v) : m.lookup k = some v ∨ ∃ a ∈ l, P a k v := by
  induction l generalizing m with
  | nil => exact .inl h
  | cons a l ih =>
    rcases ih (fun m b k v hb => hf m b k v (List.mem_cons_of_mem _ hb)) _ h with h1 | ⟨b, hb, h1⟩
    · rcases hf _ _ _ _ (List.mem_cons_self) h1 with h2 | h2
      · exact .inl h2
      · exact .inr ⟨a, List.mem_cons_self, h2⟩
    · exact .inr ⟨b, List.mem_cons_of_mem _ hb, h1⟩

theorem foldl_complete {α : Type*} (f : CellMap K d → α → CellMap K d) (l : List α)
    (hf : ∀ m a k v, m.lookup k = some v → (f m a).lookup k = some v) (a : α) (ha : a ∈ l) (k : ℕ)
    (h : ∀ m, ∃ v, (f m a).lookup k = some v) (m : CellMap K d) : ∃ v, (l.foldl f m).lookup k = some v := by
  induction l generalizing m with
  | nil => simp at ha
  | cons b l ih =>
    rcases List.mem_cons.1 ha with rfl | h2
    · obtain ⟨v, hv⟩ := h m
      exact ⟨v, foldl_mono f l hf _ _ _ hv⟩
    · exact ih h2 _

theorem makeMapPair_mono (f1 f2 : ℕ) (o : Orientation) (c1 c2 : Cell K d) (m : CellMap K d) (k : ℕ) (v : FacePair K d)
    (h : m.lookup k = some v) : (makeMapPair childOnFace f1 f2 o c1 c2 m).lookup k = some v := by
  induction c1 generalizing c2 m k v with
  | active a =>
    cases c2 with
    | refined _ => simpa [makeMapPair] using h
    | active b =>
      rw [makeMapPair]
      split_ifs
      · exact h
      · exact insert_mono _ _ (insert_mono _ _ h)
  | refined ch1 ih =>
    cases c2 with
    | active b => simpa [makeMapPair] using h
    | refined ch2 =>
      rw [makeMapPair]
      exact foldl_mono _ _ (fun m i k v h => ih _ _ m k v h) _ _ _ h

theorem makeMapPair_sound (f1 f2 : ℕ) (o : Orientation) (c1 c2 : Cell K d) (m : CellMap K d) (k : ℕ) (v : FacePair K d)
    (h : (makeMapPair childOnFace f1 f2 o c1 c2 m).lookup k = some v) :
    m.lookup k = some v ∨ (Opposite childOnFace f1 f2 o c1 c2 v.cell0 v.cell1 ∧ v.face0 = f1 ∧ v.face1 = f2 ∧ v.orientation = o ∧
      v.cell0.artificial = false ∧ v.cell1.artificial = false ∧ (k = v.cell0.id ∨ k = v.cell1.id)) := by
  induction c1 generalizing c2 m k v with
  | active a =>
    cases c2 with
    | refined _ => exact .inl (by simpa [makeMapPair] using h)
    | active b =>
      rw [makeMapPair] at h
      split_ifs at h with hart
      · exact .inl h
      · simp only [Bool.or_eq_true, not_or, Bool.not_eq_true] at hart
        rcases insert_sound h with h | ⟨rfl, rfl⟩
        · rcases insert_sound h with h | ⟨rfl, rfl⟩
          · exact .inl h
          · exact .inr ⟨.active a b, rfl, rfl, rfl, hart.1, hart.2, .inl rfl⟩
        · exact .inr ⟨.active a b, rfl, rfl, rfl, hart.1, hart.2, .inr rfl⟩
  | refined ch1 ih =>
    cases c2 with
    | active b => exact .inl (by simpa [makeMapPair] using h)
    | refined ch2 =>
      rw [makeMapPair] at h
      rcases foldl_sound
          (fun m i => makeMapPair childOnFace f1 f2 o (ch1 (childOnFace o f1 i)) (ch2 (childOnFace o f2 (otherSubface d o i))) m)
          _ _ (fun m i k v _ h => ih (childOnFace o f1 i) (ch2 (childOnFace o f2 (otherSubface d o i))) m k v h) _ _ _ h with h1 | ⟨i, hi, h1, h2⟩
      · exact .inl h1
      · exact .inr ⟨.child ch1 ch2 i _ _ (List.mem_range.1 hi) h1, h2⟩

theorem makeMapPair_complete (f1 f2 : ℕ) (o : Orientation) (c1 c2 : Cell K d) (a b : Leaf K d) (h : Opposite childOnFace f1 f2 o c1 c2 a b)
    (ha : a.artificial = false) (hb : b.artificial = false) (m : CellMap K d) :
    (∃ v, (makeMapPair childOnFace f1 f2 o c1 c2 m).lookup a.id = some v) ∧
    ∃ v, (makeMapPair childOnFace f1 f2 o c1 c2 m).lookup b.id = some v := by
  induction h generalizing m with
  | active a b =>
    rw [makeMapPair]
    simp only [ha, hb, Bool.or_self, Bool.false_eq_true, if_false]
    obtain ⟨w, hw⟩ := insert_self m a.id ⟨a, b, f1, f2, o⟩
    exact ⟨⟨w, insert_mono _ _ hw⟩, insert_self _ _ _⟩
  | child ch1 ch2 i a b hi _ ih =>
    rw [makeMapPair]
    have mono : ∀ (m : CellMap K d) (i k : ℕ) v, m.lookup k = some v → (makeMapPair childOnFace f1 f2 o (ch1 (childOnFace o f1 i))
        (ch2 (childOnFace o f2 (otherSubface d o i))) m).lookup k = some v := fun m i k v h => makeMapPair_mono childOnFace _ _ _ _ _ m k v h
    exact ⟨foldl_complete _ _ mono i (List.mem_range.2 hi) _ (fun m => (ih ha hb m).1) _,
      foldl_complete _ _ mono i (List.mem_range.2 hi) _ (fun m => (ih ha hb m).2) _⟩

theorem makeMap_sound (pairs : List (CoarsePair K d)) (k : ℕ) (v : FacePair K d) (h : (makeMap childOnFace pairs).lookup k = some v) :
    OppositeIn childOnFace pairs v ∧ (k = v.cell0.id ∨ k = v.cell1.id) := by
  rcases foldl_sound
      (fun m (p : CoarsePair K d) => makeMapPair childOnFace p.face0 p.face1 p.orientation p.cell0 p.cell1 m) _ _
      (fun m (p : CoarsePair K d) k v _ h => makeMapPair_sound childOnFace p.face0 p.face1 p.orientation p.cell0 p.cell1 m k v h) _ _ _ h with h1 | ⟨p, hp, h1, h2, h3, h4, h5, h6, h7⟩
  · simp at h1
  · exact ⟨⟨p, hp, h1, h2, h3, h4, h5, h6⟩, h7⟩

theorem makeMap_complete (pairs : List (CoarsePair K d)) (q : FacePair K d) (h : OppositeIn childOnFace pairs q) :
    (∃ v, (makeMap childOnFace pairs).lookup q.cell0.id = some v) ∧ ∃ v, (makeMap childOnFace pairs).lookup q.cell1.id = some v := by
  obtain ⟨p, hp, h1, h2, h3, h4, h5, h6⟩ := h
  have c := makeMapPair_complete childOnFace _ _ _ _ _ _ _ h1 h5 h6
  exact ⟨foldl_complete _ _ (fun m p k v h => makeMapPair_mono childOnFace _ _ _ _ _ m k v h) p hp _ (fun m => (c m).1) _,
    foldl_complete _ _ (fun m p k v h => makeMapPair_mono childOnFace _ _ _ _ _ m k v h) p hp _ (fun m => (c m).2) _⟩

theorem makeMap_lookup (pairs : List (CoarsePair K d)) (hone : OneFacePerCell childOnFace pairs) (q : FacePair K d)
    (h : OppositeIn childOnFace pairs q) :
    (makeMap childOnFace pairs).lookup q.cell0.id = some q ∧ (makeMap childOnFace pairs).lookup q.cell1.id = some q := by
  obtain ⟨⟨v, hv⟩, w, hw⟩ := makeMap_complete childOnFace pairs q h
  obtain ⟨v1, v2⟩ := makeMap_sound childOnFace pairs _ _ hv
  obtain ⟨w1, w2⟩ := makeMap_sound childOnFace pairs _ _ hw
  have e1 : q = v := hone.2 q v h v1 (by tauto)
  have e2 : q = w := hone.2 q w h w1 (by tauto)
  exact ⟨e1 ▸ hv, e2 ▸ hw⟩

end Periodic
end NATriuM
