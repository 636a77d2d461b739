import Verif.Spec.BoundaryLines
import Verif.Props.Utilities
import Mathlib.Analysis.Real.Sqrt
import Mathlib.Tactic.Linarith
import Mathlib.Tactic.NormNum
import Mathlib.Tactic.Ring
import Mathlib.Tactic.Positivity
import Mathlib.Tactic.Tauto

namespace NATriuM

namespace BoundaryLines

open MathUtil

theorem small_iff {v w : Pt} (hv : v ≠ 0) (hw : w ≠ 0) : isAngleSmall v w 0 = true ↔ SameDirection v w := by
  rw [C60_isAngleSmall_partial v w hv hw, if_pos rfl]
  rfl

theorem less_iff (a b : ℝ) : ownDoubleLess 1e-6 a b = true ↔ a + 1e-6 < b := by
  simp only [ownDoubleLess, Bool.and_eq_true, decide_eq_true_eq]
  constructor
  · rintro ⟨h1, h2⟩
    rw [abs_of_neg (by linarith)] at h1
    linarith
  · intro h
    have : (0 : ℝ) < 1e-6 := by norm_num
    refine ⟨?_, by linarith⟩
    rw [abs_of_neg (by linarith)]
    linarith

/-- The list is a map that holds exactly the keys of `vs`, each with one of the vertices. -/
structure MapOf (vs : List Pt) (m : List (ℝ × Pt)) : Prop where
  sorted : m.Pairwise fun a b => a.1 + 1e-6 < b.1
  sound : ∀ e ∈ m, e.2 ∈ vs ∧ e.1 = key e.2
  complete : ∀ v ∈ vs, ∃ e ∈ m, e.1 = key v

theorem insert_spec {m : List (ℝ × Pt)} {k : ℝ} {p : Pt} (hs : m.Pairwise fun a b => a.1 + 1e-6 < b.1)
    (hk : ∀ e ∈ m, e.1 = k ∨ 1e-6 < |e.1 - k|) :
    (insert k p m).Pairwise (fun a b => a.1 + 1e-6 < b.1) ∧ (∀ e ∈ insert k p m, e ∈ m ∨ e = (k, p)) ∧
      (∀ e ∈ m, e ∈ insert k p m) ∧ ∃ e ∈ insert k p m, e.1 = k := by
  induction m with
  | nil => simp [insert]
  | cons a m ih =>
    obtain ⟨k', p'⟩ := a
    rw [List.pairwise_cons] at hs
    rw [insert]
    split_ifs with h1 h2
    · rw [less_iff] at h1
      refine ⟨?_, ?_, ?_, ?_⟩
      · rw [List.pairwise_cons]
        refine ⟨?_, List.pairwise_cons.2 hs⟩
        intro e he
        rcases List.mem_cons.1 he with rfl | he
        · exact h1
        · have := hs.1 e he
          simp only at this ⊢
          have h0 : (0 : ℝ) < 1e-6 := by norm_num
          linarith
      · intro e he
        rcases List.mem_cons.1 he with rfl | he
        · exact Or.inr rfl
        · exact Or.inl he
      · intro e he
        exact List.mem_cons_of_mem _ he
      · exact ⟨(k, p), by simp, rfl⟩
    · rw [less_iff] at h2
      obtain ⟨i1, i2, i3, i4⟩ := ih hs.2 (fun e he => hk e (List.mem_cons_of_mem _ he))
      refine ⟨?_, ?_, ?_, ?_⟩
      · rw [List.pairwise_cons]
        refine ⟨?_, i1⟩
        intro e he
        rcases i2 e he with h | rfl
        · exact hs.1 e h
        · exact h2
      · intro e he
        rcases List.mem_cons.1 he with rfl | he
        · exact Or.inl (by simp)
        · rcases i2 e he with h | h
          · exact Or.inl (List.mem_cons_of_mem _ h)
          · exact Or.inr h
      · intro e he
        rcases List.mem_cons.1 he with rfl | he
        · simp
        · exact List.mem_cons_of_mem _ (i3 e he)
      · obtain ⟨e, he, h⟩ := i4
        exact ⟨e, List.mem_cons_of_mem _ he, h⟩
    · rw [less_iff] at h1 h2
      have hkk : k' = k := by
        rcases hk (k', p') (by simp) with h | h
        · exact h
        · simp only at h
          rcases lt_abs.1 h with h | h <;> linarith
      exact ⟨List.pairwise_cons.2 hs, fun e he => Or.inl he, fun e he => he, ⟨(k', p'), by simp, hkk⟩⟩

theorem MapOf.insert {vs : List Pt} {m : List (ℝ × Pt)} {v : Pt} (h : MapOf vs m) (hsep : Separated (vs ++ [v])) :
    MapOf (vs ++ [v]) (insert (key v) v m) := by
  have hk : ∀ e ∈ m, e.1 = key v ∨ 1e-6 < |e.1 - key v| := by
    intro e he
    obtain ⟨h1, h2⟩ := h.sound e he
    rw [h2]
    exact hsep _ (by simp [h1]) _ (by simp)
  obtain ⟨i1, i2, i3, i4⟩ := insert_spec (p := v) h.sorted hk
  refine ⟨i1, ?_, ?_⟩
  · intro e he
    rcases i2 e he with h1 | rfl
    · obtain ⟨h2, h3⟩ := h.sound e h1
      exact ⟨by simp [h2], h3⟩
    · exact ⟨by simp, rfl⟩
  · intro w hw
    rcases List.mem_append.1 hw with hw | hw
    · obtain ⟨e, he, h1⟩ := h.complete w hw
      exact ⟨e, i3 e he, h1⟩
    · rw [List.mem_singleton] at hw
      rw [hw]
      exact i4

theorem Separated.of_append {vs ws : List Pt} (h : Separated (vs ++ ws)) : Separated vs :=
  fun v hv w hw => h v (by simp [hv]) w (by simp [hw])

theorem MapOf.insertAll {vs ws : List Pt} {m : List (ℝ × Pt)} (h : MapOf vs m) (hsep : Separated (vs ++ ws)) :
    MapOf (vs ++ ws) (ws.foldl (fun m v => BoundaryLines.insert (key v) v m) m) := by
  induction ws generalizing vs m with
  | nil => simpa using h
  | cons w ws ih =>
    have e : vs ++ w :: ws = (vs ++ [w]) ++ ws := by simp
    rw [e] at hsep ⊢
    exact ih (h.insert hsep.of_append) hsep

theorem MapOf.nil : MapOf [] [] := ⟨by simp, by simp, by simp⟩

/-- The faces of a boundary -/
def facesOf (id : ℕ) (fs : List Face) : List Pt := (fs.filter fun f => f.id == id).flatMap fun f => f.vertices

theorem collectFaces {id1 id2 : ℕ} (hne : id1 ≠ id2) (fs : List Face) (s : List (ℝ × Pt) × List (ℝ × Pt)) :
    fs.foldl (collectFace id1 id2) s =
      ((facesOf id1 fs).foldl (fun m v => insert (key v) v m) s.1, (facesOf id2 fs).foldl (fun m v => insert (key v) v m) s.2) := by
  induction fs generalizing s with
  | nil => simp [facesOf]
  | cons f fs ih =>
    rw [List.foldl_cons, ih]
    unfold collectFace
    by_cases h1 : f.id = id1
    · have h2 : f.id ≠ id2 := by rw [h1]; exact hne
      simp [facesOf, insertFace, h1, List.foldl_append, hne]
    · by_cases h2 : f.id = id2
      · simp [facesOf, insertFace, h2, List.foldl_append, Ne.symm hne]
      · simp [facesOf, h1, h2]

theorem collectCells {id1 id2 : ℕ} (hne : id1 ≠ id2) (cells : List Cell) (s : List (ℝ × Pt) × List (ℝ × Pt)) :
    cells.foldl (collectCell id1 id2) s =
      ((verticesOf id1 cells).foldl (fun m v => insert (key v) v m) s.1, (verticesOf id2 cells).foldl (fun m v => insert (key v) v m) s.2) := by
  induction cells generalizing s with
  | nil => simp [verticesOf]
  | cons c cells ih =>
    rw [List.foldl_cons, ih]
    unfold collectCell
    by_cases h1 : c.atBoundary = true
    · rw [if_pos h1, collectFaces hne]
      simp [verticesOf, facesOf, h1, List.foldl_append]
    · simp [verticesOf, h1]

theorem collect_spec {id1 id2 : ℕ} (hne : id1 ≠ id2) (cells : List Cell) (h1 : Separated (verticesOf id1 cells))
    (h2 : Separated (verticesOf id2 cells)) :
    MapOf (verticesOf id1 cells) (collect id1 id2 cells).1 ∧ MapOf (verticesOf id2 cells) (collect id1 id2 cells).2 := by
  unfold collect
  rw [collectCells hne]
  have a := MapOf.nil.insertAll (ws := verticesOf id1 cells) (by simpa using h1)
  have b := MapOf.nil.insertAll (ws := verticesOf id2 cells) (by simpa using h2)
  simp only [List.nil_append] at a b
  exact ⟨a, b⟩

theorem lineEnds_spec {vs : List Pt} {m : List (ℝ × Pt)} (h : MapOf vs m) {l : Pt × Pt} (hl : lineEnds m = some l) :
    l.1 ∈ vs ∧ l.2 ∈ vs ∧ ∀ v ∈ vs, key l.1 ≤ key v ∧ key v ≤ key l.2 := by
  cases m with
  | nil => simp [lineEnds] at hl
  | cons e m =>
    simp only [lineEnds, Option.some.injEq] at hl
    subst hl
    have hlast := List.getLast_mem (l := e :: m) (by simp)
    obtain ⟨s1, s2⟩ := h.sound e (by simp)
    obtain ⟨s3, s4⟩ := h.sound _ hlast
    refine ⟨s1, s3, ?_⟩
    intro v hv
    obtain ⟨x, hx, hxk⟩ := h.complete v hv
    have h0 : (0 : ℝ) < 1e-6 := by norm_num
    refine ⟨?_, ?_⟩
    · simp only
      rw [← s2, ← hxk]
      rcases List.mem_cons.1 hx with rfl | hx
      · exact le_rfl
      · have := (List.pairwise_cons.1 h.sorted).1 x hx
        linarith
    · simp only
      rw [← s4, ← hxk]
      by_cases hxl : x = (e :: m).getLast (by simp)
      · rw [hxl]
      · have hd : x ∈ (e :: m).dropLast := by
          have hsplit := List.dropLast_append_getLast (l := e :: m) (by simp)
          rw [← hsplit] at hx
          rcases List.mem_append.1 hx with hx | hx
          · exact hx
          · exact absurd (List.mem_singleton.1 hx) hxl
        have hp := h.sorted
        rw [← List.dropLast_append_getLast (l := e :: m) (by simp), List.pairwise_append] at hp
        have := hp.2.2 x hd _ (List.mem_singleton.2 rfl)
        linarith

theorem lineEnds_none {vs : List Pt} {m : List (ℝ × Pt)} (h : MapOf vs m) : lineEnds m = none ↔ vs = [] := by
  cases m with
  | nil =>
    simp only [lineEnds, true_iff]
    rcases vs with _ | ⟨v, vs⟩
    · rfl
    · obtain ⟨e, he, _⟩ := h.complete v (by simp)
      simp at he
  | cons e m =>
    simp only [lineEnds, reduceCtorEq, false_iff]
    rintro rfl
    have := (h.sound e (by simp)).1
    simp at this

theorem length_lt_two {vs : List Pt} {m : List (ℝ × Pt)} (h : MapOf vs m) : m.length < 2 ↔ ∀ v ∈ vs, ∀ w ∈ vs, key v = key w := by
  constructor
  · intro hm v hv w hw
    obtain ⟨a, ha, ha'⟩ := h.complete v hv
    obtain ⟨b, hb, hb'⟩ := h.complete w hw
    match m, hm with
    | [], _ => simp at ha
    | [c], _ =>
      rw [List.mem_singleton] at ha hb
      rw [← ha', ← hb', ha, hb]
  · intro hk
    match m, h with
    | [], _ => simp
    | [c], _ => simp
    | c :: d :: m, h =>
      exfalso
      have hp := (List.pairwise_cons.1 h.sorted).1 d (by simp)
      obtain ⟨c1, c2⟩ := h.sound c (by simp)
      obtain ⟨d1, d2⟩ := h.sound d (by simp)
      have := hk _ c1 _ d1
      rw [c2, d2] at hp
      have h0 : (0 : ℝ) < 1e-6 := by norm_num
      linarith

theorem middle_ne {vs : List Pt} {m : List (ℝ × Pt)} (h : MapOf vs m) {l : Pt × Pt} (hl : lineEnds m = some l) {e : ℝ × Pt}
    (he : e ∈ m.tail.dropLast) : e ∈ m ∧ key l.1 < key e.2 ∧ key e.2 < key l.2 := by
  have h0 : (0 : ℝ) < 1e-6 := by norm_num
  cases m with
  | nil => simp at he
  | cons a m =>
    simp only [List.tail_cons] at he
    have hmm : e ∈ m := List.mem_of_mem_dropLast he
    simp only [lineEnds, Option.some.injEq] at hl
    subst hl
    obtain ⟨s1, s2⟩ := h.sound a (by simp)
    obtain ⟨s3, s4⟩ := h.sound e (List.mem_cons_of_mem _ hmm)
    have hm0 : m ≠ [] := List.ne_nil_of_mem hmm
    have hlast := List.getLast_mem (l := a :: m) (by simp)
    obtain ⟨s5, s6⟩ := h.sound _ hlast
    refine ⟨List.mem_cons_of_mem _ hmm, ?_, ?_⟩
    · have := (List.pairwise_cons.1 h.sorted).1 e hmm
      simp only
      rw [← s2, ← s4]
      linarith
    · have hp := (List.pairwise_cons.1 h.sorted).2
      rw [← List.dropLast_append_getLast hm0, List.pairwise_append] at hp
      have := hp.2.2 e he _ (List.mem_singleton.2 rfl)
      simp only
      rw [← s4, ← s6]
      rw [List.getLast_cons hm0]
      linarith

/-! ## Parallel lines -/

theorem sub_ne {a b : Pt} (h : a ≠ b) : a - b ≠ 0 := sub_ne_zero.2 h

theorem check_guard (b1 e1 b2 e2 : Pt) :
    (dist b1 e1 = 0 ∨ dist b2 e2 = 0 ∨ dist b1 b2 = 0 ∨ dist e1 e2 = 0 ∨ dist b1 e2 = 0 ∨ dist b2 e1 = 0) ↔ ¬ Distinct b1 e1 b2 e2 := by
  simp only [dist_eq_zero, Distinct]
  tauto

theorem length_guard {a b : ℝ} (ha : 0 < a) : |a - b| / a > 0.01 ↔ ¬ |a - b| ≤ a / 100 := by
  rw [gt_iff_lt, lt_div_iff₀ ha, not_le]
  norm_num
  constructor <;> intro h <;> linarith

/-- The function by cases -/
theorem check_eq (b1 e1 b2 e2 : Pt) :
    (¬ Distinct b1 e1 b2 e2 ∧ checkParallelLines b1 e1 b2 e2 = (some .equalPoints, b2, e2)) ∨
    (Distinct b1 e1 b2 e2 ∧ ¬ |dist b1 e1 - dist b2 e2| ≤ dist b1 e1 / 100 ∧
      checkParallelLines b1 e1 b2 e2 = (some .differentLength, b2, e2)) ∨
    (Distinct b1 e1 b2 e2 ∧ |dist b1 e1 - dist b2 e2| ≤ dist b1 e1 / 100 ∧ ¬ SameDirection (e1 - b1) (e2 - b2) ∧
      ¬ SameDirection (e1 - b1) (b2 - e2) ∧ checkParallelLines b1 e1 b2 e2 = (some .notParallel, b2, e2)) ∨
    (Distinct b1 e1 b2 e2 ∧ |dist b1 e1 - dist b2 e2| ≤ dist b1 e1 / 100 ∧ ¬ SameDirection (e1 - b1) (e2 - b2) ∧
      SameDirection (e1 - b1) (b2 - e2) ∧ checkParallelLines b1 e1 b2 e2 = (none, e2, b2)) ∨
    (Distinct b1 e1 b2 e2 ∧ |dist b1 e1 - dist b2 e2| ≤ dist b1 e1 / 100 ∧ SameDirection (e1 - b1) (e2 - b2) ∧
      checkParallelLines b1 e1 b2 e2 = (none, b2, e2)) := by
  simp only [checkParallelLines]
  by_cases hd : Distinct b1 e1 b2 e2
  · have h0 : ¬ (dist b1 e1 = 0 ∨ dist b2 e2 = 0 ∨ dist b1 b2 = 0 ∨ dist e1 e2 = 0 ∨ dist b1 e2 = 0 ∨ dist b2 e1 = 0) := by
      rw [check_guard]; simpa using hd
    rw [if_neg h0]
    have hpos : 0 < dist b1 e1 := dist_pos.2 hd.1
    by_cases hl : |dist b1 e1 - dist b2 e2| ≤ dist b1 e1 / 100
    · rw [if_neg (by rw [length_guard hpos]; simpa using hl)]
      have i1 := small_iff (sub_ne hd.1.symm) (sub_ne hd.2.1.symm)
      have i2 := small_iff (sub_ne hd.1.symm) (sub_ne hd.2.1)
      by_cases ha : SameDirection (e1 - b1) (e2 - b2)
      · rw [if_neg (by rw [i1.2 ha]; simp)]
        exact Or.inr (Or.inr (Or.inr (Or.inr ⟨hd, hl, ha, rfl⟩)))
      · have ha' : isAngleSmall (e1 - b1) (e2 - b2) 0 = false := by
          rw [← i1] at ha; simpa using ha
        rw [if_pos ha']
        by_cases hb : SameDirection (e1 - b1) (b2 - e2)
        · rw [if_neg (by rw [i2.2 hb]; simp)]
          exact Or.inr (Or.inr (Or.inr (Or.inl ⟨hd, hl, ha, hb, rfl⟩)))
        · have hb' : isAngleSmall (e1 - b1) (b2 - e2) 0 = false := by
            rw [← i2] at hb; simpa using hb
          rw [if_pos hb']
          exact Or.inr (Or.inr (Or.inl ⟨hd, hl, ha, hb, rfl⟩))
    · rw [if_pos ((length_guard hpos).2 hl)]
      exact Or.inr (Or.inl ⟨hd, hl, rfl⟩)
  · rw [if_pos ((check_guard _ _ _ _).2 hd)]
    exact Or.inl ⟨hd, rfl⟩

theorem arccos_pos : 0 < Real.arccos 0.99 := Real.arccos_pos.2 (by norm_num)

theorem same_smul {v : Pt} (hv : v ≠ 0) {r : ℝ} (hr : 0 < r) : SameDirection v (r • v) := by
  unfold SameDirection
  rw [InnerProductGeometry.angle_smul_right_of_pos _ _ hr, InnerProductGeometry.angle_self hv]
  exact arccos_pos

theorem dist_two (a b c d : ℝ) : dist (!₂[a, b] : Pt) !₂[c, d] = √((a - c) ^ 2 + (b - d) ^ 2) := by
  rw [EuclideanSpace.dist_eq, Fin.sum_univ_two]
  simp [Real.dist_eq, sq_abs]

theorem ne_two {a b c d : ℝ} (h : a ≠ c ∨ b ≠ d) : (!₂[a, b] : Pt) ≠ !₂[c, d] := by
  intro e
  have h0 := congrFun (congrArg (fun p : Pt => (p : Fin 2 → ℝ)) e) 0
  have h1 := congrFun (congrArg (fun p : Pt => (p : Fin 2 → ℝ)) e) 1
  simp at h0 h1
  tauto

/-! ## Lines of boundaries -/

theorem key_lin (p d : Pt) (s : ℝ) : key (p + s • d) = key p + s * key d := by
  simp only [key, PiLp.add_apply, PiLp.smul_apply, smul_eq_mul]
  ring

theorem interfacial_some {id1 id2 : ℕ} {cells : List Cell} {b : Bool} {l1 l2 : Pt × Pt} (h : interfacialLines id1 id2 cells = some (b, l1, l2)) :
    lineEnds (collect id1 id2 cells).1 = some l1 ∧ lineEnds (collect id1 id2 cells).2 = some l2 ∧
      (b = true → onLine (collect id1 id2 cells).1 l1 = some true ∧ onLine (collect id1 id2 cells).2 l2 = some true) ∧
      (onLine (collect id1 id2 cells).1 l1 = some true → onLine (collect id1 id2 cells).2 l2 = some true → b = true) := by
  simp only [interfacialLines] at h
  split at h
  · rename_i a1 a2 h1 h2
    split at h
    · simp at h
    · rename_i h3
      simp only [Option.some.injEq, Prod.mk.injEq] at h
      obtain ⟨rfl, rfl, rfl⟩ := h
      exact ⟨h1, h2, by simp, by rw [h3]; simp⟩
    · rename_i h3
      split at h
      · simp at h
      · rename_i b' h4
        simp only [Option.some.injEq, Prod.mk.injEq] at h
        obtain ⟨rfl, rfl, rfl⟩ := h
        refine ⟨h1, h2, ?_, ?_⟩
        · intro hb; rw [hb] at h4; exact ⟨h3, h4⟩
        · intro _ h5; rw [h5] at h4; simpa using h4.symm
  · simp at h

/-- The vertices of a boundary are on a line along which `1000 x + y` grows. -/
theorem onLine_line {vs : List Pt} {m : List (ℝ × Pt)} (c : MapOf vs m) {l : Pt × Pt} (hl : lineEnds m = some l) {p d : Pt} (hd : 0 < key d)
    (hv : ∀ v ∈ vs, ∃ s : ℝ, v = p + s • d) (hm : ¬ m.length < 2) : onLine m l = some true := by
  rw [onLine, if_neg hm, Option.some.injEq, List.all_eq_true]
  intro e he
  obtain ⟨h1, h2, h3⟩ := middle_ne c hl he
  obtain ⟨s1, s2, -⟩ := lineEnds_spec c hl
  obtain ⟨a, ha⟩ := hv _ s1
  obtain ⟨b, hb⟩ := hv _ s2
  obtain ⟨t, ht⟩ := hv _ (c.sound e h1).1
  rw [ha, ht, key_lin, key_lin] at h2
  rw [hb, ht, key_lin, key_lin] at h3
  have k1 : a < t := lt_of_mul_lt_mul_right (a := key d) (by linarith) hd.le
  have k2 : t < b := lt_of_mul_lt_mul_right (a := key d) (by linarith) hd.le
  have hd0 : d ≠ 0 := by rintro rfl; simp [key] at hd
  have f1 : l.2 - l.1 = (b - a) • d := by rw [ha, hb, sub_smul]; abel
  have f2 : e.2 - l.1 = ((t - a) / (b - a)) • ((b - a) • d) := by
    rw [smul_smul, div_mul_cancel₀ _ (by linarith), ha, ht, sub_smul]; abel
  have hne : (b - a) • d ≠ 0 := smul_ne_zero (by linarith) hd0
  have hr : 0 < (t - a) / (b - a) := div_pos (by linarith) (by linarith)
  rw [f1, f2, small_iff hne (smul_ne_zero hr.ne' hne)]
  exact same_smul hne hr

theorem onLine_true {vs : List Pt} {m : List (ℝ × Pt)} (c : MapOf vs m) {l : Pt × Pt} (hl : lineEnds m = some l) (o : onLine m l = some true)
    (hinj : ∀ v ∈ vs, ∀ w ∈ vs, key v = key w → v = w) {v : Pt} (hv : v ∈ vs) (hvb : v ≠ l.1) (hve : v ≠ l.2) :
    SameDirection (l.2 - l.1) (v - l.1) := by
  have n1 : ¬ m.length < 2 := by
    intro hlt; rw [onLine, if_pos hlt] at o; simp at o
  rw [onLine, if_neg n1, Option.some.injEq, List.all_eq_true] at o
  obtain ⟨e, he, hek⟩ := c.complete v hv
  obtain ⟨s1, s2⟩ := c.sound e he
  have hev : e.2 = v := hinj _ s1 _ hv (by rw [s2] at hek; exact hek)
  obtain ⟨m1, m2, m3⟩ := lineEnds_spec c hl
  have hmid : e ∈ m.tail.dropLast := by
    cases m with
    | nil => simp at he
    | cons a m =>
      simp only [lineEnds, Option.some.injEq] at hl
      subst hl
      rcases List.mem_cons.1 he with rfl | he
      · exact absurd hev.symm hvb
      · have hm0 : m ≠ [] := List.ne_nil_of_mem he
        rw [List.tail_cons]
        rw [← List.dropLast_append_getLast hm0] at he
        rcases List.mem_append.1 he with he | he
        · exact he
        · rw [List.mem_singleton] at he
          refine absurd ?_ hve
          simp only
          rw [← hev, he, List.getLast_cons hm0]
  have := o e hmid
  rw [hev] at this
  have hne' : l.1 ≠ l.2 := by
    intro heq
    obtain ⟨q1, q2⟩ := m3 v hv
    rw [← heq] at q2
    exact hvb (hinj _ hv _ m1 (le_antisymm q2 q1))
  exact (small_iff (sub_ne hne'.symm) (sub_ne hvb)).1 this

theorem norm_two (a b : ℝ) : ‖(!₂[a, b] : Pt)‖ = √(a ^ 2 + b ^ 2) := by
  rw [EuclideanSpace.norm_eq, Fin.sum_univ_two]
  simp [sq_abs]

theorem small_bent : isAngleSmall (!₂[2, 0] - !₂[0, 0]) ((!₂[1, 1/10] : Pt) - !₂[0, 0]) 0 = true := by
  have e1 : (!₂[2, 0] : Pt) - !₂[0, 0] = !₂[2, 0] := by ext i; fin_cases i <;> simp
  have e2 : (!₂[1, 1/10] : Pt) - !₂[0, 0] = !₂[1, 1/10] := by ext i; fin_cases i <;> simp
  have n1 : ‖(!₂[2, 0] : Pt)‖ = 2 := by
    rw [norm_two, show (2 : ℝ) ^ 2 + 0 ^ 2 = 2 ^ 2 by norm_num]; exact Real.sqrt_sq (by norm_num)
  have n2 : ‖(!₂[1, 1/10] : Pt)‖ < 1.005 := by
    rw [norm_two, Real.sqrt_lt' (by norm_num)]; norm_num
  have n3 : 0 < ‖(!₂[1, 1/10] : Pt)‖ := by
    rw [norm_two]; apply Real.sqrt_pos.2; norm_num
  have hi : inner ℝ (!₂[2, 0] : Pt) !₂[1, 1/10] = 2 := by
    rw [PiLp.inner_apply, Fin.sum_univ_two]; simp
  rw [e1, e2, isAngleSmall, if_neg (by rw [n1]; positivity), if_pos rfl, hi, n1, decide_eq_true_eq, gt_iff_lt, lt_div_iff₀ (by positivity)]
  nlinarith

/-! ## Coupling -/

theorem mem_allPairs {l : List ℕ} {i j : ℕ} : (i, j) ∈ allPairs l ↔ i ∈ l ∧ j ∈ l := by
  simp [allPairs]

theorem mem_faceEntries {coupling : PointCoupling} {l : List ℕ} {i j : ℕ} :
    (i, j) ∈ faceEntries coupling l ↔ i ∈ l ∧ j ∈ l ∧ (coupling = .COUPLE_ONLY_SINGLE_POINTS → i = j) := by
  cases coupling with
  | COUPLE_ONLY_SINGLE_POINTS =>
    simp only [faceEntries, List.mem_flatMap, mem_allPairs, List.mem_singleton, forall_const]
    constructor
    · rintro ⟨a, ha, rfl, rfl⟩; exact ⟨ha, ha, rfl⟩
    · rintro ⟨h1, h2, rfl⟩; exact ⟨i, h1, rfl, rfl⟩
  | COUPLE_WHOLE_FACE => simp [faceEntries, mem_allPairs]

theorem mem_faceDofs {c : DofCell} {f : DofFace} {i : ℕ} : i ∈ faceDofs c f ↔ ∃ k : ℕ, c.dofs[k]? = some i ∧ f.support[k]? = some true := by
  unfold faceDofs
  rw [List.mem_map]
  constructor
  · rintro ⟨⟨j, b⟩, h1, rfl⟩
    rw [List.mem_filter] at h1
    obtain ⟨h1, h2⟩ := h1
    simp only at h2
    subst h2
    obtain ⟨k, hk⟩ := List.mem_iff_getElem?.1 h1
    rw [List.getElem?_zip_eq_some] at hk
    exact ⟨k, hk.1, hk.2⟩
  · rintro ⟨k, h1, h2⟩
    exact ⟨(i, true), List.mem_filter.2 ⟨List.mem_iff_getElem?.2 ⟨k, List.getElem?_zip_eq_some.2 ⟨h1, h2⟩⟩, rfl⟩, rfl⟩

theorem mem_foldFaces {id : ℕ} {coupling : PointCoupling} {c : DofCell} (fs : List DofFace) (s : List (ℕ × ℕ)) (p : ℕ × ℕ) :
    p ∈ fs.foldl (fun s f => if f.atBoundary then if f.id = id then s ++ faceEntries coupling (faceDofs c f) else s else s) s ↔
      p ∈ s ∨ ∃ f ∈ fs, f.atBoundary = true ∧ f.id = id ∧ p ∈ faceEntries coupling (faceDofs c f) := by
  induction fs generalizing s with
  | nil => simp
  | cons f fs ih =>
    rw [List.foldl_cons, ih]
    by_cases h1 : f.atBoundary = true <;> by_cases h2 : f.id = id <;> simp [h1, h2, or_assoc]

theorem mem_coupleDofs {id : ℕ} {coupling : PointCoupling} (cells : List DofCell) (s : List (ℕ × ℕ)) (p : ℕ × ℕ) :
    p ∈ coupleDofs id coupling cells s ↔
      p ∈ s ∨ ∃ c ∈ cells, c.owned = true ∧ ∃ f ∈ c.faces, f.atBoundary = true ∧ f.id = id ∧ p ∈ faceEntries coupling (faceDofs c f) := by
  unfold coupleDofs
  induction cells generalizing s with
  | nil => simp
  | cons c cells ih =>
    rw [List.foldl_cons, ih]
    by_cases h1 : c.owned = true
    · rw [if_pos h1, mem_foldFaces]
      simp [h1, or_assoc]
    · simp [h1]

end BoundaryLines

end NATriuM
