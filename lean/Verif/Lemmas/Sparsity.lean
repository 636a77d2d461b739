import Verif.Spec.Sparsity
import Mathlib.Tactic.FinCases
import Mathlib.Tactic.NormNum
import Mathlib.Tactic.Linarith
import Mathlib.Tactic.Tauto
import Mathlib.Algebra.Order.Field.Basic
import Mathlib.Data.List.Sort
import Mathlib.Order.Fin.Basic

/-!
# Lemmas on sparsity patterns
-/

namespace NATriuM

namespace Sparsity

section collect

variable {A : Type*}

theorem collect_ok {body : A → Except Err (List (ℕ × ℕ))} {l : List A} (h : ∀ a ∈ l, ∃ x, body a = .ok x) :
    ∃ r, collect body l = .ok r ∧ ∀ e, e ∈ r ↔ ∃ a ∈ l, ∃ x, body a = .ok x ∧ e ∈ x := by
  induction l with
  | nil => exact ⟨[], rfl, by simp⟩
  | cons a as ih =>
    obtain ⟨x, hx⟩ := h a (by simp)
    obtain ⟨r, hr, hm⟩ := ih fun b hb => h b (by simp [hb])
    refine ⟨x ++ r, by simp [collect, hx, hr], fun e => ?_⟩
    rw [List.mem_append, hm]
    constructor
    · rintro (h | ⟨b, hb, y, hy, he⟩)
      · exact ⟨a, by simp, x, hx, h⟩
      · exact ⟨b, by simp [hb], y, hy, he⟩
    · rintro ⟨b, hb, y, hy, he⟩
      rcases List.mem_cons.1 hb with rfl | hb
      · rw [hx] at hy
        cases hy
        exact Or.inl he
      · exact Or.inr ⟨b, hb, y, hy, he⟩

end collect

section

variable {K : Type*} [Field K] [LinearOrder K] {n nq : ℕ}

theorem mem_allPairs' {l : List ℕ} {a b : ℕ} : (a, b) ∈ BoundaryLines.allPairs l ↔ a ∈ l ∧ b ∈ l := by
  simp [BoundaryLines.allPairs]

omit [Field K] [LinearOrder K] in
theorem mem_cellDofs {m : Mesh K n nq} {c a : ℕ} : a ∈ cellDofs m c ↔ ∃ i, a = m.dof c i := by
  simp [cellDofs, eq_comm]

theorem mem_pairs {l l' : List ℕ} {a b : ℕ} : (a, b) ∈ pairs l l' ↔ a ∈ l ∧ b ∈ l' := by
  simp [pairs]

omit [Field K] [LinearOrder K] in
theorem mem_supportDofs {m : Mesh K n nq} {c f a : ℕ} : a ∈ supportDofs m c f ↔ ∃ i, m.support f i = true ∧ a = m.dof c i := by
  simp only [supportDofs, List.mem_map, List.mem_filter, List.mem_finRange, true_and]
  exact ⟨fun ⟨i, h1, h2⟩ => ⟨i, h1, h2.symm⟩, fun ⟨i, h1, h2⟩ => ⟨i, h1, h2.symm⟩⟩

variable [IsStrictOrderedRing K]

/-- The points of a nodal face -/
theorem points_eq {m : Mesh K n nq} {faceDof : ℕ → Fin nq → Fin n} (h : Nodal m faceDof) (f : ℕ) (i : Fin n) :
    points m f i = (List.finRange nq).filter fun q => faceDof f q = i := by
  unfold points
  refine List.filter_congr fun q _ => ?_
  rw [h.value]
  by_cases hq : faceDof f q = i
  · simp only [hq, if_true, decide_true, decide_eq_true_eq]
    norm_num
  · simp only [hq, if_false, decide_false, decide_eq_false_iff_not, not_lt]
    positivity

theorem points_length {m : Mesh K n nq} {faceDof : ℕ → Fin nq → Fin n} (h : Nodal m faceDof) (f : ℕ) (i : Fin n) :
    (points m f i).length ≤ 1 := by
  rw [points_eq h]
  by_contra hc
  have hnd : ((List.finRange nq).filter fun q => decide (faceDof f q = i)).Nodup := (List.nodup_finRange nq).filter _
  generalize hl : ((List.finRange nq).filter fun q => decide (faceDof f q = i)) = l at hc hnd
  match l, hc, hnd with
  | [], hc, _ => simp at hc
  | [_], hc, _ => simp at hc
  | a :: b :: _, _, hnd =>
    have ha : a ∈ ((List.finRange nq).filter fun q => decide (faceDof f q = i)) := by rw [hl]; simp
    have hb : b ∈ ((List.finRange nq).filter fun q => decide (faceDof f q = i)) := by rw [hl]; simp
    have ha' : faceDof f a = i := by simpa using ha
    have hb' : faceDof f b = i := by simpa using hb
    have : a = b := h.injective f (ha'.trans hb'.symm)
    subst this
    simp at hnd

/-- The nodes of a face in the order of their numbers -/
def nodes {n nq : ℕ} (faceDof : ℕ → Fin nq → Fin n) (f : ℕ) : List (Fin nq) :=
  (List.finRange n).flatMap fun i => (List.finRange nq).filter fun q => faceDof f q = i

theorem pointDofs_eq {m : Mesh K n nq} {faceDof : ℕ → Fin nq → Fin n} (h : Nodal m faceDof) (c f : ℕ) :
    pointDofs m c f = .ok ((nodes faceDof f).map fun q => m.dof c (faceDof f q)) := by
  unfold pointDofs
  rw [if_pos (points_length h f)]
  congr 1
  unfold nodes
  rw [List.map_flatMap]
  congr 1
  funext i
  rw [points_eq h]
  refine List.map_congr_left fun q hq => ?_
  have : faceDof f q = i := by simpa using hq
  rw [this]

omit [Field K] [LinearOrder K] [IsStrictOrderedRing K] in
theorem mem_nodes {faceDof : ℕ → Fin nq → Fin n} {f : ℕ} (q : Fin nq) : q ∈ nodes faceDof f := by
  simp [nodes]

/-- The list of nodes is ordered by the numbers of the nodes. -/
theorem nodes_sorted {faceDof : ℕ → Fin nq → Fin n} {f : ℕ} (h : Function.Injective (faceDof f)) :
    (nodes faceDof f).Pairwise fun q q' => faceDof f q < faceDof f q' := by
  unfold nodes
  rw [List.pairwise_flatMap]
  constructor
  · intro i _
    have hnd : ((List.finRange nq).filter fun q => decide (faceDof f q = i)).Nodup := (List.nodup_finRange nq).filter _
    refine List.Pairwise.imp_of_mem ?_ hnd
    intro a b ha hb hne
    have ha' : faceDof f a = i := by simpa using ha
    have hb' : faceDof f b = i := by simpa using hb
    exact absurd (h (ha'.trans hb'.symm)) hne
  · have : (List.finRange n).Pairwise (· < ·) := List.pairwise_lt_finRange n
    refine this.imp ?_
    intro i j hij a ha b hb
    have ha' : faceDof f a = i := by simpa using ha
    have hb' : faceDof f b = j := by simpa using hb
    rw [ha', hb']
    exact hij

/-- Lists with the same elements that are sorted by the same relation are equal. -/
theorem nodes_eq {faceDof : ℕ → Fin nq → Fin n} {f f' : ℕ} (h : Function.Injective (faceDof f)) (h' : Function.Injective (faceDof f'))
    (hs : SameOrder faceDof f f') : nodes faceDof f = nodes faceDof f' := by
  have h1 := nodes_sorted h
  have h2 := (nodes_sorted h').imp fun {a b} => (hs a b).2
  have n1 : (nodes faceDof f).Nodup := h1.imp fun {a b} hab e => by rw [e] at hab; exact lt_irrefl _ hab
  have n2 : (nodes faceDof f').Nodup := h2.imp fun {a b} hab e => by rw [e] at hab; exact lt_irrefl _ hab
  have hp : (nodes faceDof f).Perm (nodes faceDof f') :=
    (List.perm_ext_iff_of_nodup n1 n2).2 fun q => by simp [mem_nodes]
  refine hp.eq_of_pairwise (fun a b _ _ hab hba => absurd (hab.trans hba) (lt_irrefl _)) h1 h2

theorem nodes_length {faceDof : ℕ → Fin nq → Fin n} {f : ℕ} (h : Function.Injective (faceDof f)) : (nodes faceDof f).length = nq := by
  have h1 := nodes_sorted h
  have n1 : (nodes faceDof f).Nodup := h1.imp fun {a b} hab e => by rw [e] at hab; exact lt_irrefl _ hab
  have hp : (nodes faceDof f).Perm (List.finRange nq) :=
    (List.perm_ext_iff_of_nodup n1 (List.nodup_finRange nq)).2 fun q => by simp [mem_nodes]
  rw [hp.length_eq, List.length_finRange]

theorem across_pairwise {m : Mesh K n nq} {faceDof : ℕ → Fin nq → Fin n} (h : Nodal m faceDof) {c f c' f' : ℕ} (hs : SameOrder faceDof f f') :
    ∃ r, across m true c f c' f' = .ok r ∧ ∀ a b, (a, b) ∈ r ↔ (∃ q, a = m.dof c (faceDof f q) ∧ b = m.dof c' (faceDof f' q)) ∨
      (m.subdomain c' ≠ m.subdomain c ∧ ∃ i j, a = m.dof c' i ∧ b = m.dof c' j) := by
  have hz : ((nodes faceDof f).map fun q => m.dof c (faceDof f q)).zip ((nodes faceDof f').map fun q => m.dof c' (faceDof f' q)) =
      (nodes faceDof f).map fun q => (m.dof c (faceDof f q), m.dof c' (faceDof f' q)) := by
    rw [← nodes_eq (h.injective f) (h.injective f') hs, List.zip_map']
  have hmem : ∀ a b, (a, b) ∈ ((nodes faceDof f).map fun q => (m.dof c (faceDof f q), m.dof c' (faceDof f' q))) ↔
      ∃ q, a = m.dof c (faceDof f q) ∧ b = m.dof c' (faceDof f' q) := by
    intro a b
    simp only [List.mem_map, Prod.mk.injEq]
    exact ⟨fun ⟨q, _, h1, h2⟩ => ⟨q, h1.symm, h2.symm⟩, fun ⟨q, h1, h2⟩ => ⟨q, mem_nodes q, h1.symm, h2.symm⟩⟩
  unfold across
  simp only [if_true, pointDofs_eq h, List.length_map, nodes_length (h.injective f), nodes_length (h.injective f'), lt_irrefl, if_false, hz]
  refine ⟨_, rfl, fun a b => ?_⟩
  rw [List.mem_append, hmem]
  by_cases hf : m.subdomain c' ≠ m.subdomain c
  · rw [if_pos hf, List.mem_append, hmem, mem_allPairs', mem_cellDofs, mem_cellDofs]
    constructor
    · rintro (h | h | ⟨⟨i, hi⟩, j, hj⟩)
      · exact Or.inl h
      · exact Or.inl h
      · exact Or.inr ⟨hf, i, j, hi, hj⟩
    · rintro (h | ⟨_, i, j, hi, hj⟩)
      · exact Or.inl h
      · exact Or.inr (Or.inr ⟨⟨i, hi⟩, j, hj⟩)
  · rw [if_neg hf]
    simp [hf]

omit [IsStrictOrderedRing K] in
theorem across_whole {m : Mesh K n nq} {c f c' f' : ℕ} :
    ∃ r, across m false c f c' f' = .ok r ∧
      ∀ i j, m.support f i = true → m.support f' j = true → (m.dof c i, m.dof c' j) ∈ r := by
  unfold across
  simp only [Bool.false_eq_true, if_false]
  refine ⟨_, rfl, fun i j hi hj => ?_⟩
  rw [List.mem_append, mem_pairs, mem_supportDofs, mem_supportDofs]
  exact Or.inl ⟨⟨i, hi, rfl⟩, j, hj, rfl⟩

omit [Field K] [LinearOrder K] [IsStrictOrderedRing K] in
theorem boundaryId_eq {m : Mesh K n nq} {c f id : ℕ} : boundaryId m c f = some id ↔ m.side c f = .boundary id := by
  unfold boundaryId
  cases h : m.side c f <;> simp

theorem isFaceInBoundary_eq {m : Mesh K n nq} {p : PeriodicBoundary} {c id : ℕ} (h : id < m.nFaces)
    (hi : (m.side c id = .boundary p.id1 ∨ m.side c id = .boundary p.id2) ↔ (id = p.id1 ∨ id = p.id2)) :
    isFaceInBoundary m p c id = .ok (decide (id = p.id1 ∨ id = p.id2)) := by
  unfold isFaceInBoundary
  rw [if_pos h]
  simp only [boundaryId_eq]
  by_cases h1 : m.side c id = .boundary p.id1
  · have := hi.1 (Or.inl h1)
    rw [if_pos h1, decide_eq_true this]
  · by_cases h2 : m.side c id = .boundary p.id2
    · have := hi.1 (Or.inr h2)
      rw [if_neg h1, if_pos h2, decide_eq_true this]
    · rw [if_neg h1, if_neg h2, decide_eq_false fun hc => (hi.2 hc).elim h1 h2]

theorem findPeriodic_eq {m : Mesh K n nq} {c id : ℕ} {periodic : List PeriodicBoundary}
    (hf : ∀ p ∈ periodic, id < m.nFaces ∧ ((m.side c id = .boundary p.id1 ∨ m.side c id = .boundary p.id2) ↔ (id = p.id1 ∨ id = p.id2)))
    (ho : ∀ p ∈ periodic, id = p.id1 ∨ id = p.id2 → (p.opposite c).isSome) :
    findPeriodic m c id periodic = .ok (match periodic.find? fun p => id = p.id1 ∨ id = p.id2 with
      | some p => p.opposite c
      | none => none) := by
  induction periodic with
  | nil => rfl
  | cons p ps ih =>
    obtain ⟨h1, h2⟩ := hf p (by simp)
    unfold findPeriodic
    rw [isFaceInBoundary_eq h1 h2]
    by_cases hp : id = p.id1 ∨ id = p.id2
    · obtain ⟨x, hx⟩ := Option.isSome_iff_exists.1 (ho p (by simp) hp)
      simp only [hp, decide_true, hx, List.find?_cons_of_pos]
    · simp only [hp, decide_false, Bool.false_eq_true, not_false_eq_true, List.find?_cons_of_neg]
      exact ih (fun p hp => hf p (by simp [hp])) fun p hp => ho p (by simp [hp])

/-- The entries of a face are those of the neighbour the assembly uses. -/
theorem faceEntries_eq {m : Mesh K n nq} {periodic : List PeriodicBoundary} {rank c f : ℕ} (pairwise : Bool) (hc : Conformal m rank)
    (hi : IdsFit m periodic rank) (hm : Mapped m periodic rank) (ho : Owned m rank c) (hf : f < m.nFaces) :
    faceEntries m periodic pairwise c f = match assemblyNeighbor m periodic c f with
      | some (c', f') => across m pairwise c f c' f'
      | none => .ok [] := by
  unfold faceEntries assemblyNeighbor
  rcases hc c ho f hf with ⟨id, hs⟩ | ⟨c', f', hs⟩
  · have := findPeriodic_eq (periodic := periodic) (hi c ho f hf id hs) (hm c ho f hf id hs)
    simp only [hs, this]
    generalize (periodic.find? fun p => decide (id = p.id1 ∨ id = p.id2)) = r
    cases r with
    | none => rfl
    | some p =>
      dsimp only
      cases p.opposite c <;> rfl
  · simp only [hs]

/-- The pattern, exactly -/
theorem makePattern_mem {m : Mesh K n nq} {periodic : List PeriodicBoundary} {rank : ℕ} {faceDof : ℕ → Fin nq → Fin n} (h : Nodal m faceDof)
    (hc : Conformal m rank) (hi : IdsFit m periodic rank) (hm : Mapped m periodic rank) (hs : Ordered m periodic rank faceDof) :
    ∃ l, makePattern m periodic true rank = .ok l ∧ ∀ a b, (a, b) ∈ l ↔ Needed m periodic rank faceDof a b ∨ Foreign m periodic rank a b := by
  have hface : ∀ c, Owned m rank c → ∀ f < m.nFaces, ∃ x, faceEntries m periodic true c f = .ok x ∧ ∀ a b, (a, b) ∈ x ↔
      ∃ c' f', assemblyNeighbor m periodic c f = some (c', f') ∧ ((∃ q, a = m.dof c (faceDof f q) ∧ b = m.dof c' (faceDof f' q)) ∨
      (m.subdomain c' ≠ rank ∧ ∃ i j, a = m.dof c' i ∧ b = m.dof c' j)) := by
    intro c ho f hf
    rw [faceEntries_eq true hc hi hm ho hf]
    cases ha : assemblyNeighbor m periodic c f with
    | none => exact ⟨[], rfl, by simp⟩
    | some y =>
      obtain ⟨r, hr, hmem⟩ := across_pairwise h (c := c) (c' := y.1) (hs c ho f hf y.1 y.2 ha)
      refine ⟨r, hr, fun a b => ?_⟩
      rw [hmem, ho.2]
      constructor
      · exact fun hx => ⟨y.1, y.2, rfl, hx⟩
      · rintro ⟨c', f', he, hx⟩
        cases he
        exact hx
  have hcell : ∀ c ∈ m.cells, ∃ x, cellEntries m periodic true rank c = .ok x ∧ ∀ a b, (a, b) ∈ x ↔ m.subdomain c = rank ∧
      ((∃ i j, a = m.dof c i ∧ b = m.dof c j) ∨ ∃ f < m.nFaces, ∃ c' f', assemblyNeighbor m periodic c f = some (c', f') ∧
        ((∃ q, a = m.dof c (faceDof f q) ∧ b = m.dof c' (faceDof f' q)) ∨ (m.subdomain c' ≠ rank ∧ ∃ i j, a = m.dof c' i ∧ b = m.dof c' j))) := by
    intro c hcm
    unfold cellEntries
    by_cases hr : m.subdomain c = rank
    · rw [if_pos hr]
      obtain ⟨r, hcr, hmem⟩ := collect_ok (body := faceEntries m periodic true c) (l := List.range m.nFaces) fun f hf => by
        obtain ⟨x, hx, _⟩ := hface c ⟨hcm, hr⟩ f (List.mem_range.1 hf)
        exact ⟨x, hx⟩
      simp only [hcr]
      refine ⟨_, rfl, fun a b => ?_⟩
      rw [List.mem_append, mem_allPairs', mem_cellDofs, mem_cellDofs, hmem]
      constructor
      · rintro (⟨⟨i, hi⟩, j, hj⟩ | ⟨f, hf, x, hx, hab⟩)
        · exact ⟨hr, Or.inl ⟨i, j, hi, hj⟩⟩
        · obtain ⟨x', hx', hmx⟩ := hface c ⟨hcm, hr⟩ f (List.mem_range.1 hf)
          rw [hx] at hx'
          cases hx'
          obtain ⟨c', f', h1, h2⟩ := (hmx a b).1 hab
          exact ⟨hr, Or.inr ⟨f, List.mem_range.1 hf, c', f', h1, h2⟩⟩
      · rintro ⟨_, ⟨i, j, hi, hj⟩ | ⟨f, hf, c', f', h1, h2⟩⟩
        · exact Or.inl ⟨⟨i, hi⟩, j, hj⟩
        · obtain ⟨x', hx', hmx⟩ := hface c ⟨hcm, hr⟩ f hf
          exact Or.inr ⟨f, List.mem_range.2 hf, x', hx', (hmx a b).2 ⟨c', f', h1, h2⟩⟩
    · rw [if_neg hr]
      exact ⟨[], rfl, fun a b => by simp [hr]⟩
  obtain ⟨l, hl, hmem⟩ := collect_ok (body := cellEntries m periodic true rank) (l := m.cells) fun c hcm => by
    obtain ⟨x, hx, _⟩ := hcell c hcm
    exact ⟨x, hx⟩
  refine ⟨l, hl, fun a b => ?_⟩
  rw [hmem]
  constructor
  · rintro ⟨c, hcm, x, hx, hab⟩
    obtain ⟨x', hx', hmx⟩ := hcell c hcm
    rw [hx] at hx'
    cases hx'
    obtain ⟨hr, h1 | ⟨f, hf, c', f', ha, h1 | ⟨h2, h3⟩⟩⟩ := (hmx a b).1 hab
    · exact Or.inl ⟨c, ⟨hcm, hr⟩, Or.inl h1⟩
    · exact Or.inl ⟨c, ⟨hcm, hr⟩, Or.inr ⟨f, hf, c', f', ha, h1⟩⟩
    · exact Or.inr ⟨c, ⟨hcm, hr⟩, f, hf, c', f', ha, h2, h3⟩
  · rintro (⟨c, ⟨hcm, hr⟩, h1 | ⟨f, hf, c', f', ha, h1⟩⟩ | ⟨c, ⟨hcm, hr⟩, f, hf, c', f', ha, h2, h3⟩)
    · obtain ⟨x, hx, hmx⟩ := hcell c hcm
      exact ⟨c, hcm, x, hx, (hmx a b).2 ⟨hr, Or.inl h1⟩⟩
    · obtain ⟨x, hx, hmx⟩ := hcell c hcm
      exact ⟨c, hcm, x, hx, (hmx a b).2 ⟨hr, Or.inr ⟨f, hf, c', f', ha, Or.inl h1⟩⟩⟩
    · obtain ⟨x, hx, hmx⟩ := hcell c hcm
      exact ⟨c, hcm, x, hx, (hmx a b).2 ⟨hr, Or.inr ⟨f, hf, c', f', ha, Or.inr ⟨h2, h3⟩⟩⟩⟩

/-- Coupling of whole faces: what is needed is in the pattern, in whatever order the nodes come. -/
theorem makePattern_whole {m : Mesh K n nq} {periodic : List PeriodicBoundary} {rank : ℕ} {faceDof : ℕ → Fin nq → Fin n} (h : Nodal m faceDof)
    (hc : Conformal m rank) (hi : IdsFit m periodic rank) (hm : Mapped m periodic rank) :
    ∃ l, makePattern m periodic false rank = .ok l ∧ ∀ a b, Needed m periodic rank faceDof a b → (a, b) ∈ l := by
  have hface : ∀ c, Owned m rank c → ∀ f < m.nFaces, ∃ x, faceEntries m periodic false c f = .ok x ∧ ∀ c' f',
      assemblyNeighbor m periodic c f = some (c', f') → ∀ q, (m.dof c (faceDof f q), m.dof c' (faceDof f' q)) ∈ x := by
    intro c ho f hf
    rw [faceEntries_eq false hc hi hm ho hf]
    cases ha : assemblyNeighbor m periodic c f with
    | none => exact ⟨[], rfl, by simp⟩
    | some y =>
      obtain ⟨r, hr, hmem⟩ := across_whole (m := m) (c := c) (f := f) (c' := y.1) (f' := y.2)
      refine ⟨r, hr, ?_⟩
      rintro c' f' he q
      cases he
      exact hmem _ _ ((h.support _ _).2 ⟨q, rfl⟩) ((h.support _ _).2 ⟨q, rfl⟩)
  have hcell : ∀ c ∈ m.cells, ∃ x, cellEntries m periodic false rank c = .ok x ∧ ∀ a b, m.subdomain c = rank →
      ((∃ i j, a = m.dof c i ∧ b = m.dof c j) ∨ ∃ f < m.nFaces, ∃ c' f', assemblyNeighbor m periodic c f = some (c', f') ∧
        ∃ q, a = m.dof c (faceDof f q) ∧ b = m.dof c' (faceDof f' q)) → (a, b) ∈ x := by
    intro c hcm
    unfold cellEntries
    by_cases hr : m.subdomain c = rank
    · rw [if_pos hr]
      obtain ⟨r, hcr, hmem⟩ := collect_ok (body := faceEntries m periodic false c) (l := List.range m.nFaces) fun f hf => by
        obtain ⟨x, hx, _⟩ := hface c ⟨hcm, hr⟩ f (List.mem_range.1 hf)
        exact ⟨x, hx⟩
      simp only [hcr]
      refine ⟨_, rfl, fun a b _ hab => ?_⟩
      rw [List.mem_append, mem_allPairs', mem_cellDofs, mem_cellDofs, hmem]
      rcases hab with ⟨i, j, hi, hj⟩ | ⟨f, hf, c', f', h1, q, h2, h3⟩
      · exact Or.inl ⟨⟨i, hi⟩, j, hj⟩
      · obtain ⟨x', hx', hmx⟩ := hface c ⟨hcm, hr⟩ f hf
        refine Or.inr ⟨f, List.mem_range.2 hf, x', hx', ?_⟩
        rw [h2, h3]
        exact hmx c' f' h1 q
    · rw [if_neg hr]
      exact ⟨[], rfl, fun a b h => absurd h hr⟩
  obtain ⟨l, hl, hmem⟩ := collect_ok (body := cellEntries m periodic false rank) (l := m.cells) fun c hcm => by
    obtain ⟨x, hx, _⟩ := hcell c hcm
    exact ⟨x, hx⟩
  refine ⟨l, hl, fun a b hab => ?_⟩
  obtain ⟨c, ⟨hcm, hr⟩, h1⟩ := hab
  obtain ⟨x, hx, hmx⟩ := hcell c hcm
  exact (hmem _).2 ⟨c, hcm, x, hx, hmx a b hr h1⟩

omit [IsStrictOrderedRing K] in
/-- What the assembly adds is needed. -/
theorem reassemble_needed {d nQ nf : ℕ} {s : Sedg.Mesh K d n nQ nf nq ℕ} {m : Mesh K n nq} {periodic : List PeriodicBoundary}
    {faceDof : ℕ → Fin nq → Fin n} (hs : SameMesh s m periodic faceDof) (rank : ℕ) (central : Bool) (e : Fin d → K)
    (x : Sedg.Entry K n ℕ) (hx : x ∈ Sedg.reassemble s central e (m.cells.filter fun c => m.subdomain c = rank)) :
    Needed m periodic rank faceDof (m.dof x.row.1 x.row.2) (m.dof x.column.1 x.column.2) := by
  unfold Sedg.reassemble at hx
  obtain ⟨c, hc, hx⟩ := List.mem_flatMap.1 hx
  have ho : Owned m rank c := by simpa [Owned] using hc
  refine ⟨c, ho, ?_⟩
  unfold Sedg.cellEntries at hx
  rcases List.mem_append.1 hx with hx | hx
  · unfold Sedg.stiffnessEntries at hx
    obtain ⟨j, _, hx⟩ := List.mem_flatMap.1 hx
    obtain ⟨k, _, rfl⟩ := List.mem_map.1 hx
    exact Or.inl ⟨j, k, rfl, rfl⟩
  · unfold Sedg.faceEntries at hx
    obtain ⟨f, _, hx⟩ := List.mem_flatMap.1 hx
    have hn := hs.neighbors c f
    cases hy : s.neighbor c f with
    | none => rw [hy] at hx; simp at hx
    | some y =>
      rw [hy] at hx hn
      unfold Sedg.internalFaceEntries at hx
      obtain ⟨q, _, hx⟩ := List.mem_flatMap.1 hx
      simp only [List.mem_cons, List.not_mem_nil, or_false] at hx
      rcases hx with rfl | rfl
      · exact Or.inl ⟨_, _, rfl, rfl⟩
      · refine Or.inr ⟨f, by rw [hs.faces]; exact f.2, y.1, y.2, hn.symm, q, ?_, ?_⟩
        · rw [← hs.nodes f]
        · rw [← hs.nodes y.2]

/-! ## Blocks and boundaries -/

omit [Field K] [LinearOrder K] [IsStrictOrderedRing K] in
theorem collect_of_ok {A : Type*} {body : A → Except Err (List (ℕ × ℕ))} {l : List A} {r : List (ℕ × ℕ)} (h : collect body l = .ok r) :
    ∀ a ∈ l, ∃ x, body a = .ok x ∧ ∀ e ∈ x, e ∈ r := by
  induction l generalizing r with
  | nil => simp
  | cons a as ih =>
    unfold collect at h
    cases hb : body a with
    | error e => rw [hb] at h; cases h
    | ok x =>
      cases hc : collect body as with
      | error e => rw [hb, hc] at h; cases h
      | ok y =>
        rw [hb, hc] at h
        cases h
        intro b hm
        rcases List.mem_cons.1 hm with rfl | hm
        · exact ⟨x, hb, fun e he => List.mem_append.2 (Or.inl he)⟩
        · obtain ⟨z, hz, hs⟩ := ih hc b hm
          exact ⟨z, hz, fun e he => List.mem_append.2 (Or.inr (hs e he))⟩

omit [IsStrictOrderedRing K] in
theorem own_mem {m : Mesh K n nq} {periodic : List PeriodicBoundary} {pairwise : Bool} {rank : ℕ} {l : List (ℕ × ℕ)}
    (h : makePattern m periodic pairwise rank = .ok l) {c : ℕ} (hc : Owned m rank c) (i j : Fin n) : (m.dof c i, m.dof c j) ∈ l := by
  obtain ⟨x, hx, hs⟩ := collect_of_ok h c hc.1
  refine hs _ ?_
  unfold cellEntries at hx
  rw [if_pos hc.2] at hx
  cases hf : collect (faceEntries m periodic pairwise c) (List.range m.nFaces) with
  | error e => rw [hf] at hx; cases hx
  | ok y =>
    rw [hf] at hx
    cases hx
    exact List.mem_append.2 (Or.inl (mem_allPairs'.2 ⟨mem_cellDofs.2 ⟨i, rfl⟩, mem_cellDofs.2 ⟨j, rfl⟩⟩))

theorem boundaryPatterns_isSome (cells : List BoundaryLines.DofCell) (bs : List OtherBoundary) (s : List (ℕ × ℕ) × List (ℕ × ℕ)) :
    (boundaryPatterns cells bs s).isSome ↔ ∀ b ∈ bs, b.dgSupported = true := by
  induction bs generalizing s with
  | nil => simp [boundaryPatterns]
  | cons b bs ih =>
    unfold boundaryPatterns
    by_cases hb : b.dgSupported = true
    · rw [if_pos hb, ih]
      simp [hb]
    · rw [if_neg hb]
      simp [hb]

end

/-! ## Boundary degrees of freedom -/

theorem foldl_selected {A : Type*} (l : List A) (step : (ℕ → Bool) → A → ℕ → Bool) (B : A → ℕ → Prop) (G : ℕ → Prop)
    (h : ∀ x ∈ l, ∀ s : ℕ → Bool, (∀ d, s d = true → G d) → ∀ d, step s x d = true ↔ s d = true ∨ B x d)
    (hG : ∀ x ∈ l, ∀ d, B x d → G d) (s : ℕ → Bool) (hs : ∀ d, s d = true → G d) (d : ℕ) :
    l.foldl step s d = true ↔ s d = true ∨ ∃ x ∈ l, B x d := by
  induction l generalizing s with
  | nil => simp
  | cons x xs ih =>
    rw [List.foldl_cons, ih (fun y hy => h y (by simp [hy])) (fun y hy => hG y (by simp [hy]))]
    · rw [h x (by simp) s hs]
      simp only [List.mem_cons, exists_eq_or_imp, or_assoc]
    · intro d hd
      rcases (h x (by simp) s hs d).1 hd with h1 | h1
      · exact hs d h1
      · exact hG x (by simp) d h1

theorem faceSelected_iff {ids : List ℕ} {o : Option ℕ} : faceSelected ids o = true ↔ ∃ id, o = some id ∧ (ids = [] ∨ id ∈ ids) := by
  cases o <;> simp [faceSelected]

theorem extractDofs_iff (mask : Option (ℕ → Bool)) (ids : List ℕ) (cells : List BCell) (hc : Consistent cells) (d : ℕ) :
    extractDofs mask ids cells d = true ↔ AtBoundary mask ids cells d := by
  let G : ℕ → Prop := fun d => ∀ k, mask = some k → ∀ c ∈ cells, ∀ i : ℕ, c.dofs[i]? = some d → k (c.component i) = true
  let BD : BCell → ℕ → ℕ → ℕ → Prop := fun c f i d =>
    c.dofs[i]? = some d ∧ c.support i f = true ∧ ∀ k, mask = some k → k (c.component i) = true
  have hBG : ∀ c ∈ cells, ∀ f i d, BD c f i d → G d := by
    rintro c hcm f i d ⟨h1, _, h3⟩ k hk c' hc' i' hi'
    rw [hc c' hc' c hcm i' i d hi' h1]
    exact h3 k hk
  have hdof : ∀ c ∈ cells, ∀ f, ∀ s : ℕ → Bool, (∀ d, s d = true → G d) → ∀ d,
      (List.range c.dofs.length).foldl (assignDof mask c f) s d = true ↔ s d = true ∨ ∃ i ∈ List.range c.dofs.length, BD c f i d := by
    intro c hcm f s hs d
    refine foldl_selected _ _ (BD c f) G ?_ (fun i _ d => hBG c hcm f i d) s hs d
    intro i hi s hs d
    have hi' : i < c.dofs.length := List.mem_range.1 hi
    have hg : c.dofs[i]? = some (c.dofs.getD i 0) := by
      rw [List.getD_eq_getElem?_getD, List.getElem?_eq_getElem hi', Option.getD_some]
    unfold assignDof
    by_cases hsup : c.support i f = true
    · rw [if_pos hsup]
      cases hm : mask with
      | none =>
        by_cases hd : d = c.dofs.getD i 0
        · subst hd
          simp only [Function.update_self, true_iff]
          exact Or.inr ⟨hg, hsup, by simp [hm]⟩
        · simp only [Function.update_of_ne hd]
          refine ⟨Or.inl, fun h => h.elim id fun ⟨h1, _⟩ => ?_⟩
          rw [hg] at h1
          exact absurd (Option.some.inj h1).symm hd
      | some k =>
        by_cases hd : d = c.dofs.getD i 0
        · subst hd
          simp only [Function.update_self]
          constructor
          · intro hk
            exact Or.inr ⟨hg, hsup, fun k' hk' => by rw [hm] at hk'; cases hk'; exact hk⟩
          · rintro (h | ⟨_, _, h⟩)
            · exact hs _ h k hm c hcm i hg
            · exact h k hm
        · simp only [Function.update_of_ne hd]
          refine ⟨Or.inl, fun h => h.elim id fun ⟨h1, _⟩ => ?_⟩
          rw [hg] at h1
          exact absurd (Option.some.inj h1).symm hd
    · rw [if_neg hsup]
      exact ⟨Or.inl, fun h => h.elim id fun ⟨_, h2, _⟩ => absurd h2 hsup⟩
  let BF : BCell → ℕ → ℕ → Prop := fun c f d => faceSelected ids (c.faces.getD f none) = true ∧ ∃ i ∈ List.range c.dofs.length, BD c f i d
  have hface : ∀ c ∈ cells, ∀ s : ℕ → Bool, (∀ d, s d = true → G d) → ∀ d,
      (List.range c.faces.length).foldl (assignFace mask ids c) s d = true ↔ s d = true ∨ ∃ f ∈ List.range c.faces.length, BF c f d := by
    intro c hcm s hs d
    refine foldl_selected _ _ (BF c) G ?_ (fun f _ d hB => ?_) s hs d
    · intro f _ s hs d
      unfold assignFace
      by_cases hsel : faceSelected ids (c.faces.getD f none) = true
      · rw [if_pos hsel, hdof c hcm f s hs d]
        exact or_congr_right ⟨fun h => ⟨hsel, h⟩, fun h => h.2⟩
      · rw [if_neg hsel]
        exact ⟨Or.inl, fun h => h.elim id fun h => absurd h.1 hsel⟩
    · obtain ⟨_, i, _, hB⟩ := hB
      exact hBG c hcm f i d hB
  let BC : BCell → ℕ → Prop := fun c d => c.owned = true ∧ ∃ f ∈ List.range c.faces.length, BF c f d
  have hcell := foldl_selected cells
    (fun s c => if c.owned then (List.range c.faces.length).foldl (assignFace mask ids c) s else s) BC G
    (by
      intro c hcm s hs d
      by_cases ho : c.owned = true
      · rw [if_pos ho, hface c hcm s hs d]
        exact or_congr_right ⟨fun h => ⟨ho, h⟩, fun h => h.2⟩
      · rw [if_neg ho]
        exact ⟨Or.inl, fun h => h.elim id fun h => absurd h.1 ho⟩)
    (by
      rintro c hcm d ⟨_, f, _, _, i, _, hB⟩
      exact hBG c hcm f i d hB)
    (fun _ => false) (by simp) d
  unfold extractDofs
  rw [hcell]
  simp only [Bool.false_eq_true, false_or, AtBoundary]
  constructor
  · rintro ⟨c, hcm, ho, f, hf, hsel, i, hi, h1, h2, h3⟩
    obtain ⟨id, hid, hids⟩ := faceSelected_iff.1 hsel
    refine ⟨c, hcm, ho, f, id, ?_, hids, i, h1, h2, h3⟩
    have hf' : f < c.faces.length := List.mem_range.1 hf
    rw [List.getD_eq_getElem?_getD, List.getElem?_eq_getElem hf', Option.getD_some] at hid
    rw [List.getElem?_eq_getElem hf', ← hid]
  · rintro ⟨c, hcm, ho, f, id, hf, hids, i, h1, h2, h3⟩
    obtain ⟨hf', _⟩ := List.getElem?_eq_some_iff.1 hf
    obtain ⟨hi', _⟩ := List.getElem?_eq_some_iff.1 h1
    refine ⟨c, hcm, ho, f, List.mem_range.2 hf', faceSelected_iff.2 ⟨id, ?_, hids⟩, i, List.mem_range.2 hi', h1, h2, h3⟩
    rw [List.getD_eq_getElem?_getD, hf, Option.getD_some]

/-! ## Planes -/

section

variable {K : Type*} [Field K] [LinearOrder K] [IsStrictOrderedRing K] {D : ℕ}

theorem onPlane_iff (call : PlaneCall K D) (f : PlaneFace K D) : onPlane call f = true ↔ OnPlane call f := by
  unfold onPlane OnPlane
  rw [List.all_eq_true]
  refine forall₂_congr fun x _ => ?_
  simp only [ge_iff_le, Bool.not_eq_eq_eq_not, Bool.not_true, Bool.or_eq_false_iff, decide_eq_false_iff_not, not_le]
  rw [abs_lt]
  constructor
  · rintro ⟨h1, h2⟩
    exact ⟨by linarith, by linarith⟩
  · rintro ⟨h1, h2⟩
    exact ⟨by linarith, by linarith⟩

end

end Sparsity

end NATriuM
