import Verif.Lemmas.Sparsity
import Verif.Props.BoundaryLines
import Verif.Props.Stencils
import Mathlib.Tactic.IntervalCases

/-!
# Properties C99 to C102: the sparsity patterns of the discontinuous Galerkin operator, boundary indicators, degrees of freedom at boundaries
-/

namespace NATriuM

namespace Sparsity

section

variable {K : Type*} [Field K] [LinearOrder K] [IsStrictOrderedRing K] {n nq : ℕ}

/-! ## C99: the pattern contains what the assembly writes -/

/-- **C99** (partial: no hanging nodes, indicators that fit, nodes in the same order) The pattern is made without error, and every entry that the assembly
adds on the cells of this process is in it. -/
theorem C99_covered_partial {d nQ nf : ℕ} (s : Sedg.Mesh K d n nQ nf nq ℕ) (m : Mesh K n nq) (periodic : List PeriodicBoundary) (rank : ℕ)
    (faceDof : ℕ → Fin nq → Fin n) (hn : Nodal m faceDof) (hs : SameMesh s m periodic faceDof) (hc : Conformal m rank)
    (hi : IdsFit m periodic rank) (hm : Mapped m periodic rank) (ho : Ordered m periodic rank faceDof) :
    ∃ l, makePattern m periodic true rank = .ok l ∧ ∀ central e,
      ∀ x ∈ Sedg.reassemble s central e (m.cells.filter fun c => m.subdomain c = rank),
        (m.dof x.row.1 x.row.2, m.dof x.column.1 x.column.2) ∈ l := by
  obtain ⟨l, hl, hmem⟩ := makePattern_mem hn hc hi hm ho
  exact ⟨l, hl, fun central e x hx => (hmem _ _).2 (Or.inl (reassemble_needed hs rank central e x hx))⟩

/-- **C99** (partial, as before) Nothing is in the pattern but what is needed and, for neighbours on other processes, the entries of their cells. -/
theorem C99_exact_partial (m : Mesh K n nq) (periodic : List PeriodicBoundary) (rank : ℕ) (faceDof : ℕ → Fin nq → Fin n) (hn : Nodal m faceDof)
    (hc : Conformal m rank) (hi : IdsFit m periodic rank) (hm : Mapped m periodic rank) (ho : Ordered m periodic rank faceDof) :
    ∃ l, makePattern m periodic true rank = .ok l ∧
      ∀ a b, (a, b) ∈ l ↔ Needed m periodic rank faceDof a b ∨ Foreign m periodic rank a b :=
  makePattern_mem hn hc hi hm ho

omit [Field K] [LinearOrder K] [IsStrictOrderedRing K] in
/-- **C99** Where the indicator of each boundary face is its number, as on rectangles and boxes with colored faces, the indicators fit. -/
theorem C99_colorized (m : Mesh K n nq) (periodic : List PeriodicBoundary) (rank : ℕ) (h : Colorized m) : IdsFit m periodic rank := by
  intro c _ f hf id hs p _
  have := h c f id hs
  subst this
  refine ⟨hf, ?_⟩
  rw [hs, Side.boundary.injEq, Side.boundary.injEq]

omit [Field K] [LinearOrder K] [IsStrictOrderedRing K] in
/-- **C99** Where the nodes of each face are numbered in the order of its points, as for the elements in two dimensions, the order is the same for any two
faces. -/
theorem C99_monotone (faceDof : ℕ → Fin nq → Fin n) (h : ∀ f, StrictMono (faceDof f)) (f f' : ℕ) : SameOrder faceDof f f' :=
  fun q q' => by rw [(h f).lt_iff_lt, (h f').lt_iff_lt]

/-- **C99** (partial: no hanging nodes, indicators that fit) Coupling of whole faces (no object for face values handed over) needs no order of the nodes. -/
theorem C99_whole_faces_partial {d nQ nf : ℕ} (s : Sedg.Mesh K d n nQ nf nq ℕ) (m : Mesh K n nq) (periodic : List PeriodicBoundary) (rank : ℕ)
    (faceDof : ℕ → Fin nq → Fin n) (hn : Nodal m faceDof) (hs : SameMesh s m periodic faceDof) (hc : Conformal m rank)
    (hi : IdsFit m periodic rank) (hm : Mapped m periodic rank) :
    ∃ l, makePattern m periodic false rank = .ok l ∧ ∀ central e,
      ∀ x ∈ Sedg.reassemble s central e (m.cells.filter fun c => m.subdomain c = rank),
        (m.dof x.row.1 x.row.2, m.dof x.column.1 x.column.2) ∈ l := by
  obtain ⟨l, hl, hmem⟩ := makePattern_whole hn hc hi hm
  exact ⟨l, hl, fun central e x hx => hmem _ _ (reassemble_needed hs rank central e x hx)⟩

omit [Field K] [LinearOrder K] [IsStrictOrderedRing K] in
/-- **C99** (finding) With pairwise coupling, a face with smaller cells of this process behind it gets no entries. -/
theorem C99_hanging_fails (m : Mesh K n nq) (c f : ℕ) (subs : List (ℕ × ℕ)) (h : ∀ s ∈ subs, m.subdomain s.1 = m.subdomain c) :
    hanging m true c f subs = [] := by
  unfold hanging
  rw [List.flatMap_eq_nil_iff]
  intro s hs
  have : ¬ m.subdomain s.1 ≠ m.subdomain c := fun hc => hc (h s hs)
  simp [pairs, this]

omit [IsStrictOrderedRing K] in
/-- **C99** (finding) A periodic boundary whose indicator is not the number of a face makes the function look at a face that does not exist. -/
theorem C99_range_fails (m : Mesh K n nq) (p : PeriodicBoundary) (ps : List PeriodicBoundary) (pairwise : Bool) (c f id : ℕ)
    (hs : m.side c f = .boundary id) (hid : m.nFaces ≤ id) : faceEntries m (p :: ps) pairwise c f = .error .noSuchFace := by
  have h : findPeriodic m c id (p :: ps) = .error .noSuchFace := by
    unfold findPeriodic isFaceInBoundary
    rw [if_neg (by omega)]
  unfold faceEntries
  simp only [hs, h]

end

/-! ### Samples -/

namespace Sample

/-- The nodes of the faces of a square -/
def nodes2 : ℕ → Fin 2 → Fin 4
  | 0 => ![0, 2]
  | 1 => ![1, 3]
  | 2 => ![0, 1]
  | _ => ![2, 3]

/-- Two squares side by side; the indicator of boundary face `f` of a cell is `ind f` -/
def squares (ind : ℕ → ℕ) : Mesh ℚ 4 2 where
  cells := [0, 1]
  subdomain _ := 0
  nFaces := 4
  side c f := if c = 0 ∧ f = 1 then .inner 1 0 else if c = 1 ∧ f = 0 then .inner 0 1 else
    .boundary (ind f)
  dof c i := 4 * c + i
  support f i := decide (∃ q, nodes2 f q = i)
  value f i q := if nodes2 f q = i then 1 else 0

/-- The periodic boundary at the left and right ends -/
def ends (ind : ℕ → ℕ) : PeriodicBoundary := ⟨ind 0, ind 1, fun c => if c = 0 then some (1, 1) else if c = 1 then some (0, 0) else none⟩

theorem nodes2_mono : ∀ f, StrictMono (nodes2 f) := by
  intro f
  match f with
  | 0 => decide
  | 1 => decide
  | 2 => decide
  | _ + 3 => show StrictMono ![(2 : Fin 4), 3]; decide

theorem squares_nodal (ind : ℕ → ℕ) : Nodal (squares ind) nodes2 where
  value _ _ _ := rfl
  injective f := (nodes2_mono f).injective
  support f i := by simp [squares]

/-- The mesh for the assembly -/
def squaresDG (ind : ℕ → ℕ) : Sedg.Mesh ℚ 2 4 4 4 2 ℕ where
  value _ i q := if i = q then 1 else 0
  grad _ _ _ _ := 0
  jxw _ _ := 1 / 4
  toQ i := i
  faceDof f := nodes2 f
  faceJxw _ _ _ := 1 / 2
  normal _ f _ := ![![-1, 0], ![1, 0], ![0, -1], ![0, 1]] f
  neighbor c f := match assemblyNeighbor (squares ind) [ends ind] c f with
    | some (c', f') => if h : f' < 4 then some (c', ⟨f', h⟩) else none
    | none => none

theorem squares_same : SameMesh (squaresDG id) (squares id) [ends id] nodes2 where
  faces := rfl
  nodes _ := rfl
  neighbors c f := by
    match c with
    | 0 => revert f; decide
    | 1 => revert f; decide
    | c + 2 =>
      have h0 : ¬ (c + 2 = 0) := by omega
      have h1 : ¬ (c + 2 = 1) := by omega
      fin_cases f <;> simp [squaresDG, assemblyNeighbor, squares, ends]

theorem squares_colorized : Colorized (squares id) := by
  intro c f i h
  unfold squares at h
  dsimp only at h
  split_ifs at h <;> simp_all

theorem squares_conformal (ind : ℕ → ℕ) : Conformal (squares ind) 0 := by
  intro c _ f _
  unfold squares
  dsimp only
  split_ifs <;> simp

theorem squares_mapped (ind : ℕ → ℕ) : Mapped (squares ind) [ends ind] 0 := by
  rintro c ⟨hc, _⟩ f _ id _ p hp _
  simp only [List.mem_singleton] at hp
  subst hp
  have : c = 0 ∨ c = 1 := by simpa [squares] using hc
  rcases this with rfl | rfl <;> rfl

/-- The hypotheses of `C99_covered_partial` hold for two squares with periodic ends, indicators 0 and 1. -/
example : ∃ l, makePattern (squares id) [ends id] true 0 = .ok l ∧ ∀ central e,
    ∀ x ∈ Sedg.reassemble (squaresDG id) central e ((squares id).cells.filter fun c => (squares id).subdomain c = 0),
      ((squares id).dof x.row.1 x.row.2, (squares id).dof x.column.1 x.column.2) ∈ l :=
  C99_covered_partial (squaresDG id) (squares id) [ends id] 0 nodes2 (squares_nodal id) squares_same (squares_conformal id)
    (C99_colorized _ _ _ squares_colorized) (squares_mapped id) fun _ _ _ _ _ _ _ => C99_monotone _ nodes2_mono _ _

/-- ... and the assembly does write across the periodic boundary. -/
example : ∃ x ∈ Sedg.reassemble (squaresDG id) false ![1, 0] [0, 1], x.row = (0, 0) ∧ x.column = (1, 1) ∧ x.value ≠ 0 := by
  refine ⟨⟨(0, 0), (1, 1), 2⟩, ?_, rfl, rfl, by norm_num⟩
  unfold Sedg.reassemble
  refine List.mem_flatMap.2 ⟨0, by simp, List.mem_append.2 (Or.inr (List.mem_flatMap.2 ⟨0, by simp, ?_⟩))⟩
  show (⟨(0, 0), (1, 1), 2⟩ : Sedg.Entry ℚ 4 ℕ) ∈ Sedg.internalFaceEntries (squaresDG id) false ![1, 0] 0 0 1 1
  unfold Sedg.internalFaceEntries
  refine List.mem_flatMap.2 ⟨0, by simp, ?_⟩
  simp only [List.mem_cons, List.not_mem_nil, or_false]
  right
  simp [Sedg.neighborEntry, Sedg.exn, Sedg.inverseMass, Sedg.mass, squaresDG, nodes2]
  norm_num

/-- Ends with the indicators 2 and 3, bottom and top with 0 and 1 -/
def swapped : ℕ → ℕ
  | 0 => 2
  | 1 => 3
  | 2 => 0
  | _ => 1

/-- **C99** (finding) The indicators are taken for face numbers: if the ends of the same two squares have the indicators 2 and 3, everything but `IdsFit` holds,
and an entry across the periodic boundary is missing. -/
theorem C99_indicators_fails : Nodal (squares swapped) nodes2 ∧ Conformal (squares swapped) 0 ∧ Mapped (squares swapped) [ends swapped] 0 ∧
    Ordered (squares swapped) [ends swapped] 0 nodes2 ∧ Needed (squares swapped) [ends swapped] 0 nodes2 2 7 ∧
    ∃ l, makePattern (squares swapped) [ends swapped] true 0 = .ok l ∧ (2, 7) ∉ l := by
  refine ⟨squares_nodal _, squares_conformal _, squares_mapped _, fun _ _ _ _ _ _ _ => C99_monotone _ nodes2_mono _ _,
    ⟨0, ⟨by simp [squares], rfl⟩, Or.inr ⟨0, by decide, 1, 1, by decide, 1, by decide, by decide⟩⟩, ?_⟩
  have h : (match makePattern (squares swapped) [ends swapped] true 0 with
    | .ok l => decide ((2, 7) ∉ l) | .error _ => false) = true := by decide +kernel
  cases hp : makePattern (squares swapped) [ends swapped] true 0 with
  | error e => rw [hp] at h; cases h
  | ok l => rw [hp] at h; exact ⟨l, rfl, of_decide_eq_true h⟩

/-- The nodes of the faces of a cube, in the order of deal.II -/
def nodes3 : ℕ → Fin 4 → Fin 8
  | 0 => ![0, 2, 4, 6]
  | 1 => ![1, 3, 5, 7]
  | 2 => ![0, 4, 1, 5]
  | 3 => ![2, 6, 3, 7]
  | 4 => ![0, 1, 2, 3]
  | _ => ![4, 5, 6, 7]

/-- Two cubes; face 0 of the first is face `f` of the second. -/
def cubes (f : ℕ) : Mesh ℚ 8 4 where
  cells := [0, 1]
  subdomain _ := 0
  nFaces := 6
  side c g := if c = 0 ∧ g = 0 then .inner 1 f else if c = 1 ∧ g = f then .inner 0 0 else .boundary g
  dof c i := 8 * c + i
  support g i := decide (∃ q, nodes3 g q = i)
  value g i q := if nodes3 g q = i then 1 else 0

theorem nodes3_injective : ∀ f, Function.Injective (nodes3 f) := by
  intro f
  match f with
  | 0 => decide
  | 1 => decide
  | 2 => decide
  | 3 => decide
  | 4 => decide
  | _ + 5 => show Function.Injective ![(4 : Fin 8), 5, 6, 7]; decide

/-- Opposite faces of cubes have their nodes in the same order. -/
example : SameOrder nodes3 0 1 ∧ SameOrder nodes3 2 3 ∧ SameOrder nodes3 4 5 := by
  unfold SameOrder
  decide

/-- **C99** (finding) The nodes are paired by their numbers and not by their position: where a face across the first axis of a cube meets a face across the
second axis of another, an entry that the assembly needs is missing. -/
theorem C99_order_fails : Nodal (cubes 2) nodes3 ∧ Conformal (cubes 2) 0 ∧ IdsFit (cubes 2) [] 0 ∧ Mapped (cubes 2) [] 0 ∧
    Needed (cubes 2) [] 0 nodes3 2 12 ∧ ∃ l, makePattern (cubes 2) [] true 0 = .ok l ∧ (2, 12) ∉ l := by
  refine ⟨⟨fun _ _ _ => rfl, nodes3_injective, fun f i => by simp [cubes]⟩, ?_, ?_, ?_,
    ⟨0, ⟨by simp [cubes], rfl⟩, Or.inr ⟨0, by decide, 1, 2, by decide, 1, by decide, by decide⟩⟩, ?_⟩
  · intro c _ f _
    unfold cubes
    dsimp only
    split_ifs <;> simp
  · intro c _ f _ id _ p hp
    simp at hp
  · intro c _ f _ id _ p hp
    simp at hp
  · have h : (match makePattern (cubes 2) [] true 0 with | .ok l => decide ((2, 12) ∉ l) | .error _ => false) = true := by decide +kernel
    cases hp : makePattern (cubes 2) [] true 0 with
    | error e => rw [hp] at h; cases h
    | ok l => rw [hp] at h; exact ⟨l, rfl, of_decide_eq_true h⟩

end Sample

/-! ## C100: which pattern which block gets -/

/-- The opposite directions of the stencils, as far as the blocks depend on them -/
theorem opp_facts (t : StencilType) : 1 < oppOf t 1 ∧ oppOf t 1 < t.Q - 1 ∧ ∀ i, 0 < i → i < t.Q → 0 < oppOf t i ∧ oppOf t i < t.Q := by
  have h0 : oppOf t 0 = 0 := by cases t <;> rfl
  have h1 : 1 < oppOf t 1 ∧ oppOf t 1 < t.Q - 1 := by
    cases t <;> (unfold oppOf; decide +kernel)
  refine ⟨h1.1, h1.2, fun i hi hQ => ?_⟩
  have hlt : oppOf t i < t.Q := by
    unfold oppOf
    rw [dif_pos hQ]
    exact ((t.stencil 1).opp ⟨i, hQ⟩).2
  refine ⟨?_, hlt⟩
  rcases Nat.eq_zero_or_pos (oppOf t i) with hz | hz
  · exfalso
    have hinv := (C01_opposite t 1).involutive ⟨i, hQ⟩
    have e : (t.stencil 1).opp ⟨i, hQ⟩ = ⟨0, by omega⟩ := by
      apply Fin.ext
      have : oppOf t i = ((t.stencil 1).opp ⟨i, hQ⟩ : ℕ) := by unfold oppOf; rw [dif_pos hQ]
      rw [← this, hz]
    rw [e] at hinv
    have : oppOf t 0 = i := by
      unfold oppOf
      rw [dif_pos (show 0 < t.Q by omega), hinv]
    omega
  · exact hz

theorem oppOf_involutive (t : StencilType) {i : ℕ} (hi : i < t.Q) : oppOf t (oppOf t i) = i := by
  have e : oppOf t i = ((t.stencil 1).opp ⟨i, hi⟩ : ℕ) := by unfold oppOf; rw [dif_pos hi]
  rw [e]
  unfold oppOf
  rw [dif_pos ((t.stencil 1).opp ⟨i, hi⟩).2]
  show (((t.stencil 1).opp ((t.stencil 1).opp ⟨i, hi⟩) : Fin t.Q) : ℕ) = i
  rw [(C01_opposite t 1).involutive]

/-- **C100.** For every stencil, each block gets the pattern of its role: cells and inner faces for a direction with itself, boundary points for a direction with
its opposite, boundary points of boundaries that couple all directions for the rest. -/
theorem C100_blocks (t : StencilType) (I J : ℕ) (_hI : I + 1 < t.Q) (hJ : J + 1 < t.Q) :
    blockPattern t.Q (oppOf t) I J = some (role (oppOf t) I J) := by
  obtain ⟨h1, h2, h3⟩ := opp_facts t
  obtain ⟨h4, h5⟩ := h3 (J + 1) (by omega) hJ
  have hinv : oppOf t (oppOf t 1) = 1 := oppOf_involutive t (by omega)
  have hinvJ : oppOf t (oppOf t (J + 1)) = J + 1 := oppOf_involutive t hJ
  have b00 : firstBlocks (oppOf t) 0 0 = some .diag := by
    unfold firstBlocks firstOpposite someNonopposite
    rw [if_neg (by omega), if_neg (by omega), if_pos (by omega)]
  have b0o : firstBlocks (oppOf t) 0 (firstOpposite (oppOf t)) = some .opposite := by
    unfold firstBlocks
    rw [if_pos ⟨rfl, rfl⟩]
  have b0n : firstBlocks (oppOf t) 0 (someNonopposite (oppOf t)) = some .notOpposite := by
    unfold firstBlocks firstOpposite someNonopposite
    rw [if_neg (by omega), if_pos ⟨rfl, rfl⟩]
  unfold blockPattern
  dsimp only
  rw [b00, b0o, b0n, if_pos (show someNonopposite (oppOf t) < t.Q - 1 from h2)]
  unfold role
  by_cases c1 : I = 0 ∧ J = 0
  · rw [if_pos c1, if_pos (by omega)]
  rw [if_neg c1]
  by_cases c2 : I = 0 ∧ J = someNonopposite (oppOf t)
  · obtain ⟨rfl, rfl⟩ := c2
    have hn : ¬ 0 = someNonopposite (oppOf t) := by unfold someNonopposite; omega
    rw [if_pos ⟨rfl, rfl⟩, if_neg hn, if_neg]
    intro hc
    rw [← hc] at hinvJ
    unfold someNonopposite at hinvJ
    rw [Nat.zero_add] at hinvJ
    omega
  rw [if_neg c2]
  by_cases c3 : I = 0 ∧ J = firstOpposite (oppOf t)
  · obtain ⟨rfl, rfl⟩ := c3
    have hn : ¬ 0 = firstOpposite (oppOf t) := by unfold firstOpposite; omega
    have he : firstOpposite (oppOf t) + 1 = oppOf t 1 := by unfold firstOpposite; omega
    rw [if_pos ⟨rfl, rfl⟩, if_neg hn, he, hinv, if_pos rfl]
  rw [if_neg c3]
  by_cases c4 : I = J
  · rw [if_pos c4, if_pos c4]
  rw [if_neg c4, if_neg c4]
  by_cases c5 : I + 1 = oppOf t (J + 1)
  · rw [if_pos (by omega), if_pos c5]
  · rw [if_neg (by omega), if_neg c5]

/-- The hypotheses hold, and all three patterns occur, on D2Q9. -/
example : role (oppOf .D2Q9) 1 1 = .diag ∧ role (oppOf .D2Q9) 2 0 = .opposite ∧ role (oppOf .D2Q9) 1 0 = .notOpposite := by
  refine ⟨rfl, rfl, rfl⟩

/-- **C100.** A stencil whose direction 1 has the last direction as opposite would need a block that does not exist; none of the stencils is like that, though the
assertion in the code allows it. -/
theorem C100_last_direction (q : ℕ) (opp : ℕ → ℕ) (h : opp 1 = q - 1) (I J : ℕ) : blockPattern q opp I J = none ∧ someNonopposite opp ≤ q - 1 := by
  unfold blockPattern someNonopposite
  dsimp only
  rw [h, if_neg (lt_irrefl _)]
  exact ⟨rfl, le_refl _⟩

/-- **C100.** The pattern is refused exactly if a boundary that is not periodic is not supported by the discontinuous Galerkin scheme. -/
theorem C100_refused (cells : List BoundaryLines.DofCell) (bs : List OtherBoundary) :
    boundaryPatterns cells bs ([], []) = none ↔ ∃ b ∈ bs, b.dgSupported = false := by
  have := boundaryPatterns_isSome cells bs ([], [])
  rw [← Option.not_isSome_iff_eq_none, this]
  simp

example : boundaryPatterns [] [velocityWall 3, ⟨4, false, false, .COUPLE_WHOLE_FACE⟩] ([], []) = none := by decide

theorem boundaryPatterns_mem (cells : List BoundaryLines.DofCell) (bs : List OtherBoundary) (s r : List (ℕ × ℕ) × List (ℕ × ℕ))
    (h : boundaryPatterns cells bs s = some r) (a b : ℕ) :
    ((a, b) ∈ r.1 ↔ (a, b) ∈ s.1 ∨ ∃ x ∈ bs, BoundaryLines.Coupled x.id x.points cells a b) ∧
    ((a, b) ∈ r.2 ↔ (a, b) ∈ s.2 ∨ ∃ x ∈ bs, x.coupleAll = true ∧ BoundaryLines.Coupled x.id x.points cells a b) := by
  induction bs generalizing s with
  | nil => cases h; simp
  | cons x xs ih =>
    unfold boundaryPatterns at h
    by_cases hd : x.dgSupported = true
    · rw [if_pos hd] at h
      obtain ⟨h1, h2⟩ := ih _ h
      constructor
      · rw [h1, BoundaryLines.C98_coupled]
        simp only [List.mem_cons, exists_eq_or_imp, or_assoc]
      · rw [h2]
        by_cases hx : x.coupleAll = true
        · rw [if_pos hx, BoundaryLines.C98_coupled]
          simp only [List.mem_cons, exists_eq_or_imp, or_assoc, hx, true_and]
        · rw [if_neg hx]
          simp [hx]
    · rw [if_neg hd] at h
      cases h

/-- **C100.** The patterns of the boundaries: each boundary that is not periodic contributes its coupled points to the blocks of opposite directions; those that
couple all directions contribute them to the other blocks, too. -/
theorem C100_boundaries (cells : List BoundaryLines.DofCell) (bs : List OtherBoundary) (r : List (ℕ × ℕ) × List (ℕ × ℕ))
    (h : boundaryPatterns cells bs ([], []) = some r) (a b : ℕ) :
    ((a, b) ∈ r.1 ↔ ∃ x ∈ bs, BoundaryLines.Coupled x.id x.points cells a b) ∧
    ((a, b) ∈ r.2 ↔ ∃ x ∈ bs, x.coupleAll = true ∧ BoundaryLines.Coupled x.id x.points cells a b) := by
  have := boundaryPatterns_mem cells bs ([], []) r h a b
  simpa using this

section

variable {K : Type*} [Field K] [LinearOrder K] [IsStrictOrderedRing K] {n nq : ℕ}

omit [IsStrictOrderedRing K] in
/-- **C100.** Everything that a wall with prescribed velocity adds, for any direction, is in the pattern of its block. -/
theorem C100_walls (t : StencilType) (m : Mesh K n nq) (periodic : List PeriodicBoundary) (pairwise : Bool) (rank : ℕ) (bs : List OtherBoundary)
    (l : List (ℕ × ℕ)) (s : List (ℕ × ℕ) × List (ℕ × ℕ)) (hl : makePattern m periodic pairwise rank = .ok l)
    (hs : boundaryPatterns (m.cells.map (dofCell m rank)) bs ([], []) = some s) (id : ℕ) (hb : velocityWall id ∈ bs) (c f : ℕ)
    (hc : Owned m rank c) (hf : f < m.nFaces) (hid : m.side c f = .boundary id) (alpha : ℕ) (h1 : 1 ≤ alpha) (hQ : alpha < t.Q) :
    ∀ x ∈ wallPositions m (oppOf t) alpha c f, ∃ P, blockPattern t.Q (oppOf t) x.1 x.2.1 = some P ∧ x.2.2 ∈ P.entries l s := by
  intro x hx
  unfold wallPositions at hx
  obtain ⟨i, hi, hx⟩ := List.mem_flatMap.1 hx
  have hsup : m.support f i = true := by simpa using hi
  obtain ⟨_, _, h3⟩ := opp_facts t
  obtain ⟨ho1, ho2⟩ := h3 alpha h1 hQ
  simp only [List.mem_cons, List.not_mem_nil, or_false] at hx
  rcases hx with rfl | rfl
  · refine ⟨_, C100_blocks t (alpha - 1) (alpha - 1) (by omega) (by omega), ?_⟩
    unfold role
    rw [if_pos rfl]
    exact own_mem hl hc i i
  · refine ⟨_, C100_blocks t (alpha - 1) (oppOf t alpha - 1) (by omega) (by omega), ?_⟩
    have e : oppOf t alpha - 1 + 1 = oppOf t alpha := by omega
    have e' : alpha - 1 + 1 = alpha := by omega
    unfold role
    by_cases hsame : alpha - 1 = oppOf t alpha - 1
    · rw [if_pos hsame]
      exact own_mem hl hc i i
    · rw [if_neg hsame, e, e', oppOf_involutive t hQ, if_pos rfl]
      refine ((C100_boundaries _ bs s hs _ _).1).2 ⟨_, hb, ?_⟩
      refine ⟨dofCell m rank c, List.mem_map.2 ⟨c, hc.1, rfl⟩, by simp [dofCell, hc.2], ?_⟩
      refine ⟨_, List.mem_map.2 ⟨f, List.mem_range.2 hf, rfl⟩, by simp [boundaryId, hid], by simp [boundaryId, hid, velocityWall], ?_, ?_,
        fun _ => rfl⟩
      · exact ⟨i, by simp [dofCell, cellDofs], by simp [hsup]⟩
      · exact ⟨i, by simp [dofCell, cellDofs], by simp [hsup]⟩

end

/-- The hypotheses of `C100_walls` hold for the bottom of two squares, on D2Q9. -/
example : ∃ l s, makePattern (Sample.squares id) [Sample.ends id] true 0 = .ok l ∧
    boundaryPatterns ((Sample.squares id).cells.map (dofCell (Sample.squares id) 0)) [velocityWall 2, velocityWall 3] ([], []) = some s ∧
    ∀ x ∈ wallPositions (Sample.squares id) (oppOf .D2Q9) 2 1 2, ∃ P, blockPattern 9 (oppOf .D2Q9) x.1 x.2.1 = some P ∧ x.2.2 ∈ P.entries l s := by
  have hl : ∃ l, makePattern (Sample.squares id) [Sample.ends id] true 0 = .ok l := by
    have h : (match makePattern (Sample.squares id) [Sample.ends id] true 0 with | .ok _ => true | .error _ => false) = true := by decide +kernel
    cases hp : makePattern (Sample.squares id) [Sample.ends id] true 0 with
    | error e => rw [hp] at h; cases h
    | ok l => exact ⟨l, rfl⟩
  obtain ⟨l, hl⟩ := hl
  have hs : (boundaryPatterns ((Sample.squares id).cells.map (dofCell (Sample.squares id) 0)) [velocityWall 2, velocityWall 3] ([], [])).isSome := by
    rw [boundaryPatterns_isSome]
    simp [velocityWall]
  obtain ⟨s, hs⟩ := Option.isSome_iff_exists.1 hs
  exact ⟨l, s, hl, hs, C100_walls .D2Q9 (Sample.squares id) [Sample.ends id] true 0 _ l s hl hs 2 (by simp) 1 2 ⟨by simp [Sample.squares], rfl⟩
    (by decide) (by simp [Sample.squares]) 2 (by norm_num) (by decide)⟩

example : (wallPositions (Sample.squares id) (oppOf .D2Q9) 2 1 2).length = 4 := by rfl

/-! ## C101: indicators on planes -/

section

variable {K : Type*} [Field K] [LinearOrder K] [IsStrictOrderedRing K] {D : ℕ}

/-- **C101.** The faces all of whose vertices are closer to the plane than the tolerance get the indicator; the other faces keep theirs; no face is moved. -/
theorem C101_plane (call : PlaneCall K D) (faces : List (PlaneFace K D)) (k : ℕ) (f : PlaneFace K D) (h : faces[k]? = some f) :
    ∃ g, (setIds call faces)[k]? = some g ∧ g.vertices = f.vertices ∧ (OnPlane call f → g.id = call.id) ∧ (¬ OnPlane call f → g.id = f.id) := by
  unfold setIds
  rw [List.getElem?_map, h]
  refine ⟨_, rfl, ?_⟩
  dsimp only
  by_cases hp : onPlane call f = true
  · rw [if_pos hp]
    exact ⟨rfl, fun _ => rfl, fun hc => absurd ((onPlane_iff call f).1 hp) hc⟩
  · rw [if_neg hp]
    exact ⟨rfl, fun hc => absurd ((onPlane_iff call f).2 hc) hp, fun _ => rfl⟩

/-- **C101.** After a sequence of calls, a face has the indicator of the last plane it lies on, or the one it had. -/
theorem C101_planes (calls : List (PlaneCall K D)) (faces : List (PlaneFace K D)) (k : ℕ) (f : PlaneFace K D) (h : faces[k]? = some f) :
    ∃ g, (setIdsAll calls faces)[k]? = some g ∧ g.vertices = f.vertices ∧
      ((∀ c ∈ calls, ¬ OnPlane c f) → g.id = f.id) ∧
      (∀ before c after, calls = before ++ c :: after → OnPlane c f → (∀ c' ∈ after, ¬ OnPlane c' f) → g.id = c.id) := by
  induction calls generalizing faces f with
  | nil => exact ⟨f, h, rfl, fun _ => rfl, fun before c after hc => by simp at hc⟩
  | cons x xs ih =>
    obtain ⟨g, hg, hv, h1, h2⟩ := C101_plane x faces k f h
    obtain ⟨g', hg', hv', h3, h4⟩ := ih (setIds x faces) g hg
    have hon : ∀ c, OnPlane c g ↔ OnPlane c f := fun c => by unfold OnPlane; rw [hv]
    refine ⟨g', hg', hv'.trans hv, ?_, ?_⟩
    · intro hn
      rw [h3 fun c hc => by rw [hon]; exact hn c (by simp [hc]), h2 (hn x (by simp))]
    · intro before c after he hc ha
      cases before with
      | nil =>
        simp only [List.nil_append, List.cons.injEq] at he
        obtain ⟨rfl, rfl⟩ := he
        rw [h3 fun c' hc' => by rw [hon]; exact ha c' hc', h1 hc]
      | cons b bs =>
        simp only [List.cons_append, List.cons.injEq] at he
        exact h4 bs c after he.2 ((hon c).2 hc) fun c' hc' => by rw [hon]; exact ha c' hc'

end

/-- A face on the left and one that only touches it -/
example : (setIds ⟨0, -1, 7, 1 / 10 ^ 10⟩ [⟨[![-1, 0], ![-1, 1]], 0⟩, ⟨[![-1, 1], ![0, 1]], 0⟩] : List (PlaneFace ℚ 2)).map PlaneFace.id = [7, 0] := by
  decide +kernel

/-- A face on two of the planes has the indicator of the later call. -/
example : (setIdsAll [⟨0, -1, 7, 1 / 10⟩, ⟨0, -1, 8, 1 / 10⟩, ⟨1, 5, 9, 1 / 10⟩] [⟨[![-1, 0], ![-1, 1]], 0⟩] : List (PlaneFace ℚ 2)).map PlaneFace.id = [8] := by
  decide +kernel

/-! ## C102: degrees of freedom at boundaries -/

/-- **C102.** The degrees of freedom selected are those on faces of this process at the boundaries with the given indicators (all boundaries, if none is given), of
the selected components. -/
theorem C102_extracted (mask : Option (ℕ → Bool)) (ids : List ℕ) (cells : List BCell) (hc : Consistent cells) (d : ℕ) :
    extractDofs mask ids cells d = true ↔ AtBoundary mask ids cells d :=
  extractDofs_iff mask ids cells hc d

/-- **C102** (partial: with at least one boundary that is not periodic) The solver counts the degrees of freedom on faces of boundaries that are not
periodic. -/
theorem C102_solver_partial (boundaries : List (ℕ × Bool)) (hb : ∃ b ∈ boundaries, b.2 = false) (cells : List BCell) (hc : Consistent cells) (d : ℕ) :
    extractDofs none (solverIds boundaries) cells d = true ↔ ∃ c ∈ cells, c.owned = true ∧ ∃ f id, c.faces[f]? = some (some id) ∧
      (id, false) ∈ boundaries ∧ ∃ i, c.dofs[i]? = some d ∧ c.support i f = true := by
  rw [C102_extracted none _ cells hc]
  have hne : solverIds boundaries ≠ [] := by
    obtain ⟨b, hb, h⟩ := hb
    intro hn
    have : b.1 ∈ solverIds boundaries := List.mem_map.2 ⟨b, List.mem_filter.2 ⟨hb, by simp [h]⟩, rfl⟩
    rw [hn] at this
    simp at this
  have hmem : ∀ id, (solverIds boundaries = [] ∨ id ∈ solverIds boundaries) ↔ (id, false) ∈ boundaries := by
    intro id
    rw [or_iff_right hne]
    simp [solverIds]
  unfold AtBoundary
  simp only [hmem, reduceCtorEq, false_implies, implies_true, and_true]

/-- A square at two boundaries: the left face has indicator 0, the bottom indicator 2 -/
def sampleCell : BCell := ⟨true, [some 0, none, some 2, none], [10, 11, 12, 13], fun _ => 0, fun i f => (f = 0 ∧ i % 2 = 0) ∨ (f = 2 ∧ i < 2)⟩

example : Consistent [sampleCell] ∧ (List.range 20).filter (extractDofs none (solverIds [(0, true), (1, true), (2, false)]) [sampleCell]) = [10, 11] := by
  refine ⟨?_, by decide⟩
  intro c hc c' hc' i i' d _ _
  simp only [List.mem_singleton] at hc hc'
  subst hc hc'
  rfl

/-- **C102** (finding) If all boundaries are periodic, the set of indicators is empty, which stands for all: the points at the periodic boundaries are counted as
points at boundaries that are not periodic. -/
theorem C102_periodic_fails : (∀ b ∈ [(0, true), (1, true), (2, true), (3, true)], b.2 = true) ∧
    ((List.range 20).filter (extractDofs none (solverIds [(0, true), (1, true), (2, true), (3, true)]) [sampleCell])).length = 3 := by
  refine ⟨by decide, by decide⟩

end Sparsity

end NATriuM
