import Verif.Lemmas.BoundaryLines

/-!
# Properties of the lines at periodic boundaries and of the coupling at boundaries (C96–C98)
-/

namespace NATriuM

namespace BoundaryLines

open MathUtil

/-! ## C96 -/

/-- **C96 (partial).** Two lines are accepted exactly if the points are distinct, the second is as long as the first up to one per cent of the
first, and it points, in one of its two orientations, in the direction of the first. -/
theorem C96_accepted_partial (b1 e1 b2 e2 : Pt) :
    (checkParallelLines b1 e1 b2 e2).1 = none ↔
      Distinct b1 e1 b2 e2 ∧ |dist b1 e1 - dist b2 e2| ≤ dist b1 e1 / 100 ∧
        (SameDirection (e1 - b1) (e2 - b2) ∨ SameDirection (e1 - b1) (b2 - e2)) := by
  rcases check_eq b1 e1 b2 e2 with h | h | h | h | h
  · rw [h.2]; simp [h.1]
  · rw [h.2.2]; simp [h.1, h.2.1]
  · rw [h.2.2.2.2]; simp [h.2.2.1, h.2.2.2.1]
  · rw [h.2.2.2.2]; simp only [true_iff]; exact ⟨h.1, h.2.1, Or.inr h.2.2.2.1⟩
  · rw [h.2.2.2]; simp only [true_iff]; exact ⟨h.1, h.2.1, Or.inl h.2.2.1⟩

/-- **C96.** After a call that accepts, the second line points in the direction of the first. Its ends are those given, swapped only if the given
orientation was not that of the first line. -/
theorem C96_orientation (b1 e1 b2 e2 b2' e2' : Pt) (h : checkParallelLines b1 e1 b2 e2 = (none, b2', e2')) :
    SameDirection (e1 - b1) (e2' - b2') ∧
      ((SameDirection (e1 - b1) (e2 - b2) ∧ b2' = b2 ∧ e2' = e2) ∨ (¬ SameDirection (e1 - b1) (e2 - b2) ∧ b2' = e2 ∧ e2' = b2)) := by
  rcases check_eq b1 e1 b2 e2 with g | g | g | g | g
  · rw [g.2] at h; simp at h
  · rw [g.2.2] at h; simp at h
  · rw [g.2.2.2.2] at h; simp at h
  · rw [g.2.2.2.2] at h
    simp only [Prod.mk.injEq, true_and] at h
    obtain ⟨rfl, rfl⟩ := h
    exact ⟨g.2.2.2.1, Or.inr ⟨g.2.2.1, rfl, rfl⟩⟩
  · rw [g.2.2.2] at h
    simp only [Prod.mk.injEq, true_and] at h
    obtain ⟨rfl, rfl⟩ := h
    exact ⟨g.2.2.1, Or.inl ⟨g.2.2.1, rfl, rfl⟩⟩

/-- **C96.** A call that rejects changes nothing; the reported reason holds and is the first that holds in the order equal points, different
lengths, not parallel. -/
theorem C96_rejected (b1 e1 b2 e2 : Pt) (r : LineError) (h : (checkParallelLines b1 e1 b2 e2).1 = some r) :
    (checkParallelLines b1 e1 b2 e2).2 = (b2, e2) ∧ Reason b1 e1 b2 e2 r := by
  rcases check_eq b1 e1 b2 e2 with g | g | g | g | g
  · rw [g.2] at h ⊢
    simp only [Option.some.injEq] at h
    subst h
    exact ⟨rfl, g.1⟩
  · rw [g.2.2] at h ⊢
    simp only [Option.some.injEq] at h
    subst h
    exact ⟨rfl, g.1, not_le.1 g.2.1⟩
  · rw [g.2.2.2.2] at h ⊢
    simp only [Option.some.injEq] at h
    subst h
    exact ⟨rfl, g.1, g.2.1, g.2.2.1, g.2.2.2.1⟩
  · rw [g.2.2.2.2] at h; simp at h
  · rw [g.2.2.2] at h; simp at h

/-- **C96.** A second check with the ends the first left is accepted and changes nothing. -/
theorem C96_stable (b1 e1 b2 e2 b2' e2' : Pt) (h : checkParallelLines b1 e1 b2 e2 = (none, b2', e2')) :
    checkParallelLines b1 e1 b2' e2' = (none, b2', e2') := by
  obtain ⟨hs, ho⟩ := C96_orientation _ _ _ _ _ _ h
  have hacc : (checkParallelLines b1 e1 b2 e2).1 = none := by rw [h]
  obtain ⟨hd, hl, -⟩ := (C96_accepted_partial _ _ _ _).1 hacc
  have hd' : Distinct b1 e1 b2' e2' ∧ |dist b1 e1 - dist b2' e2'| ≤ dist b1 e1 / 100 := by
    rcases ho with ⟨-, rfl, rfl⟩ | ⟨-, rfl, rfl⟩
    · exact ⟨hd, hl⟩
    · refine ⟨?_, by rw [dist_comm b2' e2']; exact hl⟩
      obtain ⟨a1, a2, a3, a4, a5, a6⟩ := hd
      exact ⟨a1, a2.symm, a5, a6.symm, a3, a4.symm⟩
  rcases check_eq b1 e1 b2' e2' with g | g | g | g | g
  · exact absurd hd'.1 g.1
  · exact absurd hd'.2 g.2.1
  · exact absurd hs g.2.2.1
  · exact absurd hs g.2.2.1
  · exact g.2.2.2

/-- Two sides of the unit square, the second given in the opposite orientation: accepted and swapped. -/
example : checkParallelLines !₂[0, 0] !₂[1, 0] !₂[1, 1] !₂[0, 1] = (none, !₂[0, 1], !₂[1, 1]) := by
  have hd : Distinct !₂[0, 0] !₂[1, 0] !₂[1, 1] !₂[0, 1] := by
    refine ⟨?_, ?_, ?_, ?_, ?_, ?_⟩ <;> apply ne_two <;> norm_num
  have hl : |dist (!₂[0, 0] : Pt) !₂[1, 0] - dist (!₂[1, 1] : Pt) !₂[0, 1]| ≤ dist (!₂[0, 0] : Pt) !₂[1, 0] / 100 := by
    simp only [dist_two]; norm_num
  have e1 : (!₂[1, 1] : Pt) - !₂[0, 1] = (1 : ℝ) • (!₂[1, 0] - !₂[0, 0]) := by
    ext i; fin_cases i <;> norm_num
  have e2 : (!₂[0, 1] : Pt) - !₂[1, 1] = -(!₂[1, 0] - !₂[0, 0]) := by
    ext i; fin_cases i <;> norm_num
  have hv : (!₂[1, 0] : Pt) - !₂[0, 0] ≠ 0 := sub_ne (ne_two (by norm_num))
  have s1 : SameDirection ((!₂[1, 0] : Pt) - !₂[0, 0]) (!₂[1, 1] - !₂[0, 1]) := by
    rw [e1]; exact same_smul hv one_pos
  have s2 : ¬ SameDirection ((!₂[1, 0] : Pt) - !₂[0, 0]) (!₂[0, 1] - !₂[1, 1]) := by
    rw [e2]
    unfold SameDirection
    rw [InnerProductGeometry.angle_self_neg_of_nonzero hv, not_lt]
    exact Real.arccos_le_pi _
  rcases check_eq !₂[0, 0] !₂[1, 0] !₂[1, 1] !₂[0, 1] with g | g | g | g | g
  · exact absurd hd g.1
  · exact absurd hl g.2.1
  · exact absurd s1 g.2.2.2.1
  · exact g.2.2.2.2
  · exact absurd g.2.2.1 s2

/-- **C96 fails.** Whether two lines are accepted depends on which is named first: the lengths are compared relative to the first. -/
theorem C96_symmetric_fails : ∃ b1 e1 b2 e2 : Pt, (checkParallelLines b1 e1 b2 e2).1 = some .differentLength ∧
    (checkParallelLines b2 e2 b1 e1).1 = none := by
  have h1 : dist (!₂[0, 0] : Pt) !₂[100000, 0] = 100000 := by
    rw [dist_two, show ((0 : ℝ) - 100000) ^ 2 + (0 - 0) ^ 2 = 100000 ^ 2 by norm_num]; exact Real.sqrt_sq (by norm_num)
  have h2 : dist (!₂[0, 1] : Pt) !₂[101005, 1] = 101005 := by
    rw [dist_two, show ((0 : ℝ) - 101005) ^ 2 + (1 - 1) ^ 2 = 101005 ^ 2 by norm_num]; exact Real.sqrt_sq (by norm_num)
  have hd : Distinct !₂[0, 0] !₂[100000, 0] !₂[0, 1] !₂[101005, 1] := by
    refine ⟨?_, ?_, ?_, ?_, ?_, ?_⟩ <;> apply ne_two <;> norm_num
  have hd' : Distinct !₂[0, 1] !₂[101005, 1] !₂[0, 0] !₂[100000, 0] :=
    ⟨hd.2.1, hd.1, hd.2.2.1.symm, hd.2.2.2.1.symm, hd.2.2.2.2.2, hd.2.2.2.2.1⟩
  refine ⟨!₂[0, 0], !₂[100000, 0], !₂[0, 1], !₂[101005, 1], ?_, ?_⟩
  · have hl : ¬ |dist (!₂[0, 0] : Pt) !₂[100000, 0] - dist (!₂[0, 1] : Pt) !₂[101005, 1]| ≤ dist (!₂[0, 0] : Pt) !₂[100000, 0] / 100 := by
      rw [h1, h2]; norm_num
    rcases check_eq !₂[0, 0] !₂[100000, 0] !₂[0, 1] !₂[101005, 1] with g | g | g | g | g
    · exact absurd hd g.1
    · rw [g.2.2]
    · exact absurd g.2.1 hl
    · exact absurd g.2.1 hl
    · exact absurd g.2.1 hl
  · rw [C96_accepted_partial]
    refine ⟨hd', ?_, Or.inl ?_⟩
    · rw [h1, h2]; norm_num
    · have e : (!₂[100000, 0] : Pt) - !₂[0, 0] = (100000 / 101005 : ℝ) • (!₂[101005, 1] - !₂[0, 1]) := by
        ext i; fin_cases i <;> norm_num
      rw [e]
      exact same_smul (sub_ne (ne_two (by norm_num))) (by norm_num)

/-! ## C97 -/

/-- **C97 (partial).** The lines found at two boundaries begin and end at vertices of the boundary, and no vertex of the boundary has a smaller or
greater value of `1000 x + y` than these ends. -/
theorem C97_ends_partial (id1 id2 : ℕ) (hne : id1 ≠ id2) (cells : List Cell) (h1 : Separated (verticesOf id1 cells))
    (h2 : Separated (verticesOf id2 cells)) (b : Bool) (l1 l2 : Pt × Pt) (h : interfacialLines id1 id2 cells = some (b, l1, l2)) :
    (l1.1 ∈ verticesOf id1 cells ∧ l1.2 ∈ verticesOf id1 cells ∧
      ∀ v ∈ verticesOf id1 cells, 1000 * l1.1 0 + l1.1 1 ≤ 1000 * v 0 + v 1 ∧ 1000 * v 0 + v 1 ≤ 1000 * l1.2 0 + l1.2 1) ∧
    (l2.1 ∈ verticesOf id2 cells ∧ l2.2 ∈ verticesOf id2 cells ∧
      ∀ v ∈ verticesOf id2 cells, 1000 * l2.1 0 + l2.1 1 ≤ 1000 * v 0 + v 1 ∧ 1000 * v 0 + v 1 ≤ 1000 * l2.2 0 + l2.2 1) := by
  obtain ⟨c1, c2⟩ := collect_spec hne cells h1 h2
  obtain ⟨i1, i2, -, -⟩ := interfacial_some h
  exact ⟨lineEnds_spec c1 i1, lineEnds_spec c2 i2⟩

/-- **C97.** The behaviour is defined if the vertices of each of the two boundaries have at least two different values of `1000 x + y`. -/
theorem C97_defined (id1 id2 : ℕ) (hne : id1 ≠ id2) (cells : List Cell) (h1 : Separated (verticesOf id1 cells))
    (h2 : Separated (verticesOf id2 cells))
    (g1 : ∃ v ∈ verticesOf id1 cells, ∃ w ∈ verticesOf id1 cells, 1000 * v 0 + v 1 ≠ 1000 * w 0 + w 1)
    (g2 : ∃ v ∈ verticesOf id2 cells, ∃ w ∈ verticesOf id2 cells, 1000 * v 0 + v 1 ≠ 1000 * w 0 + w 1) :
    ∃ r, interfacialLines id1 id2 cells = some r := by
  obtain ⟨c1, c2⟩ := collect_spec hne cells h1 h2
  have n1 : ¬ (collect id1 id2 cells).1.length < 2 := by
    rw [length_lt_two c1]
    obtain ⟨v, hv, w, hw, hk⟩ := g1
    exact fun h => hk (h v hv w hw)
  have n2 : ¬ (collect id1 id2 cells).2.length < 2 := by
    rw [length_lt_two c2]
    obtain ⟨v, hv, w, hw, hk⟩ := g2
    exact fun h => hk (h v hv w hw)
  have e1 : ∃ l, lineEnds (collect id1 id2 cells).1 = some l := by
    obtain ⟨v, hv, -⟩ := g1
    rw [← Option.isSome_iff_exists, Option.isSome_iff_ne_none, Ne, lineEnds_none c1]
    exact List.ne_nil_of_mem hv
  have e2 : ∃ l, lineEnds (collect id1 id2 cells).2 = some l := by
    obtain ⟨v, hv, -⟩ := g2
    rw [← Option.isSome_iff_exists, Option.isSome_iff_ne_none, Ne, lineEnds_none c2]
    exact List.ne_nil_of_mem hv
  obtain ⟨l1, e1⟩ := e1
  obtain ⟨l2, e2⟩ := e2
  simp only [interfacialLines, e1, e2, onLine, if_neg n1, if_neg n2]
  split
  · rename_i h; simp at h
  · exact ⟨_, rfl⟩
  · exact ⟨_, rfl⟩

/-- **C97 (partial).** If the vertices of each of the two boundaries are on a line along which `1000 x + y` grows and have at least two different
positions on it, the lines are found: the result is `true` and the ends are the extreme points. -/
theorem C97_found_partial (id1 id2 : ℕ) (hne : id1 ≠ id2) (cells : List Cell) (h1 : Separated (verticesOf id1 cells))
    (h2 : Separated (verticesOf id2 cells)) (p1 d1 p2 d2 : Pt) (hd1 : 0 < 1000 * d1 0 + d1 1) (hd2 : 0 < 1000 * d2 0 + d2 1)
    (v1 : ∀ v ∈ verticesOf id1 cells, ∃ s : ℝ, v = p1 + s • d1) (v2 : ∀ v ∈ verticesOf id2 cells, ∃ s : ℝ, v = p2 + s • d2)
    (g1 : ∃ v ∈ verticesOf id1 cells, ∃ w ∈ verticesOf id1 cells, v ≠ w)
    (g2 : ∃ v ∈ verticesOf id2 cells, ∃ w ∈ verticesOf id2 cells, v ≠ w) :
    ∃ a1 b1 a2 b2 : ℝ, a1 < b1 ∧ a2 < b2 ∧
      interfacialLines id1 id2 cells = some (true, (p1 + a1 • d1, p1 + b1 • d1), (p2 + a2 • d2, p2 + b2 • d2)) ∧
      (p1 + a1 • d1 ∈ verticesOf id1 cells ∧ p1 + b1 • d1 ∈ verticesOf id1 cells ∧
        ∀ s : ℝ, p1 + s • d1 ∈ verticesOf id1 cells → a1 ≤ s ∧ s ≤ b1) ∧
      (p2 + a2 • d2 ∈ verticesOf id2 cells ∧ p2 + b2 • d2 ∈ verticesOf id2 cells ∧
        ∀ s : ℝ, p2 + s • d2 ∈ verticesOf id2 cells → a2 ≤ s ∧ s ≤ b2) := by
  change 0 < key d1 at hd1
  change 0 < key d2 at hd2
  have keyne : ∀ {p d : Pt} {vs : List Pt}, 0 < key d → (∀ v ∈ vs, ∃ s : ℝ, v = p + s • d) → (∃ v ∈ vs, ∃ w ∈ vs, v ≠ w) →
      ∃ v ∈ vs, ∃ w ∈ vs, key v ≠ key w := by
    rintro p d vs hd hv ⟨v, hv', w, hw', hvw⟩
    refine ⟨v, hv', w, hw', ?_⟩
    obtain ⟨s, hs⟩ := hv v hv'
    obtain ⟨t, ht⟩ := hv w hw'
    intro hk
    rw [hs, ht, key_lin, key_lin] at hk
    have : s = t := mul_right_cancel₀ hd.ne' (by linarith)
    exact hvw (by rw [hs, ht, this])
  obtain ⟨⟨b, l1, l2⟩, hr⟩ := C97_defined id1 id2 hne cells h1 h2 (keyne hd1 v1 g1) (keyne hd2 v2 g2)
  obtain ⟨c1, c2⟩ := collect_spec hne cells h1 h2
  obtain ⟨i1, i2, -, i4⟩ := interfacial_some hr
  have n1 : ¬ (collect id1 id2 cells).1.length < 2 := by
    rw [length_lt_two c1]
    obtain ⟨v, hv, w, hw, hk⟩ := keyne hd1 v1 g1
    exact fun h => hk (h v hv w hw)
  have n2 : ¬ (collect id1 id2 cells).2.length < 2 := by
    rw [length_lt_two c2]
    obtain ⟨v, hv, w, hw, hk⟩ := keyne hd2 v2 g2
    exact fun h => hk (h v hv w hw)
  have hb : b = true := i4 (onLine_line c1 i1 hd1 v1 n1) (onLine_line c2 i2 hd2 v2 n2)
  obtain ⟨s1, s2, s3⟩ := lineEnds_spec c1 i1
  obtain ⟨t1, t2, t3⟩ := lineEnds_spec c2 i2
  have ext : ∀ {p d : Pt} {vs : List Pt} {l : Pt × Pt}, 0 < key d → (∀ v ∈ vs, ∃ s : ℝ, v = p + s • d) → (∃ v ∈ vs, ∃ w ∈ vs, v ≠ w) →
      l.1 ∈ vs → l.2 ∈ vs → (∀ v ∈ vs, key l.1 ≤ key v ∧ key v ≤ key l.2) →
      ∃ a b : ℝ, a < b ∧ l = (p + a • d, p + b • d) ∧ ∀ s : ℝ, p + s • d ∈ vs → a ≤ s ∧ s ≤ b := by
    intro p d vs l hd hv hg m1 m2 m3
    obtain ⟨a, ha⟩ := hv _ m1
    obtain ⟨b, hb⟩ := hv _ m2
    have hs : ∀ s : ℝ, p + s • d ∈ vs → a ≤ s ∧ s ≤ b := by
      intro s hs
      obtain ⟨q1, q2⟩ := m3 _ hs
      rw [ha, key_lin, key_lin] at q1
      rw [hb, key_lin, key_lin] at q2
      exact ⟨le_of_mul_le_mul_right (a := key d) (by linarith) hd, le_of_mul_le_mul_right (a := key d) (by linarith) hd⟩
    refine ⟨a, b, ?_, ?_, hs⟩
    · obtain ⟨v, hv', w, hw', hk⟩ := keyne hd hv hg
      obtain ⟨q1, q2⟩ := m3 _ hv'
      obtain ⟨q3, q4⟩ := m3 _ hw'
      rw [ha, key_lin] at q1 q3
      rw [hb, key_lin] at q2 q4
      by_contra hab
      have := mul_le_mul_of_nonneg_right (not_lt.1 hab) hd.le
      exact hk (by linarith)
    · rw [← ha, ← hb]
  obtain ⟨a1, b1, q1, q2, q3⟩ := ext hd1 v1 g1 s1 s2 s3
  obtain ⟨a2, b2, r1, r2, r3⟩ := ext hd2 v2 g2 t1 t2 t3
  rw [q2] at s1 s2
  rw [r2] at t1 t2
  refine ⟨a1, b1, a2, b2, q1, r1, ?_, ⟨s1, s2, q3⟩, ⟨t1, t2, r3⟩⟩
  rw [hr, hb, q2, r2]

/-- **C97.** If the result is `true`, every vertex of a boundary except those at the ends is seen from the begin of the line within eight degrees
of the line. -/
theorem C97_true (id1 id2 : ℕ) (hne : id1 ≠ id2) (cells : List Cell) (h1 : Separated (verticesOf id1 cells))
    (h2 : Separated (verticesOf id2 cells)) (l1 l2 : Pt × Pt) (h : interfacialLines id1 id2 cells = some (true, l1, l2))
    (i1 : ∀ v ∈ verticesOf id1 cells, ∀ w ∈ verticesOf id1 cells, 1000 * v 0 + v 1 = 1000 * w 0 + w 1 → v = w)
    (i2 : ∀ v ∈ verticesOf id2 cells, ∀ w ∈ verticesOf id2 cells, 1000 * v 0 + v 1 = 1000 * w 0 + w 1 → v = w) :
    (∀ v ∈ verticesOf id1 cells, v ≠ l1.1 → v ≠ l1.2 → SameDirection (l1.2 - l1.1) (v - l1.1)) ∧
      ∀ v ∈ verticesOf id2 cells, v ≠ l2.1 → v ≠ l2.2 → SameDirection (l2.2 - l2.1) (v - l2.1) := by
  obtain ⟨c1, c2⟩ := collect_spec hne cells h1 h2
  obtain ⟨j1, j2, j3, -⟩ := interfacial_some h
  obtain ⟨o1, o2⟩ := j3 rfl
  exact ⟨fun v hv => onLine_true c1 j1 o1 i1 hv, fun v hv => onLine_true c2 j2 o2 i2 hv⟩

/-- A mesh of the unit square with a cell for each half of the left and the right side -/
noncomputable def sampleMesh : List Cell :=
  [⟨true, [⟨0, [!₂[0, 0], !₂[0, 1/2]]⟩, ⟨1, [!₂[1, 0], !₂[1, 1/2]]⟩]⟩, ⟨true, [⟨0, [!₂[0, 1/2], !₂[0, 1]]⟩, ⟨1, [!₂[1, 1/2], !₂[1, 1]]⟩]⟩]

/-- The sides of the unit square meet the hypotheses of `C97_found_partial`. -/
example : ∃ a1 b1 a2 b2 : ℝ, a1 < b1 ∧ a2 < b2 ∧ interfacialLines 0 1 sampleMesh =
    some (true, (!₂[0, 0] + a1 • !₂[0, 1], !₂[0, 0] + b1 • !₂[0, 1]), (!₂[1, 0] + a2 • !₂[0, 1], !₂[1, 0] + b2 • !₂[0, 1])) := by
  have e1 : verticesOf 0 sampleMesh = [!₂[0, 0], !₂[0, 1/2], !₂[0, 1/2], !₂[0, 1]] := by
    simp [verticesOf, sampleMesh]
  have e2 : verticesOf 1 sampleMesh = [!₂[1, 0], !₂[1, 1/2], !₂[1, 1/2], !₂[1, 1]] := by
    simp [verticesOf, sampleMesh]
  obtain ⟨a1, b1, a2, b2, h1, h2, h3, -⟩ := C97_found_partial 0 1 (by decide) sampleMesh
    (by
      rw [e1]; intro v hv w hw
      simp only [List.mem_cons, List.not_mem_nil, or_false] at hv hw
      rcases hv with rfl | rfl | rfl | rfl <;> rcases hw with rfl | rfl | rfl | rfl <;> simp [key] <;> norm_num)
    (by
      rw [e2]; intro v hv w hw
      simp only [List.mem_cons, List.not_mem_nil, or_false] at hv hw
      rcases hv with rfl | rfl | rfl | rfl <;> rcases hw with rfl | rfl | rfl | rfl <;> simp [key] <;> norm_num)
    !₂[0, 0] !₂[0, 1] !₂[1, 0] !₂[0, 1] (by simp) (by simp)
    (by
      rw [e1]; intro v hv
      refine ⟨v 1, ?_⟩
      simp only [List.mem_cons, List.not_mem_nil, or_false] at hv
      rcases hv with rfl | rfl | rfl | rfl <;> (ext i; fin_cases i <;> simp))
    (by
      rw [e2]; intro v hv
      refine ⟨v 1, ?_⟩
      simp only [List.mem_cons, List.not_mem_nil, or_false] at hv
      rcases hv with rfl | rfl | rfl | rfl <;> (ext i; fin_cases i <;> simp))
    ⟨!₂[0, 0], by rw [e1]; simp, !₂[0, 1], by rw [e1]; simp, ne_two (by norm_num)⟩
    ⟨!₂[1, 0], by rw [e2]; simp, !₂[1, 1], by rw [e2]; simp, ne_two (by norm_num)⟩
  exact ⟨a1, b1, a2, b2, h1, h2, h3⟩

/-- **C97 fails.** A boundary along the direction `(1, -1000)` is not recognised: all its vertices have the same key, the map has one element and
the loop that looks at the points between the ends starts behind its end. -/
theorem C97_direction_fails : ∃ cells : List Cell, (∀ v ∈ verticesOf 0 cells, ∃ s : ℝ, v = s • !₂[1/1000, -1]) ∧
    (∃ v ∈ verticesOf 0 cells, ∃ w ∈ verticesOf 0 cells, v ≠ w) ∧ interfacialLines 0 1 cells = none := by
  let cells : List Cell := [⟨true, [⟨0, [!₂[0, 0], !₂[1/1000, -1]]⟩, ⟨1, [!₂[1, 0], !₂[1, 1]]⟩]⟩]
  have e1 : verticesOf 0 cells = [!₂[0, 0], !₂[1/1000, -1]] := by simp [verticesOf, cells]
  have e2 : verticesOf 1 cells = [!₂[1, 0], !₂[1, 1]] := by simp [verticesOf, cells]
  have k0 : ∀ v ∈ verticesOf 0 cells, key v = 0 := by
    rw [e1]; intro v hv
    simp only [List.mem_cons, List.not_mem_nil, or_false] at hv
    rcases hv with rfl | rfl <;> simp [key]
  refine ⟨cells, ?_, ?_, ?_⟩
  · rw [e1]; intro v hv
    simp only [List.mem_cons, List.not_mem_nil, or_false] at hv
    rcases hv with rfl | rfl
    · exact ⟨0, by ext i; fin_cases i <;> simp⟩
    · exact ⟨1, by simp⟩
  · rw [e1]
    exact ⟨!₂[0, 0], by simp, !₂[1/1000, -1], by simp, ne_two (by norm_num)⟩
  · obtain ⟨c1, c2⟩ := collect_spec (id1 := 0) (id2 := 1) (by decide) cells
      (fun v hv w hw => Or.inl (by rw [k0 v hv, k0 w hw]))
      (by
        rw [e2]; intro v hv w hw
        simp only [List.mem_cons, List.not_mem_nil, or_false] at hv hw
        rcases hv with rfl | rfl <;> rcases hw with rfl | rfl <;> simp [key] <;> norm_num)
    have n1 : (collect 0 1 cells).1.length < 2 := by
      rw [length_lt_two c1]
      intro v hv w hw; rw [k0 v hv, k0 w hw]
    have h1 : ∀ l, onLine (collect 0 1 cells).1 l = none := by
      intro l; rw [onLine, if_pos n1]
    simp only [interfacialLines, h1]
    split <;> rfl

/-- A boundary with a kink and a straight one -/
noncomputable def bentMesh : List Cell :=
  [⟨true, [⟨0, [!₂[0, 0], !₂[1, 1/10]]⟩, ⟨1, [!₂[0, 1], !₂[1, 1]]⟩]⟩, ⟨true, [⟨0, [!₂[1, 1/10], !₂[2, 0]]⟩, ⟨1, [!₂[1, 1], !₂[2, 1]]⟩]⟩]

theorem bent_first : verticesOf 0 bentMesh = [!₂[0, 0], !₂[1, 1/10], !₂[1, 1/10], !₂[2, 0]] := by simp [verticesOf, bentMesh]

theorem bent_second : verticesOf 1 bentMesh = [!₂[0, 1], !₂[1, 1], !₂[1, 1], !₂[2, 1]] := by simp [verticesOf, bentMesh]

/-- **C97 fails.** A boundary that is not on a line is accepted: the points are only seen from the begin of the line, and up to eight degrees are
tolerated. The boundary `(0, 0)`, `(1, 0.1)`, `(2, 0)` is accepted as the line from `(0, 0)` to `(2, 0)`. -/
theorem C97_straight_fails : interfacialLines 0 1 bentMesh = some (true, (!₂[0, 0], !₂[2, 0]), (!₂[0, 1], !₂[2, 1])) ∧
    !₂[1, 1/10] ∈ verticesOf 0 bentMesh ∧ ¬ ∃ s : ℝ, (!₂[1, 1/10] : Pt) = !₂[0, 0] + s • (!₂[2, 0] - !₂[0, 0]) := by
  have s1 : Separated (verticesOf 0 bentMesh) := by
    rw [bent_first]; intro v hv w hw
    simp only [List.mem_cons, List.not_mem_nil, or_false] at hv hw
    rcases hv with rfl | rfl | rfl | rfl <;> rcases hw with rfl | rfl | rfl | rfl <;> simp [key] <;> norm_num
  have s2 : Separated (verticesOf 1 bentMesh) := by
    rw [bent_second]; intro v hv w hw
    simp only [List.mem_cons, List.not_mem_nil, or_false] at hv hw
    rcases hv with rfl | rfl | rfl | rfl <;> rcases hw with rfl | rfl | rfl | rfl <;> simp [key] <;> norm_num
  refine ⟨?_, by rw [bent_first]; simp, ?_⟩
  · obtain ⟨⟨b, l1, l2⟩, hr⟩ := C97_defined 0 1 (by decide) bentMesh s1 s2
      ⟨!₂[0, 0], by rw [bent_first]; simp, !₂[2, 0], by rw [bent_first]; simp, by simp⟩
      ⟨!₂[0, 1], by rw [bent_second]; simp, !₂[2, 1], by rw [bent_second]; simp, by simp⟩
    obtain ⟨⟨a1, a2, a3⟩, ⟨b1, b2, b3⟩⟩ := C97_ends_partial 0 1 (by decide) bentMesh s1 s2 b l1 l2 hr
    have e11 : l1.1 = !₂[0, 0] := by
      have := (a3 !₂[0, 0] (by rw [bent_first]; simp)).1
      rw [bent_first] at a1
      simp only [List.mem_cons, List.not_mem_nil, or_false] at a1
      rcases a1 with h | h | h | h <;> rw [h] at this ⊢ <;> norm_num at this
    have e12 : l1.2 = !₂[2, 0] := by
      have := (a3 !₂[2, 0] (by rw [bent_first]; simp)).2
      rw [bent_first] at a2
      simp only [List.mem_cons, List.not_mem_nil, or_false] at a2
      rcases a2 with h | h | h | h <;> rw [h] at this ⊢ <;> norm_num at this
    have e21 : l2.1 = !₂[0, 1] := by
      have := (b3 !₂[0, 1] (by rw [bent_second]; simp)).1
      rw [bent_second] at b1
      simp only [List.mem_cons, List.not_mem_nil, or_false] at b1
      rcases b1 with h | h | h | h <;> rw [h] at this ⊢ <;> norm_num at this
    have e22 : l2.2 = !₂[2, 1] := by
      have := (b3 !₂[2, 1] (by rw [bent_second]; simp)).2
      rw [bent_second] at b2
      simp only [List.mem_cons, List.not_mem_nil, or_false] at b2
      rcases b2 with h | h | h | h <;> rw [h] at this ⊢ <;> norm_num at this
    obtain ⟨c1, c2⟩ := collect_spec (id1 := 0) (id2 := 1) (by decide) bentMesh s1 s2
    obtain ⟨j1, j2, -, j4⟩ := interfacial_some hr
    have n1 : ¬ (collect 0 1 bentMesh).1.length < 2 := by
      rw [length_lt_two c1, bent_first]
      intro h
      have := h !₂[0, 0] (by simp) !₂[2, 0] (by simp)
      simp [key] at this
    have n2 : ¬ (collect 0 1 bentMesh).2.length < 2 := by
      rw [length_lt_two c2, bent_second]
      intro h
      have := h !₂[0, 1] (by simp) !₂[2, 1] (by simp)
      simp [key] at this
    have hb : b = true := by
      apply j4
      · rw [onLine, if_neg n1, Option.some.injEq, List.all_eq_true]
        intro e he
        obtain ⟨m1, m2, m3⟩ := middle_ne c1 j1 he
        have hm := (c1.sound e m1).1
        rw [bent_first] at hm
        have he2 : e.2 = !₂[1, 1/10] := by
          rw [e11] at m2
          rw [e12] at m3
          simp only [List.mem_cons, List.not_mem_nil, or_false] at hm
          rcases hm with h | h | h | h
          · rw [h] at m2; simp at m2
          · exact h
          · exact h
          · rw [h] at m3; simp at m3
        rw [e11, e12, he2]
        exact small_bent
      · refine onLine_line c2 j2 (p := !₂[0, 1]) (d := !₂[1, 0]) (by simp [key]) ?_ n2
        rw [bent_second]; intro v hv
        refine ⟨v 0, ?_⟩
        simp only [List.mem_cons, List.not_mem_nil, or_false] at hv
        rcases hv with rfl | rfl | rfl | rfl <;> (ext i; fin_cases i <;> simp)
    rw [hr, hb]
    simp only [Option.some.injEq, Prod.mk.injEq, true_and]
    exact ⟨Prod.ext e11 e12, Prod.ext e21 e22⟩
  · rintro ⟨s, hs⟩
    have := congrFun (congrArg (fun p : Pt => (p : Fin 2 → ℝ)) hs) 1
    norm_num at this

/-- The boundary with a kink meets the hypotheses of `C97_true`. -/
example : SameDirection (!₂[2, 0] - !₂[0, 0]) ((!₂[1, 1/10] : Pt) - !₂[0, 0]) := by
  refine (C97_true 0 1 (by decide) bentMesh ?_ ?_ _ _ C97_straight_fails.1 ?_ ?_).1 !₂[1, 1/10] (by rw [bent_first]; simp)
    (ne_two (by norm_num)) (ne_two (by norm_num))
  all_goals
    first | rw [bent_first] | rw [bent_second]
    intro v hv w hw
    simp only [List.mem_cons, List.not_mem_nil, or_false] at hv hw
    rcases hv with rfl | rfl | rfl | rfl <;> rcases hw with rfl | rfl | rfl | rfl <;> simp [key] <;> norm_num

/-! ## C98 -/

/-- **C98.** After the call the sparsity pattern has the entries it had before and those of the pairs of degrees of freedom that have support on a
face of the boundary with the given indicator: each with itself, or all pairs on the face. -/
theorem C98_coupled (id : ℕ) (coupling : PointCoupling) (cells : List DofCell) (pattern : List (ℕ × ℕ)) (i j : ℕ) :
    (i, j) ∈ coupleDofs id coupling cells pattern ↔ (i, j) ∈ pattern ∨ Coupled id coupling cells i j := by
  rw [mem_coupleDofs]
  simp only [Coupled, mem_faceEntries, mem_faceDofs]

/-- **C98.** The added entries are symmetric. -/
theorem C98_symmetric (id : ℕ) (coupling : PointCoupling) (cells : List DofCell) (i j : ℕ) :
    (i, j) ∈ coupleDofs id coupling cells [] ↔ (j, i) ∈ coupleDofs id coupling cells [] := by
  have key : ∀ i j, (i, j) ∈ coupleDofs id coupling cells [] → (j, i) ∈ coupleDofs id coupling cells [] := by
    intro i j h
    rw [C98_coupled] at h ⊢
    rcases h with h | ⟨c, hc, ho, f, hf, h1, h2, h3, h4, h5⟩
    · simp at h
    · exact Or.inr ⟨c, hc, ho, f, hf, h1, h2, h4, h3, fun h => (h5 h).symm⟩
  exact ⟨key i j, key j i⟩

/-- A cell at two boundaries; boundary 7 is the face with the degrees of freedom 10 and 12. -/
def sampleDofs : List DofCell :=
  [⟨true, [10, 11, 12, 13], [⟨true, 7, [true, false, true, false]⟩, ⟨true, 8, [false, true, false, true]⟩, ⟨false, 7, [true, true, false, false]⟩]⟩,
   ⟨false, [20, 21, 22, 23], [⟨true, 7, [true, false, true, false]⟩]⟩]

example : coupleDofs 7 .COUPLE_ONLY_SINGLE_POINTS sampleDofs [] = [(10, 10), (12, 12)] := by decide
example : coupleDofs 7 .COUPLE_WHOLE_FACE sampleDofs [(0, 0)] = [(0, 0), (10, 10), (10, 12), (12, 10), (12, 12)] := by decide

end BoundaryLines

end NATriuM
