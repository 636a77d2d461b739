import Verif.Lemmas.Accuracy
import Verif.Props.PathTracking

/-!
# Property C127: the semi-Lagrangian streaming step moves functions along the paths
-/

namespace NATriuM
namespace Paths

section

variable {K : Type*} [Field K] [LinearOrder K] {m : ℕ} {C : Type*}

/-- **C127** Box-shaped cells with tensor products of Lagrange polynomials of degree `p` represent all polynomials of degree up to `p` in each
coordinate. -/
theorem C127_polynomials (mesh : Mesh K m C) (p : ℕ) (v : Fin (p + 1) → K) (number : (Fin (m + 2) → Fin (p + 1)) → ℕ)
    (corner size : C → Fin (m + 2) → K) (hT : mesh.Tensor p v number corner size) (G : MvPolynomial (Fin (m + 2)) K)
    (hG : ∀ a, G.degreeOf a ≤ p) : mesh.Represents fun x => MvPolynomial.eval x G := by
  intro cell h _
  simp only [MvPolynomial.eval_eq', Finset.mul_sum]
  rw [Finset.sum_comm]
  refine Finset.sum_congr rfl fun d hd => ?_
  rw [← tensor_monomial mesh p v number corner size hT cell h d fun a => (MvPolynomial.degreeOf_le_iff.1 (hG a)) d hd, Finset.mul_sum]
  exact Finset.sum_congr rfl fun k _ => by ring

end

section

variable {K : Type*} [Field K] [LinearOrder K] [IsStrictOrderedRing K] {m : ℕ} {C : Type*}

/-- **C127** If the distributions are functions that the mesh represents, streaming takes the value at the end of the path: of the distribution
in whose direction the path arrives, at a point that has the unit coordinates of the end of the path up to 1e-10, and up to 1e-10 of the largest value for each
shape function of the cell.  If the end of the path is not moved and no weight is left out, it is exactly the value at the end of the path. -/
theorem C127_paths (mesh : Mesh K m C) (s : Setup K (m + 2)) (hs : s.Valid) (as : Assembly K (m + 2) C)
    (h : fillSparseObject mesh s none = .ok as) (cell : C) (hcell : cell ∈ mesh.cells) (i alpha : ℕ) (hi : i ∈ mesh.dofs cell)
    (ho : mesh.owned i = true) (h0 : 0 < alpha) (hQ : alpha < s.Q) (g : ℕ → (Fin (m + 2) → K) → K) (hg : ∀ b, mesh.Represents (g b))
    (f : ℕ → ℕ → K) (hf : ∀ b, mesh.Samples (g b) (f b)) (B : K) (hB : ∀ b cell k, k < (mesh.dofs cell).length → |g b (mesh.supportPoint cell k)| ≤ B) :
    ∃ path e, mesh.NewPath s i alpha path ∧ Follows mesh s path e ∧
      match e with
      | .found p => ∃ x y, (mesh.mapping p.currentCell).toUnit p.departurePoint = some y ∧ (∀ a, |x a - y a| < 1 / 10 ^ 10) ∧ InCell x ∧
        |stream as.entries f alpha i - g p.currentDirection ((mesh.mapping p.currentCell).toReal x)| ≤
          (mesh.dofs p.currentCell).length * (1 / 10 ^ 10) * B ∧
        (mesh.Exact p →
          stream as.entries f alpha i = g p.currentDirection p.departurePoint)
      | .dropped _ => stream as.entries f alpha i = 0
      | .expired _ => stream as.entries f alpha i = f alpha i := by
  obtain ⟨path, e, hnew, hfol, hrow⟩ := C54_rows mesh s hs as h cell hcell i alpha hi ho h0 hQ
  refine ⟨path, e, hnew, hfol, ?_⟩
  have hrow := hrow f
  cases e with
  | found p =>
    obtain ⟨_, x, y, hxu, hy, hxy, hx, hr⟩ := hrow
    have hr' := hr
    rw [interpolated_samples mesh p.currentCell x (g p.currentDirection) (f p.currentDirection) (hf _)] at hr
    have hR := hg p.currentDirection p.currentCell x hx
    refine ⟨x, y, hy, hxy, hx, ?_, ?_⟩
    · rw [hr, ← hR, ← Finset.sum_sub_distrib]
      refine (Finset.abs_sum_le_sum_abs _ _).trans ?_
      refine (Finset.sum_le_card_nsmul _ _ (1 / 10 ^ 10 * B) fun k hk' => ?_).trans (le_of_eq ?_)
      · rw [← sub_mul, abs_mul]
        refine mul_le_mul ?_ (hB _ _ _ (Finset.mem_range.1 hk')) (abs_nonneg _) (by positivity)
        split_ifs with hk
        · rw [zero_sub, abs_neg]; exact hk.le
        · rw [sub_self, abs_zero]; positivity
      · rw [Finset.card_range, nsmul_eq_mul]; ring
    · intro hp
      rw [hr', interpolated_exact mesh p hp _ _ (hg _) (hf _) x hxu]
  | dropped p => exact hrow
  | expired p => exact hrow

/-- **C127** Without bounce-back walls and do-nothing boundaries: streaming moves distributions that the mesh represents by the time step along
the direction.  The new value at a support point `x` is the old value of the function at `x - dt e`, up to a sum of periods, and exactly there if the
function has the periods of the mesh.  The end of the path must not be moved, no weight left out, and the mapping invertible; where this is not so, see
`C127_paths`. -/
theorem C127_transport (mesh : Mesh K m C) (s : Setup K (m + 2)) (hs : s.Valid) (hS : mesh.Shifts) (hb : mesh.NoBounceBack) (hn : mesh.NoDoNothing)
    (as : Assembly K (m + 2) C) (h : fillSparseObject mesh s none = .ok as) (cell : C) (hcell : cell ∈ mesh.cells) (i alpha : ℕ)
    (hi : i ∈ mesh.dofs cell) (ho : mesh.owned i = true) (h0 : 0 < alpha) (hQ : alpha < s.Q) (g : (Fin (m + 2) → K) → K) (hg : mesh.Represents g)
    (f : ℕ → ℕ → K) (hf : mesh.Samples g (f alpha)) :
    ∃ start k, (mesh.dofs start)[k]? = some i ∧ ∃ e, Follows mesh s (newPath s start (mesh.supportPoint start k) i alpha) e ∧
      ∀ p, e = .found p → mesh.Exact p → 
        ∃ v, mesh.Shift v ∧ stream as.entries f alpha i = g (fun a => mesh.supportPoint start k a - s.dt * s.e alpha a + v a) ∧
          (mesh.HasPeriods g → stream as.entries f alpha i = g (fun a => mesh.supportPoint start k a - s.dt * s.e alpha a)) := by
  obtain ⟨path, e, hnew, hfol, hrow⟩ := C54_rows mesh s hs as h cell hcell i alpha hi ho h0 hQ
  obtain ⟨start, k, _, hk, rfl⟩ := hnew
  refine ⟨start, k, hk, e, hfol, ?_⟩
  rintro p rfl hp
  obtain ⟨hd, v, hv, hdep⟩ := C53_departure mesh s hS hb hn start _ i alpha p hfol
  obtain ⟨_, x, y, hxu, hy, _, hx, hr⟩ := hrow f
  rw [hd] at hr
  have hval := hr.trans (interpolated_exact mesh p hp g (f alpha) hg hf x hxu)
  rw [hdep] at hval
  exact ⟨v, hv, hval, fun hP => by rw [hval, hP v hv]⟩

/-- **C127** With bounce-back walls: the new value is the old value of the distribution in whose direction the path arrives, at the point that
is reached by going back for exactly the time step, turning round at walls and jumping at periodic boundaries. -/
theorem C127_walls (mesh : Mesh K m C) (s : Setup K (m + 2)) (hs : s.Valid) (hS : mesh.Shifts) (hn : mesh.NoDoNothing)
    (as : Assembly K (m + 2) C) (h : fillSparseObject mesh s none = .ok as) (cell : C) (hcell : cell ∈ mesh.cells) (i alpha : ℕ)
    (hi : i ∈ mesh.dofs cell) (ho : mesh.owned i = true) (h0 : 0 < alpha) (hQ : alpha < s.Q) (g : ℕ → (Fin (m + 2) → K) → K)
    (hg : ∀ b, mesh.Represents (g b)) (f : ℕ → ℕ → K) (hf : ∀ b, mesh.Samples (g b) (f b)) :
    ∃ start k, (mesh.dofs start)[k]? = some i ∧ ∃ e, Follows mesh s (newPath s start (mesh.supportPoint start k) i alpha) e ∧
      ∀ p, e = .found p → mesh.Exact p → ExactAlong mesh s (newPath s start (mesh.supportPoint start k) i alpha) →
        ∃ q b, Trip mesh s (mesh.supportPoint start k) alpha s.dt q b ∧ stream as.entries f alpha i = g b q := by
  obtain ⟨path, e, hnew, hfol, hrow⟩ := C54_rows mesh s hs as h cell hcell i alpha hi ho h0 hQ
  obtain ⟨start, k, _, hk, rfl⟩ := hnew
  refine ⟨start, k, hk, e, hfol, ?_⟩
  rintro p rfl hp hE
  obtain ⟨_, x, y, hxu, hy, _, hx, hr⟩ := hrow f
  exact ⟨_, _, C53_time mesh s hs hS hn start _ i alpha h0 hQ hE p hfol,
    hr.trans (interpolated_exact mesh p hp (g p.currentDirection) (f p.currentDirection) (hg _) (hf _) x hxu)⟩

end

/-! ### Cases that meet the hypotheses -/

namespace Sample

/-- A function with period 2 that is linear in the cells of the samples -/
def hat (x : Fin 2 → ℚ) : ℚ := |x 0 - 2 * ⌊x 0 / 2⌋ - 1|

theorem hat_cell (c : Fin 2) (h : Fin 2 → ℚ) (hh : InCell h) (y : ℚ) : hat ![h 0 + (c.val : ℚ), y] = if c = 0 then 1 - h 0 else h 0 := by
  obtain ⟨h0, h1⟩ := hh 0
  show |h 0 + (c.val : ℚ) - 2 * ⌊(h 0 + (c.val : ℚ)) / 2⌋ - 1| = _
  rcases (by omega : c = 0 ∨ c = 1) with rfl | rfl
  · have : ⌊(h 0 + ((0 : Fin 2).val : ℚ)) / 2⌋ = 0 := by
      rw [Int.floor_eq_iff]; norm_num; constructor <;> linarith
    rw [this, if_pos rfl]
    norm_num
    rw [abs_of_nonpos (by linarith)]; ring
  · rw [if_neg (by decide)]
    rcases h1.eq_or_lt with h1 | h1
    · have : ⌊(h 0 + ((1 : Fin 2).val : ℚ)) / 2⌋ = 1 := by
        rw [h1, Int.floor_eq_iff]; norm_num
      rw [this, h1]; norm_num
    · have : ⌊(h 0 + ((1 : Fin 2).val : ℚ)) / 2⌋ = 0 := by
        rw [Int.floor_eq_iff]; norm_num; constructor <;> linarith
      rw [this]
      norm_num
      exact h0

theorem hat_represented : periodic.Represents hat := by
  intro c h hh
  have h2 : (periodic.mapping c).toReal h = ![h 0 + (c.1.val : ℚ), h 1 + c.2.val] := by
    funext a; fin_cases a <;> rfl
  have corner : ∀ k < 4, hat (periodic.supportPoint c k) = if c.1 = 0 then 1 - ((k % 2 : ℕ) : ℚ) else ((k % 2 : ℕ) : ℚ) := by
    intro k hk
    have := hat_cell c.1 (fun _ => ((k % 2 : ℕ) : ℚ)) (fun a => ⟨by positivity, by
      have : k % 2 ≤ 1 := by omega
      show ((k % 2 : ℕ) : ℚ) ≤ 1
      exact_mod_cast this⟩) ((c.2.val : ℚ) + (k / 2 : ℕ))
    rw [← this, add_comm]
    rfl
  rw [h2, hat_cell c.1 h hh]
  show ∑ k ∈ Finset.range ((List.range 4).map fun k => 4 * (2 * c.2.val + c.1.val) + k).length, _ = _
  rw [List.length_map, List.length_range]
  rw [Finset.sum_congr rfl fun k hk => by rw [corner k (Finset.mem_range.1 hk)]]
  by_cases hc : c.1 = 0
  · simp [Finset.sum_range_succ, periodic, mesh, hc]; ring
  · simp [Finset.sum_range_succ, periodic, mesh, hc]; ring

theorem shift_even (v : Fin 2 → ℚ) (h : periodic.Shift v) : ∃ n : ℤ, v 0 = 2 * n := by
  induction h with
  | zero => exact ⟨0, by simp⟩
  | @add v c f id across opposite _ hf w hw ih =>
    obtain ⟨n, hn⟩ := ih
    have hw0 := congrFun (hw fun _ => 0) 0
    have : ∃ k : ℤ, w 0 = 2 * k := by
      match f, hf with
      | 0, hf =>
        simp only [periodic, mesh] at hf
        split_ifs at hf
        cases hf
        exact ⟨1, by simpa using hw0.symm⟩
      | 1, hf =>
        simp only [periodic, mesh] at hf
        split_ifs at hf
        cases hf
        exact ⟨-1, by simpa using hw0.symm⟩
      | 2, hf =>
        simp only [periodic, mesh] at hf
        split_ifs at hf
        cases hf
        exact ⟨0, by simpa using hw0.symm⟩
      | n + 3, hf =>
        simp only [periodic, mesh] at hf
        split_ifs at hf
        cases hf
        exact ⟨0, by simpa using hw0.symm⟩
    obtain ⟨k, hk⟩ := this
    exact ⟨n + k, by show v 0 + w 0 = _; rw [hn, hk]; push_cast; ring⟩

theorem hat_periods : periodic.HasPeriods hat := by
  intro v hv x
  obtain ⟨n, hn⟩ := shift_even v hv
  show |x 0 + v 0 - 2 * ⌊(x 0 + v 0) / 2⌋ - 1| = |x 0 - 2 * ⌊x 0 / 2⌋ - 1|
  rw [hn, show (x 0 + 2 * (n : ℚ)) / 2 = x 0 / 2 + n by ring, Int.floor_add_intCast]
  congr 1
  push_cast
  ring

/-- The values at the support points: degree of freedom `4 (2 b + a) + k` is number `k` of cell `(a, b)` -/
def values (g : (Fin 2 → ℚ) → ℚ) (j : ℕ) : ℚ := g (periodic.supportPoint (Fin.ofNat 2 (j / 4), Fin.ofNat 2 (j / 8)) (j % 4))

theorem values_samples (g : (Fin 2 → ℚ) → ℚ) : periodic.Samples g (values g) := by
  intro c k j h
  have hk : k < 4 := by
    by_contra hk
    rw [List.getElem?_eq_none (by show ((List.range 4).map _).length ≤ k; simpa using hk)] at h
    cases h
  obtain ⟨a, b⟩ := c
  have : j = 4 * (2 * b.val + a.val) + k := by
    have h' : ((List.range 4).map fun k => 4 * (2 * b.val + a.val) + k)[k]? = some j := h
    rw [List.getElem?_map, List.getElem?_range hk] at h'
    exact (Option.some.inj h').symm
  subst this
  unfold values
  congr 2
  · refine Prod.ext (Fin.ext ?_) (Fin.ext ?_)
    · show (4 * (2 * b.val + a.val) + k) / 4 % 2 = a.val; omega
    · show (4 * (2 * b.val + a.val) + k) / 8 % 2 = b.val; omega
  · omega

/-- Cells, points and numbers of the shape functions of the sample meshes -/
theorem sample_tensor (left right : Fin 2 → BoundaryKind ℚ 2 (Fin 2 × Fin 2)) :
    (mesh left right).Tensor 1 ![0, 1] (fun k => (k 0).val + 2 * (k 1).val) (fun c => ![(c.1.val : ℚ), c.2.val]) (fun _ _ => 1) where
  points := by
    intro a b h
    fin_cases a <;> fin_cases b <;> simp_all
  numbers c := by
    have hl : ((mesh left right).dofs c).length = 4 := by
      show ((List.range 4).map _).length = 4
      rw [List.length_map, List.length_range]
    rw [hl]
    refine ⟨fun k _ => ?_, fun k _ l _ h => ?_, fun n hn => ?_⟩
    · have := (k 0).isLt; have := (k 1).isLt
      exact Finset.mem_coe.2 (Finset.mem_range.2 (by show (k 0).val + 2 * (k 1).val < 4; omega))
    · have h : (k 0).val + 2 * (k 1).val = (l 0).val + 2 * (l 1).val := h
      have := (k 0).isLt; have := (k 1).isLt; have := (l 0).isLt; have := (l 1).isLt
      funext a
      fin_cases a
      · exact Fin.ext (by show (k 0).val = (l 0).val; omega)
      · exact Fin.ext (by show (k 1).val = (l 1).val; omega)
    · have hn := Finset.mem_range.1 (Finset.mem_coe.1 hn)
      refine ⟨![Fin.ofNat 2 (n % 2), Fin.ofNat 2 (n / 2)], Set.mem_univ _, ?_⟩
      show n % 2 % 2 + 2 * (n / 2 % 2) = n
      omega
  support c k a := by
    have : ∀ k : Fin 2 → Fin 2, ∀ a, ![(c.1.val : ℚ) + (((k 0).val + 2 * (k 1).val) % 2 : ℕ), (c.2.val : ℚ) + (((k 0).val + 2 * (k 1).val) / 2 : ℕ)] a =
        ![(c.1.val : ℚ), c.2.val] a + 1 * ![(0 : ℚ), 1] (k a) := by
      intro k a
      have h0 : k 0 = 0 ∨ k 0 = 1 := by omega
      have h1 : k 1 = 0 ∨ k 1 = 1 := by omega
      rcases h0 with h0 | h0 <;> rcases h1 with h1 | h1 <;> fin_cases a <;> simp [h0, h1]
    exact this k a
  real c h a := by
    show h a + ![(c.1.val : ℚ), c.2.val] a = _
    ring
  shape k h := by
    have hbasis : ∀ x : ℚ, (Lagrange.basis Finset.univ ![(0 : ℚ), 1] 0).eval x = 1 - x ∧ (Lagrange.basis Finset.univ ![(0 : ℚ), 1] 1).eval x = x := by
      intro x
      constructor
      · rw [show (Finset.univ : Finset (Fin 2)) = {0, 1} from rfl, Lagrange.basis_pair_left (by decide)]
        simp [Lagrange.basisDivisor]
      · rw [show (Finset.univ : Finset (Fin 2)) = {0, 1} from rfl, Lagrange.basis_pair_right (by decide)]
        simp [Lagrange.basisDivisor]
    show (if ((k 0).val + 2 * (k 1).val) % 2 = 1 then h 0 else 1 - h 0) * (if ((k 0).val + 2 * (k 1).val) / 2 = 1 then h 1 else 1 - h 1) =
      ∏ a : Fin 2, _
    rw [Fin.prod_univ_two]
    have two : ∀ j : Fin (1 + 1), j = 0 ∨ j = 1 := by decide
    have h0 := two (k 0)
    have h1 := two (k 1)
    rcases h0 with h0 | h0 <;> rcases h1 with h1 | h1 <;> rw [h0, h1] <;> simp [(hbasis _).1, (hbasis _).2]

/-- `C127_polynomials`: the sample meshes represent `x y` -/
example : walls.Represents fun x => x 0 * x 1 := by
  have := C127_polynomials walls 1 _ _ _ _ (sample_tensor _ _) (MvPolynomial.X 0 * MvPolynomial.X 1) (fun a => by
    refine (MvPolynomial.degreeOf_mul_le _ _ _).trans ?_
    rw [MvPolynomial.degreeOf_X, MvPolynomial.degreeOf_X]
    fin_cases a <;> simp)
  simpa using this

/-- A check that the end of a path is not moved and no weight left out -/
def exactEnd (mesh : Mesh ℚ 0 (Fin 2 × Fin 2)) (p : Tracker ℚ 2 (Fin 2 × Fin 2)) : Bool :=
  match (mesh.mapping p.currentCell).toUnit p.departurePoint with
  | none => true
  | some y => decide ((∀ a, y a = 0 ∨ y a = 1 ∨ (1 / 10 ^ 10 ≤ |y a| ∧ 1 / 10 ^ 10 ≤ |y a - 1|)) ∧
    (∀ k, k < (mesh.dofs p.currentCell).length → mesh.shape k y = 0 ∨ 1 / 10 ^ 10 ≤ |mesh.shape k y|) ∧
    ∀ a, (mesh.mapping p.currentCell).toReal y a = p.departurePoint a)

theorem exactEnd_sound (mesh : Mesh ℚ 0 (Fin 2 × Fin 2)) (p : Tracker ℚ 2 (Fin 2 × Fin 2)) (h : exactEnd mesh p = true) : mesh.Exact p := by
  intro y hy
  unfold exactEnd at h
  rw [hy] at h
  obtain ⟨h1, h2, h3⟩ := of_decide_eq_true h
  exact ⟨h1, h2, funext h3⟩

/-- A path of the sample that is found, is not moved at its end, and whose boundary points are on the way -/
theorem found_exact (mesh : Mesh ℚ 0 (Fin 2 × Fin 2)) (s : Setup ℚ 2) (path : Tracker ℚ 2 (Fin 2 × Fin 2))
    (h : (match follow mesh s 6 path with | some (.found p) => exactEnd mesh p | _ => false) = true) :
    ∃ p, Follows mesh s path (.found p) ∧ mesh.Exact p := by
  cases hf : follow mesh s 6 path with
  | none => rw [hf] at h; cases h
  | some e =>
    rw [hf] at h
    cases e with
    | found p => exact ⟨p, follow_sound _ _ _ _ _ hf, exactEnd_sound _ _ h⟩
    | dropped p => cases h
    | expired p => cases h

/-- Degree of freedom `j` of the samples is number `k` of one cell. -/
theorem start_unique (cell : Fin 2 × Fin 2) (k : ℕ) (h : (periodic.dofs cell)[k]? = some 0) : cell = (0, 0) ∧ k = 0 := by
  have hk4 : k < 4 := by
    by_contra hc
    rw [List.getElem?_eq_none (by show 4 ≤ k; omega)] at h
    cases h
  have : ∀ cell, ∀ k < 4, (periodic.dofs cell)[k]? = some 0 → cell = (0, 0) ∧ k = 0 := by decide +kernel
  exact this cell k hk4 h

/-- `C127_transport`: the hat function, moved by 3/2 to the right through the periodic boundary: at the origin it has the value it had at
`(-3/2, 0)` -/
example : ∃ as, fillSparseObject periodic (sides (3 / 2)) none = .ok as ∧
    stream as.entries (fun _ => values hat) 1 0 = hat fun a => ![0, 0] a - 3 / 2 * ![1, 0] a := by
  have hok : (fillSparseObject periodic (sides (3 / 2)) none).isOk = true := by decide +kernel
  cases has : fillSparseObject periodic (sides (3 / 2)) none with
  | error e => rw [has] at hok; cases hok
  | ok as =>
    refine ⟨as, rfl, ?_⟩
    obtain ⟨start, k, hk, e, he, h⟩ := C127_transport periodic (sides (3 / 2)) (sides_valid _ (by norm_num)) periodic_shifts periodic_noBounceBack
      periodic_noDoNothing as has (0, 0) (by decide) 0 1 (by decide) rfl (by norm_num) (by decide) hat hat_represented (fun _ => values hat)
      (values_samples hat)
    obtain ⟨rfl, rfl⟩ := start_unique start k hk
    obtain ⟨p, hp, hx⟩ := found_exact periodic (sides (3 / 2)) (newPath (sides (3 / 2)) (0, 0) (periodic.supportPoint (0, 0) 0) 0 1) (by decide +kernel)
    obtain ⟨v, _, _, hv⟩ := h p (he.unique hp) hx
    rw [hv hat_periods]
    congr 1
    funext a
    fin_cases a <;> simp [periodic, mesh, sides]

/-- `C127_walls`: a path that turns round at a wall meets the hypotheses -/
example : ∃ p, Follows walls (sides (3 / 2)) (newPath (sides (3 / 2)) (0, 0) (walls.supportPoint (0, 0) 0) 0 1) (.found p) ∧ walls.Exact p ∧
    ExactAlong walls (sides (3 / 2)) (newPath (sides (3 / 2)) (0, 0) (walls.supportPoint (0, 0) 0) 0 1) := by
  obtain ⟨p, hp, hx⟩ := found_exact walls (sides (3 / 2)) (newPath (sides (3 / 2)) (0, 0) (walls.supportPoint (0, 0) 0) 0 1) (by decide +kernel)
  exact ⟨p, hp, hx, exactCheck_sound _ _ 6 _ (by decide +kernel)⟩

example : (fillSparseObject walls (sides (3 / 2)) none).isOk = true := by decide +kernel

end Sample

end Paths
end NATriuM
