import Verif.Lemmas.Elements
import Verif.Props.Sedg
import Verif.Props.Stencils
import Verif.Props.Tables
import Mathlib.Tactic.IntervalCases
import Mathlib.Tactic.FinCases

/-!
# C115, C116: finite elements and distances of degrees of freedom
-/

namespace NATriuM
namespace Elements

/-- Arguments that the assertions of the operators accept -/
def Admissible (dim order stencilD : ℕ) : Prop := 1 ≤ order ∧ stencilD = dim ∧ 2 ≤ dim ∧ dim ≤ 3

theorem construct_eq {cartesian dg : Bool} {dim order quadName pointsName stencilD : ℕ} (h : Admissible dim order stencilD) :
    construct cartesian dim order quadName pointsName stencilD dg = match makeQuadrature quadName (order + 1) with
      | .error e => .error e
      | .ok q => match makeFe pointsName order dg with
        | .error e => .error e
        | .ok fe => .ok ⟨order, if cartesian && !dg then .cartesian else .q1, q, q, fe⟩ := by
  obtain ⟨h1, h2, h3, h4⟩ := h
  rw [construct, if_neg (by omega)]
  cases makeQuadrature quadName (order + 1) with
  | error e => rfl
  | ok q => cases makeFe pointsName order dg <;> rfl

/-- **C115** The solver with the discontinuous Galerkin scheme gets an operator if and only if quadrature and support points are those of
Gauss and Lobatto; then it has the discontinuous element and the quadratures with the configured order. -/
theorem C115_sedg (cartesian : Bool) {dim order stencilD : ℕ} (quadName pointsName : ℕ) (h : Admissible dim order stencilD) (x : Operator) :
    streaming Config.SEDG cartesian dim order quadName pointsName stencilD = .operator x ↔
      (quadName = Config.QGAUSS_LOBATTO ∧ pointsName = Config.GAUSS_LOBATTO_POINTS) ∧
      x = ⟨order, .q1, .gaussLobatto (order + 1), .gaussLobatto (order + 1), .dg (.gaussLobatto (order + 1))⟩ := by
  rw [streaming, if_pos rfl, constructSedg, construct_eq h]
  by_cases hq : quadName = Config.QGAUSS_LOBATTO
  · by_cases hp : pointsName = Config.GAUSS_LOBATTO_POINTS
    · subst hq hp
      simp [makeQuadrature, makeFe, supportRule, catchAdvection, eq_comm]
    · simp only [hp, and_false, false_and, iff_false]
      cases h1 : makeQuadrature quadName (order + 1) with
      | error e => cases e <;> simp [catchAdvection]
      | ok q =>
        cases h2 : makeFe pointsName order true with
        | error e => cases e <;> simp [catchAdvection]
        | ok fe => simp [catchAdvection, hp]
  · simp only [hq, false_and, iff_false]
    cases h1 : makeQuadrature quadName (order + 1) with
    | error e => cases e <;> simp [catchAdvection]
    | ok q =>
      cases h2 : makeFe pointsName order true with
      | error e => cases e <;> simp [catchAdvection]
      | ok fe => simp [catchAdvection, hq]

/-- **C115** All other quadratures and support points of the configuration are refused with a message. -/
theorem C115_sedg_refused (cartesian : Bool) {dim order stencilD quadName pointsName : ℕ} (h : Admissible dim order stencilD)
    (hq : quadName ≤ Config.QGAUSS) (hp : pointsName ≤ Config.EQUIDISTANT_POINTS)
    (hne : quadName ≠ Config.QGAUSS_LOBATTO ∨ pointsName ≠ Config.GAUSS_LOBATTO_POINTS) :
    streaming Config.SEDG cartesian dim order quadName pointsName stencilD = .exit := by
  rw [streaming, if_pos rfl, constructSedg, construct_eq h]
  have ho : order ≠ 0 := by have := h.1; omega
  have h1 : ∃ q, makeQuadrature quadName (order + 1) = .ok q := by
    change quadName ≤ 1 at hq
    interval_cases quadName <;> exact ⟨_, rfl⟩
  have h2 : ∃ fe, makeFe pointsName order true = .ok fe := by
    change pointsName ≤ 3 at hp
    interval_cases pointsName <;> simp [makeFe, supportRule, ho]
  obtain ⟨q, h1⟩ := h1
  obtain ⟨fe, h2⟩ := h2
  simp only [h1, h2]
  rw [if_pos hne]
  rfl

/-- The one-dimensional rule for a name of support points -/
def ruleOf (pointsName order : ℕ) : Rule :=
  if pointsName = Config.GAUSS_LOBATTO_POINTS then .gaussLobatto (order + 1)
  else if pointsName = Config.GAUSS_CHEBYSHEV_POINTS then .gaussChebyshev (order + 1)
  else if pointsName = Config.GAUSS_LOBATTO_CHEBYSHEV_POINTS then .gaussLobattoChebyshev (order + 1)
  else .custom (equidistant order)

/-- **C115** The semi-Lagrangian scheme gets the continuous element with the configured support points, the configured quadrature, and the
Cartesian mapping if and only if the problem is Cartesian. -/
theorem C115_semiLagrangian (cartesian : Bool) {dim order stencilD quadName pointsName : ℕ} (h : Admissible dim order stencilD)
    (hq : quadName ≤ Config.QGAUSS) (hp : pointsName ≤ Config.EQUIDISTANT_POINTS) :
    ∃ x, streaming Config.SEMI_LAGRANGIAN cartesian dim order quadName pointsName stencilD = .operator x ∧ x.order = order ∧
      (x.mapping = .cartesian ↔ cartesian = true) ∧ x.fe = .continuous (ruleOf pointsName order) ∧ x.faceQuadrature = x.quadrature ∧
      x.quadrature = if quadName = Config.QGAUSS_LOBATTO then .gaussLobatto (order + 1) else .gauss (order + 1) := by
  rw [streaming, if_neg (by decide), if_pos rfl, constructSemiLagrangian, construct_eq h]
  have ho : order ≠ 0 := by have := h.1; omega
  change quadName ≤ 1 at hq
  change pointsName ≤ 3 at hp
  interval_cases quadName <;> interval_cases pointsName <;> cases cartesian <;>
    simp [makeQuadrature, makeFe, supportRule, catchAdvection, ruleOf, ho]

theorem chebyshev_eq (n i : ℕ) : chebyshevPoint n i = 1 / 2 * (1 - Real.cos (Real.pi * ((2 * i + 1) / (2 * n)))) := by
  rw [chebyshevPoint, show Real.pi * (1 + (2 * (i : ℝ) + 1) / (2 * n)) = Real.pi * ((2 * i + 1) / (2 * n)) + Real.pi by ring, Real.cos_add_pi]
  ring

theorem lobattoChebyshev_eq (n i : ℕ) : lobattoChebyshevPoint n i = 1 / 2 * (1 - Real.cos (Real.pi * (i / (n - 1)))) := by
  rw [lobattoChebyshevPoint, show Real.pi * (1 + (i : ℝ) / (n - 1)) = Real.pi * (i / (n - 1)) + Real.pi by ring, Real.cos_add_pi]
  ring

theorem half_cos_lt {x y : ℝ} (hx : 0 ≤ x) (hxy : x < y) (hy : y ≤ 1) :
    1 / 2 * (1 - Real.cos (Real.pi * x)) < 1 / 2 * (1 - Real.cos (Real.pi * y)) := by
  have hpi := Real.pi_pos
  have := Real.strictAntiOn_cos (a := Real.pi * x) (b := Real.pi * y) ⟨by positivity, by nlinarith⟩ ⟨by nlinarith, by nlinarith⟩ (by nlinarith)
  linarith

theorem range_pairwise {f : ℕ → ℝ} {n : ℕ} (h : ∀ i j, i < j → j < n → f i < f j) : ((List.range n).map f).Pairwise (· < ·) := by
  rw [List.pairwise_map]
  refine List.Pairwise.imp_of_mem ?_ List.pairwise_lt_range
  intro i j _ hj hij
  exact h i j hij (List.mem_range.1 hj)

/-- **C115** The support points of every element are as many as the order says and different from each other, in the unit interval: the
shape functions are determined. -/
theorem C115_points {D : Dealii} (hD : D.Sound) {pointsName order : ℕ} (ho : 1 ≤ order) (hp : pointsName ≤ Config.EQUIDISTANT_POINTS) :
    ((ruleOf pointsName order).points D).length = order + 1 ∧ ((ruleOf pointsName order).points D).Pairwise (· < ·) ∧
    ∀ x ∈ (ruleOf pointsName order).points D, 0 ≤ x ∧ x ≤ 1 := by
  have hcos : ∀ z : ℝ, 0 ≤ 1 / 2 * (1 - Real.cos z) ∧ 1 / 2 * (1 - Real.cos z) ≤ 1 := fun z =>
    ⟨by have := Real.cos_le_one z; linarith, by have := Real.neg_one_le_cos z; linarith⟩
  have ho' : (0 : ℝ) < order := by exact_mod_cast ho
  change pointsName ≤ 3 at hp
  interval_cases pointsName
  · refine ⟨hD.length _ (by omega), hD.increasing _ (by omega), fun x hx => ?_⟩
    obtain ⟨i, hi, rfl⟩ := List.mem_iff_getElem.1 hx
    have hl := hD.length (order + 1) (by omega)
    have hi' : i < order + 1 := by rw [← hl]; exact hi
    obtain ⟨_, e⟩ := points_get hD ho ⟨i, hi'⟩
    have := points_mem hD ho ⟨i, hi'⟩
    rw [e] at this
    exact this
  · refine ⟨by simp [ruleOf, Rule.points], ?_, ?_⟩
    · refine range_pairwise fun i j hij hj => ?_
      rw [chebyshev_eq, chebyshev_eq]
      have h1 : (i : ℝ) < j := by exact_mod_cast hij
      have h2 : (j : ℝ) + 1 ≤ (order + 1 : ℕ) := by exact_mod_cast hj
      have h3 : (0 : ℝ) < (order + 1 : ℕ) := by positivity
      refine half_cos_lt (by positivity) (div_lt_div_of_pos_right (by linarith) (by positivity)) ?_
      rw [div_le_one (by positivity)]
      linarith
    · intro x hx
      obtain ⟨i, _, rfl⟩ := List.mem_map.1 hx
      rw [chebyshev_eq]; exact hcos _
  · refine ⟨by simp [ruleOf, Rule.points], ?_, ?_⟩
    · refine range_pairwise fun i j hij hj => ?_
      rw [lobattoChebyshev_eq, lobattoChebyshev_eq]
      have h1 : (i : ℝ) < j := by exact_mod_cast hij
      have h2 : (j : ℝ) ≤ order := by exact_mod_cast Nat.lt_succ_iff.1 hj
      have e : (((order + 1 : ℕ) : ℝ) - 1) = order := by push_cast; ring
      rw [e]
      refine half_cos_lt (by positivity) (div_lt_div_of_pos_right h1 ho') ?_
      rw [div_le_one ho']
      exact h2
    · intro x hx
      obtain ⟨i, _, rfl⟩ := List.mem_map.1 hx
      rw [lobattoChebyshev_eq]; exact hcos _
  · have e : (ruleOf 3 order).points D = (List.range (order + 1)).map fun i : ℕ => (i : ℝ) / order := by
      simp [ruleOf, Rule.points, equidistant]
    rw [e]
    refine ⟨by simp, range_pairwise fun i j hij _ => div_lt_div_of_pos_right (by exact_mod_cast hij) ho', ?_⟩
    intro x hx
    obtain ⟨i, hi, rfl⟩ := List.mem_map.1 hx
    refine ⟨by positivity, ?_⟩
    rw [div_le_one ho']
    exact_mod_cast Nat.lt_succ_iff.1 (List.mem_range.1 hi)

/-- **C115** The elements of the discontinuous Galerkin scheme have their support points in the quadrature points; with nodal shape functions
the map from degrees of freedom to quadrature points that the operator computes exists and is right, for all numberings of both.  The
mass matrix is diagonal therefore. -/
theorem C115_collocated (D : Dealii) {cartesian : Bool} {dim order quadName pointsName stencilD : ℕ} (h : Admissible dim order stencilD)
    {x : Operator} (hx : streaming Config.SEDG cartesian dim order quadName pointsName stencilD = .operator x) :
    x.fe.rule.points D = x.quadrature.points D ∧
    ∀ (shape : (Fin dim → Fin (order + 1)) → (Fin dim → ℝ) → ℝ), Nodal (fun i => (x.fe.rule.points D).getD i 0) shape →
      ∀ {N M : ℕ} (dofs : Fin N ≃ (Fin dim → Fin (order + 1))) (nodes : Fin M ≃ (Fin dim → Fin (order + 1))),
        Sedg.celldofsToQ (fun i q => shape (dofs i) fun a => (x.quadrature.points D).getD (nodes q a) 0) =
          some ((List.finRange N).map fun i => (i, nodes.symm (dofs i))) := by
  obtain ⟨_, rfl⟩ := (C115_sedg cartesian quadName pointsName h x).1 hx
  refine ⟨rfl, fun shape hs N M dofs nodes => Sedg.C56_maps _ _ fun i q => ?_⟩
  have := hs (dofs i) (nodes q)
  rw [show (shape (dofs i) fun a => ((Fe.dg (.gaussLobatto (order + 1))).rule.points D).getD (nodes q a) 0) =
    shape (dofs i) fun a => ((Rule.gaussLobatto (order + 1)).points D).getD (nodes q a) 0 from rfl] at this
  rw [this]
  simp [Equiv.eq_symm_apply]

/-- **C115** (for three of the four sets of support points) The continuous elements have support points on both ends. -/
theorem C115_continuous_partial {D : Dealii} (hD : D.Sound) {pointsName order : ℕ} (ho : 1 ≤ order)
    (hp : pointsName ≠ Config.GAUSS_CHEBYSHEV_POINTS) : AtBothEnds ((ruleOf pointsName order).points D) := by
  have ho' : (order : ℝ) ≠ 0 := by exact_mod_cast Nat.one_le_iff_ne_zero.1 ho
  unfold ruleOf
  by_cases h0 : pointsName = Config.GAUSS_LOBATTO_POINTS
  · rw [if_pos h0]
    exact ⟨List.mem_of_mem_head? (hD.first _ (by omega)), List.mem_of_getLast? (hD.last _ (by omega))⟩
  · rw [if_neg h0, if_neg hp]
    by_cases h2 : pointsName = Config.GAUSS_LOBATTO_CHEBYSHEV_POINTS
    · rw [if_pos h2]
      refine ⟨List.mem_map.2 ⟨0, by simp, ?_⟩, List.mem_map.2 ⟨order, by simp, ?_⟩⟩
      · rw [lobattoChebyshev_eq]; simp
      · have e : (((order + 1 : ℕ) : ℝ) - 1) = order := by push_cast; ring
        rw [lobattoChebyshev_eq, e, div_self ho', mul_one, Real.cos_pi]; norm_num
    · rw [if_neg h2]
      have e : (Rule.custom (equidistant order)).points D = (List.range (order + 1)).map fun i : ℕ => (i : ℝ) / order := by
        simp [Rule.points, equidistant]
      rw [e]
      exact ⟨List.mem_map.2 ⟨0, by simp, by simp⟩, List.mem_map.2 ⟨order, by simp, div_self ho'⟩⟩

/-- **C115** (finding) With Gauss-Chebyshev points the semi-Lagrangian solver is constructed, but its continuous element has no support point
on either end of a cell, for all orders. -/
theorem C115_continuous_fails (D : Dealii) (cartesian : Bool) {dim order stencilD quadName : ℕ} (h : Admissible dim order stencilD)
    (hq : quadName ≤ Config.QGAUSS) :
    ∃ x, streaming Config.SEMI_LAGRANGIAN cartesian dim order quadName Config.GAUSS_CHEBYSHEV_POINTS stencilD = .operator x ∧
      ∃ r, x.fe = .continuous r ∧ 0 ∉ r.points D ∧ 1 ∉ r.points D := by
  obtain ⟨x, hx, _, _, hfe, _⟩ := C115_semiLagrangian cartesian (pointsName := Config.GAUSS_CHEBYSHEV_POINTS) h hq (by decide)
  refine ⟨x, hx, _, hfe, ?_⟩
  have key : ∀ y ∈ (ruleOf Config.GAUSS_CHEBYSHEV_POINTS order).points D, 0 < y ∧ y < 1 := by
    intro y hy
    obtain ⟨i, hi, rfl⟩ := List.mem_map.1 hy
    have hi' : (i : ℝ) + 1 ≤ (order + 1 : ℕ) := by exact_mod_cast List.mem_range.1 hi
    have h3 : (0 : ℝ) < (order + 1 : ℕ) := by positivity
    have hlt : (2 * (i : ℝ) + 1) / (2 * (order + 1 : ℕ)) < 1 := by rw [div_lt_one (by positivity)]; linarith
    have hpos : (0 : ℝ) < (2 * (i : ℝ) + 1) / (2 * (order + 1 : ℕ)) := by positivity
    have a := half_cos_lt (le_refl 0) hpos hlt.le
    have b := half_cos_lt hpos.le hlt (le_refl 1)
    rw [chebyshev_eq]
    simp only [mul_zero, Real.cos_zero, sub_self] at a
    simp only [mul_one, Real.cos_pi] at b
    exact ⟨a, by linarith⟩
  exact ⟨fun h0 => lt_irrefl _ (key 0 h0).1, fun h1 => lt_irrefl _ (key 1 h1).2⟩

/-- A set of points with the required properties: the equidistant ones, which are the Gauss-Lobatto points for two and three points -/
noncomputable def sample : Dealii :=
  ⟨fun n => (List.range n).map fun i : ℕ => (i : ℝ) / (n - 1), fun _ => []⟩

theorem sample_sound : sample.Sound where
  length n _ := by simp [sample]
  increasing n hn := by
    have : (0 : ℝ) < n - 1 := by have : (2 : ℝ) ≤ n := by exact_mod_cast hn
                                 linarith
    exact range_pairwise fun i j hij _ => div_lt_div_of_pos_right (by exact_mod_cast hij) this
  first n hn := by
    obtain ⟨m, rfl⟩ : ∃ m, n = m + 1 := ⟨n - 1, by omega⟩
    simp [sample, List.range_succ_eq_map]
  last n hn := by
    obtain ⟨m, rfl⟩ : ∃ m, n = m + 1 := ⟨n - 1, by omega⟩
    have : (m : ℝ) ≠ 0 := by have : 1 ≤ m := by omega
                             positivity
    simp [sample, List.range_succ, this]

/-- Non-vacuity: a two-dimensional solver of order 2 -/
example : Admissible 2 2 2 ∧ streaming Config.SEDG false 2 2 Config.QGAUSS_LOBATTO Config.GAUSS_LOBATTO_POINTS 2 =
    .operator ⟨2, .q1, .gaussLobatto 3, .gaussLobatto 3, .dg (.gaussLobatto 3)⟩ ∧
    streaming Config.SEDG false 2 2 Config.QGAUSS Config.EQUIDISTANT_POINTS 2 = .exit ∧
    streaming Config.SEMI_LAGRANGIAN true 2 2 Config.QGAUSS Config.EQUIDISTANT_POINTS 2 =
    .operator ⟨2, .cartesian, .gauss 3, .gauss 3, .continuous (.custom [0, 1 / 2, 1])⟩ :=
  ⟨⟨by decide, rfl, by decide, by decide⟩, by decide +kernel, by decide +kernel, by decide +kernel⟩

/-- Non-vacuity: the bilinear shape functions are nodal. -/
example : Nodal (d := 2) (fun i : Fin 2 => ((Rule.gaussLobatto 2).points sample).getD i 0)
    (fun i x => (if i 0 = 0 then 1 - x 0 else x 0) * if i 1 = 0 then 1 - x 1 else x 1) := by
  have h : ∀ i : Fin 2, ((Rule.gaussLobatto 2).points sample).getD i 0 = ![0, 1] i := by
    intro i
    fin_cases i <;> norm_num [Rule.points, sample, List.range_succ]
  intro i q
  simp only [h]
  have e : (q = i) ↔ q 0 = i 0 ∧ q 1 = i 1 := ⟨fun h => by simp [h], fun h => funext fun a => by fin_cases a; exacts [h.1, h.2]⟩
  simp only [e]
  generalize q 0 = q0
  generalize q 1 = q1
  generalize i 0 = i0
  generalize i 1 = i1
  fin_cases q0 <;> fin_cases q1 <;> fin_cases i0 <;> fin_cases i1 <;> simp

section distances

variable {d : ℕ} {D : Dealii}

theorem minimum_ok {order : ℕ} (ho : 1 ≤ order) (p0 : List MeshCell) (ps : List (List MeshCell)) :
    minimumDoFDistanceGLL D p0 ps order = .ok (getMinimumVertexDistance p0 ps * gap D order) := by
  rw [minimumDoFDistanceGLL, if_neg (by omega)]; rfl

/-- The distance is not longer than any edge of a box that a process owns. -/
theorem vertexDistance_le (p0 : List (Bool × Cell d)) (ps : List (List (Bool × Cell d))) {p : List (Bool × Cell d)} (hp : p ∈ p0 :: ps)
    {c : Cell d} (hc : (true, c) ∈ p) (hb : c.IsBox) (a : Fin d) :
    getMinimumVertexDistance (p0.map Cell.seen) (ps.map fun p => p.map Cell.seen) ≤ c.edge a a := by
  refine le_trans ?_ (seen_le hb a)
  exact minDistance_le _ _ (p.map Cell.seen) (by simpa using List.mem_map_of_mem (f := fun p => p.map Cell.seen) hp)
    (Cell.seen (true, c)) (List.mem_map_of_mem hc) rfl

/-- **C116** (on boxes) The reported distance is positive and not longer than the distance of any two degrees of freedom of any cell, for all
orders, meshes of boxes and distributions over processes. -/
theorem C116_lower_partial (hD : D.Sound) {order : ℕ} (ho : 1 ≤ order) (p0 : List (Bool × Cell d)) (ps : List (List (Bool × Cell d)))
    (boxes : ∀ p ∈ p0 :: ps, ∀ c, (true, c) ∈ p → c.IsBox) (hd : 0 < d) :
    ∃ m, minimumDoFDistanceGLL D (p0.map Cell.seen) (ps.map fun p => p.map Cell.seen) order = .ok m ∧ 0 < m ∧
      ∀ p ∈ p0 :: ps, ∀ c, (true, c) ∈ p → ∀ r ∈ c.dofDistances (D.points order), m ≤ r := by
  refine ⟨_, minimum_ok ho _ _, mul_pos ?_ (gap_pos hD ho), ?_⟩
  · rcases vertexDistance_attained (p0.map Cell.seen) (ps.map fun p => p.map Cell.seen) with h | ⟨p', hp', c', hc', howned, h⟩
    · rw [h]; norm_num
    · rw [h]
      rw [← List.map_cons (f := fun p : List (Bool × Cell d) => p.map Cell.seen)] at hp'
      obtain ⟨p, hp, rfl⟩ := List.mem_map.1 hp'
      obtain ⟨⟨b, c⟩, hc, rfl⟩ := List.mem_map.1 hc'
      obtain rfl : b = true := howned
      obtain ⟨a, ha⟩ := seen_eq (boxes p hp c hc) hd
      show 0 < sInf c.vertexDistances
      rw [ha]
      exact (boxes p hp c hc).1 a
  · rintro p hp c hc r ⟨k, l, hkl, rfl⟩
    have hb := boxes p hp c hc
    obtain ⟨a, ha⟩ := Function.ne_iff.1 hkl
    refine le_trans ?_ (coordinate_le_distance _ _ a)
    rw [box_map hb, box_map hb, add_sub_add_left_eq_sub, ← sub_mul, abs_mul, abs_of_pos (hb.1 a), mul_comm]
    exact mul_le_mul (gap_le hD ho ha) (vertexDistance_le p0 ps hp hc hb a)
      (by rcases vertexDistance_attained (p0.map Cell.seen) (ps.map fun p => p.map Cell.seen) with h | ⟨p', hp', c', hc', howned, h⟩
          · rw [h]; norm_num
          · rw [h]
            rw [← List.map_cons (f := fun p : List (Bool × Cell d) => p.map Cell.seen)] at hp'
            obtain ⟨q, hq, rfl⟩ := List.mem_map.1 hp'
            obtain ⟨⟨b, e⟩, he, rfl⟩ := List.mem_map.1 hc'
            refine Real.sInf_nonneg ?_
            rintro r ⟨v, w, _, rfl⟩
            exact Real.sqrt_nonneg _) (abs_nonneg _)

/-- **C116** (on boxes) The reported distance is the distance of two degrees of freedom, if a cell is smaller than the start value of the
loops. -/
theorem C116_attained_partial (hD : D.Sound) {order : ℕ} (ho : 1 ≤ order) (p0 : List (Bool × Cell d)) (ps : List (List (Bool × Cell d)))
    (boxes : ∀ p ∈ p0 :: ps, ∀ c, (true, c) ∈ p → c.IsBox) {p : List (Bool × Cell d)} (hp : p ∈ p0 :: ps) {c : Cell d} (hc : (true, c) ∈ p)
    (a : Fin d) (hsmall : c.edge a a < 100000000000) :
    ∃ m, minimumDoFDistanceGLL D (p0.map Cell.seen) (ps.map fun p => p.map Cell.seen) order = .ok m ∧
      ∃ p ∈ p0 :: ps, ∃ c, (true, c) ∈ p ∧ m ∈ c.dofDistances (D.points order) := by
  refine ⟨_, minimum_ok ho _ _, ?_⟩
  have hle := vertexDistance_le p0 ps hp hc (boxes p hp c hc) a
  rcases vertexDistance_attained (p0.map Cell.seen) (ps.map fun p => p.map Cell.seen) with h | ⟨q, hq, cell, hcell, howned, h⟩
  · rw [h] at hle; linarith
  · rw [← List.map_cons (f := fun p : List (Bool × Cell d) => p.map Cell.seen)] at hq
    obtain ⟨p', hp', rfl⟩ := List.mem_map.1 hq
    obtain ⟨⟨b, c'⟩, hc', rfl⟩ := List.mem_map.1 hcell
    obtain rfl : b = true := howned
    have hb := boxes p' hp' c' hc'
    obtain ⟨e, he⟩ := seen_eq hb (Nat.lt_of_le_of_lt (Nat.zero_le _) a.2)
    obtain ⟨i, j, hij, hg⟩ := gap_attained hD ho
    refine ⟨p', hp', c', hc', fun x => if x = e then i else 0, fun x => if x = e then j else 0, ?_, ?_⟩
    · intro eq
      have := congrFun eq e
      simp only [if_true] at this
      exact hij.ne this
    · rw [distance_one _ _ e]
      · rw [box_map hb, box_map hb, h, hg]
        show sInf c'.vertexDistances * _ = _
        rw [he]
        simp only [if_true]
        rw [add_sub_add_left_eq_sub, ← sub_mul, abs_mul, abs_of_pos (hb.1 e), mul_comm]
      · intro x hx
        rw [box_map hb, box_map hb]
        simp [hx]

/-- **C116** The least distance of the Gauss-Lobatto points is at most that of equidistant points of the same order: the reported distance
is safe for these as well. -/
theorem C116_equidistant (hD : D.Sound) {order : ℕ} (ho : 1 ≤ order) : gap D order ≤ 1 / order := by
  have key : ∀ k : ℕ, ∀ hk : k < order + 1, k * gap D order ≤ D.points order ⟨k, hk⟩ := by
    intro k
    induction k with
    | zero => intro hk; have := points_first hD ho; simp only [Nat.cast_zero, zero_mul]; exact this.ge
    | succ k ih =>
      intro hk
      have h1 := ih (by omega)
      have h2 := gap_le hD ho (i := ⟨k + 1, hk⟩) (j := ⟨k, by omega⟩) (by simp [Fin.ext_iff])
      have h3 := points_strictMono hD ho (a := ⟨k, by omega⟩) (b := ⟨k + 1, hk⟩) (by simp [Fin.lt_def])
      rw [abs_of_pos (by linarith)] at h2
      push_cast
      linarith
  have h := key order (by omega)
  have hl := points_last hD ho
  rw [show (⟨order, by omega⟩ : Fin (order + 1)) = Fin.last order from rfl, hl] at h
  have ho' : (0 : ℝ) < order := by exact_mod_cast ho
  rw [le_div_iff₀ ho']
  linarith

/-- The flat parallelogram with the edges (1, 0) and (2, ε) -/
def flat (ε : ℝ) : Cell 2 := ⟨![0, 0], ![![1, 0], ![2, ε]]⟩

/-- **C116** (finding) In a parallelogram that is not a rectangle, degrees of freedom may be arbitrarily close to each other while the reported
distance is one half, here for second order, where the Gauss-Lobatto points are 0, 1/2 and 1. -/
theorem C116_sheared_fails {ε : ℝ} (he : 0 < ε) (hD : D.gaussLobatto 3 = [0, 1 / 2, 1]) :
    ∃ m, minimumDoFDistanceGLL D ([(true, flat ε)].map Cell.seen) [] 2 = .ok m ∧ 1 / 2 ≤ m ∧
      ε / 2 ∈ (flat ε).dofDistances (D.points 2) := by
  have hmap : ∀ x : Fin 2 → ℝ, (flat ε).map x = ![x 0 + 2 * x 1, ε * x 1] := by
    intro x
    funext b
    fin_cases b <;> simp [Cell.map, flat] <;> ring
  have hdist : ∀ x y : Fin 2 → ℝ, distance ((flat ε).map x) ((flat ε).map y) =
      √((x 0 + 2 * x 1 - (y 0 + 2 * y 1)) ^ 2 + (ε * x 1 - ε * y 1) ^ 2) := by
    intro x y
    rw [hmap, hmap, distance, Fin.sum_univ_two]; rfl
  have hvertex : ∀ r ∈ (flat ε).vertexDistances, 1 ≤ r := by
    rintro r ⟨v, w, hvw, rfl⟩
    rw [hdist]
    refine Real.le_sqrt_of_sq_le ?_
    have hne : ¬(v 0 = w 0 ∧ v 1 = w 1) := fun h => hvw (funext fun a => by fin_cases a; exacts [h.1, h.2])
    have hs : 0 ≤ ε ^ 2 := sq_nonneg ε
    rcases h0 : v 0 <;> rcases h1 : v 1 <;> rcases h2 : w 0 <;> rcases h3 : w 1 <;>
      first
        | (exfalso; simp [h0, h1, h2, h3] at hne; done)
        | (norm_num; done)
        | (norm_num; nlinarith)
  have hg : gap D 2 = 1 / 2 := by
    norm_num [gap, hD, minimumPairs, nearest]
  have hp : ∀ i : Fin 3, D.points 2 i = ![0, 1 / 2, 1] i := by
    intro i
    fin_cases i <;> simp [Dealii.points, hD]
  have hmin : 1 ≤ getMinimumVertexDistance ([(true, flat ε)].map Cell.seen) [] := by
    have hseen : 1 ≤ sInf (flat ε).vertexDistances :=
      le_csInf ⟨_, fun _ => true, fun _ => false, fun e => by simpa using congrFun e 0, rfl⟩ hvertex
    show 1 ≤ (if (true = true) then (if sInf (flat ε).vertexDistances < 100000000000 then sInf (flat ε).vertexDistances else 100000000000)
      else (100000000000 : ℝ))
    rw [if_pos rfl]
    split
    · exact hseen
    · norm_num
  refine ⟨_, minimum_ok (by decide) _ _, by rw [hg]; linarith, ![2, 0], ![0, 1], by decide, ?_⟩
  rw [hdist]
  have e : (D.points 2 (![2, 0] 0) + 2 * D.points 2 (![2, 0] 1) - (D.points 2 (![0, 1] 0) + 2 * D.points 2 (![0, 1] 1))) ^ 2 +
      (ε * D.points 2 (![2, 0] 1) - ε * D.points 2 (![0, 1] 1)) ^ 2 = (ε / 2) ^ 2 := by
    simp only [hp]
    simp
    ring
  rw [e, Real.sqrt_sq (by linarith)]

/-- A row of layers of cells in one direction: the coordinates of the layers of nodes, as in a mesh that is the tensor product of the lines
`x 0 < x 1 < …` -/
noncomputable def layer (D : Dealii) (order : ℕ) (x : ℕ → ℝ) (k : ℕ) (i : Fin (order + 1)) : ℝ := x k + (x (k + 1) - x k) * D.points order i

/-- **C116** On such a mesh, half of the reported distance separates the layers: the planes of the turbulence statistics do not mix layers of
nodes, however the cells are stretched. -/
theorem C116_layers (hD : D.Sound) {order : ℕ} (ho : 1 ≤ order) {x : ℕ → ℝ} {h : ℝ} (h0 : 0 < h) (hx : ∀ k, h ≤ x (k + 1) - x k) (k l : ℕ)
    (i j : Fin (order + 1)) (hne : layer D order x k i ≠ layer D order x l j) :
    2 * (1 / 2 * (h * gap D order)) ≤ |layer D order x k i - layer D order x l j| := by
  have hg := gap_pos hD ho
  have hg1 : gap D order ≤ 1 := (C116_equidistant hD ho).trans (by
    have : (1 : ℝ) ≤ order := by exact_mod_cast ho
    rw [div_le_one (by linarith)]; exact this)
  have hmono : Monotone x := monotone_nat_of_le_succ fun k => by have := hx k; linarith
  -- a node that is not on the right end of its layer of cells is away from it, and the same on the left
  have right : ∀ (k : ℕ) (i : Fin (order + 1)), layer D order x k i = x (k + 1) ∨ h * gap D order ≤ x (k + 1) - layer D order x k i := by
    intro k i
    by_cases e : i = Fin.last order
    · left; rw [e, layer, points_last hD ho]; ring
    · right
      have := gap_le hD ho e
      rw [points_last hD ho, abs_sub_comm, abs_of_nonneg (by have := (points_mem hD ho i).2; linarith)] at this
      rw [layer]
      nlinarith [hx k]
  have left : ∀ (k : ℕ) (i : Fin (order + 1)), layer D order x k i = x k ∨ h * gap D order ≤ layer D order x k i - x k := by
    intro k i
    by_cases e : i = 0
    · left; rw [e, layer, points_first hD ho]; ring
    · right
      have := gap_le hD ho e
      rw [points_first hD ho, sub_zero, abs_of_nonneg (points_mem hD ho i).1] at this
      rw [layer]
      nlinarith [hx k]
  have bounds : ∀ (k : ℕ) (i : Fin (order + 1)), x k ≤ layer D order x k i ∧ layer D order x k i ≤ x (k + 1) := by
    intro k i
    have := points_mem hD ho i
    have := hx k
    rw [layer]
    constructor <;> nlinarith
  have key : ∀ (k l : ℕ) (i j : Fin (order + 1)), k < l → layer D order x k i ≠ layer D order x l j →
      h * gap D order ≤ |layer D order x k i - layer D order x l j| := by
    intro k l i j hkl hne
    have hm : x (k + 1) ≤ x l := hmono hkl
    have b1 := bounds k i
    have b2 := bounds l j
    rw [abs_sub_comm, abs_of_nonneg (by linarith)]
    rcases right k i with e1 | e1
    · rcases left l j with e2 | e2
      · by_cases hl : l = k + 1
        · exact absurd (by rw [e1, e2, hl]) hne
        · have h2 : x (k + 2) ≤ x l := hmono (by omega)
          have h3 := hx (k + 1)
          rw [e1, e2]
          nlinarith
      · linarith
    · linarith
  have goal : h * gap D order ≤ |layer D order x k i - layer D order x l j| := by
    rcases lt_trichotomy k l with hkl | rfl | hkl
    · exact key k l i j hkl hne
    · have hij : i ≠ j := fun e => hne (by rw [e])
      have h1 := gap_le hD ho hij
      rw [layer, layer, add_sub_add_left_eq_sub, ← mul_sub, abs_mul, abs_of_nonneg (by linarith [hx k])]
      exact mul_le_mul (hx k) h1 hg.le (by linarith [hx k])
    · rw [abs_sub_comm]
      exact key l k j i hkl hne.symm
  linarith

/-- Non-vacuity: two boxes on two processes, one stretched, with second order elements; the second process sees the first box as a ghost. -/
example : ∃ m, minimumDoFDistanceGLL sample
    ([(true, (⟨![0, 0], ![![1, 0], ![0, 3]]⟩ : Cell 2))].map Cell.seen)
    ([[(false, ⟨![0, 0], ![![1, 0], ![0, 3]]⟩), (true, ⟨![1, 0], ![![2, 0], ![0, 3]]⟩)]].map fun p => p.map Cell.seen) 2 = .ok m ∧ 0 < m :=
  let ⟨m, h, hm, _⟩ := C116_lower_partial sample_sound (by decide) [(true, (⟨![0, 0], ![![1, 0], ![0, 3]]⟩ : Cell 2))]
    [[(false, ⟨![0, 0], ![![1, 0], ![0, 3]]⟩), (true, ⟨![1, 0], ![![2, 0], ![0, 3]]⟩)]] (by
      intro p hp c hc
      simp only [List.mem_cons, List.not_mem_nil, or_false] at hp
      rcases hp with rfl | rfl <;> simp at hc <;> subst hc <;>
        exact ⟨fun a => by fin_cases a <;> simp, fun a b hab => by fin_cases a <;> fin_cases b <;> simp_all⟩) (by decide)
  ⟨m, h, hm⟩

/-- Non-vacuity: the points for second order, and two layers of nodes that differ -/
example : sample.gaussLobatto 3 = [0, 1 / 2, 1] ∧ layer sample 1 (fun k => k) 3 0 ≠ layer sample 1 (fun k => k) 5 0 := by
  refine ⟨by norm_num [sample, List.range_succ], ?_⟩
  rw [layer, layer, points_first sample_sound (le_refl 1)]
  norm_num

end distances

end Elements
end NATriuM
