import Verif.Model.Distributions
import Verif.Props.Stencils
import Mathlib.Tactic.Linarith

/-!
# C42, C43: the container of distribution functions
-/

namespace NATriuM

namespace Distributions

variable {V : Type*}

/-- The shape every constructor and `reinit` establishes: one block per moving direction. -/
def WellFormed (d : Distributions V) : Prop :=
  0 < d.Q ∧ d.fStream.length = d.Q - 1 ∧ (d.dg = false → d.fStreamGhosted.length = d.Q - 1)

/-- **C42**: writing direction `i` changes exactly direction `i`. -/
theorem C42_slots (d : Distributions V) (hd : WellFormed d) (i : ℕ) (hi : i < d.Q) (v : V) :
    ∃ d', setAt d i v = some d' ∧ WellFormed d' ∧ d'.Q = d.Q ∧ ∀ j, d'.at? j = if j = i then some v else d.at? j := by
  obtain ⟨h0, h1, h2⟩ := hd
  by_cases hi0 : i = 0
  · subst hi0
    refine ⟨{ d with f0 := v }, by simp [setAt, h0], ⟨h0, h1, h2⟩, rfl, fun j => ?_⟩
    by_cases hj : j = 0
    · subst hj; simp [at?, h0]
    · simp [at?, hj]
  · have hl : i - 1 < d.fStream.length := by omega
    refine ⟨{ d with fStream := d.fStream.set (i - 1) v }, by simp [setAt, h0, hi, hi0, hl], ⟨h0, by simp [h1], h2⟩, rfl, fun j => ?_⟩
    by_cases hj : j = i
    · subst hj; simp [at?, h0, hi, hi0, hl]
    · by_cases hj0 : j = 0
      · subst hj0; simp [at?, Ne.symm hi0]
      · have : i - 1 ≠ j - 1 := by omega
        simp [at?, hj, hj0, List.getElem?_set_ne this]

/-- **C42**: an index is valid exactly if it is below `Q`. -/
theorem C42_range (d : Distributions V) (hd : WellFormed d) (i : ℕ) (v : V) :
    ((d.at? i).isSome ↔ i < d.Q) ∧ ((d.atGhosted? i).isSome ↔ i < d.Q) ∧ ((setAt d i v).isSome ↔ i < d.Q) := by
  obtain ⟨h0, h1, h2⟩ := hd
  refine ⟨?_, ?_, ?_⟩
  · unfold at?
    by_cases hi : i < d.Q
    · by_cases hi0 : i = 0
      · simp [h0, hi0]
      · have : i - 1 < d.fStream.length := by omega
        simp [h0, hi, hi0, this]
    · simp [hi]
  · unfold atGhosted? at?
    by_cases hi : i < d.Q
    · by_cases hi0 : i = 0
      · cases hdg : d.dg <;> simp [h0, hi0]
      · have : i - 1 < d.fStream.length := by omega
        cases hdg : d.dg
        · have h2' := h2 hdg
          have : i - 1 < d.fStreamGhosted.length := by omega
          simp [h0, hi, hi0, this]
        · simp [h0, hi, hi0, this]
    · simp [hi]
  · unfold setAt
    by_cases hi : i < d.Q
    · by_cases hi0 : i = 0
      · simp [h0, hi0]
      · have : i - 1 < d.fStream.length := by omega
        simp [h0, hi, hi0, this]
    · simp [hi]

/-- **C42**: after any sequence of valid writes each direction holds the last value written to it. -/
theorem C42_history (ws : List (ℕ × V)) (d : Distributions V) (hd : WellFormed d) (hw : ∀ w ∈ ws, w.1 < d.Q) :
    ∃ d', ws.foldlM (fun d w => setAt d w.1 w.2) d = some d' ∧ WellFormed d' ∧
      ∀ j, d'.at? j = match ws.reverse.find? (fun w => w.1 = j) with | some w => some w.2 | none => d.at? j := by
  induction ws generalizing d with
  | nil => exact ⟨d, rfl, hd, fun j => rfl⟩
  | cons w ws ih =>
    obtain ⟨d1, h1, hd1, hQ, hat⟩ := C42_slots d hd w.1 (hw w (by simp)) w.2
    obtain ⟨d', h', hd', hat'⟩ := ih d1 hd1 (fun x hx => by rw [hQ]; exact hw x (by simp [hx]))
    refine ⟨d', by simp [h1, h'], hd', fun j => ?_⟩
    rw [hat' j, hat j, List.reverse_cons, List.find?_append]
    cases hf : ws.reverse.find? (fun w => w.1 = j) with
    | some x => simp
    | none =>
      by_cases hj : j = w.1
      · subst hj; simp
      · simp [Ne.symm hj, hj]

/-- **C42**: copying copies every direction (and its ghosted view); the flag of the destination is kept; the source is a value and hence
unaffected; containers of different size are rejected. -/
theorem C42_copy (d other : Distributions V) (ho : WellFormed other) :
    (d.Q = other.Q → ∃ d', assign d other = some d' ∧ WellFormed d' ∧ d'.dg = d.dg ∧ ∀ i, d'.at? i = other.at? i ∧
      d'.atGhosted? i = other.at? i) ∧ (d.Q ≠ other.Q → assign d other = none) := by
  obtain ⟨h0, h1, h2⟩ := ho
  constructor
  · intro hQ
    refine ⟨_, if_pos hQ.symm, ?_⟩
    unfold updateGhosted
    cases hdg : d.dg
    · refine ⟨⟨by simp [hQ, h0], by simp [hQ, h1], fun _ => by simp [hQ, h1]⟩, by simp, fun i => ?_⟩
      constructor
      · simp [at?, hQ]
      · simp [at?, atGhosted?, hQ]
    · refine ⟨⟨by simp [hQ, h0], by simp [hQ, h1], fun h => by simp at h⟩, by simp, fun i => ?_⟩
      constructor
      · simp [at?, hQ]
      · simp only [at?, atGhosted?, hQ, if_true]
        by_cases hi : other.Q > 0 ∧ i < other.Q <;> simp [hi]
  · intro hQ
    simp [assign, Ne.symm hQ]

/-- **C42**: after `updateGhosted` the ghosted view agrees with the data, whatever happened before. -/
theorem C42_ghosted (d : Distributions V) (i : ℕ) : (updateGhosted d).atGhosted? i = d.at? i := by
  unfold updateGhosted
  cases hdg : d.dg
  · simp [atGhosted?, at?]
  · simp only [at?, atGhosted?, hdg, if_true]
    by_cases hi : d.Q > 0 ∧ i < d.Q <;> simp [hi]

/-- **C42**: construction. -/
theorem C42_reinit (Q : ℕ) (hQ : 0 < Q) (z : V) (dg : Bool) :
    ∃ d, reinitGhosted Q z dg = some d ∧ WellFormed d ∧ d.Q = Q ∧ ∀ i < Q, d.at? i = some z := by
  have hQ' : Q ≠ 0 := by omega
  refine ⟨_, if_neg hQ', ?_⟩
  have key : ∀ i < Q, (⟨Q, z, List.replicate (Q - 1) z, z, List.replicate (Q - 1) z, dg⟩ : Distributions V).at? i = some z := by
    intro i hi
    by_cases hi0 : i = 0
    · simp [at?, hi0, hQ]
    · have : i - 1 < Q - 1 := by omega
      simp [at?, hi, hi0, hQ, this]
  cases dg
  · exact ⟨⟨hQ, by simp [updateGhosted], fun _ => by simp [updateGhosted]⟩, rfl, key⟩
  · exact ⟨⟨hQ, by simp [updateGhosted], fun h => by simp [updateGhosted] at h⟩, rfl, key⟩

/-- **C42**: construction from a list of vectors. -/
theorem C42_ofVector (e : V) (f : List V) (hf : f ≠ []) :
    ∃ d, ofVector e f true = some d ∧ WellFormed d ∧ d.Q = f.length ∧ ∀ i, d.at? i = f[i]? := by
  match f with
  | a :: rest =>
    refine ⟨⟨rest.length + 1, a, rest, e, [], true⟩, rfl, ⟨by simp, by simp, fun h => by simp at h⟩, by simp, fun i => ?_⟩
    cases i with
    | zero => simp [at?]
    | succ i =>
      by_cases hi : i < rest.length
      · simp [at?, hi]
      · simp only [at?]
        simp [hi]

/-- A container with three directions, and a history of writes. -/
example : ∃ d, reinitGhosted 3 (0 : ℕ) false = some d ∧ WellFormed d :=
  let ⟨d, h, hw, _⟩ := C42_reinit 3 (by norm_num) 0 false
  ⟨d, h, hw⟩

/-- A write is not visible in the ghosted view until `updateGhosted` is called (as the documentation of that function warns). -/
example : ∃ d d', reinitGhosted 3 (0 : ℕ) false = some d ∧ setAt d 1 7 = some d' ∧ d'.atGhosted? 1 = some 0 ∧
    (updateGhosted d').atGhosted? 1 = some 7 := ⟨_, _, rfl, rfl, rfl, rfl⟩

section Fields

variable {ι : Type*} [DecidableEq ι] {K : Type*}

lemma zip_self_map {α β : Type*} (l : List α) (g : α → β) : l.zip (l.map g) = l.map fun v => (v, g v) := by
  induction l with
  | nil => rfl
  | cons a l ih => simp [ih]

lemma mapNode_scale [Mul K] (s : K) (d : Distributions (ι → K)) (i : ι) (j : ℕ) :
    (mapNode (fun l => l.map fun x => s * x) d i).at? j = (d.at? j).map fun v => Function.update v i (s * v i) := by
  unfold mapNode at?
  simp only [List.map_cons, List.drop_one, List.tail_cons, List.map_map, zip_self_map]
  by_cases hj : d.Q > 0 ∧ j < d.Q
  · simp only [hj, and_self, if_true]
    by_cases hj0 : j = 0
    · simp [hj0]
    · simp only [hj0, if_false]
      rw [List.getElem?_map]; rfl
  · simp [hj]

/-- **C42**: `scaleF` multiplies every population of every owned node by the factor and leaves the other nodes alone. -/
theorem C42_scaleF [Mul K] (d : Distributions (ι → K)) (s : K) (owned : List ι) (hn : owned.Nodup) (j : ℕ) :
    (d.scaleF s owned).at? j = (d.at? j).map fun v k => if k ∈ owned then s * v k else v k := by
  unfold scaleF
  have hu : ∀ d : Distributions (ι → K), (updateGhosted d).at? j = d.at? j := by
    intro d; unfold updateGhosted; split <;> rfl
  rw [hu]
  induction owned generalizing d with
  | nil => simp
  | cons i l ih =>
    rw [List.foldl_cons, ih _ (List.nodup_cons.1 hn).2, mapNode_scale, Option.map_map]
    congr 1
    funext v k
    simp only [Function.comp, Function.update_apply, List.mem_cons]
    by_cases hk : k = i
    · subst hk; simp [(List.nodup_cons.1 hn).1]
    · simp [hk]

/-- **C42**: `equals` decides whether all populations of all owned nodes agree up to the threshold. -/
theorem C42_equals [Ring K] [LinearOrder K] (d other : Distributions (ι → K)) (hd : WellFormed d) (ho : WellFormed other) (owned : List ι)
    (th : K) : d.equals other owned owned th = true ↔ d.Q = other.Q ∧ ∀ i < d.Q, ∀ a b, d.at? i = some a → other.at? i = some b →
      ∀ j ∈ owned, |a j - b j| ≤ th := by
  unfold equals
  by_cases hQ : d.Q = other.Q
  · have h0 : d.Q ≠ 0 := by have := hd.1; omega
    simp only [hQ, ne_eq, not_true_eq_false, if_false, hQ ▸ h0, List.all_eq_true, List.mem_range, true_and]
    refine forall_congr' fun i => forall_congr' fun hi => ?_
    obtain ⟨a, ha⟩ := Option.isSome_iff_exists.1 (((C42_range d hd i (fun _ => th)).1).2 (hQ ▸ hi))
    obtain ⟨b, hb⟩ := Option.isSome_iff_exists.1 (((C42_range other ho i (fun _ => th)).1).2 hi)
    rw [ha, hb]
    simp only [List.all_eq_true, Option.some.injEq]
    constructor
    · rintro h a' b' rfl rfl j hj
      have := h j hj
      simpa [hj] using this
    · intro h j hj
      have := h a b rfl rfl j hj
      simpa [hj] using this
  · simp [hQ]

example : ∃ d : Distributions (Fin 2 → ℚ), ofVector 0 [![1, 2], ![3, 4]] true = some d ∧ (d.scaleF 2 [1]).at? 1 = some ![3, 8] := by
  obtain ⟨d, hd, -, -, hat⟩ := C42_ofVector (0 : Fin 2 → ℚ) [![1, 2], ![3, 4]] (by simp)
  refine ⟨d, hd, ?_⟩
  rw [C42_scaleF _ _ _ (by simp), hat]
  simp only [List.getElem?_cons_succ, List.getElem?_cons_zero, Option.map_some, Option.some.injEq]
  funext k
  fin_cases k <;> simp
  norm_num

end Fields

end Distributions

/-! ## C43 -/

/-- the classes with a moment basis -/
def StencilType.hasMomentBasis : StencilType → Bool
  | .D2Q9 | .D3Q15 | .D3Q19 | .D3Q27 => true
  | _ => false

lemma StencilType.momentBasis_inverse (t : StencilType) (ht : t.hasMomentBasis) (c : ℝ) (hc : c ≠ 0) : (t.momentBasis c).det ≠ 0 := by
  have key : HasInverse (t.momentBasis c) := by
    have := C06_momentBasis_invertible c hc
    cases t <;> first | exact this.1 | exact this.2.1 | exact this.2.2.1 | exact this.2.2.2 | cases ht
  obtain ⟨N, h1, -⟩ := key
  intro h0
  have := congrArg Matrix.det h1
  rw [Matrix.det_mul, h0, zero_mul, Matrix.det_one] at this
  exact zero_ne_one this

/-- the first row of the basis is constant, and each velocity component is one of the rows -/
lemma StencilType.momentBasis_rows (t : StencilType) (ht : t.hasMomentBasis) :
    (∃ i, ∀ c α, t.momentBasis c i α = 1) ∧ ∀ a : Fin t.D, ∃ i, ∀ c α, t.momentBasis c i α = (t.stencil c).dir α a := by
  cases t with
  | D2Q9 => exact ⟨⟨(0 : Fin 9), fun c α => rfl⟩, fun a => match a with
      | ⟨0, _⟩ => ⟨(3 : Fin 9), fun c α => rfl⟩
      | ⟨1, _⟩ => ⟨(5 : Fin 9), fun c α => rfl⟩
      | ⟨k + 2, h⟩ => absurd h (by change ¬ k + 2 < 2; omega)⟩
  | D3Q15 => exact ⟨⟨(0 : Fin 15), fun c α => rfl⟩, fun a => match a with
      | ⟨0, _⟩ => ⟨(3 : Fin 15), fun c α => rfl⟩
      | ⟨1, _⟩ => ⟨(5 : Fin 15), fun c α => rfl⟩
      | ⟨2, _⟩ => ⟨(7 : Fin 15), fun c α => rfl⟩
      | ⟨k + 3, h⟩ => absurd h (by change ¬ k + 3 < 3; omega)⟩
  | D3Q19 => exact ⟨⟨(0 : Fin 19), fun c α => rfl⟩, fun a => match a with
      | ⟨0, _⟩ => ⟨(3 : Fin 19), fun c α => rfl⟩
      | ⟨1, _⟩ => ⟨(5 : Fin 19), fun c α => rfl⟩
      | ⟨2, _⟩ => ⟨(7 : Fin 19), fun c α => rfl⟩
      | ⟨k + 3, h⟩ => absurd h (by change ¬ k + 3 < 3; omega)⟩
  | D3Q27 => exact ⟨⟨(0 : Fin 27), fun c α => rfl⟩, fun a => match a with
      | ⟨0, _⟩ => ⟨(1 : Fin 27), fun c α => rfl⟩
      | ⟨1, _⟩ => ⟨(2 : Fin 27), fun c α => rfl⟩
      | ⟨2, _⟩ => ⟨(3 : Fin 27), fun c α => rfl⟩
      | ⟨k + 3, h⟩ => absurd h (by change ¬ k + 3 < 3; omega)⟩
  | _ => cases ht

/-- **C43** (main part). For the stencils with a moment basis, rescaling from scaling `old` to `new` keeps the density and the momentum
(hence the macroscopic velocity) of every node, unless the speeds of sound differ by less than `1e-5`. -/
theorem C43_transfer_partial (t : StencilType) (ht : t.hasMomentBasis) (old new : ℝ) (hnew : new ≠ 0)
    (hcs : 1 / 10 ^ 5 ≤ |Real.sqrt (t.stencil old).cs2 - Real.sqrt (t.stencil new).cs2|) (f : Fin t.Q → ℝ) :
    ∃ g, transferNode t old new f = some g ∧ ∑ α, g α = ∑ α, f α ∧
      ∀ a, ∑ α, g α * (t.stencil new).dir α a = ∑ α, f α * (t.stencil old).dir α a := by
  have hdet := t.momentBasis_inverse ht new hnew
  refine ⟨_, by unfold transferNode; rw [if_neg (not_lt.2 hcs), if_neg hdet], ?_⟩
  have hM : (t.momentBasis new).mulVec (((t.momentBasis new)⁻¹ * t.momentBasis old).mulVec f) = (t.momentBasis old).mulVec f := by
    rw [Matrix.mulVec_mulVec, ← Matrix.mul_assoc, Matrix.mul_nonsing_inv _ (isUnit_iff_ne_zero.2 hdet), Matrix.one_mul]
  generalize ((t.momentBasis new)⁻¹ * t.momentBasis old).mulVec f = g at hM
  have hrow : ∀ i, ∑ α, t.momentBasis new i α * g α = ∑ α, t.momentBasis old i α * f α := fun i => congrFun hM i
  constructor
  · obtain ⟨⟨i, hi⟩, -⟩ := t.momentBasis_rows ht
    have := hrow i
    simpa [hi] using this
  · intro a
    obtain ⟨i, hi⟩ := (t.momentBasis_rows ht).2 a
    have := hrow i
    simpa [hi, mul_comm] using this

/-- **C43**: going back to the old scaling restores the populations. -/
theorem C43_roundtrip (t : StencilType) (ht : t.hasMomentBasis) (old new : ℝ) (hold : old ≠ 0) (hnew : new ≠ 0) (f g : Fin t.Q → ℝ)
    (h : transferNode t old new f = some g) : transferNode t new old g = some f := by
  have h1 := t.momentBasis_inverse ht new hnew
  have h2 := t.momentBasis_inverse ht old hold
  unfold transferNode at h ⊢
  rw [abs_sub_comm]
  by_cases hc : |Real.sqrt (t.stencil old).cs2 - Real.sqrt (t.stencil new).cs2| < 1 / 10 ^ 5
  · rw [if_pos hc] at h ⊢
    rw [Option.some.inj h]
  · rw [if_neg hc, if_neg h1] at h
    rw [if_neg hc, if_neg h2]
    rw [← Option.some.inj h, Matrix.mulVec_mulVec, Matrix.mul_assoc, ← Matrix.mul_assoc (t.momentBasis new),
      Matrix.mul_nonsing_inv _ (isUnit_iff_ne_zero.2 h1), Matrix.one_mul, Matrix.nonsing_inv_mul _ (isUnit_iff_ne_zero.2 h2),
      Matrix.one_mulVec]

/-- **C43 fails** for the stencils without a moment basis: the populations are kept, so the momentum is multiplied by `new/old`. -/
theorem C43_unit_fails (t : StencilType) (ht : t.hasMomentBasis = false) (old new : ℝ) (f : Fin t.Q → ℝ) : transferNode t old new f = some f := by
  have : ∀ c, t.momentBasis c = 1 := by
    intro c
    cases t <;> first | rfl | cases ht
  unfold transferNode
  rw [this, this]
  simp

/-- … with a witness: a population moving to the right on D2Q25H. -/
theorem C43_unit_witness : ∃ (f : Fin 25 → ℝ) (a : Fin 2), ∃ g, transferNode .D2Q25H 1 2 f = some g ∧
    ∑ α, g α * (StencilType.D2Q25H.stencil 2).dir α a ≠ ∑ α, f α * (StencilType.D2Q25H.stencil 1).dir α a := by
  refine ⟨Pi.single (1 : Fin 25) 1, 0, (Pi.single (1 : Fin 25) 1 : Fin 25 → ℝ), C43_unit_fails .D2Q25H rfl 1 2 _, ?_⟩
  have key : ∀ c, ∑ α, (Pi.single 1 1 : Fin 25 → ℝ) α * (StencilType.D2Q25H.stencil c).dir α (0 : Fin 2) = c * √(5 - √10) / √3 := by
    intro c
    rw [Finset.sum_eq_single (1 : Fin 25)]
    · rw [Pi.single_eq_same, one_mul]; rfl
    · intro α _ hα; rw [Pi.single_eq_of_ne hα, zero_mul]
    · intro h; exact absurd (Finset.mem_univ _) h
  have h10 : √10 < 5 := by rw [Real.sqrt_lt' (by norm_num)]; norm_num
  have h1 : 0 < √(5 - √10) := Real.sqrt_pos.2 (by linarith)
  have h3 : 0 < √(3 : ℝ) := Real.sqrt_pos.2 (by norm_num)
  have : 0 < √(5 - √10) / √3 := div_pos h1 h3
  intro h
  have h2 := (key 2).symm.trans (h.trans (key 1))
  rw [mul_div_assoc, mul_div_assoc] at h2
  linarith

/-- the hypotheses of `C43_transfer_partial` are met for D2Q9 from scaling 1 to scaling 2 -/
example : 1 / 10 ^ 5 ≤ |Real.sqrt (StencilType.D2Q9.stencil 1).cs2 - Real.sqrt (StencilType.D2Q9.stencil 2).cs2| := by
  have e1 : (StencilType.D2Q9.stencil 1).cs2 = (1 : ℝ) * 1 / 3 := rfl
  have e2 : (StencilType.D2Q9.stencil 2).cs2 = (2 : ℝ) * 2 / 3 := rfl
  have h : √((2 : ℝ) * 2 / 3) = 2 * √((1 : ℝ) * 1 / 3) := by
    rw [show (2 : ℝ) * 2 / 3 = 2 ^ 2 * (1 * 1 / 3) by norm_num, Real.sqrt_mul (by norm_num), Real.sqrt_sq (by norm_num)]
  have h2 : (1 : ℝ) / 2 ≤ √((1 : ℝ) * 1 / 3) := Real.le_sqrt_of_sq_le (by norm_num)
  rw [e1, e2, h, abs_sub_comm, abs_of_nonneg (by linarith)]
  have : (1 : ℝ) / 10 ^ 5 ≤ 1 / 2 := by norm_num
  linarith

end NATriuM
