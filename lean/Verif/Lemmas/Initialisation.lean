import Verif.Spec.Initialisation
import Verif.Lemmas.Collision
import Mathlib.Algebra.BigOperators.Fin
import Mathlib.Tactic.FieldSimp
import Mathlib.Tactic.Ring

/-!
# Lemmas on the initial fields and distributions
-/

namespace NATriuM.Init

open Finset NATriuM.Spec

section fields

variable {ι K : Type*} [DecidableEq ι]

theorem setDofs_apply (isOwned : ι → Bool) (value : ι → K) (dofs : List ι) (v : ι → K) (n : ι) :
    dofs.foldl (fun v n => if isOwned n then Function.update v n (value n) else v) v n
      = if isOwned n = true ∧ n ∈ dofs then value n else v n := by
  induction dofs generalizing v with
  | nil => simp
  | cons m rest ih =>
    rw [List.foldl_cons, ih]
    by_cases hn : n = m
    · subst hn
      by_cases ho : isOwned n = true <;> by_cases hr : n ∈ rest <;> simp [ho, hr]
    · by_cases ho : isOwned m = true <;> simp [ho, hn, Function.update_of_ne]

open scoped Classical in
theorem applyInitial_apply (isOwned : ι → Bool) (value : ι → K) (cells : List (FieldCell ι)) (v : ι → K) (n : ι) :
    applyInitial isOwned value cells v n = if isOwned n = true ∧ InOwnedCell cells n then value n else v n := by
  have key : ∀ v, applyInitial isOwned value cells v n = if isOwned n = true ∧ InOwnedCell cells n then value n else v n := by
    induction cells with
    | nil => intro v; simp [applyInitial, InOwnedCell]
    | cons cell rest ih =>
      intro v
      have h1 : applyInitial isOwned value (cell :: rest) v
          = applyInitial isOwned value rest (if cell.owned then
            cell.dofs.foldl (fun v n => if isOwned n then Function.update v n (value n) else v) v else v) := rfl
      have h2 : InOwnedCell (cell :: rest) n ↔ (cell.owned = true ∧ n ∈ cell.dofs) ∨ InOwnedCell rest n := by
        simp [InOwnedCell]
      rw [h1, ih, h2]
      by_cases ho : cell.owned = true
      · rw [if_pos ho, setDofs_apply]
        by_cases ha : isOwned n = true <;> by_cases hb : n ∈ cell.dofs <;> by_cases hc : InOwnedCell rest n <;> simp [ha, hb, hc, ho]
      · simp [ho]
  rw [key]

theorem addToDofs_apply [Add K] (value : ι → K) (dofs : List ι) (s : (ι → K) × List ι) (n : ι) :
    (addToDofs value dofs s).1 n = (if n ∈ dofs ∧ n ∉ s.2 then s.1 n + value n else s.1 n) ∧
      (n ∈ (addToDofs value dofs s).2 ↔ n ∈ dofs ∨ n ∈ s.2) := by
  induction dofs generalizing s with
  | nil => simp [addToDofs]
  | cons m rest ih =>
    have h1 : addToDofs value (m :: rest) s
        = addToDofs value rest (if m ∈ s.2 then s else (Function.update s.1 m (s.1 m + value m), m :: s.2)) := rfl
    rw [h1, (ih _).1, (ih _).2]
    by_cases hm : m ∈ s.2
    · rw [if_pos hm]
      by_cases hn : n = m
      · subst hn; simp [hm]
      · simp [hn]
    · rw [if_neg hm]
      by_cases hn : n = m
      · subst hn; simp [hm]
      · simp [hn, Function.update_of_ne]

open scoped Classical in
theorem addToVelocity_apply [Add K] (value : ι → K) (cells : List (FieldCell ι)) (v : ι → K) (n : ι) :
    addToVelocity value cells v n = if InOwnedCell cells n then v n + value n else v n := by
  have key : ∀ s : (ι → K) × List ι,
      (cells.foldl (fun s cell => if cell.owned then addToDofs value cell.dofs s else s) s).1 n
        = if InOwnedCell cells n ∧ n ∉ s.2 then s.1 n + value n else s.1 n := by
    induction cells with
    | nil => intro s; simp [InOwnedCell]
    | cons cell rest ih =>
      intro s
      have h2 : InOwnedCell (cell :: rest) n ↔ (cell.owned = true ∧ n ∈ cell.dofs) ∨ InOwnedCell rest n := by
        simp [InOwnedCell]
      rw [List.foldl_cons, ih, h2]
      by_cases ho : cell.owned = true
      · rw [if_pos ho]
        simp only [(addToDofs_apply value cell.dofs s n).1, (addToDofs_apply value cell.dofs s n).2]
        by_cases ha : n ∈ s.2 <;> by_cases hb : n ∈ cell.dofs <;> by_cases hc : InOwnedCell rest n <;> simp [ha, hb, hc, ho]
      · simp [ho]
  unfold addToVelocity
  rw [key]
  simp only [List.not_mem_nil, not_false_eq_true, and_true]

end fields

section distributions

variable {ι K : Type*} [DecidableEq ι] [Field K] {D Q : ℕ}

theorem foldl_update_apply {β : Type*} (val : ι → β) (owned : List ι) (f : ι → β) (n : ι) :
    owned.foldl (fun f n => Function.update f n (val n)) f n = if n ∈ owned then val n else f n := by
  induction owned generalizing f with
  | nil => simp
  | cons m rest ih =>
    rw [List.foldl_cons, ih]
    by_cases hn : n = m
    · subst hn; simp
    · simp [hn, Function.update_of_ne]

omit [Field K] in
theorem toEquilibrium_apply (feq : (Fin D → K) → K → Fin Q → K) (owned : List ι) (rho : ι → K) (u : Fin D → ι → K) (f : ι → Fin Q → K) (n : ι) :
    toEquilibrium feq owned rho u f n = if n ∈ owned then feq (fun j => u j n) (rho n) else f n :=
  foldl_update_apply (fun n => feq (fun j => u j n) (rho n)) owned f n

theorem addGradients_eq (S : Stencil K D Q) (tau : K) (cells : List (Bool × List (GradPoint ι K D))) (f : ι → Fin Q → K) :
    addGradients S tau cells f = addPoints S tau (ownedPoints cells) f := by
  induction cells generalizing f with
  | nil => rfl
  | cons cell rest ih =>
    have h1 : addGradients S tau (cell :: rest) f = addGradients S tau rest (if cell.1 then addPoints S tau cell.2 f else f) := rfl
    rw [h1, ih]
    unfold ownedPoints addPoints
    rw [List.flatMap_cons, List.foldl_append]
    by_cases h : cell.1 = true <;> simp [h]

/-- Every linear functional of the distributions of a node changes by the sum of the contributions of the points of that node. -/
theorem addPoints_linear (S : Stencil K D Q) (tau : K) (points : List (GradPoint ι K D)) (f : ι → Fin Q → K) (n : ι) (w : Fin Q → K) :
    ∑ i, addPoints S tau points f n i * w i
      = ∑ i, f n i * w i + ((points.filter (·.dof = n)).map fun p => ∑ i, fneq S (tau + 1 / 2) p i * w i).sum := by
  induction points generalizing f with
  | nil => simp [addPoints]
  | cons p rest ih =>
    have h1 : addPoints S tau (p :: rest) f
        = addPoints S tau rest (Function.update f p.dof fun i => f p.dof i + fneq S (tau + 1 / 2) p i) := rfl
    rw [h1, ih]
    by_cases hn : p.dof = n
    · subst hn
      simp only [Function.update_self, decide_true, List.filter_cons_of_pos, List.map_cons, List.sum_cons]
      simp only [add_mul, Finset.sum_add_distrib]
      ring
    · have hn' : n ≠ p.dof := fun h => hn h.symm
      simp [hn, hn', Function.update_of_ne]

omit [DecidableEq ι] in
/-- A moment of the non-equilibrium part. -/
theorem fneq_moment (S : Stencil K D Q) (tau : K) (p : GradPoint ι K D) (g : Fin Q → K) :
    ∑ i, fneq S tau p i * g i = ∑ b, ∑ c, (-1 * tau * p.rho / S.cs2 * 1 * p.grad b c) *
      ((∑ i, S.weight i * (S.dir i b * S.dir i c * g i)) - S.cs2 * δ b c * ∑ i, S.weight i * g i) := by
  have : ∀ i, fneq S tau p i * g i = ∑ b, ∑ c, (-1 * tau * p.rho / S.cs2 * 1 * p.grad b c) *
      (S.weight i * (S.dir i b * S.dir i c * g i) - S.cs2 * δ b c * (S.weight i * g i)) := fun i => by
    unfold fneq
    rw [Finset.sum_mul, Finset.sum_mul]
    refine Finset.sum_congr rfl fun b _ => ?_
    rw [Finset.sum_mul, Finset.sum_mul]
    refine Finset.sum_congr rfl fun c _ => ?_
    rw [eye_eq]; ring
  simp only [this]
  rw [Finset.sum_comm]
  refine Finset.sum_congr rfl fun b _ => ?_
  rw [Finset.sum_comm]
  refine Finset.sum_congr rfl fun c _ => ?_
  rw [← Finset.mul_sum, Finset.sum_sub_distrib, ← Finset.mul_sum]

omit [DecidableEq ι] in
theorem fneq_mass {S : Stencil K D Q} (h : Iso4 S.weight S.dir S.cs2) (tau : K) (p : GradPoint ι K D) : ∑ i, fneq S tau p i * 1 = 0 := by
  rw [fneq_moment S tau p fun _ => 1]
  simp only [mul_one, h.m2, h.m0, sub_self, mul_zero, Finset.sum_const_zero]

omit [DecidableEq ι] in
theorem fneq_momentum {S : Stencil K D Q} (h : Iso4 S.weight S.dir S.cs2) (tau : K) (p : GradPoint ι K D) (a : Fin D) :
    ∑ i, fneq S tau p i * S.dir i a = 0 := by
  rw [fneq_moment S tau p fun i => S.dir i a]
  simp only [h.m3, h.m1, sub_self, mul_zero, Finset.sum_const_zero]

omit [DecidableEq ι] in
theorem fneq_flux {S : Stencil K D Q} (h : Iso4 S.weight S.dir S.cs2) (hc : S.cs2 ≠ 0) (tau : K) (p : GradPoint ι K D) (a b : Fin D) :
    ∑ i, fneq S tau p i * (S.dir i a * S.dir i b) = -(tau * p.rho * S.cs2) * (p.grad a b + p.grad b a) := by
  rw [fneq_moment S tau p fun i => S.dir i a * S.dir i b]
  have h4 : ∀ p q, ∑ i, S.weight i * (S.dir i p * S.dir i q * (S.dir i a * S.dir i b))
      = S.cs2 ^ 2 * (δ p q * δ a b + δ p a * δ q b + δ p b * δ q a) := fun p q => by
    rw [← h.m4 p q a b]; exact Finset.sum_congr rfl fun i _ => by ring
  simp only [h4, h.m2]
  have h5 : ∀ s t : Fin D, (-1 * tau * p.rho / S.cs2 * 1 * p.grad s t) *
      (S.cs2 ^ 2 * (δ s t * δ a b + δ s a * δ t b + δ s b * δ t a) - S.cs2 * δ s t * (S.cs2 * δ a b))
      = -(tau * p.rho * S.cs2) * (p.grad s t * δ t b) * δ s a + -(tau * p.rho * S.cs2) * (p.grad s t * δ t a) * δ s b := fun s t => by
    field_simp; ring
  simp only [h5, Finset.sum_add_distrib, ← Finset.sum_mul, ← Finset.mul_sum, sum_δ]
  ring

end distributions

section quartic

variable {K : Type*} [Field K] [CharZero K] {Q : ℕ}

/-- The coefficient of the third Hermite polynomial. -/
def coeff3 {D : ℕ} (d : CollData K D Q) (m : Macro K D) (a b c : Fin D) : K :=
  m.u a * m.u b * m.u c + d.cs2 * (m.T - 1) * (eye a b * m.u c + eye b c * m.u a + eye a c * m.u b)

/-- The coefficient of the fourth Hermite polynomial. -/
def coeff4 {D : ℕ} (d : CollData K D Q) (m : Macro K D) (a b c f : Fin D) : K :=
  m.u a * m.u b * m.u c * m.u f + d.cs2 * (m.T - 1) * (m.u a * m.u b * eye c f + m.u a * m.u c * eye b f + m.u a * m.u f * eye b c
    + m.u b * m.u c * eye a f + m.u b * m.u f * eye a c + m.u c * m.u f * eye a b
    + d.cs2 * (m.T - 1) * (eye a b * eye c f + eye a c * eye b f + eye a f * eye b c))

theorem calcQuartic2 (d : CollData K 2 Q) (m : Macro K 2) (hc : d.cs2 ≠ 0) :
    calcQuarticEquilibrium m.rho m.u m.T d.cs2 d.e d.weight = quarticEquilibrium2 d m := by
  funext i
  simp only [calcQuarticEquilibrium, quarticEquilibrium2, quarticBase, calculateH3, calculateH4, eye, Fin.sum_univ_two, Fin.isValue,
    if_true, if_false, zero_ne_one, one_ne_zero]
  field_simp
  ring

theorem quartic_split {D : ℕ} (d : CollData K D Q) (m : Macro K D) (i : Fin Q) :
    calcQuarticEquilibrium m.rho m.u m.T d.cs2 d.e d.weight i = quarticBase d m i
      + d.weight i * m.rho / (6 * d.cs2 * d.cs2 * d.cs2) * ∑ a, ∑ b, ∑ c, coeff3 d m a b c * calculateH3 d.cs2 d.e i a b c
      + d.weight i * m.rho / (24 * d.cs2 * d.cs2 * d.cs2 * d.cs2)
        * ∑ a, ∑ b, ∑ c, ∑ f, coeff4 d m a b c f * calculateH4 d.cs2 d.e i a b c f := by
  simp only [Finset.mul_sum]
  have e3 : ∀ a b c, d.weight i * m.rho / (6 * d.cs2 * d.cs2 * d.cs2) * (coeff3 d m a b c * calculateH3 d.cs2 d.e i a b c)
      = d.weight i * m.rho / (6 * d.cs2 * d.cs2 * d.cs2)
          * (m.u a * m.u b * m.u c + d.cs2 * (m.T - 1) * (eye a b * m.u c + eye b c * m.u a + eye a c * m.u b))
          * (d.e i a * d.e i b * d.e i c - d.cs2 * (d.e i c * eye a b + d.e i b * eye a c + d.e i a * eye b c)) := fun a b c => by
    unfold coeff3 calculateH3; ring
  have e4 : ∀ a b c f, d.weight i * m.rho / (24 * d.cs2 * d.cs2 * d.cs2 * d.cs2) * (coeff4 d m a b c f * calculateH4 d.cs2 d.e i a b c f)
      = d.weight i * m.rho / (24 * d.cs2 * d.cs2 * d.cs2 * d.cs2) * calculateH4 d.cs2 d.e i a b c f * coeff4 d m a b c f := fun a b c f => by
    ring
  simp only [e3, e4]
  unfold calcQuarticEquilibrium quarticBase
  simp only [Finset.sum_add_distrib]
  rw [add_assoc, add_assoc, add_assoc]
  rfl

theorem calcQuartic3 (d : CollData K 3 Q) (m : Macro K 3) :
    calcQuarticEquilibrium m.rho m.u m.T d.cs2 d.e d.weight = quarticEquilibrium3 d m := by
  funext i
  rw [quartic_split]
  have h02 : (0 : Fin 3) ≠ 2 := by decide
  have h20 : (2 : Fin 3) ≠ 0 := by decide
  have h12 : (1 : Fin 3) ≠ 2 := by decide
  have h21 : (2 : Fin 3) ≠ 1 := by decide
  have H3s : ∀ a b c, calculateH3 d.cs2 d.e i a b c = calculateH3 d.cs2 d.e i b a c ∧
      calculateH3 d.cs2 d.e i a b c = calculateH3 d.cs2 d.e i a c b := fun a b c => by
    simp only [calculateH3, eye_eq, δ_comm b a, δ_comm c b]; constructor <;> ring
  have H4s : ∀ a b c f, calculateH4 d.cs2 d.e i a b c f = calculateH4 d.cs2 d.e i b a c f ∧
      calculateH4 d.cs2 d.e i a b c f = calculateH4 d.cs2 d.e i a c b f ∧
      calculateH4 d.cs2 d.e i a b c f = calculateH4 d.cs2 d.e i a b f c := fun a b c f => by
    simp only [calculateH4, eye_eq, δ_comm b a, δ_comm c b, δ_comm f c]; refine ⟨?_, ?_, ?_⟩ <;> ring
  simp only [quarticEquilibrium3]
  generalize calculateH3 d.cs2 d.e i = H3 at *
  generalize calculateH4 d.cs2 d.e i = H4 at *
  have q010 : H3 0 1 0 = H3 0 0 1 := (H3s 0 1 0).2
  have q020 : H3 0 2 0 = H3 0 0 2 := (H3s 0 2 0).2
  have q021 : H3 0 2 1 = H3 0 1 2 := (H3s 0 2 1).2
  have q100 : H3 1 0 0 = H3 0 0 1 := (((H3s 1 0 0).1).trans (H3s 0 1 0).2)
  have q101 : H3 1 0 1 = H3 0 1 1 := (H3s 1 0 1).1
  have q102 : H3 1 0 2 = H3 0 1 2 := (H3s 1 0 2).1
  have q110 : H3 1 1 0 = H3 0 1 1 := (((H3s 1 1 0).2).trans (H3s 1 0 1).1)
  have q120 : H3 1 2 0 = H3 0 1 2 := (((H3s 1 2 0).2).trans (H3s 1 0 2).1)
  have q121 : H3 1 2 1 = H3 1 1 2 := (H3s 1 2 1).2
  have q200 : H3 2 0 0 = H3 0 0 2 := (((H3s 2 0 0).1).trans (H3s 0 2 0).2)
  have q201 : H3 2 0 1 = H3 0 1 2 := (((H3s 2 0 1).1).trans (H3s 0 2 1).2)
  have q202 : H3 2 0 2 = H3 0 2 2 := (H3s 2 0 2).1
  have q210 : H3 2 1 0 = H3 0 1 2 := (((((H3s 2 1 0).1).trans (H3s 1 2 0).2)).trans (H3s 1 0 2).1)
  have q211 : H3 2 1 1 = H3 1 1 2 := (((H3s 2 1 1).1).trans (H3s 1 2 1).2)
  have q212 : H3 2 1 2 = H3 1 2 2 := (H3s 2 1 2).1
  have q220 : H3 2 2 0 = H3 0 2 2 := (((H3s 2 2 0).2).trans (H3s 2 0 2).1)
  have q221 : H3 2 2 1 = H3 1 2 2 := (((H3s 2 2 1).2).trans (H3s 2 1 2).1)
  have q0010 : H4 0 0 1 0 = H4 0 0 0 1 := (H4s 0 0 1 0).2.2
  have q0020 : H4 0 0 2 0 = H4 0 0 0 2 := (H4s 0 0 2 0).2.2
  have q0021 : H4 0 0 2 1 = H4 0 0 1 2 := (H4s 0 0 2 1).2.2
  have q0100 : H4 0 1 0 0 = H4 0 0 0 1 := (((H4s 0 1 0 0).2.1).trans (H4s 0 0 1 0).2.2)
  have q0101 : H4 0 1 0 1 = H4 0 0 1 1 := (H4s 0 1 0 1).2.1
  have q0102 : H4 0 1 0 2 = H4 0 0 1 2 := (H4s 0 1 0 2).2.1
  have q0110 : H4 0 1 1 0 = H4 0 0 1 1 := (((H4s 0 1 1 0).2.2).trans (H4s 0 1 0 1).2.1)
  have q0120 : H4 0 1 2 0 = H4 0 0 1 2 := (((H4s 0 1 2 0).2.2).trans (H4s 0 1 0 2).2.1)
  have q0121 : H4 0 1 2 1 = H4 0 1 1 2 := (H4s 0 1 2 1).2.2
  have q0200 : H4 0 2 0 0 = H4 0 0 0 2 := (((H4s 0 2 0 0).2.1).trans (H4s 0 0 2 0).2.2)
  have q0201 : H4 0 2 0 1 = H4 0 0 1 2 := (((H4s 0 2 0 1).2.1).trans (H4s 0 0 2 1).2.2)
  have q0202 : H4 0 2 0 2 = H4 0 0 2 2 := (H4s 0 2 0 2).2.1
  have q0210 : H4 0 2 1 0 = H4 0 0 1 2 := (((((H4s 0 2 1 0).2.1).trans (H4s 0 1 2 0).2.2)).trans (H4s 0 1 0 2).2.1)
  have q0211 : H4 0 2 1 1 = H4 0 1 1 2 := (((H4s 0 2 1 1).2.1).trans (H4s 0 1 2 1).2.2)
  have q0212 : H4 0 2 1 2 = H4 0 1 2 2 := (H4s 0 2 1 2).2.1
  have q0220 : H4 0 2 2 0 = H4 0 0 2 2 := (((H4s 0 2 2 0).2.2).trans (H4s 0 2 0 2).2.1)
  have q0221 : H4 0 2 2 1 = H4 0 1 2 2 := (((H4s 0 2 2 1).2.2).trans (H4s 0 2 1 2).2.1)
  have q1000 : H4 1 0 0 0 = H4 0 0 0 1 := (((((H4s 1 0 0 0).1).trans (H4s 0 1 0 0).2.1)).trans (H4s 0 0 1 0).2.2)
  have q1001 : H4 1 0 0 1 = H4 0 0 1 1 := (((H4s 1 0 0 1).1).trans (H4s 0 1 0 1).2.1)
  have q1002 : H4 1 0 0 2 = H4 0 0 1 2 := (((H4s 1 0 0 2).1).trans (H4s 0 1 0 2).2.1)
  have q1010 : H4 1 0 1 0 = H4 0 0 1 1 := (((((H4s 1 0 1 0).1).trans (H4s 0 1 1 0).2.2)).trans (H4s 0 1 0 1).2.1)
  have q1011 : H4 1 0 1 1 = H4 0 1 1 1 := (H4s 1 0 1 1).1
  have q1012 : H4 1 0 1 2 = H4 0 1 1 2 := (H4s 1 0 1 2).1
  have q1020 : H4 1 0 2 0 = H4 0 0 1 2 := (((((H4s 1 0 2 0).1).trans (H4s 0 1 2 0).2.2)).trans (H4s 0 1 0 2).2.1)
  have q1021 : H4 1 0 2 1 = H4 0 1 1 2 := (((H4s 1 0 2 1).1).trans (H4s 0 1 2 1).2.2)
  have q1022 : H4 1 0 2 2 = H4 0 1 2 2 := (H4s 1 0 2 2).1
  have q1100 : H4 1 1 0 0 = H4 0 0 1 1 := (((((((H4s 1 1 0 0).2.1).trans (H4s 1 0 1 0).1)).trans (H4s 0 1 1 0).2.2)).trans (H4s 0 1 0 1).2.1)
  have q1101 : H4 1 1 0 1 = H4 0 1 1 1 := (((H4s 1 1 0 1).2.1).trans (H4s 1 0 1 1).1)
  have q1102 : H4 1 1 0 2 = H4 0 1 1 2 := (((H4s 1 1 0 2).2.1).trans (H4s 1 0 1 2).1)
  have q1110 : H4 1 1 1 0 = H4 0 1 1 1 := (((((H4s 1 1 1 0).2.2).trans (H4s 1 1 0 1).2.1)).trans (H4s 1 0 1 1).1)
  have q1120 : H4 1 1 2 0 = H4 0 1 1 2 := (((((H4s 1 1 2 0).2.2).trans (H4s 1 1 0 2).2.1)).trans (H4s 1 0 1 2).1)
  have q1121 : H4 1 1 2 1 = H4 1 1 1 2 := (H4s 1 1 2 1).2.2
  have q1200 : H4 1 2 0 0 = H4 0 0 1 2 := (((((((H4s 1 2 0 0).2.1).trans (H4s 1 0 2 0).1)).trans (H4s 0 1 2 0).2.2)).trans (H4s 0 1 0 2).2.1)
  have q1201 : H4 1 2 0 1 = H4 0 1 1 2 := (((((H4s 1 2 0 1).2.1).trans (H4s 1 0 2 1).1)).trans (H4s 0 1 2 1).2.2)
  have q1202 : H4 1 2 0 2 = H4 0 1 2 2 := (((H4s 1 2 0 2).2.1).trans (H4s 1 0 2 2).1)
  have q1210 : H4 1 2 1 0 = H4 0 1 1 2 := (((((((H4s 1 2 1 0).2.1).trans (H4s 1 1 2 0).2.2)).trans (H4s 1 1 0 2).2.1)).trans (H4s 1 0 1 2).1)
  have q1211 : H4 1 2 1 1 = H4 1 1 1 2 := (((H4s 1 2 1 1).2.1).trans (H4s 1 1 2 1).2.2)
  have q1212 : H4 1 2 1 2 = H4 1 1 2 2 := (H4s 1 2 1 2).2.1
  have q1220 : H4 1 2 2 0 = H4 0 1 2 2 := (((((H4s 1 2 2 0).2.2).trans (H4s 1 2 0 2).2.1)).trans (H4s 1 0 2 2).1)
  have q1221 : H4 1 2 2 1 = H4 1 1 2 2 := (((H4s 1 2 2 1).2.2).trans (H4s 1 2 1 2).2.1)
  have q2000 : H4 2 0 0 0 = H4 0 0 0 2 := (((((H4s 2 0 0 0).1).trans (H4s 0 2 0 0).2.1)).trans (H4s 0 0 2 0).2.2)
  have q2001 : H4 2 0 0 1 = H4 0 0 1 2 := (((((H4s 2 0 0 1).1).trans (H4s 0 2 0 1).2.1)).trans (H4s 0 0 2 1).2.2)
  have q2002 : H4 2 0 0 2 = H4 0 0 2 2 := (((H4s 2 0 0 2).1).trans (H4s 0 2 0 2).2.1)
  have q2010 : H4 2 0 1 0 = H4 0 0 1 2 := (((((((H4s 2 0 1 0).1).trans (H4s 0 2 1 0).2.1)).trans (H4s 0 1 2 0).2.2)).trans (H4s 0 1 0 2).2.1)
  have q2011 : H4 2 0 1 1 = H4 0 1 1 2 := (((((H4s 2 0 1 1).1).trans (H4s 0 2 1 1).2.1)).trans (H4s 0 1 2 1).2.2)
  have q2012 : H4 2 0 1 2 = H4 0 1 2 2 := (((H4s 2 0 1 2).1).trans (H4s 0 2 1 2).2.1)
  have q2020 : H4 2 0 2 0 = H4 0 0 2 2 := (((((H4s 2 0 2 0).1).trans (H4s 0 2 2 0).2.2)).trans (H4s 0 2 0 2).2.1)
  have q2021 : H4 2 0 2 1 = H4 0 1 2 2 := (((((H4s 2 0 2 1).1).trans (H4s 0 2 2 1).2.2)).trans (H4s 0 2 1 2).2.1)
  have q2022 : H4 2 0 2 2 = H4 0 2 2 2 := (H4s 2 0 2 2).1
  have q2100 : H4 2 1 0 0 = H4 0 0 1 2 := (((((((((H4s 2 1 0 0).1).trans (H4s 1 2 0 0).2.1)).trans (H4s 1 0 2 0).1)).trans (H4s 0 1 2 0).2.2)).trans (H4s 0 1 0 2).2.1)
  have q2101 : H4 2 1 0 1 = H4 0 1 1 2 := (((((((H4s 2 1 0 1).1).trans (H4s 1 2 0 1).2.1)).trans (H4s 1 0 2 1).1)).trans (H4s 0 1 2 1).2.2)
  have q2102 : H4 2 1 0 2 = H4 0 1 2 2 := (((((H4s 2 1 0 2).1).trans (H4s 1 2 0 2).2.1)).trans (H4s 1 0 2 2).1)
  have q2110 : H4 2 1 1 0 = H4 0 1 1 2 := (((((((((H4s 2 1 1 0).1).trans (H4s 1 2 1 0).2.1)).trans (H4s 1 1 2 0).2.2)).trans (H4s 1 1 0 2).2.1)).trans (H4s 1 0 1 2).1)
  have q2111 : H4 2 1 1 1 = H4 1 1 1 2 := (((((H4s 2 1 1 1).1).trans (H4s 1 2 1 1).2.1)).trans (H4s 1 1 2 1).2.2)
  have q2112 : H4 2 1 1 2 = H4 1 1 2 2 := (((H4s 2 1 1 2).1).trans (H4s 1 2 1 2).2.1)
  have q2120 : H4 2 1 2 0 = H4 0 1 2 2 := (((((((H4s 2 1 2 0).1).trans (H4s 1 2 2 0).2.2)).trans (H4s 1 2 0 2).2.1)).trans (H4s 1 0 2 2).1)
  have q2121 : H4 2 1 2 1 = H4 1 1 2 2 := (((((H4s 2 1 2 1).1).trans (H4s 1 2 2 1).2.2)).trans (H4s 1 2 1 2).2.1)
  have q2122 : H4 2 1 2 2 = H4 1 2 2 2 := (H4s 2 1 2 2).1
  have q2200 : H4 2 2 0 0 = H4 0 0 2 2 := (((((((H4s 2 2 0 0).2.1).trans (H4s 2 0 2 0).1)).trans (H4s 0 2 2 0).2.2)).trans (H4s 0 2 0 2).2.1)
  have q2201 : H4 2 2 0 1 = H4 0 1 2 2 := (((((((H4s 2 2 0 1).2.1).trans (H4s 2 0 2 1).1)).trans (H4s 0 2 2 1).2.2)).trans (H4s 0 2 1 2).2.1)
  have q2202 : H4 2 2 0 2 = H4 0 2 2 2 := (((H4s 2 2 0 2).2.1).trans (H4s 2 0 2 2).1)
  have q2210 : H4 2 2 1 0 = H4 0 1 2 2 := (((((((((H4s 2 2 1 0).2.1).trans (H4s 2 1 2 0).1)).trans (H4s 1 2 2 0).2.2)).trans (H4s 1 2 0 2).2.1)).trans (H4s 1 0 2 2).1)
  have q2211 : H4 2 2 1 1 = H4 1 1 2 2 := (((((((H4s 2 2 1 1).2.1).trans (H4s 2 1 2 1).1)).trans (H4s 1 2 2 1).2.2)).trans (H4s 1 2 1 2).2.1)
  have q2212 : H4 2 2 1 2 = H4 1 2 2 2 := (((H4s 2 2 1 2).2.1).trans (H4s 2 1 2 2).1)
  have q2220 : H4 2 2 2 0 = H4 0 2 2 2 := (((((H4s 2 2 2 0).2.2).trans (H4s 2 2 0 2).2.1)).trans (H4s 2 0 2 2).1)
  have q2221 : H4 2 2 2 1 = H4 1 2 2 2 := (((((H4s 2 2 2 1).2.2).trans (H4s 2 2 1 2).2.1)).trans (H4s 2 1 2 2).1)
  simp only [Fin.sum_univ_three, Fin.isValue, coeff3, coeff4, eye, if_true, if_false, zero_ne_one, one_ne_zero, h02, h20, h12, h21, mul_zero, mul_one,
    add_zero, zero_add, q010, q020, q021, q100, q101, q102, q110, q120, q121, q200, q201, q202, q210, q211, q212, q220, q221, q0010, q0020, q0021, q0100, q0101, q0102, q0110, q0120, q0121, q0200, q0201, q0202, q0210, q0211, q0212, q0220, q0221, q1000, q1001, q1002, q1010, q1011, q1012, q1020, q1021, q1022, q1100, q1101, q1102, q1110, q1120, q1121, q1200, q1201, q1202, q1210, q1211, q1212, q1220, q1221, q2000, q2001, q2002, q2010, q2011, q2012, q2020, q2021, q2022, q2100, q2101, q2102, q2110, q2111, q2112, q2120, q2121, q2122, q2200, q2201, q2202, q2210, q2211, q2212, q2220, q2221]
  ring

end quartic

end NATriuM.Init
