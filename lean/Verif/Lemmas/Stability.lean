import Verif.Spec.Stability
import Verif.Lemmas.SedgSolver
import Mathlib.Analysis.Calculus.Deriv.MeanValue
import Mathlib.Analysis.Calculus.Deriv.Prod
import Mathlib.Analysis.Calculus.Deriv.Pow

/-!
# Lemmas: the energy of the distributions
-/

namespace NATriuM
namespace SedgSolver

variable {t : StencilType} {n nQ nf nq : ℕ} {C : Type*} [DecidableEq C] [Fintype C] {s : Setup t n nQ nf nq C}

omit [Fintype C] in
theorem sum_wallRate_weighted (hs : Sound s) (f : Block t n C) (i : Fin t.Q) (c : C) :
    ∑ k, f i (c, k) * Sedg.mass s.mesh c k * wallRate s f i (c, k) = ∑ g, if (s.mesh.neighbor c g).isNone then
      ∑ q, f i (c, s.mesh.faceDof g q) * Walls.faceRate (t.stencil s.c) s.central (s.mesh.faceJxw c g q) 1 (s.mesh.normal c g q) (s.wallVelocity c g q)
        (fun j => f j (c, s.mesh.faceDof g q)) i else 0 := by
  simp only [wallRate_eq hs, Finset.mul_sum]
  rw [Finset.sum_comm]
  refine Finset.sum_congr rfl fun g _ => ?_
  by_cases hg : (s.mesh.neighbor c g).isNone
  · simp only [hg, if_true, Finset.mul_sum]
    rw [Finset.sum_comm]
    refine Finset.sum_congr rfl fun q _ => ?_
    rw [Finset.sum_eq_single (s.mesh.faceDof g q)]
    · rw [if_pos rfl, mul_assoc, faceRate_mass]
      exact mul_one_div_cancel (hs.mass _ _)
    · intro k _ hk
      rw [if_neg (Ne.symm hk), mul_zero]
    · intro h; exact absurd (Finset.mem_univ _) h
  · simp only [hg]; simp

/-- Twice the power at a point of a face: between cells … -/
noncomputable def facePower (s : Setup t n nQ nf nq C) (f : Block t n C) (i : Fin t.Q) (x : C × Fin nf) (q : Fin nq) : ℝ :=
  let e := (t.stencil s.c).dir i
  let y := across s.mesh x;
  - (s.mesh.faceJxw x.1 x.2 q * Sedg.exn s.mesh e x.1 x.2 q * (f i (x.1, s.mesh.faceDof x.2 q) * f i (x.1, s.mesh.faceDof x.2 q))) +
    2 * (f i (x.1, s.mesh.faceDof x.2 q) * if Sedg.exn s.mesh e x.1 x.2 q < 0 then
      s.mesh.faceJxw x.1 x.2 q * Sedg.exn s.mesh e x.1 x.2 q * (f i (x.1, s.mesh.faceDof x.2 q) - f i (y.1, s.mesh.faceDof y.2 q)) else 0)

/-- … and at walls -/
noncomputable def wallPower (s : Setup t n nQ nf nq C) (f : Block t n C) (i : Fin t.Q) (x : C × Fin nf) (q : Fin nq) : ℝ :=
  let e := (t.stencil s.c).dir i;
  - (s.mesh.faceJxw x.1 x.2 q * Sedg.exn s.mesh e x.1 x.2 q * (f i (x.1, s.mesh.faceDof x.2 q) * f i (x.1, s.mesh.faceDof x.2 q))) +
    2 * (f i (x.1, s.mesh.faceDof x.2 q) * if Sedg.exn s.mesh e x.1 x.2 q < 0 then
      s.mesh.faceJxw x.1 x.2 q * Sedg.exn s.mesh e x.1 x.2 q *
        (f i (x.1, s.mesh.faceDof x.2 q) - f ((t.stencil s.c).opp i) (x.1, s.mesh.faceDof x.2 q)) else 0)

omit [Fintype C] in
theorem cell_power (hs : Sound s) (hP : s.mesh.ByParts) (hcen : s.central = false) (hw : WallsAtRest s) (f : Block t n C) (i : Fin t.Q) (c : C) :
    2 * ∑ k, Sedg.mass s.mesh c k * (f i (c, k) *
      (Sedg.rate (Sedg.reassemble s.mesh s.central ((t.stencil s.c).dir i) s.cells) (f i) (c, k) + wallRate s f i (c, k))) =
    ∑ g, ∑ q, if (s.mesh.neighbor c g).isNone then wallPower s f i (c, g) q else facePower s f i (c, g) q := by
  have h2 := Sedg.sum_rate_cell s.mesh s.central ((t.stencil s.c).dir i) s.cells hs.nodup c (hs.complete c) (f i) fun k => f i (c, k) * Sedg.mass s.mesh c k
  rw [show ∑ k, Sedg.mass s.mesh c k * (f i (c, k) *
      (Sedg.rate (Sedg.reassemble s.mesh s.central ((t.stencil s.c).dir i) s.cells) (f i) (c, k) + wallRate s f i (c, k))) =
      ∑ k, f i (c, k) * Sedg.mass s.mesh c k * Sedg.rate (Sedg.reassemble s.mesh s.central ((t.stencil s.c).dir i) s.cells) (f i) (c, k) +
      ∑ k, f i (c, k) * Sedg.mass s.mesh c k * wallRate s f i (c, k) by
    rw [← Finset.sum_add_distrib]; exact Finset.sum_congr rfl fun k _ => by ring]
  rw [h2, sum_wallRate_weighted hs, mul_add, mul_add, Sedg.stiffness_energy s.mesh hs.nodal hP hs.mass, Sedg.faceSum, Finset.mul_sum, Finset.mul_sum,
    ← Finset.sum_neg_distrib, ← Finset.sum_add_distrib, ← Finset.sum_add_distrib, hcen]
  refine Finset.sum_congr rfl fun g _ => ?_
  cases hg : s.mesh.neighbor c g with
  | none =>
    simp only [Option.isNone_none, if_true, mul_zero, add_zero]
    rw [← Finset.sum_neg_distrib, Finset.mul_sum, ← Finset.sum_add_distrib]
    refine Finset.sum_congr rfl fun q _ => ?_
    rw [Walls.C46_dg_upwind, hw c g q hg, wallPower]
    simp only
    congr 2
    congr 1
    show (if Sedg.exn s.mesh _ c g q < 0 then 1 * s.mesh.faceJxw c g q * Sedg.exn s.mesh _ c g q * _ else 0) = _
    split_ifs
    · simp [Spec.dot]
    · rfl
  | some y =>
    simp only [Option.isNone_some, Bool.false_eq_true, if_false, mul_zero, add_zero]
    rw [← Finset.sum_neg_distrib, Finset.mul_sum, ← Finset.sum_add_distrib]
    refine Finset.sum_congr rfl fun q _ => ?_
    have hM := hs.mass c (s.mesh.faceDof g q)
    rw [Sedg.inverseMass, show f i (c, s.mesh.faceDof g q) * Sedg.mass s.mesh c (s.mesh.faceDof g q) * (1 / Sedg.mass s.mesh c (s.mesh.faceDof g q)) =
      f i (c, s.mesh.faceDof g q) by field_simp, Sedg.cellEntry, Sedg.neighborEntry, facePower]
    simp only [Bool.false_eq_true, if_false, across, hg, Option.getD_some]
    split_ifs <;> ring

omit [DecidableEq C] [Fintype C] in
theorem across_across (hs : Sound s) (x : C × Fin nf) : across s.mesh (across s.mesh x) = x := by
  unfold across
  cases hx : s.mesh.neighbor x.1 x.2 with
  | none => simp [hx]
  | some y => simp [(hs.matching x.1 x.2 y.1 y.2 hx).1]

omit [DecidableEq C] in
/-- Between cells energy is lost at jumps. -/
theorem faces_lose (hs : Sound s) (hp : PositiveWeights s) (f : Block t n C) (i : Fin t.Q) :
    ∑ x : C × Fin nf, ∑ q, (if (s.mesh.neighbor x.1 x.2).isNone then 0 else facePower s f i x q) ≤ 0 := by
  have h2 := Sedg.sum_pairs (across s.mesh) (across_across hs) fun x : C × Fin nf =>
    ∑ q, (if (s.mesh.neighbor x.1 x.2).isNone then 0 else facePower s f i x q)
  suffices h : ∑ x : C × Fin nf, (∑ q, (if (s.mesh.neighbor x.1 x.2).isNone then 0 else facePower s f i x q) +
      ∑ q, (if (s.mesh.neighbor (across s.mesh x).1 (across s.mesh x).2).isNone then 0 else facePower s f i (across s.mesh x) q)) ≤ 0 by linarith
  refine Finset.sum_nonpos fun x _ => ?_
  rw [← Finset.sum_add_distrib]
  refine Finset.sum_nonpos fun q _ => ?_
  cases hx : s.mesh.neighbor x.1 x.2 with
  | none =>
    have : across s.mesh x = x := by simp [across, hx]
    rw [this, hx]; simp
  | some y =>
    have hy : across s.mesh x = y := by simp [across, hx]
    obtain ⟨hb, hq⟩ := hs.matching x.1 x.2 y.1 y.2 hx
    have hyx : across s.mesh y = x := by rw [← hy]; exact across_across hs x
    rw [hy, hb]
    simp only [Option.isNone_some, Bool.false_eq_true, if_false, facePower, hy, hyx]
    have hn : Sedg.exn s.mesh ((t.stencil s.c).dir i) y.1 y.2 q = - Sedg.exn s.mesh ((t.stencil s.c).dir i) x.1 x.2 q := by
      unfold Sedg.exn
      rw [← Finset.sum_neg_distrib]
      exact Finset.sum_congr rfl fun k _ => by rw [(hq q).2 k]; ring
    rw [hn, (hq q).1]
    have hJ := hp.face x.1 x.2 q
    generalize s.mesh.faceJxw x.1 x.2 q = J at hJ
    generalize Sedg.exn s.mesh ((t.stencil s.c).dir i) x.1 x.2 q = z
    generalize f i (x.1, s.mesh.faceDof x.2 q) = a
    generalize f i (y.1, s.mesh.faceDof y.2 q) = b
    rcases lt_trichotomy z 0 with h | h | h
    · rw [if_pos h, if_neg (by linarith)]
      have := mul_nonneg (mul_nonneg hJ (neg_nonneg.2 h.le)) (sq_nonneg (a - b))
      nlinarith
    · rw [h]; simp
    · rw [if_neg (by linarith), if_pos (by linarith)]
      have := mul_nonneg (mul_nonneg hJ h.le) (sq_nonneg (a - b))
      nlinarith

omit [DecidableEq C] [Fintype C] in
/-- At walls energy is lost where a distribution and its opposite differ. -/
theorem walls_lose (hp : PositiveWeights s) {w : Fin t.Q → ℝ} (hw : EnergyWeights s w) (f : Block t n C) (x : C × Fin nf) (q : Fin nq) :
    ∑ i, w i * wallPower s f i x q ≤ 0 := by
  have ho := C01_opposite t s.c
  have h2 := Sedg.sum_pairs (t.stencil s.c).opp ho.involutive fun i => w i * wallPower s f i x q
  suffices h : ∑ i, (w i * wallPower s f i x q + w ((t.stencil s.c).opp i) * wallPower s f ((t.stencil s.c).opp i) x q) ≤ 0 by linarith
  refine Finset.sum_nonpos fun i _ => ?_
  rw [hw.opposite, ← mul_add]
  refine mul_nonpos_of_nonneg_of_nonpos (hw.nonneg i) ?_
  have hn : Sedg.exn s.mesh ((t.stencil s.c).dir ((t.stencil s.c).opp i)) x.1 x.2 q = - Sedg.exn s.mesh ((t.stencil s.c).dir i) x.1 x.2 q :=
    Walls.dot_opp ho _ i
  simp only [wallPower, hn, ho.involutive i]
  have hJ := hp.face x.1 x.2 q
  generalize s.mesh.faceJxw x.1 x.2 q = J at hJ
  generalize Sedg.exn s.mesh ((t.stencil s.c).dir i) x.1 x.2 q = z
  generalize f i (x.1, s.mesh.faceDof x.2 q) = a
  generalize f ((t.stencil s.c).opp i) (x.1, s.mesh.faceDof x.2 q) = b
  rcases lt_trichotomy z 0 with h | h | h
  · rw [if_pos h, if_neg (by linarith)]
    have := mul_nonneg (mul_nonneg hJ (neg_nonneg.2 h.le)) (sq_nonneg (a - b))
    nlinarith
  · rw [h]; simp
  · rw [if_neg (by linarith), if_pos (by linarith)]
    have := mul_nonneg (mul_nonneg hJ h.le) (sq_nonneg (a - b))
    nlinarith

/-- The scalar product that belongs to the energy -/
noncomputable def inner (s : Setup t n nQ nf nq C) (w : Fin t.Q → ℝ) (f g : Block t n C) : ℝ := ∑ i, w i * integral s.mesh fun y => f i y * g i y

omit [DecidableEq C] in
theorem energy_eq (w : Fin t.Q → ℝ) (f : Block t n C) : energy s w f = inner s w f f := by
  unfold energy inner
  simp only [pow_two]

omit [DecidableEq C] in
theorem inner_comm (w : Fin t.Q → ℝ) (f g : Block t n C) : inner s w f g = inner s w g f := by
  unfold inner
  simp only [mul_comm (f _ _)]

omit [DecidableEq C] in
theorem inner_add (w : Fin t.Q → ℝ) (f g h : Block t n C) : inner s w f (g + h) = inner s w f g + inner s w f h := by
  simp only [inner, integral, Pi.add_apply, mul_add, Finset.sum_add_distrib]

omit [DecidableEq C] in
theorem inner_smul (w : Fin t.Q → ℝ) (a : ℝ) (f g : Block t n C) : inner s w f (a • g) = a * inner s w f g := by
  simp only [inner, integral, Pi.smul_apply, smul_eq_mul, Finset.mul_sum]
  exact Finset.sum_congr rfl fun i _ => Finset.sum_congr rfl fun c _ => Finset.sum_congr rfl fun k _ => by ring

omit [DecidableEq C] in
theorem inner_self (hp : PositiveWeights s) {w : Fin t.Q → ℝ} (hw : ∀ i, 0 ≤ w i) (f : Block t n C) : 0 ≤ inner s w f f :=
  Finset.sum_nonneg fun i _ => mul_nonneg (hw i) (Finset.sum_nonneg fun c _ => Finset.sum_nonneg fun k _ =>
    mul_nonneg (hp.cell c k).le (mul_self_nonneg _))

omit [Fintype C] in
theorem vector_zero (hw : WallsAtRest s) : systemVector s = 0 := by
  funext i x
  unfold systemVector wallSum
  split_ifs with h1 h2
  · rfl
  · refine Finset.sum_eq_zero fun g _ => ?_
    split_ifs with h3
    · refine Finset.sum_eq_zero fun q _ => ?_
      split_ifs
      · rw [hw x.1 g q (Option.isNone_iff_eq_none.1 h3)]
        simp only [Walls.faceEntries, Pi.zero_apply, zero_mul, Finset.sum_const_zero, mul_zero, zero_div]
        split_ifs <;> simp
      · rfl
    · rfl
  · rfl

theorem dissipative_rest (hs : Sound s) (hP : s.mesh.ByParts) (ht : t.exact = true) (hcen : s.central = false) (hr : WallsAtRest s) (hp : PositiveWeights s)
    {w : Fin t.Q → ℝ} (hw : EnergyWeights s w) (f : Block t n C) : inner s w f (systemMatrix s f) ≤ 0 := by
  have h1 : ∀ i, 2 * integral s.mesh (fun y => f i y * systemMatrix s f i y) =
      ∑ x : C × Fin nf, ∑ q, if (s.mesh.neighbor x.1 x.2).isNone then wallPower s f i x q else facePower s f i x q := by
    intro i
    by_cases hi : i.val = 0
    · have hd : ∀ x : C × Fin nf, ∀ q, Sedg.exn s.mesh ((t.stencil s.c).dir i) x.1 x.2 q = 0 := fun x q => by
        simp [Sedg.exn, Legacy.dir_zero t ht s.c i hi]
      have hz : ∀ y, systemMatrix s f i y = 0 := fun y => by
        show matrixTimes s f i y = 0
        simp [matrixTimes, hi]
      simp [integral, hz, wallPower, facePower, hd]
    · have h2 : ∀ y, systemMatrix s f i y =
          Sedg.rate (Sedg.reassemble s.mesh s.central ((t.stencil s.c).dir i) s.cells) (f i) y + wallRate s f i y := fun y => by
        have hv : systemVector s i y = 0 := by rw [vector_zero hr]; rfl
        simp only [systemVector, hi, if_false] at hv
        show matrixTimes s f i y = _
        simp only [matrixTimes, hi, if_false, wallRate, hv, add_zero]
      unfold integral
      simp only [h2]
      rw [Fintype.sum_prod_type, Finset.mul_sum]
      exact Finset.sum_congr rfl fun c _ => cell_power hs hP hcen hr f i c
  have h2 : 2 * inner s w f (systemMatrix s f) = ∑ i, w i * ∑ x : C × Fin nf, ∑ q, (if (s.mesh.neighbor x.1 x.2).isNone then 0 else facePower s f i x q) +
      ∑ x : C × Fin nf, ∑ q, ∑ i, w i * (if (s.mesh.neighbor x.1 x.2).isNone then wallPower s f i x q else 0) := by
    rw [show ∑ x : C × Fin nf, ∑ q, ∑ i, w i * (if (s.mesh.neighbor x.1 x.2).isNone then wallPower s f i x q else 0) =
        ∑ i, ∑ x : C × Fin nf, ∑ q, w i * (if (s.mesh.neighbor x.1 x.2).isNone then wallPower s f i x q else 0) by
      rw [Finset.sum_comm (s := (Finset.univ : Finset (Fin t.Q)))]
      exact Finset.sum_congr rfl fun x _ => Finset.sum_comm]
    rw [inner, Finset.mul_sum, ← Finset.sum_add_distrib]
    refine Finset.sum_congr rfl fun i _ => ?_
    rw [show 2 * (w i * integral s.mesh fun y => f i y * systemMatrix s f i y) = w i * (2 * integral s.mesh fun y => f i y * systemMatrix s f i y) by ring,
      h1, Finset.mul_sum, Finset.mul_sum, ← Finset.sum_add_distrib]
    refine Finset.sum_congr rfl fun x _ => ?_
    rw [Finset.mul_sum, Finset.mul_sum, ← Finset.sum_add_distrib]
    refine Finset.sum_congr rfl fun q _ => ?_
    split_ifs <;> ring
  have h3 : ∑ i, w i * ∑ x : C × Fin nf, ∑ q, (if (s.mesh.neighbor x.1 x.2).isNone then 0 else facePower s f i x q) ≤ 0 :=
    Finset.sum_nonpos fun i _ => mul_nonpos_of_nonneg_of_nonpos (hw.nonneg i) (faces_lose hs hp f i)
  have h4 : ∑ x : C × Fin nf, ∑ q, ∑ i, w i * (if (s.mesh.neighbor x.1 x.2).isNone then wallPower s f i x q else 0) ≤ 0 := by
    refine Finset.sum_nonpos fun x _ => Finset.sum_nonpos fun q _ => ?_
    by_cases hx : (s.mesh.neighbor x.1 x.2).isNone
    · simp only [hx, if_true]
      exact walls_lose hp hw f x q
    · simp [hx]
  linarith

omit [Fintype C] in
/-- The matrix is the same whether the walls move or not. -/
theorem matrix_rest (f : Block t n C) : systemMatrix { s with wallVelocity := fun _ _ _ => 0 } f = systemMatrix s f := by
  have h : ∀ (J : ℝ) (m u v : Fin t.D → ℝ) i,
      (Walls.faceEntries (t.stencil s.c) s.central J m u i).own = (Walls.faceEntries (t.stencil s.c) s.central J m v i).own ∧
      (Walls.faceEntries (t.stencil s.c) s.central J m u i).opposite = (Walls.faceEntries (t.stencil s.c) s.central J m v i).opposite := by
    intro J m u v i
    simp only [Walls.faceEntries]
    split_ifs <;> simp
  have hw : ∀ i x, wallSum { s with wallVelocity := fun _ _ _ => 0 } Walls.FaceEntries.own i x = wallSum s Walls.FaceEntries.own i x ∧
      wallSum { s with wallVelocity := fun _ _ _ => 0 } Walls.FaceEntries.opposite i x = wallSum s Walls.FaceEntries.opposite i x := by
    intro i x
    constructor
    all_goals
      unfold wallSum
      refine if_congr Iff.rfl (Finset.sum_congr rfl fun g _ => if_congr Iff.rfl (Finset.sum_congr rfl fun q _ => if_congr Iff.rfl ?_ rfl) rfl) rfl
    · rw [(h _ _ (s.wallVelocity x.1 g q) 0 i).1]
    · rw [(h _ _ (s.wallVelocity x.1 g q) 0 i).2]
  funext i x
  show matrixTimes _ f i x = matrixTimes s f i x
  simp only [matrixTimes, (hw i x).1, (hw i x).2]

/-- Energy is lost, never gained. -/
theorem dissipative (hs : Sound s) (hP : s.mesh.ByParts) (ht : t.exact = true) (hcen : s.central = false) (hp : PositiveWeights s)
    {w : Fin t.Q → ℝ} (hw : EnergyWeights s w) (f : Block t n C) : inner s w f (systemMatrix s f) ≤ 0 := by
  rw [← matrix_rest]
  exact dissipative_rest (s := { s with wallVelocity := fun _ _ _ => 0 })
    ⟨hs.nodal, hs.gradients, hs.divergence, hs.matching, hs.mass, hs.nodup, hs.complete, hs.scaling⟩
    hP ht hcen (fun _ _ _ _ => rfl) ⟨hp.cell, hp.face⟩ ⟨hw.nonneg, hw.opposite⟩ f

omit [DecidableEq C] in
theorem energy_eq_zero (hp : PositiveWeights s) {w : Fin t.Q → ℝ} (hw : ∀ i, 0 < w i) {f : Block t n C} (h : energy s w f ≤ 0) : f = 0 := by
  have h0 : ∀ i, 0 ≤ w i * integral s.mesh (fun y => f i y ^ 2) := fun i => mul_nonneg (hw i).le (Finset.sum_nonneg fun c _ => Finset.sum_nonneg fun k _ =>
    mul_nonneg (hp.cell c k).le (sq_nonneg _))
  have h1 := (Finset.sum_eq_zero_iff_of_nonneg fun i _ => h0 i).1 (le_antisymm h (Finset.sum_nonneg fun i _ => h0 i))
  funext i x
  have h2 := (mul_eq_zero.1 (h1 i (Finset.mem_univ i))).resolve_left (hw i).ne'
  have h3 := (Finset.sum_eq_zero_iff_of_nonneg fun c _ => Finset.sum_nonneg fun k _ => mul_nonneg (hp.cell c k).le (sq_nonneg _)).1 h2 x.1 (Finset.mem_univ _)
  have h4 := (Finset.sum_eq_zero_iff_of_nonneg fun k _ => mul_nonneg (hp.cell x.1 k).le (sq_nonneg _)).1 h3 x.2 (Finset.mem_univ _)
  exact pow_eq_zero_iff (two_ne_zero) |>.1 ((mul_eq_zero.1 h4).resolve_left (hp.cell _ _).ne')

omit [DecidableEq C] [Fintype C] in
/-- What a step of the theta method solves -/
theorem theta_relation {θ h : ℝ} {A : Block t n C →ₗ[ℝ] Block t n C} {b f g : Block t n C}
    (hg : TimeIntegration.thetaMatrix A θ h g = TimeIntegration.thetaRhs A b θ h f) : g - f = h • (A (θ • g + (1 - θ) • f) + b) := by
  simp only [TimeIntegration.thetaMatrix, TimeIntegration.thetaRhs, LinearMap.add_apply, LinearMap.smul_apply, LinearMap.id_apply] at hg
  rw [map_add, map_smul, map_smul]
  have : g - f = h • b + h • A f + ((-θ) • h • A f) - (-θ) • h • A g := by
    rw [sub_eq_iff_eq_add, ← sub_eq_zero]
    rw [← sub_eq_zero] at hg
    rw [← hg]
    abel
  rw [this]
  module

omit [DecidableEq C] in
theorem theta_energy {w : Fin t.Q → ℝ} (hp : PositiveWeights s) (hw : ∀ i, 0 ≤ w i) {A : Block t n C →ₗ[ℝ] Block t n C} (hA : ∀ f, inner s w f (A f) ≤ 0)
    {θ h : ℝ} (hθ : 1 / 2 ≤ θ) (hh : 0 ≤ h) {f g : Block t n C} (hg : g - f = h • A (θ • g + (1 - θ) • f)) : energy s w g ≤ energy s w f := by
  have h1 := mul_nonpos_of_nonneg_of_nonpos hh (hA (θ • g + (1 - θ) • f))
  rw [← inner_smul, ← hg, inner_comm, inner_add, inner_smul, inner_smul] at h1
  have h2 := inner_self hp hw (g - f)
  have e1 : inner s w (g - f) g = inner s w g g - inner s w g f := by
    rw [inner_comm, show g - f = g + (-1 : ℝ) • f by module, inner_add, inner_smul]; ring
  have e2 : inner s w (g - f) f = inner s w g f - inner s w f f := by
    rw [inner_comm, show g - f = g + (-1 : ℝ) • f by module, inner_add, inner_smul, inner_comm w f g]; ring
  have e3 : inner s w (g - f) (g - f) = inner s w g g - 2 * inner s w g f + inner s w f f := by
    rw [show inner s w (g - f) (g - f) = inner s w (g - f) (g + (-1 : ℝ) • f) by congr 1; module, inner_add, inner_smul, e1, e2]; ring
  rw [energy_eq, energy_eq]
  rw [e1, e2] at h1
  rw [e3] at h2
  nlinarith

end SedgSolver
end NATriuM
