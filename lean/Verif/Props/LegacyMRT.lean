import Verif.Model.LegacyMRT
import Verif.Props.LegacyBGK
import Verif.Props.Stabilizer

/-!
# C66 for the class based collision models with several relaxation times
-/

namespace NATriuM.Legacy

open Finset Spec

section

variable {K : Type*} [Field K] [LinearOrder K] [IsStrictOrderedRing K] {D Q : ℕ}

/-! ## MRT -/

omit [LinearOrder K] [IsStrictOrderedRing K] in
theorem moments_mass (f : Fin 9 → K) : moments f 0 = mass f := by
  unfold mass; rw [sum9]; simp [moments]

omit [LinearOrder K] [IsStrictOrderedRing K] in
theorem moments_momentum (f : Fin 9 → K) : lat9 f 0 = moments f 3 ∧ lat9 f 1 = moments f 5 := by
  constructor <;> simp [moments, lat9] <;> ring

theorem back_mass (m : Fin 9 → K) : mass (backTransform fun j => m j / mrtWeights j) = m 0 := by
  unfold mass; rw [sum9]; simp [backTransform, mrtWeights]; ring

theorem back_momentum (m : Fin 9 → K) : lat9 (backTransform fun j => m j / mrtWeights j) 0 = m 3 ∧
    lat9 (backTransform fun j => m j / mrtWeights j) 1 = m 5 := by
  constructor <;> simp [backTransform, mrtWeights, lat9] <;> ring

/-- The transformations to moments and back are inverse to each other. -/
theorem back_moments (f : Fin 9 → K) : (backTransform fun j => moments f j / mrtWeights j) = f := by
  funext i
  fin_cases i <;> simp [backTransform, mrtWeights, moments] <;> ring

theorem conserves_of_moments {c : K} {f : Fin 9 → K} {m : Fin 9 → K} (h0 : m 0 = moments f 0) (h3 : m 3 = moments f 3) (h5 : m 5 = moments f 5) :
    Conserves (D2Q9.stencil c).dir f (backTransform fun j => m j / mrtWeights j) where
  mass := by rw [back_mass, h0, moments_mass]
  momentum a := by
    rw [momentum9, momentum9]
    fin_cases a
    · show c * lat9 _ 0 = c * lat9 f 0
      rw [(back_momentum m).1, h3, (moments_momentum f).1]
    · show c * lat9 _ 1 = c * lat9 f 1
      rw [(back_momentum m).2, h5, (moments_momentum f).2]

/-- **C66 (MRT standard, D2Q9)**: mass and momentum are conserved, in the initialisation procedure too. -/
theorem C66_mrtStandard {c : K} {b : Obj K 2 9} (hS : b.stencil = D2Q9.stencil c) (hb : 0 < b.tau) (inInit : Bool) (n : Node K 2 9)
    (hr : inInit = false → mass n.f ≠ 0) :
    Conserves (D2Q9.stencil c).dir n.f (mrtStandardD2Q9Node b inInit n).f ∧
    (inInit = false → Reports (D2Q9.stencil c).dir n.f 0 (mrtStandardD2Q9Node b inInit n).rho (mrtStandardD2Q9Node b inInit n).u) ∧
    8 - 1 / (b.tau + 1 / 2) ≠ 0 := by
  refine ⟨conserves_of_moments (m := fun j => moments n.f j - standardRates b.tau j *
    (moments n.f j - standardMeq (density n.f) (moments n.f 3) (moments n.f 5) j)) ?_ ?_ ?_, ?_, ?_⟩
  · simp [standardRates]
  · simp [standardRates]
  · simp [standardRates]
  · rintro rfl
    refine ⟨rfl, fun a => ?_⟩
    unfold mrtStandardD2Q9Node
    rw [hS]
    exact (velocity9 c _ (hr rfl) n.f a).trans (by simp)
  · intro h
    have : 0 < b.tau + 1 / 2 := by positivity
    field_simp at h
    linarith

omit [IsStrictOrderedRing K] in
theorem mrtEntropic_ok {b : Obj K 2 9} {inInit : Bool} {n n' : Node K 2 9} (h : mrtEntropicD2Q9Node b inInit n = .ok n') :
    n'.f = (backTransform fun j => entropicMoments b.tau (moments n.f) j / mrtWeights j) ∧ n'.rho = moments n.f 0 ∧
    (inInit = false → n'.u = ![b.stencil.scaling / moments n.f 0 * moments n.f 3, b.stencil.scaling / moments n.f 0 * moments n.f 5]) := by
  unfold mrtEntropicD2Q9Node at h
  split at h
  · cases h
  · injection h with h
    subst h
    exact ⟨rfl, rfl, fun hi => by subst hi; rfl⟩

omit [LinearOrder K] [IsStrictOrderedRing K] in
theorem entropic_conserved (tau : K) (m : Fin 9 → K) :
    entropicMoments tau m 0 = m 0 ∧ entropicMoments tau m 3 = m 3 ∧ entropicMoments tau m 5 = m 5 := by
  refine ⟨?_, ?_, ?_⟩ <;> simp [entropicMoments]

/-- **C66 (entropic MRT, D2Q9)**: mass and momentum are conserved. -/
theorem C66_mrtEntropicD2Q9 {c : K} {b : Obj K 2 9} (hS : b.stencil = D2Q9.stencil c) {inInit : Bool} {n n' : Node K 2 9}
    (hr : mass n.f ≠ 0) (h : mrtEntropicD2Q9Node b inInit n = .ok n') :
    Conserves (D2Q9.stencil c).dir n.f n'.f ∧ (inInit = false → Reports (D2Q9.stencil c).dir n.f 0 n'.rho n'.u) := by
  obtain ⟨e1, e2, e3⟩ := mrtEntropic_ok h
  have h1 := moments_mass n.f
  have h0 : moments n.f 0 ≠ 0 := by rw [h1]; exact hr
  obtain ⟨k0, k3, k5⟩ := entropic_conserved b.tau (moments n.f)
  refine ⟨by rw [e1]; exact conserves_of_moments k0 k3 k5, fun hi => ⟨e2.trans h1, fun a => ?_⟩⟩
  rw [momentum9, e2, e3 hi, hS]
  have hs : (D2Q9.stencil c).scaling = c := rfl
  obtain ⟨h3, h5⟩ := moments_momentum n.f
  rw [hs]
  fin_cases a
  · show moments n.f 0 * (c / moments n.f 0 * moments n.f 3) = c * lat9 n.f 0 + 0
    rw [h3]; field_simp; ring
  · show moments n.f 0 * (c / moments n.f 0 * moments n.f 5) = c * lat9 n.f 1 + 0
    rw [h5]; field_simp; ring

example : ∃ n', mrtEntropicD2Q9Node (pushed 2 .noForcing) false rest9 = .ok n' := by
  unfold mrtEntropicD2Q9Node; rw [if_neg (by norm_num [rest9])]; exact ⟨_, rfl⟩

/-- The density is checked before it is computed: a node whose populations sum up to zero is accepted if a positive density had been stored. -/
theorem C66_mrtEntropic_density_fails : ∃ n n', mass n.f = 0 ∧ mrtEntropicD2Q9Node (pushed 2 .noForcing) false n = .ok n' := by
  refine ⟨{ rest9 with f := 0 }, ?_⟩
  unfold mrtEntropicD2Q9Node; rw [if_neg (by norm_num [rest9])]; exact ⟨_, by simp [mass], rfl⟩

/-- **C66 (entropic MRT, D3Q19), partial**: the mass is conserved; the momentum is not, see `C66_mrtEntropicD3Q19_fails`. -/
theorem C66_mrtEntropicD3Q19_partial {b : Obj K 3 19} {inInit : Bool} {n n' : Node K 3 19} (h : mrtEntropicD3Q19Node b inInit n = .ok n') :
    mass n'.f = mass n.f ∧ n'.rho = mass n.f := by
  unfold mrtEntropicD3Q19Node at h
  obtain ⟨-, rfl⟩ := ite_ok h
  have h0 : ∀ q, tm 0 q = 1 := by decide +kernel
  have h1 : ∀ q, ∑ p, invm p q = if q = 0 then 1 else 0 := by decide +kernel
  have hm : moments19 n.f 0 = mass n.f := by
    unfold moments19 mass; simp only [h0]; simp
  refine ⟨?_, hm⟩
  show ∑ p, ∑ q, (invm p q : K) * entropicMoments19 b.tau (moments19 n.f) q = _
  rw [sum_comm]
  simp only [← sum_mul]
  have h2 : ∀ q, ∑ p, (invm p q : K) = if q = 0 then 1 else 0 := fun q => by
    rw [← Rat.cast_sum, h1]; split <;> simp
  simp only [h2, ite_mul, one_mul, zero_mul, sum_ite_eq', mem_univ, if_true]
  show moments19 n.f 0 = _
  exact hm

/-- A node on D3Q19 with one more particle in the first direction. -/
def moving19 : Node ℚ 3 19 := { rest19 with f := fun i => if i = 1 then 1 else rest19.f i }

/-- **C66 fails for the entropic MRT on D3Q19**: the tables belong to another numbering of the directions. -/
theorem C66_mrtEntropicD3Q19_fails : ∃ n', mrtEntropicD3Q19Node (pushed19 .noForcing) false moving19 = .ok n' ∧
    ¬Conserves (D3Q19.stencil (2 : ℚ)).dir moving19.f n'.f := by
  have h1 : mrtEntropicD3Q19Node (pushed19 .noForcing) false moving19 = .ok
      { f := fun p => ∑ q, (invm p q : ℚ) * entropicMoments19 1 (moments19 moving19.f) q, rho := moments19 moving19.f 0,
        u := ![2 / moments19 moving19.f 0 * moments19 moving19.f 3, 2 / moments19 moving19.f 0 * moments19 moving19.f 5,
          2 / moments19 moving19.f 0 * moments19 moving19.f 7] } := by
    unfold mrtEntropicD3Q19Node; rw [if_neg (by norm_num [moving19, rest19])]; rfl
  refine ⟨_, h1, fun h => ?_⟩
  have h2 := h.momentum
  revert h2
  decide +kernel

/-! ## KBC -/

omit [IsStrictOrderedRing K] in
/-- The KBC update conserves mass and momentum, whatever the stabilizer, if the equilibrium has those of the populations and the shear parts have the
same mass and momentum. -/
theorem kbcUpdate_conserves {e : Fin Q → Fin D → K} {tau : K} {f feq k s seq : Fin Q → K} (hm : mass feq = mass f)
    (hp : ∀ a, momentum e feq a = momentum e f a) (sm : mass s = mass seq) (sp : ∀ a, momentum e s a = momentum e seq a) :
    Conserves e f (kbcUpdate tau f feq k s seq) := by
  have key : ∀ w : Fin Q → K, ∑ i, feq i * w i = ∑ i, f i * w i → ∑ i, s i * w i = ∑ i, seq i * w i →
      ∀ gamma : K, ∑ i, (f i - kbcBeta tau * (2 * (s i - seq i) + gamma * (f i - k i - s i - (feq i - k i - seq i)))) * w i = ∑ i, f i * w i := by
    intro w h1 h2 gamma
    have e1 : ∀ i, (f i - kbcBeta tau * (2 * (s i - seq i) + gamma * (f i - k i - s i - (feq i - k i - seq i)))) * w i =
        f i * w i - kbcBeta tau * (2 - gamma) * (s i * w i) + kbcBeta tau * (2 - gamma) * (seq i * w i)
          - kbcBeta tau * gamma * (f i * w i) + kbcBeta tau * gamma * (feq i * w i) := fun i => by ring
    simp only [e1, sum_add_distrib, sum_sub_distrib, ← mul_sum]
    rw [h1, h2]; ring
  constructor
  · have := key (fun _ => 1) (by simpa [mass] using hm) (by simpa [mass] using sm)
    simp only [mul_one] at this
    exact this _
  · intro a
    exact key (fun i => e i a) (hp a) (sp a) _

theorem kbcShear9 (c rho : K) (f : Fin 9 → K) : mass (kbcShearD2Q9 rho f) = 0 ∧ ∀ a, momentum (D2Q9.stencil c).dir (kbcShearD2Q9 rho f) a = 0 := by
  refine ⟨?_, fun a => ?_⟩
  · unfold mass; rw [sum9]; simp [kbcShearD2Q9]; ring
  · rw [momentum9]
    have : lat9 (kbcShearD2Q9 rho f) a = 0 := by fin_cases a <;> simp [lat9, kbcShearD2Q9]
    rw [this, mul_zero]

theorem kbcShear15 (c rho : K) (f : Fin 15 → K) : mass (kbcShearD3Q15 rho f) = 0 ∧ ∀ a, momentum (D3Q15.stencil c).dir (kbcShearD3Q15 rho f) a = 0 := by
  refine ⟨?_, fun a => ?_⟩
  · unfold mass; rw [sum15]; simp [kbcShearD3Q15]; ring
  · rw [momentum15]
    have : lat15 (kbcShearD3Q15 rho f) a = 0 := by fin_cases a <;> simp [lat15, kbcShearD3Q15]
    rw [this, mul_zero]

theorem centralShear9 (c rho ux uy T N Pi : K) : mass (centralShearOf rho ux uy T N Pi) = 0 ∧
    ∀ a, momentum (D2Q9.stencil c).dir (centralShearOf rho ux uy T N Pi) a = 0 := by
  refine ⟨?_, fun a => ?_⟩
  · unfold mass; rw [sum9]; simp [centralShearOf]; ring
  · rw [momentum9]
    have : lat9 (centralShearOf rho ux uy T N Pi) a = 0 := by fin_cases a <;> simp [lat9, centralShearOf] <;> ring
    rw [this, mul_zero]

/-- **C66 (KBC with central moments, D2Q9)**: mass and momentum are conserved, whatever the stabilizer does; the equilibrium populations the code
divides by must not vanish. -/
theorem C66_kbcCentral {c : K} (hc : c ≠ 0) {b : Obj K 2 9} (hS : b.stencil = D2Q9.stencil c) {n n' : Node K 2 9}
    (h : kbcCentralD2Q9Node b false n = .ok n') (_hfeq : ∀ i, centralFeq (D2Q9.stencil c) n'.rho (n'.u 0 / c) (n'.u 1 / c) i ≠ 0) :
    Conserves (D2Q9.stencil c).dir n.f n'.f ∧ Reports (D2Q9.stencil c).dir n.f 0 n'.rho n'.u := by
  unfold kbcCentralD2Q9Node at h
  rw [hS] at h
  obtain ⟨hr, rfl⟩ := ite_ok h
  have hr' := pos_of_not hr
  have hV := velocity9 c _ hr' n.f
  simp only [Bool.false_eq_true, if_false]
  refine ⟨kbcUpdate_conserves ?_ (fun a => ?_) ?_ fun a => ?_, rfl, fun a => (hV a).trans (by simp)⟩
  · unfold centralFeq
    rw [terms9_mass]
    show density n.f * _ = density n.f
    simp [D2Q9.stencil]
    field_simp; ring
  · unfold centralFeq
    rw [terms9_momentum, ← hV a]
    fin_cases a <;> simp [D2Q9.stencil] <;> field_simp
  · unfold centralShear; rw [(centralShear9 c _ _ _ _ _ _).1, (centralShear9 c _ _ _ _ _ _).1]
  · unfold centralShear; rw [(centralShear9 c _ _ _ _ _ _).2, (centralShear9 c _ _ _ _ _ _).2]

example : ∃ n', kbcCentralD2Q9Node (pushed 2 .noForcing) false rest9 = .ok n' ∧
    ∀ i, centralFeq (D2Q9.stencil 2) n'.rho (n'.u 0 / 2) (n'.u 1 / 2) i ≠ 0 := by
  have : kbcCentralD2Q9Node (pushed 2 .noForcing) false rest9 = .ok
      { f := kbcUpdate 1 rest9.f (centralFeq (D2Q9.stencil 2) (density rest9.f) (velocityD2Q9 2 (density rest9.f) rest9.f 0 / 2)
            (velocityD2Q9 2 (density rest9.f) rest9.f 1 / 2))
          (centralKinematic (density rest9.f) (velocityD2Q9 2 (density rest9.f) rest9.f 0 / 2) (velocityD2Q9 2 (density rest9.f) rest9.f 1 / 2))
          (centralShear (D2Q9.stencil 2) (density rest9.f) (velocityD2Q9 2 (density rest9.f) rest9.f 0 / 2)
            (velocityD2Q9 2 (density rest9.f) rest9.f 1 / 2) rest9.f)
          (centralShear (D2Q9.stencil 2) (density rest9.f) (velocityD2Q9 2 (density rest9.f) rest9.f 0 / 2)
            (velocityD2Q9 2 (density rest9.f) rest9.f 1 / 2) (centralFeq (D2Q9.stencil 2) (density rest9.f)
              (velocityD2Q9 2 (density rest9.f) rest9.f 0 / 2) (velocityD2Q9 2 (density rest9.f) rest9.f 1 / 2))),
        rho := density rest9.f, u := velocityD2Q9 2 (density rest9.f) rest9.f } := by
    unfold kbcCentralD2Q9Node; dsimp only; rw [if_neg (by rw [rest9_density]; norm_num)]; rfl
  refine ⟨_, this, ?_⟩
  decide +kernel

/-- **C66 (KBC, D3Q15), partial**: the momentum is conserved; the mass changes unless the scaling of the stencil is one (or the fluid is at rest). -/
theorem C66_kbcD3Q15_partial {c : K} (hc : c ≠ 0) {b : Obj K 3 15} (hS : b.stencil = D3Q15.stencil c) {n n' : Node K 3 15}
    (h : kbcStandardD3Q15Node b false n = .ok n') (hc1 : c = 1)
    (_hfeq : ∀ i, termsD3Q15 ((D3Q15.stencil c).scaling / (D3Q15.stencil c).cs2) (-((n'.u 0 / c) * (n'.u 0 / c) + (n'.u 1 / c) * (n'.u 1 / c)
      + (n'.u 2 / c) * (n'.u 2 / c)) / (2 * (D3Q15.stencil c).cs2)) n'.rho n'.u i ≠ 0) :
    Conserves (D3Q15.stencil c).dir n.f n'.f ∧ Reports (D3Q15.stencil c).dir n.f 0 n'.rho n'.u := by
  unfold kbcStandardD3Q15Node at h
  rw [hS] at h
  obtain ⟨hr, rfl⟩ := ite_ok h
  have hr' := pos_of_not hr
  have hV := velocity15 c _ hr' n.f
  simp only [Bool.false_eq_true, if_false]
  refine ⟨kbcUpdate_conserves ?_ (fun a => ?_) ?_ fun a => ?_, rfl, fun a => (hV a).trans (by simp)⟩
  · rw [terms15_mass]
    show density n.f * _ = density n.f
    simp only [D3Q15.stencil, hc1]
    field_simp; ring
  · rw [terms15_momentum, ← hV a]
    simp only [D3Q15.stencil]
    field_simp
  · rw [(kbcShear15 c _ _).1, (kbcShear15 c _ _).1]
  · rw [(kbcShear15 c _ _).2, (kbcShear15 c _ _).2]

/-- A moving fluid on D3Q15: a node with one population more than the weights. -/
def moving15 : Node ℚ 3 15 where
  f := ![2 / 9, 1 / 9, 1 / 9, 1 / 9, 1 / 9, 1 / 9, 1 / 9, 1 / 72 + 1 / 8, 1 / 72, 1 / 72, 1 / 72, 1 / 72, 1 / 72, 1 / 72, 1 / 72]
  rho := 1
  u := 0

example : ∃ n', kbcStandardD3Q15Node (Obj.make 1 1 (D3Q15.stencil 1)) false moving15 = .ok n' ∧
    ∀ i, termsD3Q15 ((D3Q15.stencil 1).scaling / (D3Q15.stencil 1).cs2) (-((n'.u 0 / 1) * (n'.u 0 / 1) + (n'.u 1 / 1) * (n'.u 1 / 1)
      + (n'.u 2 / 1) * (n'.u 2 / 1)) / (2 * (D3Q15.stencil 1).cs2)) n'.rho n'.u i ≠ 0 := by
  have hd : density moving15.f = 9 / 8 := by decide +kernel
  unfold kbcStandardD3Q15Node; dsimp only; rw [if_neg (by rw [hd]; norm_num)]
  refine ⟨_, rfl, ?_⟩
  decide +kernel

/-- **C66 fails for KBC on D3Q15** when the stencil is scaled: the mass changes. -/
theorem C66_kbcD3Q15_fails : ∃ n', kbcStandardD3Q15Node (Obj.make 1 1 (D3Q15.stencil 2)) false moving15 = .ok n' ∧ mass n'.f ≠ mass moving15.f := by
  have hd : density moving15.f = 9 / 8 := by decide +kernel
  unfold kbcStandardD3Q15Node; dsimp only; rw [if_neg (by rw [hd]; norm_num)]
  refine ⟨_, rfl, ?_⟩
  decide +kernel

end

/-! ## KBC standard on D2Q9 (real arithmetic) -/

theorem kbcRoot_sq (u : ℝ) : kbcRoot u * kbcRoot u = 1 + 3 * u ^ 2 := by
  unfold kbcRoot
  have h3 : √3 * √3 = (3 : ℝ) := Real.mul_self_sqrt (by norm_num)
  rw [Real.mul_self_sqrt (by nlinarith [mul_self_nonneg (u * √3)])]
  linear_combination u ^ 2 * h3

theorem kbcRoot_nonneg (u : ℝ) : 0 ≤ kbcRoot u := Real.sqrt_nonneg _

theorem kbcRoot_bounds {u : ℝ} (hu : |u| < 1) : kbcRoot u < 2 ∧ 2 * |u| < kbcRoot u := by
  have h0 := kbcRoot_sq u
  have h1 := kbcRoot_nonneg u
  have h2 : u ^ 2 < 1 := by rw [← sq_abs]; nlinarith [abs_nonneg u]
  constructor
  · nlinarith
  · have := abs_nonneg u
    have h3 : |u| ^ 2 = u ^ 2 := sq_abs u
    nlinarith

theorem kbcPost_eq (u : ℝ) : kbcPost u = (2 * u + kbcRoot u) / (1 - u) := by
  unfold kbcPost
  have h3 : √3 ≠ (0 : ℝ) := by positivity
  have e1 : 2 * (u * √3) / √3 = 2 * u := by field_simp
  have e2 : u * √3 / √3 = u := by field_simp
  rw [e1, e2]

theorem kbcPost_pos {u : ℝ} (hu : |u| < 1) : 0 < kbcPost u := by
  rw [kbcPost_eq]
  have h1 := (kbcRoot_bounds hu).2
  have h2 := abs_lt.mp hu
  have h3 := neg_abs_le u
  exact div_pos (by linarith) (by linarith)

theorem kbcPost_inv {u : ℝ} (hu : |u| < 1) : 1 / kbcPost u = (kbcRoot u - 2 * u) / (1 + u) := by
  have h1 := (kbcRoot_bounds hu).2
  have h2 := abs_lt.mp hu
  have h3 := neg_abs_le u
  have h4 : 2 * u + kbcRoot u ≠ 0 := by have : 0 < 2 * u + kbcRoot u := by linarith
                                        exact this.ne'
  have h5 : 1 - u ≠ 0 := by have : 0 < 1 - u := by linarith
                            exact this.ne'
  have h6 : 1 + u ≠ 0 := by have : 0 < 1 + u := by linarith
                            exact this.ne'
  rw [kbcPost_eq]
  field_simp
  linear_combination -(kbcRoot_sq u)

theorem kbc_even {u : ℝ} (hu : |u| < 1) : (2 - kbcRoot u) * (2 / 3 + (kbcPost u + 1 / kbcPost u) / 6) = 1 := by
  have h2 := abs_lt.mp hu
  have h5 : 1 - u ≠ 0 := by have : 0 < 1 - u := by linarith
                            exact this.ne'
  have h6 : 1 + u ≠ 0 := by have : 0 < 1 + u := by linarith
                            exact this.ne'
  rw [kbcPost_inv hu, kbcPost_eq]
  field_simp
  linear_combination (-6) * kbcRoot_sq u

theorem kbc_odd {u : ℝ} (hu : |u| < 1) : (2 - kbcRoot u) * (kbcPost u - 1 / kbcPost u) / 6 = u := by
  have h2 := abs_lt.mp hu
  have h5 : 1 - u ≠ 0 := by have : 0 < 1 - u := by linarith
                            exact this.ne'
  have h6 : 1 + u ≠ 0 := by have : 0 < 1 + u := by linarith
                            exact this.ne'
  rw [kbcPost_inv hu, kbcPost_eq]
  field_simp
  linear_combination (-2 * u) * kbcRoot_sq u

theorem kbcFeq_pos {rho ux uy : ℝ} (hr : 0 < rho) (hx : |ux| < 1) (hy : |uy| < 1) (i : Fin 9) : 0 < kbcFeqD2Q9 rho ux uy i := by
  have h1 : 0 < 2 - kbcRoot ux := by linarith [(kbcRoot_bounds hx).1]
  have h2 : 0 < 2 - kbcRoot uy := by linarith [(kbcRoot_bounds hy).1]
  have h3 := kbcPost_pos hx
  have h4 := kbcPost_pos hy
  have hp : 0 < rho * (2 - kbcRoot ux) * (2 - kbcRoot uy) := by positivity
  unfold kbcFeqD2Q9
  generalize rho * (2 - kbcRoot ux) * (2 - kbcRoot uy) = p at *
  generalize kbcPost ux = x at *
  generalize kbcPost uy = y at *
  fin_cases i <;> simp <;> positivity

theorem kbcFeq_mass {rho ux uy : ℝ} (hx : |ux| < 1) (hy : |uy| < 1) : mass (kbcFeqD2Q9 rho ux uy) = rho := by
  have e1 := kbc_even hx
  have e2 := kbc_even hy
  unfold mass
  rw [sum9]
  unfold kbcFeqD2Q9
  have h3 := (kbcPost_pos hx).ne'
  have h4 := (kbcPost_pos hy).ne'
  generalize kbcPost ux = x at *
  generalize kbcPost uy = y at *
  generalize kbcRoot ux = r at *
  generalize kbcRoot uy = s at *
  have : rho = rho * ((2 - r) * (2 / 3 + (x + 1 / x) / 6)) * ((2 - s) * (2 / 3 + (y + 1 / y) / 6)) := by rw [e1, e2]; ring
  refine Eq.trans ?_ this.symm
  simp
  field_simp; ring

theorem kbcFeq_momentum {rho ux uy c : ℝ} (hx : |ux| < 1) (hy : |uy| < 1) (a : Fin 2) :
    momentum (D2Q9.stencil c).dir (kbcFeqD2Q9 rho ux uy) a = c * (rho * ![ux, uy] a) := by
  have e1 := kbc_even hx
  have e2 := kbc_even hy
  have o1 := kbc_odd hx
  have o2 := kbc_odd hy
  rw [momentum9]
  congr 1
  unfold kbcFeqD2Q9
  have h3 := (kbcPost_pos hx).ne'
  have h4 := (kbcPost_pos hy).ne'
  generalize kbcPost ux = x at *
  generalize kbcPost uy = y at *
  generalize kbcRoot ux = r at *
  generalize kbcRoot uy = s at *
  fin_cases a
  · have : rho * ux = rho * ((2 - r) * (x - 1 / x) / 6) * ((2 - s) * (2 / 3 + (y + 1 / y) / 6)) := by rw [o1, e2]; ring
    refine Eq.trans ?_ this.symm
    simp [lat9]
    field_simp; ring
  · have : rho * uy = rho * ((2 - r) * (2 / 3 + (x + 1 / x) / 6)) * ((2 - s) * (y - 1 / y) / 6) := by rw [o2, e1]; ring
    refine Eq.trans ?_ this.symm
    simp [lat9]
    field_simp; ring

/-- **C66 (KBC, D2Q9)**: as long as both components of the velocity are smaller than the lattice velocity, mass and momentum are conserved and all
equilibrium populations the code divides by are positive. -/
theorem C66_kbcD2Q9 {c : ℝ} (hc : c ≠ 0) {b : Obj ℝ 2 9} (hS : b.stencil = D2Q9.stencil c) {n n' : Node ℝ 2 9}
    (h : kbcStandardD2Q9Node b false n = .ok n') (hu : ∀ a, |n'.u a| < |c|) :
    Conserves (D2Q9.stencil c).dir n.f n'.f ∧ Reports (D2Q9.stencil c).dir n.f 0 n'.rho n'.u ∧
      ∀ i, 0 < kbcFeqD2Q9 n'.rho (n'.u 0 / c) (n'.u 1 / c) i := by
  unfold kbcStandardD2Q9Node at h
  rw [hS] at h
  obtain ⟨hr, rfl⟩ := ite_ok h
  have hr' := pos_of_not hr
  have hV := velocity9 c _ hr' n.f
  have hpos : 0 < density n.f := lt_of_lt_of_le (by positivity) (not_lt.mp hr)
  simp only [Bool.false_eq_true, if_false] at hu ⊢
  have hcp : 0 < |c| := abs_pos.mpr hc
  have hx : ∀ a, |velocityD2Q9 (D2Q9.stencil c).scaling (density n.f) n.f a / (D2Q9.stencil c).scaling| < 1 := by
    intro a
    rw [abs_div]
    exact (div_lt_one hcp).mpr (hu a)
  refine ⟨kbcUpdate_conserves ?_ (fun a => ?_) ?_ fun a => ?_, ⟨rfl, fun a => (hV a).trans (by simp)⟩, kbcFeq_pos hpos (hx 0) (hx 1)⟩
  · exact kbcFeq_mass (hx 0) (hx 1)
  · rw [kbcFeq_momentum (hx 0) (hx 1), ← hV a]
    have hs : (D2Q9.stencil c).scaling = c := rfl
    rw [hs]
    fin_cases a <;> simp <;> field_simp
  · rw [(kbcShear9 c _ _).1, (kbcShear9 c _ _).1]
  · rw [(kbcShear9 c _ _).2, (kbcShear9 c _ _).2]

/-- The weights of D2Q9 as populations. -/
noncomputable def rest9R : Node ℝ 2 9 := weights .D2Q9 1

example : ∃ n', kbcStandardD2Q9Node (Obj.make 1 1 (D2Q9.stencil 1)) false rest9R = .ok n' ∧ ∀ a, |n'.u a| < |(1 : ℝ)| := by
  have hd : density rest9R.f = 1 := (D2Q9.iso5 (1 : ℝ)).m0
  have hu : ∀ a, velocityD2Q9 1 (density rest9R.f) rest9R.f a = 0 := fun a => by
    have := velocity9 (1 : ℝ) (density rest9R.f) (by rw [hd]; norm_num) rest9R.f a
    rw [hd, one_mul] at this
    rw [hd, this]
    exact (D2Q9.iso5 (1 : ℝ)).m1 a
  unfold kbcStandardD2Q9Node
  dsimp only
  rw [if_neg (by rw [hd]; norm_num)]
  refine ⟨_, rfl, fun a => ?_⟩
  have := hu a
  show |velocityD2Q9 1 (density rest9R.f) rest9R.f a| < _
  rw [this]; norm_num

/-! ## Entropic stabilizer -/

theorem estFeq_eq {D Q : ℕ} (S : Stencil ℝ D Q) (rho : ℝ) (u : Fin D → ℝ) :
    estFeq S rho u = bgkEquilibrium (dataOf S) { rho := rho, u := u, T := 1 } := rfl

theorem stabilized_conserves {D Q : ℕ} {M : Fin Q → Fin Q → ℚ} {b : Obj ℝ D Q} (iso : Iso4 b.stencil.weight b.stencil.dir b.stencil.cs2)
    (hcs : b.stencil.cs2 ≠ 0) (hM : ∀ f, mass (Stabilizer.multiply M f) = mass f)
    (hP : ∀ f a, momentum b.stencil.dir (Stabilizer.multiply M f) a = momentum b.stencil.dir f a) {n n' : Node ℝ D Q}
    (h : entropicStabilizedNode M b false n = .ok n') :
    Conserves b.stencil.dir n.f n'.f ∧ Reports b.stencil.dir n.f 0 n'.rho n'.u := by
  unfold entropicStabilizedNode at h
  dsimp only at h
  split at h
  · cases h
  next hr =>
  injection h with h
  subst h
  have hr' : density n.f ≠ 0 := by
    have h1 : (0 : ℝ) < 1 / 10 ^ 12 := by positivity
    exact (lt_of_lt_of_le h1 (not_lt.mp hr)).ne'
  simp only [Bool.false_eq_true, if_false]
  set u : Fin D → ℝ := fun j => (∑ k, n.f k * b.stencil.dir k j) / density n.f with hu
  have hum : ∀ a, density n.f * u a = momentum b.stencil.dir n.f a := fun a => by
    simp only [hu]; rw [mul_div_cancel₀ _ hr']; rfl
  set feq := estFeq b.stencil (density n.f) u with hfeq
  have fm : mass feq = mass n.f := (bgk_conservative (d := dataOf b.stencil) iso hcs).mass { rho := density n.f, u := u, T := 1 }
  have fp : ∀ a, momentum b.stencil.dir feq a = momentum b.stencil.dir n.f a := fun a =>
    ((bgk_conservative (d := dataOf b.stencil) iso hcs).momentum { rho := density n.f, u := u, T := 1 } a).trans (hum a)
  have pm : mass (estPost n.f feq) = mass n.f := by
    have : estPost n.f feq = fun i => n.f i + (-(1 / (1 / 2))) * (n.f i - feq i) := by funext i; unfold estPost; ring
    rw [this, mass_relax0, fm]; ring
  have pp : ∀ a, momentum b.stencil.dir (estPost n.f feq) a = momentum b.stencil.dir n.f a := fun a => by
    have : estPost n.f feq = fun i => n.f i + (-(1 / (1 / 2))) * (n.f i - feq i) := by funext i; unfold estPost; ring
    rw [this, momentum_relax0, fp]; ring
  set reg := Stabilizer.multiply M (estPost n.f feq) with hreg
  have rm : mass reg = mass n.f := (hM _).trans pm
  have rp : ∀ a, momentum b.stencil.dir reg a = momentum b.stencil.dir n.f a := fun a => (hP _ a).trans (pp a)
  generalize estOmega2 b.stencil.weight n.f feq (estPost n.f feq) reg = omega2
  have key : ∀ w : Fin Q → ℝ, ∑ i, feq i * w i = ∑ i, n.f i * w i → ∑ i, reg i * w i = ∑ i, n.f i * w i →
      ∑ j, (feq j + (1 / (b.tau + 1 / 2) - 1) * (reg j + omega2 * (reg j - feq j) - feq j)) * w j = ∑ i, n.f i * w i := by
    intro w h1 h2
    have e1 : ∀ j, (feq j + (1 / (b.tau + 1 / 2) - 1) * (reg j + omega2 * (reg j - feq j) - feq j)) * w j =
        feq j * w j + (1 / (b.tau + 1 / 2) - 1) * (1 + omega2) * (reg j * w j) - (1 / (b.tau + 1 / 2) - 1) * (1 + omega2) * (feq j * w j) :=
      fun j => by ring
    simp only [e1, sum_add_distrib, sum_sub_distrib, ← mul_sum]
    rw [h1, h2]; ring
  refine ⟨⟨?_, fun a => key (fun i => b.stencil.dir i a) (fp a) (rp a)⟩, rfl, fun a => (hum a).trans (by simp)⟩
  have := key (fun _ => 1) (by simpa [mass] using fm) (by simpa [mass] using rm)
  simpa [mass] using this

/-- No division by zero in the entropic stabilizer: wherever `omega2` is a quotient, the derivative of the entropy does not vanish. -/
def StabilizerDefined {D Q : ℕ} (M : Fin Q → Fin Q → ℚ) (S : Stencil ℝ D Q) (f : Fin Q → ℝ) (rho : ℝ) (u : Fin D → ℝ) : Prop :=
  estDivides S.weight f (estFeq S rho u) (estPost f (estFeq S rho u)) (Stabilizer.multiply M (estPost f (estFeq S rho u))) →
    entropyDerivative (Stabilizer.multiply M (estPost f (estFeq S rho u)))
      (fun j => Stabilizer.multiply M (estPost f (estFeq S rho u)) j - estFeq S rho u j) S.weight ≠ 0

/-- `omega2` is the quotient exactly under that condition, and zero otherwise. -/
theorem estOmega2_eq {Q : ℕ} (w f feq post reg : Fin Q → ℝ) :
    (estDivides w f feq post reg → estOmega2 w f feq post reg =
      (entropy f w - entropy reg w) / entropyDerivative reg (fun j => reg j - feq j) w) ∧
    (¬estDivides w f feq post reg → estOmega2 w f feq post reg = 0) := by
  unfold estOmega2 estDivides
  constructor
  · rintro ⟨h1, h2, h3⟩
    rw [if_neg h1, if_neg (not_not.mpr h2), if_pos h3]
  · intro h
    by_cases h1 : estNegative f feq post reg
    · rw [if_pos h1]
    rw [if_neg h1]
    by_cases h2 : 1 / 10 ^ 10 < |entropy f w|
    · rw [if_neg (not_not.mpr h2), if_neg fun h3 => h ⟨h1, h2, h3⟩]
    · rw [if_pos h2]

/-- **C66 (entropic stabilizer, D2Q9 and D3Q19)**: mass and momentum are conserved, whatever the stabilizer `omega2` comes out as. -/
theorem C66_entropicStabilized {c : ℝ} (hc : c ≠ 0) :
    (∀ (b : Obj ℝ 2 9) (_ : b.stencil = D2Q9.stencil c) (n n' : Node ℝ 2 9),
      entropicStabilizedNode (fun i j => Stabilizer.n i j / Stabilizer.d i j) b false n = .ok n' →
      StabilizerDefined (fun i j => Stabilizer.n i j / Stabilizer.d i j) (D2Q9.stencil c) n.f n'.rho n'.u →
      Conserves (D2Q9.stencil c).dir n.f n'.f ∧ Reports (D2Q9.stencil c).dir n.f 0 n'.rho n'.u) ∧
    (∀ (b : Obj ℝ 3 19) (_ : b.stencil = D3Q19.stencil c) (n n' : Node ℝ 3 19),
      entropicStabilizedNode Stabilizer.d3q19 b false n = .ok n' →
      StabilizerDefined Stabilizer.d3q19 (D3Q19.stencil c) n.f n'.rho n'.u →
      Conserves (D3Q19.stencil c).dir n.f n'.f ∧ Reports (D3Q19.stencil c).dir n.f 0 n'.rho n'.u) := by
  constructor
  · intro b hS n n' h _
    have iso := (D2Q9.iso5 c).toIso4
    have hcs : (D2Q9.stencil c).cs2 ≠ 0 := StencilType.cs2_ne .D2Q9 rfl hc
    rw [← hS] at iso hcs ⊢
    refine stabilized_conserves iso hcs (Stabilizer.Keeps.mass Stabilizer.d2q9_keeps.1) (fun f a => ?_) h
    rw [hS]
    exact Stabilizer.Keeps.momentum (Stabilizer.D2Q9_dir c) (Stabilizer.d2q9_keeps.2.1 a) f
  · intro b hS n n' h _
    have iso := (D3Q19.iso5 c).toIso4
    have hcs : (D3Q19.stencil c).cs2 ≠ 0 := StencilType.cs2_ne .D3Q19 rfl hc
    rw [← hS] at iso hcs ⊢
    refine stabilized_conserves iso hcs (Stabilizer.Keeps.mass Stabilizer.d3q19_keeps.1) (fun f a => ?_) h
    rw [hS]
    exact Stabilizer.Keeps.momentum (Stabilizer.D3Q19_dir c) (Stabilizer.d3q19_keeps.2.1 a) f

example : ∃ n', entropicStabilizedNode (fun i j => Stabilizer.n i j / Stabilizer.d i j) (Obj.make 1 1 (D2Q9.stencil 1)) false rest9R = .ok n' ∧
    StabilizerDefined (fun i j => Stabilizer.n i j / Stabilizer.d i j) (D2Q9.stencil 1) rest9R.f n'.rho n'.u := by
  have hd : density rest9R.f = 1 := (D2Q9.iso5 (1 : ℝ)).m0
  unfold entropicStabilizedNode
  dsimp only
  rw [if_neg (by rw [hd]; norm_num)]
  refine ⟨_, rfl, fun h => absurd h.2.1 ?_⟩
  have : entropy rest9R.f (D2Q9.stencil (1 : ℝ)).weight = 0 := by
    unfold entropy
    rw [neg_eq_zero]
    refine sum_eq_zero fun i _ => ?_
    show (D2Q9.stencil (1 : ℝ)).weight i * Real.log ((D2Q9.stencil (1 : ℝ)).weight i / (D2Q9.stencil (1 : ℝ)).weight i) = 0
    by_cases hw : (D2Q9.stencil (1 : ℝ)).weight i = 0
    · rw [hw, zero_mul]
    · rw [div_self hw, Real.log_one, mul_zero]
  rw [this]
  norm_num

end NATriuM.Legacy
