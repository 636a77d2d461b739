import Verif.Spec.Relaxation
import Verif.Props.CollisionMRT
import Mathlib.Analysis.SpecificLimits.Normed
import Mathlib.Topology.Algebra.Ring.Real

/-!
# Lemmas: repeated collisions
-/

namespace NATriuM

open Filter Topology Spec

/-- What is multiplied by the same factor, less than one, again and again vanishes. -/
theorem tends_of_factor {q : ℝ} (hq : |q| < 1) {e : ℕ → ℝ} (h : ∀ k, e (k + 1) = q * e k) : Tendsto e atTop (𝓝 0) := by
  have : ∀ k, e k = q ^ k * e 0 := fun k => by
    induction k with
    | zero => simp
    | succ k ih => rw [h, ih, pow_succ]; ring
  rw [funext this]
  simpa using (tendsto_pow_atTop_nhds_zero_of_abs_lt_one hq).mul_const (e 0)

theorem factor_lt {tau : ℝ} (h : 1 / 2 < tau) : |1 - 1 / tau| < 1 := by
  have h0 : 0 < tau := by linarith
  have h1 : 0 < 1 / tau := by positivity
  have h2 : 1 / tau < 2 := by rw [div_lt_iff₀ h0]; linarith
  rw [abs_lt]
  constructor <;> linarith

theorem bgk_tends {D Q : ℕ} {d : CollData ℝ D Q} (h : 1 / 2 < d.tau) {feq : Fin Q → ℝ} {f : ℕ → Fin Q → ℝ}
    (hf : ∀ k, f (k + 1) = bgkRelax d feq (f k)) : Tendsto f atTop (𝓝 feq) := by
  rw [tendsto_pi_nhds]
  intro i
  have := tends_of_factor (factor_lt h) (e := fun k => f k i - feq i) fun k => by rw [hf, bgkRelax]; ring
  simpa using this.add_const (feq i)

theorem regularized_tends {D Q : ℕ} {d : CollData ℝ D Q} (hi : Iso4 d.weight d.e d.cs2) (hc : d.cs2 ≠ 0) (h : 1 / 2 < d.tau) {feq : Fin Q → ℝ}
    {f : ℕ → Fin Q → ℝ} (hf : ∀ k, f (k + 1) = regularizedRelax d feq (f k)) : Tendsto f atTop (𝓝 feq) := by
  have hp : ∀ a b, Tendsto (fun k => regularizedPi d feq (f k) a b) atTop (𝓝 0) := fun a b =>
    tends_of_factor (factor_lt h) fun k => by rw [regularizedPi_eq, regularizedPi_eq, hf, regularized_flux hi hc]; ring
  rw [← tendsto_add_atTop_iff_nat 1, tendsto_pi_nhds]
  intro i
  simp only [hf, regularizedRelax_eq, fi1]
  have : Tendsto (fun k => ∑ b, ∑ c, d.weight i / (2 * d.cs2 * d.cs2) * regularizedQ d i b c * regularizedPi d feq (f k) b c) atTop (𝓝 0) := by
    have := tendsto_finsetSum (Finset.univ : Finset (Fin D)) fun b _ => tendsto_finsetSum (Finset.univ : Finset (Fin D)) fun c _ =>
      (hp b c).const_mul (d.weight i / (2 * d.cs2 * d.cs2) * regularizedQ d i b c)
    simpa using this
  simpa using (this.const_mul (1 - 1 / d.tau)).const_add (feq i)

theorem mrt_tends {D Q : ℕ} {d : CollData ℝ D Q} {M T : Fin Q → Fin Q → ℝ} (hi : InversePair M T) {omega : Fin Q → ℝ} {feq : Fin Q → ℝ}
    {f : ℕ → Fin Q → ℝ} (hf : ∀ k, f (k + 1) = mrtRelax M T omega d feq (f k))
    (ho : ∀ i, |1 - omega i| < 1 ∨ ∀ k, matrixVectorProduct M (f k) i = matrixVectorProduct M feq i) : Tendsto f atTop (𝓝 feq) := by
  have hm : ∀ i, Tendsto (fun k => matrixVectorProduct M (f k) i) atTop (𝓝 (matrixVectorProduct M feq i)) := fun i => by
    rcases ho i with h | h
    · have := tends_of_factor h (e := fun k => matrixVectorProduct M (f k) i - matrixVectorProduct M feq i) fun k => by
        rw [hf, mrtRelax_moment hi]; ring
      simpa using this.add_const (matrixVectorProduct M feq i)
    · simp only [h]; exact tendsto_const_nhds
  rw [tendsto_pi_nhds]
  intro i
  have h1 : ∀ g : Fin Q → ℝ, g i = ∑ j, T i j * matrixVectorProduct M g j := fun g => (congrFun (mvp_mvp T M hi.left g) i).symm
  rw [h1 feq]
  simp only [h1 (f _)]
  exact tendsto_finsetSum _ fun j _ => (hm j).const_mul _

/-- Every relaxation the library can construct for an exactly isotropic stencil leads to equilibrium, if the relaxation time is above one half. -/
theorem relaxation_tends (t : StencilType) (ht : t.exact = true) {c viscosity dt : ℝ} (hc : c ≠ 0) (cfg : CollisionConfig t.D) (cc : CollisionClass)
    (htau : 1 / 2 < (collisionData t c viscosity dt cfg).tau) {relax : Relaxation ℝ t.D t.Q}
    (h : t.relaxation cfg.mrtBasis cfg.relaxMode (collisionData t c viscosity dt cfg).tau cc = .ok relax) {feq : Fin t.Q → ℝ} {f : ℕ → Fin t.Q → ℝ}
    (hf : ∀ k, f (k + 1) = relax (collisionData t c viscosity dt cfg) feq (f k)) (hm : ∀ k, mass (f k) = mass feq)
    (hp : ∀ k a, momentum (collisionData t c viscosity dt cfg).e (f k) a = momentum (collisionData t c viscosity dt cfg).e feq a) :
    Tendsto f atTop (𝓝 feq) := by
  cases cc
  · cases h; exact bgk_tends htau hf
  · cases h; exact regularized_tends (t.data_iso5 cfg ht hc).toIso4 (t.data_cs2_ne cfg ht hc) htau hf
  · simp only [StencilType.relaxation] at h
    cases t <;> first | (exfalso; revert h; simp only [StencilType.mrtRelaxation]; intro h; cases h) | skip
    · obtain ⟨M, T, omega, -, -, ho, rfl, hi, hr, -, -⟩ := mrt9_cases h
      refine mrt_tends (inversePair_of_table M T hi) hf fun i => .inl ?_
      have : omega i = 1 / (collisionData .D2Q9 c viscosity dt cfg).tau ∨ omega i = 1 := by
        generalize (collisionData .D2Q9 c viscosity dt cfg).tau = tau at ho
        generalize cfg.mrtBasis = b at ho
        generalize cfg.relaxMode = m at ho
        cases b <;> cases m <;> cases ho <;> fin_cases i <;> simp [Function.update]
      rcases this with e | e
      · rw [e]; exact factor_lt htau
      · rw [e]; norm_num
    · obtain ⟨hb, -, omega, ho, rfl, -⟩ := mrt19_cases h
      refine mrt_tends (inversePair_of_table _ _ MRT.dHumieres_inverse) hf fun i => ?_
      have hrow := D3Q19_rows (viscosity := viscosity) (dt := dt) hc cfg
      by_cases hcons : i = 0 ∨ i = 3 ∨ i = 5 ∨ i = 7
      · right
        intro k
        rcases hcons with rfl | rfl | rfl | rfl
        · exact ((conservedRows_mass hrow (f k)).trans (hm k)).trans (conservedRows_mass hrow feq).symm
        · exact ((conservedRows_momentum hrow (f k) (0 : Fin 3)).trans (hp k (0 : Fin 3))).trans (conservedRows_momentum hrow feq (0 : Fin 3)).symm
        · exact ((conservedRows_momentum hrow (f k) (1 : Fin 3)).trans (hp k (1 : Fin 3))).trans (conservedRows_momentum hrow feq (1 : Fin 3)).symm
        · exact ((conservedRows_momentum hrow (f k) (2 : Fin 3)).trans (hp k (2 : Fin 3))).trans (conservedRows_momentum hrow feq (2 : Fin 3)).symm
      · left
        push Not at hcons
        obtain ⟨h0, h3, h5, h7⟩ := hcons
        have : |1 - 1 / (collisionData .D3Q19 c viscosity dt cfg).tau| < 1 := factor_lt htau
        rw [hb] at ho
        revert ho this
        generalize (collisionData .D3Q19 c viscosity dt cfg).tau = tau at htau ⊢
        generalize cfg.relaxMode = m
        intro ho this
        unfold MRT.makeDiag19 at ho
        rw [if_neg (not_not.mpr htau)] at ho
        cases m <;> cases ho
        · fin_cases i <;> first | exact absurd rfl h0 | exact absurd rfl h3 | exact absurd rfl h5 | exact absurd rfl h7 | exact this |
            (show |1 - (1 : ℝ)| < 1; norm_num)
        · fin_cases i <;> first | exact absurd rfl h0 | exact absurd rfl h3 | exact absurd rfl h5 | exact absurd rfl h7 | exact this |
            (show |1 - (119 / 100 : ℝ)| < 1; rw [abs_lt]; norm_num) | (show |1 - (14 / 10 : ℝ)| < 1; rw [abs_lt]; norm_num) |
            (show |1 - (12 / 10 : ℝ)| < 1; rw [abs_lt]; norm_num) | (show |1 - (198 / 100 : ℝ)| < 1; rw [abs_lt]; norm_num)

end NATriuM
