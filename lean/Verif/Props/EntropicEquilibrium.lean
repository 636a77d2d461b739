import Verif.Lemmas.EntropicEquilibrium
import Verif.Lemmas.Initialisation
import Mathlib.Tactic.NormNum

/-!
# Property C134: the initial state of the KBC model
-/

namespace NATriuM.Legacy

open NATriuM.Spec NATriuM.Init

variable {ι : Type*} [DecidableEq ι]

/-- **C134**, two dimensions: with the KBC model on D2Q9 the distributions start with the density and the momentum of the given fields at every
node of this process, as long as the components of the velocity are smaller than the lattice velocity; they are positive where the density is.
Nodes of other processes are not touched. -/
theorem C134_plane {c : ℝ} (hc : c ≠ 0) (tau : ℝ) (owned : List ι) (iterate) (rho : ι → ℝ) (u : Fin 2 → ι → ℝ) (f : ι → Fin 9 → ℝ) (n : ι)
    (hu : ∀ a, |u a n| < |c|) :
    let f' := initializeDistributions .equilibrium (D2Q9.stencil c) (kbcEquilibrium (D2Q9.stencil c)) tau owned [] iterate rho u f
    (n ∈ owned → mass (f' n) = rho n ∧ (∀ a, momentum (D2Q9.stencil c).dir (f' n) a = rho n * u a n) ∧ (0 < rho n → ∀ i, 0 < f' n i)) ∧
      (n ∉ owned → f' n = f n) := by
  intro f'
  have hf' : f' n = if n ∈ owned then kbcEquilibrium (D2Q9.stencil c) (fun j => u j n) (rho n) else f n := toEquilibrium_apply _ _ _ _ _ _
  have hx : ∀ a, |u a n / c| < 1 := fun a => by rw [abs_div]; exact (div_lt_one (abs_pos.mpr hc)).mpr (hu a)
  refine ⟨fun hn => ?_, fun hn => by rw [hf', if_neg hn]⟩
  rw [hf', if_pos hn, kbcEquilibrium_D2Q9 hc]
  refine ⟨kbcFeq_mass (hx 0) (hx 1), fun a => ?_, fun hr => kbcFeq_pos hr (hx 0) (hx 1)⟩
  rw [kbcFeq_momentum (hx 0) (hx 1)]
  fin_cases a <;> simp <;> field_simp

/-- **C134**, three dimensions: on D3Q15 the same is true if at least one component of the velocity vanishes. -/
theorem C134_space_partial {c : ℝ} (hc : c ≠ 0) (tau : ℝ) (owned : List ι) (iterate) (rho : ι → ℝ) (u : Fin 3 → ι → ℝ) (f : ι → Fin 15 → ℝ)
    (n : ι) (hu : ∀ a, |u a n| < |c|) (h0 : ∃ a, u a n = 0) :
    let f' := initializeDistributions .equilibrium (D3Q15.stencil c) (kbcEquilibrium (D3Q15.stencil c)) tau owned [] iterate rho u f
    (n ∈ owned → mass (f' n) = rho n ∧ ∀ a, momentum (D3Q15.stencil c).dir (f' n) a = rho n * u a n) ∧ (n ∉ owned → f' n = f n) := by
  intro f'
  have hf' : f' n = if n ∈ owned then kbcEquilibrium (D3Q15.stencil c) (fun j => u j n) (rho n) else f n := toEquilibrium_apply _ _ _ _ _ _
  have hx : ∀ a, |u a n / c| < 1 := fun a => by rw [abs_div]; exact (div_lt_one (abs_pos.mpr hc)).mpr (hu a)
  refine ⟨fun hn => ?_, fun hn => by rw [hf', if_neg hn]⟩
  rw [hf', if_pos hn, kbcEquilibrium_D3Q15 hc]
  obtain ⟨hm, hp⟩ := kbcTable15_moments (rho n) (2 - kbcRoot (u 0 n / c)) (2 - kbcRoot (u 1 n / c)) (2 - kbcRoot (u 2 n / c))
    (kbcPost (u 0 n / c)) (kbcPost (u 1 n / c)) (kbcPost (u 2 n / c))
  have hone : (2 - kbcRoot (u 0 n / c) = 1 ∨ 2 - kbcRoot (u 1 n / c) = 1 ∨ 2 - kbcRoot (u 2 n / c) = 1) := by
    obtain ⟨a, ha⟩ := h0
    have : 2 - kbcRoot (u a n / c) = 1 := by rw [ha, zero_div, kbcRoot_zero]; norm_num
    fin_cases a
    · exact Or.inl this
    · exact Or.inr (Or.inl this)
    · exact Or.inr (Or.inr this)
  have hzero : (2 - kbcRoot (u 0 n / c) = 1 ∧ u 0 n = 0) ∨ (2 - kbcRoot (u 1 n / c) = 1 ∧ u 1 n = 0) ∨
      (2 - kbcRoot (u 2 n / c) = 1 ∧ u 2 n = 0) := by
    obtain ⟨a, ha⟩ := h0
    have : 2 - kbcRoot (u a n / c) = 1 ∧ u a n = 0 := ⟨by rw [ha, zero_div, kbcRoot_zero]; norm_num, ha⟩
    fin_cases a
    · exact Or.inl this
    · exact Or.inr (Or.inl this)
    · exact Or.inr (Or.inr this)
  obtain ⟨e0, o0⟩ := kbc_axis (hx 0)
  obtain ⟨e1, o1⟩ := kbc_axis (hx 1)
  obtain ⟨e2, o2⟩ := kbc_axis (hx 2)
  have hd : ∀ a, u a n = c * (u a n / c) := fun a => by field_simp
  refine ⟨?_, fun a => ?_⟩
  · rw [hm, e0, e1, e2]
    generalize 2 - kbcRoot (u 0 n / c) = A at hone ⊢
    generalize 2 - kbcRoot (u 1 n / c) = B at hone ⊢
    generalize 2 - kbcRoot (u 2 n / c) = C at hone ⊢
    rcases hone with rfl | rfl | rfl <;> ring
  · rw [momentum15, hp, e0, e1, e2, o0, o1, o2]
    generalize 2 - kbcRoot (u 0 n / c) = A at hzero ⊢
    generalize 2 - kbcRoot (u 1 n / c) = B at hzero ⊢
    generalize 2 - kbcRoot (u 2 n / c) = C at hzero ⊢
    rw [hd a]
    fin_cases a <;> rcases hzero with ⟨rfl, h⟩ | ⟨rfl, h⟩ | ⟨rfl, h⟩ <;> simp [h] <;> ring

lemma kbcRoot_sample : kbcRoot (4 / 11) = 13 / 11 := by
  have h3 : √3 * √3 = (3 : ℝ) := Real.mul_self_sqrt (by norm_num)
  unfold kbcRoot
  rw [show (1 : ℝ) + 4 / 11 * √3 * (4 / 11 * √3) = (13 / 11) ^ 2 by linear_combination (16 / 121) * h3]
  exact Real.sqrt_sq (by norm_num)

lemma kbcPost_sample : kbcPost (4 / 11) = 3 := by
  have h3 : √3 ≠ (0 : ℝ) := by positivity
  unfold kbcPost
  rw [kbcRoot_sample]
  field_simp
  norm_num

/-- **C134**, what is missing: on D3Q15, which the model accepts, the equilibrium is the product formula of a lattice with 27 velocities.  If
all three components of the velocity differ from zero, the distributions start with another density: here 1347/1331 instead of 1. -/
theorem C134_space_fails (tau : ℝ) (owned : List ι) (iterate) (f : ι → Fin 15 → ℝ) (n : ι) (hn : n ∈ owned) :
    mass (initializeDistributions .equilibrium (D3Q15.stencil 1) (kbcEquilibrium (D3Q15.stencil 1)) tau owned [] iterate (fun _ => 1)
      (fun _ _ => 4 / 11) f n) = 1347 / 1331 := by
  have hf' : initializeDistributions .equilibrium (D3Q15.stencil 1) (kbcEquilibrium (D3Q15.stencil 1)) tau owned [] iterate (fun _ => 1)
      (fun _ _ => 4 / 11) f n = if n ∈ owned then kbcEquilibrium (D3Q15.stencil 1) (fun _ => 4 / 11) 1 else f n :=
    toEquilibrium_apply _ _ _ _ _ _
  rw [hf', if_pos hn, kbcEquilibrium_D3Q15 one_ne_zero]
  simp only [div_one]
  rw [(kbcTable15_moments _ _ _ _ _ _ _).1, kbcRoot_sample, kbcPost_sample]
  norm_num

/-- velocities below the lattice velocity, with one component equal to zero: the hypotheses of the theorems are met -/
example : (∀ a : Fin 3, |(![1 / 10, -1 / 5, 0] : Fin 3 → ℝ) a| < |(1 : ℝ)|) ∧ ∃ a, (![1 / 10, -1 / 5, 0] : Fin 3 → ℝ) a = 0 := by
  refine ⟨fun a => ?_, 2, by simp⟩
  fin_cases a <;> simp [abs_lt] <;> norm_num

end NATriuM.Legacy
