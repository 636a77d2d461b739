import Verif.Model.FaceCrossing
import Verif.Spec.FaceCrossing
import Mathlib.Tactic.Linarith
import Mathlib.Tactic.LinearCombination
import Mathlib.Tactic.FieldSimp
import Mathlib.Tactic.Positivity
import Mathlib.Tactic.NormNum
import Mathlib.Tactic.Ring
import Mathlib.Tactic.FinCases

/-!
# Lemmas on the face that a path crosses
-/

namespace NATriuM
namespace Paths

variable {K : Type*} [Field K] [LinearOrder K] [IsStrictOrderedRing K]

theorem roundOff_pos : (0 : K) < roundOff := by unfold roundOff; positivity

theorem roundOff_lt : (roundOff : K) < 1 / 2 := by unfold roundOff; norm_num

/-- The parameter where a coordinate reaches 0 -/
theorem lower_exit {p q : K} (h0 : 0 ≤ p) (hq : q < 0) :
    0 ≤ (0 - p) / (q - p) ∧ (0 - p) / (q - p) ≤ 1 ∧ p + (0 - p) / (q - p) * (q - p) = 0 ∧
    ∀ s, s ≤ (0 - p) / (q - p) → 0 ≤ p + s * (q - p) := by
  have hd : q - p < 0 := by linarith
  have he : (0 - p) / (q - p) * (q - p) = 0 - p := div_mul_cancel₀ _ hd.ne
  refine ⟨div_nonneg_of_nonpos (by linarith) hd.le, ?_, by linarith, fun s hs => ?_⟩
  · rw [div_le_one_of_neg hd]; linarith
  · nlinarith [mul_le_mul_of_nonpos_right hs hd.le]

/-- The parameter where a coordinate reaches 1 -/
theorem upper_exit {p q : K} (h1 : p ≤ 1) (hq : 1 < q) :
    0 ≤ (1 - p) / (q - p) ∧ (1 - p) / (q - p) ≤ 1 ∧ p + (1 - p) / (q - p) * (q - p) = 1 ∧
    ∀ s, s ≤ (1 - p) / (q - p) → p + s * (q - p) ≤ 1 := by
  have hd : 0 < q - p := by linarith
  have he : (1 - p) / (q - p) * (q - p) = 1 - p := div_mul_cancel₀ _ hd.ne'
  refine ⟨div_nonneg (by linarith) hd.le, ?_, by linarith, fun s hs => ?_⟩
  · rw [div_le_one hd]; linarith
  · nlinarith [mul_le_mul_of_nonneg_right hs hd.le]

/-- A coordinate stays in the interval between two of its values. -/
theorem stays {p q : K} (hp : 0 ≤ p ∧ p ≤ 1) (hq : 0 ≤ q ∧ q ≤ 1) {s : K} (h0 : 0 ≤ s) (h1 : s ≤ 1) :
    0 ≤ p + s * (q - p) ∧ p + s * (q - p) ≤ 1 := by
  constructor
  · nlinarith [mul_nonneg h0 hq.1, mul_nonneg (sub_nonneg.mpr h1) hp.1]
  · nlinarith [mul_nonneg h0 (sub_nonneg.mpr hq.2), mul_nonneg (sub_nonneg.mpr h1) (sub_nonneg.mpr hp.2)]

variable {d : ℕ}

/-- What is known after the axes in `S` have been looked at -/
def Best (S : List (Fin d)) (p q : Fin d → K) : Option (ℕ × K) → Prop
  | none => ∀ a ∈ S, 0 ≤ q a ∧ q a ≤ 1
  | some (f, l) => 0 ≤ l ∧ l ≤ 1 ∧ (∀ a ∈ S, ∀ s, 0 ≤ s → s ≤ l → 0 ≤ p a + s * (q a - p a) ∧ p a + s * (q a - p a) ≤ 1) ∧
      ∃ a ∈ S, (f = 2 * (a : ℕ) ∧ q a < 0 ∧ p a + l * (q a - p a) = 0) ∨ (f = 2 * (a : ℕ) + 1 ∧ 1 < q a ∧ p a + l * (q a - p a) = 1)

theorem best_inside {S : List (Fin d)} {p q : Fin d → K} {b : Option (ℕ × K)} (hb : Best S p q b) (a : Fin d)
    (hp : 0 ≤ p a ∧ p a ≤ 1) (hq : 0 ≤ q a ∧ q a ≤ 1) : Best (a :: S) p q b := by
  match b, hb with
  | none, hb =>
    intro c hc
    rcases List.mem_cons.1 hc with rfl | hc
    · exact hq
    · exact hb c hc
  | some (f, l), ⟨h0, h1, h2, c, hc, h3⟩ =>
    refine ⟨h0, h1, fun c hc s hs0 hs => ?_, c, List.mem_cons_of_mem _ hc, h3⟩
    rcases List.mem_cons.1 hc with rfl | hc
    · exact stays hp hq hs0 (hs.trans h1)
    · exact h2 c hc s hs0 hs

theorem best_outside {S : List (Fin d)} {p q : Fin d → K} {b : Option (ℕ × K)} (hb : Best S p q b) (a : Fin d)
    (hS : ∀ c ∈ S, 0 ≤ p c ∧ p c ≤ 1) {f : ℕ} {l : K} (h0 : 0 ≤ l) (h1 : l ≤ 1)
    (hs : ∀ s, 0 ≤ s → s ≤ l → 0 ≤ p a + s * (q a - p a) ∧ p a + s * (q a - p a) ≤ 1)
    (hf : (f = 2 * (a : ℕ) ∧ q a < 0 ∧ p a + l * (q a - p a) = 0) ∨ (f = 2 * (a : ℕ) + 1 ∧ 1 < q a ∧ p a + l * (q a - p a) = 1)) :
    Best (a :: S) p q (if l < currentLambda b then some (f, l) else b) := by
  by_cases hl : l < currentLambda b
  · rw [if_pos hl]
    refine ⟨h0, h1, fun c hc s hs0 hsl => ?_, a, List.mem_cons_self, hf⟩
    rcases List.mem_cons.1 hc with rfl | hc
    · exact hs s hs0 hsl
    · match b, hb with
      | none, hb => exact stays (hS c hc) (hb c hc) hs0 (hsl.trans h1)
      | some (f', l'), ⟨_, _, h2, _⟩ => exact h2 c hc s hs0 (hsl.trans (le_of_lt hl))
  · rw [if_neg hl]
    match b, hb with
    | none, hb =>
      exfalso; apply hl; simp only [currentLambda]; linarith [show (1 : K) < 100 by norm_num]
    | some (f', l'), ⟨h0', h1', h2, c, hc, h3⟩ =>
      refine ⟨h0', h1', fun c hc s hs0 hsl => ?_, c, List.mem_cons_of_mem _ hc, h3⟩
      rcases List.mem_cons.1 hc with rfl | hc
      · exact hs s hs0 (hsl.trans (not_lt.1 hl))
      · exact h2 c hc s hs0 hsl

theorem nextAxis_best {S : List (Fin d)} {p q : Fin d → K} {b : Option (ℕ × K)} (hb : Best S p q b) (a : Fin d)
    (hS : ∀ c ∈ S, 0 ≤ p c ∧ p c ≤ 1) (hp : 0 ≤ p a ∧ p a ≤ 1) :
    ∃ b', nextAxis (a : ℕ) (p a) (q a) b = .ok b' ∧ Best (a :: S) p q b' := by
  by_cases hq : q a < 0
  · obtain ⟨h0, h1, h2, h3⟩ := lower_exit hp.1 hq
    refine ⟨_, by rw [nextAxis, if_pos hq, checkLambda, if_pos ⟨h0, h1⟩]; rfl, ?_⟩
    refine best_outside hb a hS h0 h1 (fun s hs0 hs => ⟨h3 s hs, ?_⟩) (Or.inl ⟨rfl, hq, h2⟩)
    nlinarith [mul_nonneg hs0 (show 0 ≤ p a - q a by linarith)]
  · by_cases hq' : q a > 1
    · obtain ⟨h0, h1, h2, h3⟩ := upper_exit hp.2 hq'
      refine ⟨_, by rw [nextAxis, if_neg hq, if_pos hq', checkLambda, if_pos ⟨h0, h1⟩]; rfl, ?_⟩
      refine best_outside hb a hS h0 h1 (fun s hs0 hs => ⟨?_, h3 s hs⟩) (Or.inr ⟨rfl, hq', h2⟩)
      nlinarith [mul_nonneg hs0 (show 0 ≤ q a - p a by linarith)]
    · exact ⟨b, by rw [nextAxis, if_neg hq, if_neg hq'], best_inside hb a hp ⟨not_lt.1 hq, not_lt.1 hq'⟩⟩

/-- The first axis is treated as the others would be. -/
theorem firstAxis_eq {p q : K} (hp : 0 ≤ p ∧ p ≤ 1) : firstAxis p q = nextAxis 0 p q none := by
  unfold firstAxis nextAxis
  by_cases hq : q < 0
  · obtain ⟨h0, h1, _⟩ := lower_exit hp.1 hq
    rw [if_pos hq, if_pos hq, checkLambda, if_pos ⟨h0, h1⟩]
    have hl : (0 - p) / (q - p) < currentLambda none := by
      show _ < (100 : K)
      linarith [show (1 : K) < 100 by norm_num]
    simp only [Except.map, if_pos hl]
  · rw [if_neg hq, if_neg hq]
    by_cases hq' : q > 1
    · obtain ⟨h0, h1, _⟩ := upper_exit hp.2 hq'
      rw [if_pos hq', if_pos hq', checkLambda, if_pos ⟨h0, h1⟩]
      have hl : (1 - p) / (q - p) < currentLambda none := by
        show _ < (100 : K)
        linarith [show (1 : K) < 100 by norm_num]
      simp only [Except.map, if_pos hl]
    · rw [if_neg hq', if_neg hq']

theorem crossedFace_best {m : ℕ} (hm : m ≤ 1) {p q : Fin (m + 2) → K} (hp : InCell p) :
    ∃ b, crossedFace p q = .ok b ∧ ∃ S : List (Fin (m + 2)), (∀ a, a ∈ S) ∧ Best S p q b := by
  obtain ⟨b0, e0, h0⟩ := nextAxis_best (S := []) (b := none) (p := p) (q := q) (by simp [Best]) 0 (by simp) (hp 0)
  obtain ⟨b1, e1, h1⟩ := nextAxis_best h0 1 (fun c _ => hp c) (hp 1)
  have e0' : firstAxis (p 0) (q 0) = .ok b0 := by rw [firstAxis_eq (hp 0)]; exact e0
  have e1' : nextAxis 1 (p 1) (q 1) b0 = .ok b1 := e1
  unfold crossedFace
  rw [if_pos (show ∀ a, 0 ≤ p a ∧ p a ≤ 1 from hp), e0']
  simp only [e1']
  by_cases hm1 : m = 1
  · subst hm1
    obtain ⟨b2, e2, h2⟩ := nextAxis_best h1 2 (fun c _ => hp c) (hp 2)
    refine ⟨b2, ?_, _, fun a => ?_, h2⟩
    · rw [dif_pos rfl]; exact e2
    · fin_cases a <;> simp
  · have hm0 : m = 0 := by omega
    subst hm0
    refine ⟨b1, by rw [dif_neg hm1], _, fun a => ?_, h1⟩
    fin_cases a <;> simp

theorem best_leaves {S : List (Fin d)} {p q : Fin d → K} {f : ℕ} {l : K} (hS : ∀ a, a ∈ S) (hp : InCell p) (hb : Best S p q (some (f, l))) :
    LeavesThrough f l p q := by
  obtain ⟨h0, h1, h2, a, _, h3⟩ := hb
  refine ⟨h0, h1, fun s hs0 hs a => h2 a (hS a) s hs0 hs, ?_, fun s hs hs1 => ?_⟩
  · rcases h3 with ⟨hf, _, h⟩ | ⟨hf, _, h⟩
    · exact ⟨a, Or.inl ⟨hf, h⟩⟩
    · exact ⟨a, Or.inr ⟨hf, h⟩⟩
  · have hpa := hp a
    rcases h3 with ⟨hf, hq, h⟩ | ⟨hf, hq, h⟩
    · refine ⟨a, Or.inl ⟨hf, ?_⟩⟩
      show p a + s * (q a - p a) < 0
      nlinarith [mul_pos (sub_pos.mpr hs) (show 0 < p a - q a by linarith [hpa.1])]
    · refine ⟨a, Or.inr ⟨hf, ?_⟩⟩
      show 1 < p a + s * (q a - p a)
      nlinarith [mul_pos (sub_pos.mpr hs) (show 0 < q a - p a by linarith [hpa.2])]

theorem snap_zero : snap (0 : K) = 0 := by
  have h1 := roundOff_pos (K := K)
  have h2 := roundOff_lt (K := K)
  have : ¬ |(0 : K) - 1| < roundOff := by
    rw [zero_sub, abs_neg, abs_one]; linarith
  simp only [snap, abs_zero, h1, if_true, this, if_false]

theorem snap_one : snap (1 : K) = 1 := by
  have h1 := roundOff_pos (K := K)
  have h2 := roundOff_lt (K := K)
  have : ¬ |(1 : K)| < roundOff := by
    rw [abs_one]; linarith
  simp only [snap, if_neg this, sub_self, abs_zero, h1, if_true]

/-- Elimination of round-off errors moves a coordinate by less than the tolerance. -/
theorem snap_near (x : K) : |snap x - x| < roundOff := by
  have h1 := roundOff_pos (K := K)
  have h2 := roundOff_lt (K := K)
  unfold snap
  by_cases hx : |x| < roundOff
  · simp only [hx, if_true]
    have : ¬ |(0 : K) - 1| < roundOff := by rw [zero_sub, abs_neg, abs_one]; linarith
    rw [if_neg this, zero_sub, abs_neg]; exact hx
  · simp only [hx, if_false]
    by_cases hx' : |x - 1| < roundOff
    · rw [if_pos hx', abs_sub_comm]; exact hx'
    · rw [if_neg hx', sub_self, abs_zero]; exact h1

theorem snap_mem {x : K} (hx : 0 ≤ x ∧ x ≤ 1) : 0 ≤ snap x ∧ snap x ≤ 1 := by
  unfold snap
  by_cases h : |x| < roundOff
  · simp only [h, if_true]; split_ifs <;> simp
  · simp only [h, if_false]; split_ifs
    · simp
    · exact hx

/-- What elimination of round-off errors does not change -/
theorem snap_eq {x : K} (h0 : x = 0 ∨ roundOff ≤ |x|) (h1 : x = 1 ∨ roundOff ≤ |x - 1|) : snap x = x := by
  rcases h0 with rfl | h0
  · exact snap_zero
  rcases h1 with rfl | h1
  · exact snap_one
  simp only [snap, not_lt.2 h0, not_lt.2 h1, if_false]

theorem exitPoint_onFace {p q : Fin d → K} {f : ℕ} {l : K} (h : OnFace f (along p q l)) : OnFace f (exitPoint p q l) := by
  obtain ⟨a, ⟨hf, h⟩ | ⟨hf, h⟩⟩ := h
  · refine ⟨a, Or.inl ⟨hf, ?_⟩⟩
    rw [exitPoint, mul_comm (q a - p a), show p a + l * (q a - p a) = 0 from h, snap_zero]
  · refine ⟨a, Or.inr ⟨hf, ?_⟩⟩
    rw [exitPoint, mul_comm (q a - p a), show p a + l * (q a - p a) = 1 from h, snap_one]

theorem exitPoint_along (p q : Fin d → K) (l : K) (a : Fin d) : exitPoint p q l a = snap (along p q l a) := by
  rw [exitPoint, along, mul_comm (q a - p a)]

theorem onFace_product {f : ℕ} {h : Fin d → K} (hf : OnFace f h) : ∏ a, h a * (1 - h a) = 0 := by
  obtain ⟨a, ⟨_, ha⟩ | ⟨_, ha⟩⟩ := hf
  · exact Finset.prod_eq_zero (Finset.mem_univ a) (by rw [ha, zero_mul])
  · exact Finset.prod_eq_zero (Finset.mem_univ a) (by rw [ha, sub_self, mul_zero])

/-! ### Planes -/

omit [LinearOrder K] [IsStrictOrderedRing K] in
theorem side_along (x n p q : Fin d → K) (t : K) : side x n (along p q t) = side x n p + t * (side x n q - side x n p) := by
  simp only [side, along]
  rw [← Finset.sum_sub_distrib, Finset.mul_sum, ← Finset.sum_add_distrib]
  exact Finset.sum_congr rfl fun a _ => by ring

omit [LinearOrder K] [IsStrictOrderedRing K] in
theorem inner_point (x n p : Fin d → K) : inner (p - x) n = side x n p := rfl

omit [LinearOrder K] [IsStrictOrderedRing K] in
theorem inner_ends (x n p q : Fin d → K) : inner (p - q) n = side x n p - side x n q := by
  simp only [inner, side, Pi.sub_apply]
  rw [← Finset.sum_sub_distrib]
  exact Finset.sum_congr rfl fun a _ => by ring

/-- The parameter computed for one plane -/
def planeLambda (inside outside : Fin d → K) (f : FacePlane K d) : K :=
  side f.point f.normal inside / (side f.point f.normal inside - side f.point f.normal outside)

/-- What is known after the planes in `L` have been looked at -/
def BestPlane (inside outside : Fin d → K) (L : List (FacePlane K d × ℕ)) (b : ℕ × K) : Prop :=
  b.2 ≤ 1 ∧ (∀ f ∈ L, side f.1.point f.1.normal inside ≠ side f.1.point f.1.normal outside → 0 ≤ planeLambda inside outside f.1 →
      b.2 ≤ planeLambda inside outside f.1) ∧
    (b.2 = 1 ∨ 0 ≤ b.2 ∧ ∃ f ∈ L, f.2 = b.1 ∧ side f.1.point f.1.normal inside ≠ side f.1.point f.1.normal outside ∧
      planeLambda inside outside f.1 = b.2)

theorem planeStep_best (inside outside : Fin d → K) (L : List (FacePlane K d × ℕ)) (b : ℕ × K) (hb : BestPlane inside outside L b)
    (f : FacePlane K d × ℕ) : BestPlane inside outside (L ++ [f]) (planeStep inside outside b f) := by
  obtain ⟨h1, h2, h3⟩ := hb
  unfold planeStep
  rw [inner_ends f.1.point, inner_point]
  have keep : (side f.1.point f.1.normal inside ≠ side f.1.point f.1.normal outside → 0 ≤ planeLambda inside outside f.1 →
      b.2 ≤ planeLambda inside outside f.1) → BestPlane inside outside (L ++ [f]) b := by
    intro hf
    refine ⟨h1, fun g hg => ?_, h3.imp_right fun ⟨h0, g, hg, h⟩ => ⟨h0, g, List.mem_append_left _ hg, h⟩⟩
    rcases List.mem_append.1 hg with hg | hg
    · exact h2 g hg
    · rw [List.mem_singleton.1 hg]; exact hf
  by_cases hden : side f.1.point f.1.normal inside - side f.1.point f.1.normal outside = 0
  · simp only [hden, if_true]
    exact keep fun h => absurd (sub_eq_zero.1 hden) h
  simp only [hden, if_false]
  by_cases hneg : planeLambda inside outside f.1 < 0
  · rw [planeLambda] at hneg
    simp only [hneg, if_true]
    exact keep fun _ h => absurd hneg (not_lt.2 h)
  have hneg' := hneg
  rw [planeLambda] at hneg'
  simp only [hneg', if_false]
  by_cases hlt : planeLambda inside outside f.1 < b.2
  · have hlt' := hlt
    rw [planeLambda] at hlt'
    rw [if_pos hlt']
    refine ⟨hlt.le.trans h1, fun g hg hne h0 => ?_, Or.inr ⟨not_lt.1 hneg, f, by simp, rfl, fun h => hden (sub_eq_zero.2 h), rfl⟩⟩
    rcases List.mem_append.1 hg with hg | hg
    · exact hlt.le.trans (h2 g hg hne h0)
    · rw [List.mem_singleton.1 hg]; exact le_rfl
  · have hlt' := hlt
    rw [planeLambda] at hlt'
    rw [if_neg hlt']
    exact keep fun _ _ => not_lt.1 hlt

theorem planes_best (inside outside : Fin d → K) (M L : List (FacePlane K d × ℕ)) (b : ℕ × K) (hb : BestPlane inside outside L b) :
    BestPlane inside outside (L ++ M) (M.foldl (planeStep inside outside) b) := by
  induction M generalizing L b with
  | nil => simpa using hb
  | cons f M ih =>
    have := ih (L ++ [f]) _ (planeStep_best inside outside L b hb f)
    rwa [List.append_assoc, List.singleton_append] at this

theorem plane_eq {si so : K} (hne : si ≠ so) : si + si / (si - so) * (so - si) = 0 := by
  have hd : si - so ≠ 0 := sub_ne_zero.2 hne
  field_simp; ring

/-- A plane that separates two points is crossed between them. -/
theorem plane_between {si so : K} (h : so * si < 0) : si ≠ so ∧ 0 < si / (si - so) ∧ si / (si - so) < 1 := by
  have hne : si ≠ so := by rintro rfl; nlinarith [sq_nonneg si]
  have hs : si ≠ 0 := by rintro rfl; simp at h
  rcases lt_or_gt_of_ne hs with hs | hs
  · have ho : 0 < so := by by_contra hc; nlinarith
    have hd : si - so < 0 := by linarith
    exact ⟨hne, div_pos_of_neg_of_neg hs hd, by rw [div_lt_one_of_neg hd]; linarith⟩
  · have ho : so < 0 := by by_contra hc; nlinarith
    have hd : 0 < si - so := by linarith
    exact ⟨hne, div_pos hs hd, by rw [div_lt_one hd]; linarith⟩

/-- A plane that is crossed between two points separates them. -/
theorem plane_separates {si so : K} (hs : si ≠ 0) (hne : si ≠ so) (h0 : 0 ≤ si / (si - so)) (h1 : si / (si - so) < 1) :
    0 < si / (si - so) ∧ so * si < 0 := by
  have hd : si - so ≠ 0 := sub_ne_zero.2 hne
  have hp : 0 < si / (si - so) := lt_of_le_of_ne h0 (Ne.symm (div_ne_zero hs hd))
  refine ⟨hp, ?_⟩
  have he := plane_eq hne
  set l := si / (si - so)
  have h2 : 0 < si * si := mul_self_pos.2 hs
  have h3 : l * (so * si) = -((1 - l) * (si * si)) := by linear_combination si * he
  have h4 : l * (so * si) < 0 := by rw [h3]; nlinarith [mul_pos (sub_pos.2 h1) h2]
  by_contra hc
  nlinarith [mul_nonneg hp.le (not_lt.1 hc)]

/-- Until the first plane is crossed, the path stays on the side of a plane where it began. -/
theorem plane_stays {si so s l : K} (h0 : 0 ≤ s) (hs : s ≤ l) (hl : l ≤ 1) (hb : so * si < 0 → l ≤ si / (si - so)) :
    0 ≤ (si + s * (so - si)) * si := by
  by_cases h : so * si < 0
  · obtain ⟨hne, _, _⟩ := plane_between h
    have he := plane_eq hne
    have := hs.trans (hb h)
    set k := si / (si - so)
    have h3 : si * si = k * (si * si - so * si) := by linear_combination si * he
    nlinarith [mul_nonneg (sub_nonneg.2 this) (show 0 ≤ si * si - so * si by nlinarith [mul_self_nonneg si])]
  · have := not_lt.1 h
    nlinarith [mul_nonneg h0 this, mul_nonneg (sub_nonneg.2 (hs.trans hl)) (mul_self_nonneg si)]

end Paths
end NATriuM
