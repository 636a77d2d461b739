import Mathlib.Analysis.SpecialFunctions.Trigonometric.DerivHyp

/-!
# Specification: what a mesh transformation must do

The transformation has to carry the mesh of the reference domain to a mesh of the flow domain: every point of the flow domain is the image
of exactly one point of the reference domain (`Set.BijOn`), and neighbouring cells keep their order, so that no cell is turned inside out.
-/

namespace NATriuM

namespace MeshTransformSpec

open Set

/-- The rectangle `[0, L] × [0, H]`. -/
def rectangle (L H : ℝ) : Set (ℝ × ℝ) := {p | 0 ≤ p.1 ∧ p.1 ≤ L ∧ 0 ≤ p.2 ∧ p.2 ≤ H}

/-- The box `[0, L] × [0, H] × [0, W]`. -/
def box (L H W : ℝ) : Set (ℝ × ℝ × ℝ) := {p | 0 ≤ p.1 ∧ p.1 ≤ L ∧ 0 ≤ p.2.1 ∧ p.2.1 ≤ H ∧ 0 ≤ p.2.2 ∧ p.2.2 ≤ W}

/-- The gap between the flat wall `y = 0` and the curved wall `y = h x`, of length `L`. -/
def gap (L : ℝ) (h : ℝ → ℝ) : Set (ℝ × ℝ) := {p | 0 ≤ p.1 ∧ p.1 ≤ L ∧ 0 ≤ p.2 ∧ p.2 ≤ h p.1}

/-- Points further right stay further right, and of two points above each other the upper one stays above. -/
def KeepsOrder (f : ℝ × ℝ → ℝ × ℝ) (S : Set (ℝ × ℝ)) : Prop :=
  (∀ p ∈ S, ∀ q ∈ S, p.1 < q.1 → (f p).1 < (f q).1) ∧
    ∀ p ∈ S, ∀ q ∈ S, p.1 = q.1 → p.2 < q.2 → (f p).1 = (f q).1 ∧ (f p).2 < (f q).2

/-- Cells with sides parallel to the axes are carried to such cells (what `isCartesian` promises). -/
def KeepsCells (f : ℝ × ℝ → ℝ × ℝ) (S : Set (ℝ × ℝ)) : Prop :=
  ∀ a b c d : ℝ, a < b → c < d → Icc a b ×ˢ Icc c d ⊆ S →
    ∃ a' b' c' d' : ℝ, a' < b' ∧ c' < d' ∧ f '' (Icc a b ×ˢ Icc c d) = Icc a' b' ×ˢ Icc c' d'

/-- The same in three dimensions. -/
def KeepsBoxes (f : ℝ × ℝ × ℝ → ℝ × ℝ × ℝ) (S : Set (ℝ × ℝ × ℝ)) : Prop :=
  ∀ a b c d e g : ℝ, a < b → c < d → e < g → Icc a b ×ˢ Icc c d ×ˢ Icc e g ⊆ S →
    ∃ a' b' c' d' e' g' : ℝ, a' < b' ∧ c' < d' ∧ e' < g' ∧
      f '' (Icc a b ×ˢ Icc c d ×ˢ Icc e g) = Icc a' b' ×ˢ Icc c' d' ×ˢ Icc e' g'

end MeshTransformSpec

end NATriuM
