import Mathlib.Algebra.BigOperators.Group.Finset.Basic
import Mathlib.Algebra.Order.Field.Basic
import Mathlib.Analysis.Real.Sqrt
import Mathlib.Data.Fintype.BigOperators

/-!
# Specification of a correct velocity stencil

Everything here is stated for bare data: a family of weights `w`, a family of velocities `e`, a table `o` of opposite
indices.  Nothing refers to a concrete stencil.
-/

namespace NATriuM.Spec

open Finset

variable {K : Type*} {D Q : ℕ}

/-- Kronecker delta. -/
def δ [Zero K] [One K] (a b : Fin D) : K := if a = b then 1 else 0

/-- `o` maps every velocity to the velocity pointing the other way: it negates velocities, keeps weights, and is an
involution (in particular a permutation). -/
structure OppositeTable [Neg K] (w : Fin Q → K) (e : Fin Q → Fin D → K) (o : Fin Q → Fin Q) : Prop where
  reverses : ∀ i a, e (o i) a = -e i a
  same_weight : ∀ i, w (o i) = w i
  involutive : ∀ i, o (o i) = i

/-- Isotropy up to second order. -/
structure Iso2 [Field K] (w : Fin Q → K) (e : Fin Q → Fin D → K) (cs2 : K) : Prop where
  m0 : ∑ i, w i = 1
  m1 : ∀ a, ∑ i, w i * e i a = 0
  m2 : ∀ a b, ∑ i, w i * (e i a * e i b) = cs2 * δ a b

/-- Isotropy up to fourth order: the third moments vanish, the fourth ones are those of a Gaussian of variance `cs2`. -/
structure Iso4 [Field K] (w : Fin Q → K) (e : Fin Q → Fin D → K) (cs2 : K) : Prop extends Iso2 w e cs2 where
  m3 : ∀ a b c, ∑ i, w i * (e i a * e i b * e i c) = 0
  m4 : ∀ a b c d, ∑ i, w i * (e i a * e i b * e i c * e i d)
    = cs2 ^ 2 * (δ a b * δ c d + δ a c * δ b d + δ a d * δ b c)

/-- Isotropy up to fifth order. -/
structure Iso5 [Field K] (w : Fin Q → K) (e : Fin Q → Fin D → K) (cs2 : K) : Prop extends Iso4 w e cs2 where
  m5 : ∀ a b c d f, ∑ i, w i * (e i a * e i b * e i c * e i d * e i f) = 0

/-- The fifteen pairings of six indices. -/
def δ6 [Field K] (a b c d f g : Fin D) : K :=
  δ a b * (δ c d * δ f g + δ c f * δ d g + δ c g * δ d f)
  + δ a c * (δ b d * δ f g + δ b f * δ d g + δ b g * δ d f)
  + δ a d * (δ b c * δ f g + δ b f * δ c g + δ b g * δ c f)
  + δ a f * (δ b c * δ d g + δ b d * δ c g + δ b g * δ c d)
  + δ a g * (δ b c * δ d f + δ b d * δ c f + δ b f * δ c d)

/-- Isotropy up to sixth order: the sixth moments are Gaussian. -/
structure Iso6 [Field K] (w : Fin Q → K) (e : Fin Q → Fin D → K) (cs2 : K) : Prop extends Iso5 w e cs2 where
  m6 : ∀ a b c d f g, ∑ i, w i * (e i a * e i b * e i c * e i d * e i f * e i g) = cs2 ^ 3 * δ6 a b c d f g

/-- Isotropy up to fourth order up to the error `ε` (relative to the `k`-th power of the velocity scale `c`). -/
structure ApproxIso4 [Field K] [LinearOrder K] (w : Fin Q → K) (e : Fin Q → Fin D → K) (cs2 c ε : K) : Prop where
  m0 : |∑ i, w i - 1| ≤ ε
  m1 : ∀ a, |∑ i, w i * e i a| ≤ ε * |c|
  m2 : ∀ a b, |∑ i, w i * (e i a * e i b) - cs2 * δ a b| ≤ ε * |c| ^ 2
  m3 : ∀ a b d, |∑ i, w i * (e i a * e i b * e i d)| ≤ ε * |c| ^ 3
  m4 : ∀ a b d f, |∑ i, w i * (e i a * e i b * e i d * e i f)
    - cs2 ^ 2 * (δ a b * δ d f + δ a d * δ b f + δ a f * δ b d)| ≤ ε * |c| ^ 4

/-- Isotropy up to sixth order up to the error `ε`. -/
structure ApproxIso6 [Field K] [LinearOrder K] (w : Fin Q → K) (e : Fin Q → Fin D → K) (cs2 c ε : K) : Prop
    extends ApproxIso4 w e cs2 c ε where
  m5 : ∀ a b d f g, |∑ i, w i * (e i a * e i b * e i d * e i f * e i g)| ≤ ε * |c| ^ 5
  m6 : ∀ a b d f g h, |∑ i, w i * (e i a * e i b * e i d * e i f * e i g * e i h) - cs2 ^ 3 * δ6 a b d f g h|
    ≤ ε * |c| ^ 6

/-- `v` bounds the Euclidean length of every velocity, and some velocity attains it. -/
def IsMaxSpeed (e : Fin Q → Fin D → ℝ) (v : ℝ) : Prop :=
  (∀ i, √(∑ a, e i a ^ 2) ≤ v) ∧ ∃ i, √(∑ a, e i a ^ 2) = v

end NATriuM.Spec
