import Verif.Model.BoundaryHit

/-!
# Specification for the lists of boundary hits
-/

namespace NATriuM
namespace Hits

variable {K : Type*} [Field K] [LinearOrder K] {d : ℕ} {α : Type*}

/-- A way to arrange any list in a search tree. -/
def IsShape (shape : List (Entry K d α) → Tree (Entry K d α)) : Prop := ∀ l, (shape l).toList = l

/-- The hit list after some calls; the tree may be rearranged at any time. -/
def history (shapes : ℕ → List (Entry K d α) → Tree (Entry K d α)) (hs : List (Hit K d α)) : HitList K d α :=
  (hs.zipIdx).foldl (fun m h => m.addHit (shapes h.2) h.1) []

/-- All stored hits. -/
def stored (m : HitList K d α) : List (Hit K d α) := m.flatMap fun c => c.2.flatMap Entry.hits

/-- Two points are less than 1e-10 apart. -/
def Near (p q : Fin d → K) : Prop := (∑ a, (p a - q a) ^ 2) < (1 / 10 ^ 10) ^ 2

end Hits
end NATriuM
