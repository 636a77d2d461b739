import Verif.Model.Neighborhood
import Mathlib.Data.Int.Init

/-!
# Specification: distances of cells
-/

namespace NATriuM
namespace Cells

variable {C : Type*} {faces : ℕ}

/-- `e` is the neighbour of `c` at face `i`, possibly across a periodic boundary, or one of the children of this neighbour. -/
def Mesh.Adjacent (mesh : Mesh C faces) (i : Fin faces) (c e : C) : Prop :=
  ∃ n, (mesh.face c i = .interior n ∨ mesh.face c i = .periodic n) ∧ (n = .active e ∨ ∃ l, n = .refined l ∧ e ∈ l)

/-- The face distance from `c` to `e` is at most `k`. -/
def Mesh.Within (mesh : Mesh C faces) (c : C) : ℕ → C → Prop
  | 0, e => e = c
  | k + 1, e => mesh.Within c k e ∨ ∃ b i, mesh.Within c k b ∧ mesh.Adjacent i b e

/-- There is a way from `c` to `e` that crosses faces with index `i` exactly `v i` times. -/
inductive Mesh.Way [DecidableEq (Fin faces)] (mesh : Mesh C faces) (c : C) : (Fin faces → ℕ) → C → Prop
  | start : mesh.Way c (fun _ => 0) c
  | step (v : Fin faces → ℕ) (b e : C) (i : Fin faces) : mesh.Way c v b → mesh.Adjacent i b e →
      mesh.Way c (fun j => if j = i then v j + 1 else v j) e

/-- A regular mesh without hanging nodes and without periodic boundaries: cells have integer coordinates; the neighbours at the faces `2 a` and
`2 a + 1` are the cells one step down and up the axis `a`; and the mesh is convex along axes: a cell between two positions in the box spanned by
two cells exists. -/
structure Mesh.Regular {d : ℕ} (mesh : Mesh C (d * 2)) (pos : C → Fin d → ℤ) : Prop where
  injective : Function.Injective pos
  neighbor (c e : C) (i : Fin (d * 2)) : mesh.Adjacent i c e ↔
    pos e = fun a => pos c a + (if (i : ℕ) = 2 * a then -1 else if (i : ℕ) = 2 * a + 1 then 1 else 0)
  box (c e : C) (x : Fin d → ℤ) : (∀ a, min (pos c a) (pos e a) ≤ x a ∧ x a ≤ max (pos c a) (pos e a)) → ∃ b, pos b = x

end Cells
end NATriuM
