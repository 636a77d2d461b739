import Verif.Model.PathTracking
import Verif.Spec.FaceCrossing

/-!
# Specification: paths
-/

namespace NATriuM
namespace Paths

/-- How a path ends: in a cell, at a boundary, or because its life time is over -/
inductive Ended (K : Type*) (d : ℕ) (C : Type*)
  | found (path : Tracker K d C)
  | dropped (path : Tracker K d C)
  | expired (path : Tracker K d C)

section

variable {K : Type*} [Field K] [LinearOrder K] {m : ℕ} {C : Type*}

/-- A path, followed pass by pass, ends in the given way. -/
inductive Follows (mesh : Mesh K m C) (s : Setup K (m + 2)) : Tracker K (m + 2) C → Ended K (m + 2) C → Prop
  | found {path p} : pass mesh s path = .ok (.found p) → Follows mesh s path (.found p)
  | dropped {path p id} : pass mesh s path = .ok (.dropped p id) → Follows mesh s path (.dropped p)
  | expired {path p} : pass mesh s path = .ok (.expired p) → Follows mesh s path (.expired p)
  | goOn {path p hit e} : pass mesh s path = .ok (.goOn p hit) → Follows mesh s p e → Follows mesh s path e

/-- The point `q` where some path reaches a boundary of the given kind -/
def Mesh.At (mesh : Mesh K m C) (q : Fin (m + 2) → K) (kind : BoundaryKind K (m + 2) C) : Prop :=
  ∃ cell current departure face id, mesh.findFace cell current departure = .ok (some (face, q)) ∧ mesh.face cell face = .boundary id kind

/-- Going back in time from `p` in direction `a` for the time `t` leads to `q`, in direction `b` then: straight on against the direction,
turning round at bounce-back walls, and jumping at periodic boundaries.  Turning and jumping takes no time. -/
inductive Trip (mesh : Mesh K m C) (s : Setup K (m + 2)) (p : Fin (m + 2) → K) (a : ℕ) : K → (Fin (m + 2) → K) → ℕ → Prop
  | start : Trip mesh s p a 0 p a
  | move {t q b} (u : K) : Trip mesh s p a t q b → 0 ≤ u → Trip mesh s p a (t + u) (fun i => q i - u * s.e b i) b
  | turn {t q b} : Trip mesh s p a t q b → mesh.At q .bounceBack → Trip mesh s p a t q (s.opp b)
  | jump {t q b across opposite} : Trip mesh s p a t q b → mesh.At q (.periodic across opposite) → Trip mesh s p a t (across q) b

/-- What a stencil and a square root have to be: opposite directions are opposite, directions other than the first have a length, and it
scales -/
structure Setup.Valid {d : ℕ} (s : Setup K d) : Prop where
  dt_nonneg : 0 ≤ s.dt
  opp_range (b : ℕ) : 0 < b → b < s.Q → 0 < s.opp b ∧ s.opp b < s.Q
  opp_opp (b : ℕ) : 0 < b → b < s.Q → s.opp (s.opp b) = b
  e_opp (b : ℕ) (i : Fin d) : 0 < b → b < s.Q → s.e (s.opp b) i = - s.e b i
  sqrt_scale (b : ℕ) (c : K) : 0 < b → b < s.Q → 0 ≤ c → s.sqrt (c * c * ∑ a, s.e b a * s.e b a) = c * s.sqrt (∑ a, s.e b a * s.e b a)
  sqrt_ne (b : ℕ) : 0 < b → b < s.Q → s.sqrt (∑ a, s.e b a * s.e b a) ≠ 0

/-- Periodic boundaries shift points. -/
def Mesh.Shifts (mesh : Mesh K m C) : Prop :=
  ∀ cell face id (across : (Fin (m + 2) → K) → Fin (m + 2) → K) (opposite : C),
    mesh.face cell face = .boundary id (.periodic across opposite) → ∃ v : Fin (m + 2) → K, ∀ p, across p = fun i => p i + v i

/-- The sum of the shifts of any number of periodic boundaries -/
inductive Mesh.Shift (mesh : Mesh K m C) : (Fin (m + 2) → K) → Prop
  | zero : Mesh.Shift mesh fun _ => 0
  | add {v cell face id across opposite} : Mesh.Shift mesh v → mesh.face cell face = .boundary id (.periodic across opposite) →
    ∀ w : Fin (m + 2) → K, (∀ p, across p = fun i => p i + w i) → Mesh.Shift mesh fun i => v i + w i

/-- What a path becomes in any number of passes -/
inductive Reaches (mesh : Mesh K m C) (s : Setup K (m + 2)) (path : Tracker K (m + 2) C) : Tracker K (m + 2) C → Prop
  | refl : Reaches mesh s path path
  | step {p q hit} : Reaches mesh s path p → pass mesh s p = .ok (.goOn q hit) → Reaches mesh s path q

/-- All boundary points reported while a path is followed are on the path (that is C52 if no round-off errors are eliminated). -/
def ExactAlong (mesh : Mesh K m C) (s : Setup K (m + 2)) (path : Tracker K (m + 2) C) : Prop :=
  ∀ p, Reaches mesh s path p → ∀ face q, mesh.findFace p.currentCell p.currentPoint p.departurePoint = .ok (some (face, q)) →
    ∃ t, 0 ≤ t ∧ t ≤ 1 ∧ q = along p.currentPoint p.departurePoint t

/-- The mesh has no boundaries of the given kinds. -/
def Mesh.NoBounceBack (mesh : Mesh K m C) : Prop := ∀ cell face id, mesh.face cell face ≠ .boundary id .bounceBack

def Mesh.NoDoNothing (mesh : Mesh K m C) : Prop := ∀ cell face id, mesh.face cell face ≠ .boundary id .doNothing

/-- A new path for degree of freedom `i` and direction `alpha`: from support point number `k` of a cell of the process -/
def Mesh.NewPath (mesh : Mesh K m C) (s : Setup K (m + 2)) (i alpha : ℕ) (path : Tracker K (m + 2) C) : Prop :=
  ∃ cell k, cell ∈ mesh.cells ∧ (mesh.dofs cell)[k]? = some i ∧ path = newPath s cell (mesh.supportPoint cell k) i alpha

/-- What interpolation from the values `g` of the degrees of freedom of a cell to the unit point `h` gives if weights below 1e-10 are
left out -/
def interpolated (mesh : Mesh K m C) (cell : C) (h : Fin (m + 2) → K) (g : ℕ → K) : K :=
  ((mesh.dofs cell).zipIdx.map fun dof => (if |mesh.shape dof.2 h| < 1 / 10 ^ 10 then 0 else mesh.shape dof.2 h) * g dof.1).sum

/-- The shape functions of each cell are a partition of unity. -/
def Mesh.PartitionOfUnity (mesh : Mesh K m C) : Prop :=
  ∀ cell h, InCell h → ∑ k ∈ Finset.range (mesh.dofs cell).length, mesh.shape k h = 1

end

end Paths
end NATriuM
