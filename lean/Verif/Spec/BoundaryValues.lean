import Verif.Model.BoundaryValues

/-!
# What flow variables at a boundary, and the application of boundaries, should be

A field on a cell is given by its values at the `n` degrees of freedom; `phi j` is the value (or a derivative) of the `j`-th shape function
at the point of interest.
-/

namespace NATriuM.Spec.BoundaryFlow

open Finset NATriuM.BoundaryValues NATriuM.Walls

section

variable {K : Type*} [Field K] {D Q n : ℕ}

/-- The value (or the derivative) at a point of the field with the values `v` at the degrees of freedom -/
def at' (phi : Fin n → K) (v : Fin n → K) : K := ∑ j, v j * phi j

/-- density at the degrees of freedom -/
def density (f : Fin Q → Fin n → K) (j : Fin n) : K := ∑ i, f i j

/-- velocity at the degrees of freedom: momentum over density -/
def velocity (e : Fin Q → Fin D → K) (f : Fin Q → Fin n → K) (a : Fin D) (j : Fin n) : K := (∑ i, f i j * e i a) / density f j

/-- The right-hand side of the continuity equation, `-∇·(ρu)`, for the interpolated populations -/
def continuityRhs (e : Fin Q → Fin D → K) (p : Shape K D n) (f : Fin Q → Fin n → K) : K :=
  -∑ a, ∑ i, e i a * at' (fun j => p.grad j a) (f i)

/-- The right-hand side of the momentum equation, `ν (Δu + ∇(∇·u)) - (u·∇)u - (cs²/ρ) ∇ρ`, for the interpolated velocity and density -/
def momentumRhs (e : Fin Q → Fin D → K) (cs2 nu : K) (p : Shape K D n) (f : Fin Q → Fin n → K) (a : Fin D) : K :=
  nu * ((∑ k, at' (fun j => p.hess j k k) (velocity e f a)) + ∑ k, at' (fun j => p.hess j a k) (velocity e f k))
    - (∑ k, at' p.value (velocity e f k) * at' (fun j => p.grad j k) (velocity e f a))
    - cs2 / at' p.value (density f) * at' (fun j => p.grad j a) (density f)

end

section

variable {K : Type*} [Field K] [LinearOrder K] {D Q : ℕ} {ι : Type*}

/-- All hits, in the order in which they are applied, each with its point -/
def allHits (cells : List (CellHits K D Q ι)) : List (HitPoint K D × HitRecord K Q ι) :=
  cells.flatMap fun c => c.points.flatMap fun p => p.hits.map fun r => (p.point, r)

/-- The boundary changes no other population than the one that hit it. -/
def IsLocal : Wall K D → Prop
  | .velocity _ => True
  | .firstOrder => True
  | .doNothing => True
  | .equilibrium _ _ => True
  | _ => False

/-- What a hit at the wall `w` makes of the population that hit it, given the populations `f` after streaming.  The velocity is evaluated at
the image of the hit point in the unit cell (see C46). -/
def wallValue (S : Stencil K D Q) (t : K) (f : Fin Q → ι → K) (w : Wall K D) (p : HitPoint K D) (r : HitRecord K Q ι) : K :=
  match w with
  | .velocity v => f r.dir r.dof + 2 * S.weight r.dir * (∑ a, v (t - r.eps) (p.toUnit p.hitPoint) a * S.dir r.dir a) / S.cs2
  | .firstOrder => f (S.opp r.dir) r.dof
  | .equilibrium T v => slEquilibrium S T (v (t - r.eps) (p.toUnit p.hitPoint)) r.dir
  | _ => f r.dir r.dof

/-- The hits can be applied in any order: their destinations differ, and no destination is the population that a first-order bounce back
reads. -/
structure Separate (boundaries : ℕ → Option (Wall K D)) (S : Stencil K D Q) (l : List (HitPoint K D × HitRecord K Q ι)) : Prop where
  known : ∀ h ∈ l, ∃ w, boundaries h.2.boundary = some w ∧ IsLocal w
  distinct : (l.map fun h => (h.2.dir, h.2.dof)).Nodup
  opposite : ∀ h ∈ l, boundaries h.2.boundary = some .firstOrder → ∀ k ∈ l, (k.2.dir, k.2.dof) ≠ (S.opp h.2.dir, h.2.dof)

end

end NATriuM.Spec.BoundaryFlow
