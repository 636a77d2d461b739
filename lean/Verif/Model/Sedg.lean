import Mathlib.Algebra.Field.Basic
import Mathlib.Algebra.Order.Field.Basic
import Mathlib.Algebra.BigOperators.Fin
import Mathlib.Algebra.BigOperators.Group.List.Basic
import Mathlib.Data.List.FinRange

/-!
# Model of the discontinuous Galerkin advection operator

`P` is short for `src/library/natrium`.  One direction (one diagonal block of the system matrix) at a time.  Faces at boundaries that are not
periodic are assembled by the boundary, see `Verif.Model.Walls`; they add nothing here.
-/

namespace NATriuM
namespace Sedg

/-- What deal.II supplies, and the maps of `setupDoFs` (`P/advection/SEDGMinLee.cpp:77-79`): shape values, gradients and weights in the
quadrature points of a cell, weights and normals in the quadrature points of its faces, the neighbours.  The neighbour of a face at a periodic
boundary is the opposite cell (`:378-381`).  `nQ` points in a cell, `n` degrees of freedom, `nf` faces with `nq` points each. -/
structure Mesh (K : Type*) (d n nQ nf nq : ℕ) (C : Type*) where
  value : C → Fin n → Fin nQ → K
  grad : C → Fin n → Fin nQ → Fin d → K
  jxw : C → Fin nQ → K
  toQ : Fin n → Fin nQ
  faceDof : Fin nf → Fin nq → Fin n
  faceJxw : C → Fin nf → Fin nq → K
  normal : C → Fin nf → Fin nq → Fin d → K
  neighbor : C → Fin nf → Option (C × Fin nf)

/-- An entry added to the block; a degree of freedom belongs to one cell. -/
structure Entry (K : Type*) (n : ℕ) (C : Type*) where
  row : C × Fin n
  column : C × Fin n
  value : K

section

variable {K : Type*} [Field K] [LinearOrder K] {d n nQ nf nq : ℕ} {C : Type*}

/-- `assembleLocalMassMatrix`, `P/advection/SEDGMinLee.cpp:320-334` -/
def mass (m : Mesh K d n nQ nf nq C) (c : C) (i : Fin n) : K :=
  m.value c i (m.toQ i) * m.value c i (m.toQ i) * m.jxw c (m.toQ i)

/-- The inverse, `P/advection/SEDGMinLee.cpp:160-163` -/
def inverseMass (m : Mesh K d n nQ nf nq C) (c : C) (i : Fin n) : K := 1 / mass m c i

/-- `assembleLocalDerivativeMatrices`, `P/advection/SEDGMinLee.cpp:336-358` -/
def derivative (m : Mesh K d n nQ nf nq C) (c : C) (k : Fin d) (i j : Fin n) : K :=
  m.grad c j (m.toQ i) k * (m.value c i (m.toQ i) * m.jxw c (m.toQ i))

/-- The local matrix in `calculateAndDistributeLocalStiffnessMatrix`, `P/advection/SEDGMinLee.cpp:423-426` and `:446-450` -/
def system (m : Mesh K d n nQ nf nq C) (e : Fin d → K) (c : C) (i j : Fin n) : K := ∑ k, - e k * derivative m c k i j

/-- `calculateAndDistributeLocalStiffnessMatrix`, `P/advection/SEDGMinLee.cpp:414-458` -/
def stiffnessEntries (m : Mesh K d n nQ nf nq C) (e : Fin d → K) (c : C) : List (Entry K n C) :=
  (List.finRange n).flatMap fun j => (List.finRange n).map fun k => ⟨(c, j), (c, k), system m e c j k * inverseMass m c j⟩

/-- `exn`, `P/advection/SEDGMinLee.cpp:507-512` -/
def exn (m : Mesh K d n nQ nf nq C) (e : Fin d → K) (c : C) (f : Fin nf) (q : Fin nq) : K := ∑ i, m.normal c f q i * e i

/-- `cell_entry`, `P/advection/SEDGMinLee.cpp:502-522` -/
def cellEntry (central : Bool) (prefactor exn : K) : K := if central then 1 / 2 * prefactor else if exn < 0 then prefactor else 0

/-- `neighbor_entry`, `P/advection/SEDGMinLee.cpp:503-522` -/
def neighborEntry (central : Bool) (prefactor exn : K) : K := if central then 1 / 2 * prefactor else if exn < 0 then - prefactor else 0

/-- `assembleAndDistributeInternalFace`, `P/advection/SEDGMinLee.cpp:460-536` -/
def internalFaceEntries (m : Mesh K d n nQ nf nq C) (central : Bool) (e : Fin d → K) (c : C) (f : Fin nf) (c' : C) (f' : Fin nf) :
    List (Entry K n C) :=
  (List.finRange nq).flatMap fun q =>
    let thisDoF := m.faceDof f q
    let neighborDoF := m.faceDof f' q
    let x := exn m e c f q
    let prefactor := m.faceJxw c f q * x
    [⟨(c, thisDoF), (c, thisDoF), cellEntry central prefactor x * inverseMass m c thisDoF⟩,
      ⟨(c, thisDoF), (c', neighborDoF), neighborEntry central prefactor x * inverseMass m c thisDoF⟩]

/-- `assembleAndDistributeLocalFaceMatrices`, `P/advection/SEDGMinLee.cpp:360-412` -/
def faceEntries (m : Mesh K d n nQ nf nq C) (central : Bool) (e : Fin d → K) (c : C) : List (Entry K n C) :=
  (List.finRange nf).flatMap fun f => match m.neighbor c f with
    | some (c', f') => internalFaceEntries m central e c f c' f'
    | none => []

/-- One cell in `reassemble`, `P/advection/SEDGMinLee.cpp:166-176` -/
def cellEntries (m : Mesh K d n nQ nf nq C) (central : Bool) (e : Fin d → K) (c : C) : List (Entry K n C) :=
  stiffnessEntries m e c ++ faceEntries m central e c

/-- `reassemble`, `P/advection/SEDGMinLee.cpp:143-178` -/
def reassemble (m : Mesh K d n nQ nf nq C) (central : Bool) (e : Fin d → K) (cells : List C) : List (Entry K n C) :=
  cells.flatMap (cellEntries m central e)

/-- The product of the assembled block with a vector: the rate of change of the distribution function -/
def rate [DecidableEq C] (entries : List (Entry K n C)) (u : C × Fin n → K) (r : C × Fin n) : K :=
  ((entries.filter fun x => x.row = r).map fun x => x.value * u x.column).sum

/-- Which flux the second constructor selects, and which time step, `P/advection/SEDGMinLee.cpp:59-66`: the arguments are handed over in the order
`delta_t, false` to the constructor `:40-57`, which takes `use_central_flux, delta_t`.  C++ converts `delta_t` to `bool` and `false` to `double`. -/
def shortConstructor (deltaT : K) : Bool × K :=
  let long := fun (useCentralFlux : Bool) (deltaT : K) => (useCentralFlux, deltaT)
  long (deltaT ≠ 0) 0

/-- The shape functions that are above 1e-10 in point `q`, and the assertion that they are one there, in `map_q_index_to_facedofs` and
`map_celldofs_to_q_index`, `P/advection/SEDGMinLee.cpp:556-562` and `:616-622`: the points for degree of freedom `i` -/
def pointsOf {p : ℕ} (value : Fin p → K) : Option (List (Fin p)) :=
  let points := (List.finRange p).filter fun q => 1 / 10 ^ 10 < value q
  if ∀ q ∈ points, |value q - 1| < 1 / 10 ^ 10 then some points else none

/-- `map_celldofs_to_q_index`, `P/advection/SEDGMinLee.cpp:538-566`; `none`: an assertion fails -/
def celldofsToQ {n p : ℕ} (value : Fin n → Fin p → K) : Option (List (Fin n × Fin p)) :=
  (List.finRange n).mapM fun i => match pointsOf (value i) with
    | some [q] => some (i, q)
    | some _ => none
    | none => none

/-- The pairs inserted for degree of freedom `i`, and the assertion that there is one at most, `P/advection/SEDGMinLee.cpp:615-624` -/
def facePairs {n p : ℕ} (value : Fin n → Fin p → K) (i : Fin n) : Option (List (Fin p × Fin n)) :=
  match pointsOf (value i) with
  | some [] => some []
  | some [q] => some [(q, i)]
  | some _ => none
  | none => none

/-- One face in `map_q_index_to_facedofs`, `P/advection/SEDGMinLee.cpp:612-627`: the pairs inserted, of which `std::map` keeps the first for each
point; `none`: an assertion fails -/
def qToFacedofs {n p : ℕ} (value : Fin n → Fin p → K) : Option (List (Fin p × Fin n)) :=
  match (List.finRange n).mapM (facePairs value) with
  | none => none
  | some l =>
    let map := l.flatten.foldl (fun acc x => if x.1 ∈ acc.map Prod.fst then acc else acc ++ [x]) []
    if map.length = p then some map else none

end

end Sedg
end NATriuM
