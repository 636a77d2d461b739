import Verif.Model.MomentBasis
import Verif.Model.StencilType
import Mathlib.LinearAlgebra.Matrix.NonsingularInverse

/-!
# The container of distribution functions

Model of `P/solver/DistributionFunctions.{h,cpp}` (`P` = `src/library/natrium`). A distributed vector is a value of an arbitrary type `V`
(later a function from dof indices to reals). Parallel distribution: the copy into a ghosted vector is an assignment of the global vector.
The block vector is a list of blocks.
-/

namespace NATriuM

/-- The data members, `DistributionFunctions.h:47-68` -/
structure Distributions (V : Type*) where
  Q : ℕ
  f0 : V
  fStream : List V
  f0Ghosted : V
  fStreamGhosted : List V
  dg : Bool

namespace Distributions

variable {V : Type*}

/-- `at(i)` as an rvalue, `DistributionFunctions.cpp:37-55`; a failing `assert` and an out-of-range block are `none`. -/
def at? (d : Distributions V) (i : ℕ) : Option V :=
  if d.Q > 0 ∧ i < d.Q then
    if i = 0 then some d.f0 else d.fStream[i - 1]?
  else none

/-- `at(i) = v`: assignment through the reference returned by `at`, `DistributionFunctions.cpp:37-45` -/
def setAt (d : Distributions V) (i : ℕ) (v : V) : Option (Distributions V) :=
  if d.Q > 0 ∧ i < d.Q then
    if i = 0 then some { d with f0 := v }
    else if i - 1 < d.fStream.length then some { d with fStream := d.fStream.set (i - 1) v }
    else none
  else none

/-- `atGhosted(i)`, `DistributionFunctions.cpp:57-91`; the `has_ghost_elements` assertions are not modelled. -/
def atGhosted? (d : Distributions V) (i : ℕ) : Option V :=
  if d.Q > 0 ∧ i < d.Q then
    if d.dg then d.at? i
    else if i = 0 then some d.f0Ghosted else d.fStreamGhosted[i - 1]?
  else none

/-- `updateGhosted`, `DistributionFunctions.h:281-293` -/
def updateGhosted (d : Distributions V) : Distributions V :=
  if d.dg then d else { d with f0Ghosted := d.f0, fStreamGhosted := d.fStream }

/-- `DistributionFunctions(bool dg)`, `DistributionFunctions.h:77-80`: everything empty (`e` is the empty vector) -/
def empty (e : V) (dg : Bool) : Distributions V := ⟨0, e, [], e, [], dg⟩

/-- `reinit(Q, local, relevant, communicator, dg)`, `DistributionFunctions.cpp:93-115`: `z` is the zero vector on the index set. For
`Q = 0` the number of blocks `Q - 1` wraps around; that is an error here. `compress` is `updateGhosted` (`:136-146`). -/
def reinitGhosted (Q : ℕ) (z : V) (dg : Bool) : Option (Distributions V) :=
  if Q = 0 then none
  else some (updateGhosted ⟨Q, z, List.replicate (Q - 1) z, z, List.replicate (Q - 1) z, dg⟩)

/-- `reinit(Q, local, communicator)`, `DistributionFunctions.cpp:116-134` -/
def reinit (d : Distributions V) (Q : ℕ) (z : V) : Option (Distributions V) :=
  if Q = 0 then none
  else some { d with dg := true, Q := Q, f0 := z, fStream := List.replicate (Q - 1) z }

/-- `DistributionFunctions(const vector<distributed_vector>& f, bool dg)`, `DistributionFunctions.cpp:12-35`: `f.at(0)` throws for an empty
vector, `dg = false` throws. `e` is the empty vector. -/
def ofVector (e : V) (f : List V) (dg : Bool) : Option (Distributions V) :=
  match f with
  | [] => none
  | a :: rest => if dg then some (updateGhosted ⟨f.length, a, rest, e, [], dg⟩) else none

/-- `operator=`, `DistributionFunctions.cpp:148-153` -/
def assign (d other : Distributions V) : Option (Distributions V) :=
  if other.Q = d.Q then some (updateGhosted { d with f0 := other.f0, fStream := other.fStream }) else none

/-- `setF0`, `DistributionFunctions.h:138-140` -/
def setF0 (d : Distributions V) (v : V) : Distributions V := { d with f0 := v }

/-- `setFStream`, `DistributionFunctions.h:207-212` -/
def setFStream (d : Distributions V) (v : List V) : Distributions V :=
  if d.dg then { d with fStream := v } else { d with fStream := v, fStreamGhosted := v }

section Fields

variable {ι : Type*} [DecidableEq ι] {K : Type*}

/-- Apply `g` to the vector of the populations of node `i`: the idiom `old_f(j) = (*f[j])(i)`, compute, `(*f[j])(i) = new_f(j)`
(`DistributionFunctions.cpp:245-258`). The list `m_Q` long of pointers is `f0 :: fStream`. -/
def mapNode (g : List K → List K) (d : Distributions (ι → K)) (i : ι) : Distributions (ι → K) :=
  let new := g ((d.f0 :: d.fStream).map fun v => v i)
  { d with
    f0 := match new with | [] => d.f0 | x :: _ => Function.update d.f0 i x
    fStream := (d.fStream.zip (new.drop 1)).map fun p => Function.update p.1 i p.2 }

/-- `scaleF`, `DistributionFunctions.cpp:192-210` -/
def scaleF [Mul K] (d : Distributions (ι → K)) (scale : K) (owned : List ι) : Distributions (ι → K) :=
  updateGhosted (owned.foldl (mapNode fun l => l.map fun x => scale * x) d)

/-- `equals`, `DistributionFunctions.cpp:155-190`, on one process; `owned`/`owned'` are the locally owned elements of the two vectors
(the same for all blocks of a container). -/
def equals [Ring K] [LinearOrder K] (d other : Distributions (ι → K)) (owned owned' : List ι) (threshold : K) : Bool :=
  if d.Q ≠ other.Q then false
  else if d.Q = 0 then true
  else (List.range d.Q).all fun i =>
    match d.at? i, other.at? i with
    | some a, some b => owned.all fun j => if j ∉ owned' then false else !(|a j - b j| > threshold)
    | _, _ => false

end Fields

end Distributions

/-- The moment basis handed to the constructor of each stencil class (`makeMomentBasis`; unit matrices for the classes without one). -/
noncomputable def StencilType.momentBasis : (t : StencilType) → ℝ → Matrix (Fin t.Q) (Fin t.Q) ℝ
  | .D2Q9, c => NATriuM.D2Q9.momentBasis c
  | .D3Q15, c => NATriuM.D3Q15.momentBasis c
  | .D3Q19, c => NATriuM.D3Q19.momentBasis c
  | .D3Q27, c => NATriuM.D3Q27.momentBasis c
  | _, _ => unityMomentBasis

/-- The per-node transformation of `DistributionFunctions::transferFromOtherScaling`, `P/solver/DistributionFunctions.cpp:212-260`, between
two stencils of the same class with scalings `old` and `new`: `none` if the inverse moment basis of the new stencil could not be computed
(`P/stencils/Stencil.cpp:27-28`). `getSpeedOfSound` is the square root of `cs2`. -/
noncomputable def transferNode (t : StencilType) (old new : ℝ) (f : Fin t.Q → ℝ) : Option (Fin t.Q → ℝ) :=
  if |Real.sqrt (t.stencil old).cs2 - Real.sqrt (t.stencil new).cs2| < 1 / 10 ^ 5 then some f
  else if (t.momentBasis new).det = 0 then none
  else some (((t.momentBasis new)⁻¹ * t.momentBasis old).mulVec f)

end NATriuM
