import Verif.Model.Statistics

/-!
# What the reported integral quantities should be
-/

namespace NATriuM
namespace Stats

variable {K : Type*} [Field K] {d n nq : ℕ} {C N : Type*}

/-- Every cell of the mesh is owned by exactly one process. -/
def Distributed [DecidableEq C] (processes : List (List C)) : Prop := ∀ c, processes.flatten.count c = 1

/-- The value of the discrete function with the given nodal values in a quadrature point. -/
def discrete (fe : FE K d n nq C N) (u : N → K) (c : C) (q : Fin nq) : K := ∑ i, u (fe.dof c i) * fe.value c i q

/-- Its derivative in direction `k`. -/
def derivative (fe : FE K d n nq C N) (u : N → K) (k : Fin d) (c : C) (q : Fin nq) : K := ∑ i, u (fe.dof c i) * fe.grad c i q k

/-- The integral over the domain of a function that is given in the quadrature points, by quadrature. -/
def integral [Fintype C] (fe : FE K d n nq C N) (g : C → Fin nq → K) : K := ∑ c, ∑ q, g c q * fe.jxw c q

/-- The volume of the domain. -/
def volume [Fintype C] (fe : FE K d n nq C N) : K := integral fe fun _ _ => 1

/-- The shape functions add up to one. -/
def PartitionOfUnity (fe : FE K d n nq C N) : Prop := ∀ c q, ∑ i, fe.value c i q = 1

/-- The quadrature points are the support points: in the point `q` only the shape function `node q` does not vanish. -/
def Collocated (fe : FE K d n nq C N) (node : Fin nq → Fin n) : Prop := ∀ c i q, fe.value c i q = if node q = i then 1 else 0

/-- The vorticity of a plane flow. -/
def curl2 (fe : FE K 2 n nq C N) (u : Fin 2 → N → K) (c : C) (q : Fin nq) : K := derivative fe (u 1) 0 c q - derivative fe (u 0) 1 c q

/-- The square of the vorticity vector. -/
def curlSq3 (fe : FE K 3 n nq C N) (u : Fin 3 → N → K) (c : C) (q : Fin nq) : K :=
  (derivative fe (u 2) 1 c q - derivative fe (u 1) 2 c q) ^ 2 + (derivative fe (u 0) 2 c q - derivative fe (u 2) 0 c q) ^ 2
    + (derivative fe (u 1) 0 c q - derivative fe (u 0) 1 c q) ^ 2

/-- The trace of the square of the velocity gradient. -/
def gradSqTrace (fe : FE K 3 n nq C N) (u : Fin 3 → N → K) (c : C) (q : Fin nq) : K :=
  ∑ a, ∑ b, derivative fe (u a) b c q * derivative fe (u b) a c q

/-- The divergence. -/
def divergence (fe : FE K d n nq C N) (u : Fin d → N → K) (c : C) (q : Fin nq) : K := ∑ a, derivative fe (u a) a c q

/-- What the name of an observable stands for. -/
def Name.field (fe : FE K d n nq C N) (u : Fin d → N → K) (rho : N → K) : Name d → C → Fin nq → K
  | .rho => discrete fe rho
  | .drho k => derivative fe rho k
  | .u a => discrete fe (u a)
  | .du a k => derivative fe (u a) k

/-- A one-dimensional cell of length 1 with the Gauss-Lobatto points of order two, and the quadratic shape functions in these points. -/
def quadraticCell : FE ℚ 1 3 3 Unit (Fin 3) where
  dof _ i := i
  value _ i q := if q = i then 1 else 0
  grad _ i q _ := ![![-3, -1, 1], ![4, 0, -4], ![-1, 1, 3]] i q
  jxw _ q := ![1 / 6, 2 / 3, 1 / 6] q

/-- A one-dimensional cell of length 1 with linear shape functions and the midpoint rule. -/
def midpointCell : FE ℚ 1 2 1 Unit (Fin 2) where
  dof _ i := i
  value _ _ _ := 1 / 2
  grad _ i _ _ := ![-1, 1] i
  jxw _ _ := 1

end Stats
end NATriuM
