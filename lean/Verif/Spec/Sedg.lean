import Verif.Model.Sedg

/-!
# Specification: conservation and stability of the discontinuous Galerkin operator
-/

namespace NATriuM
namespace Sedg

variable {K : Type*} [Field K] [LinearOrder K] {d n nQ nf nq : ℕ} {C : Type*}

/-- The shape functions add up to one: the sum of their gradients is zero. -/
def Mesh.GradientsCancel (m : Mesh K d n nQ nf nq C) : Prop := ∀ c q k, ∑ j, m.grad c j q k = 0

/-- The shape function of a degree of freedom is one in its quadrature point. -/
def Mesh.Nodal (m : Mesh K d n nQ nf nq C) : Prop := ∀ c i, m.value c i (m.toQ i) = 1

/-- The divergence theorem for each shape function, with the quadratures of the cell and its faces (exact for Gauss-Lobatto points on
parallelepipeds) -/
def Mesh.Divergence (m : Mesh K d n nQ nf nq C) : Prop := ∀ c j k,
  ∑ i, m.jxw c (m.toQ i) * m.grad c j (m.toQ i) k = ∑ f, ∑ q, if m.faceDof f q = j then m.faceJxw c f q * m.normal c f q k else 0

/-- Integration by parts for each pair of shape functions, with the quadratures -/
def Mesh.ByParts (m : Mesh K d n nQ nf nq C) : Prop := ∀ c i j k,
  m.jxw c (m.toQ i) * m.grad c j (m.toQ i) k + m.jxw c (m.toQ j) * m.grad c i (m.toQ j) k =
    if i = j then ∑ f, ∑ q, if m.faceDof f q = i then m.faceJxw c f q * m.normal c f q k else 0 else 0

/-- Neighbours see the same face with the same quadrature points, from the other side. -/
def Mesh.Matching (m : Mesh K d n nQ nf nq C) : Prop := ∀ c f c' f', m.neighbor c f = some (c', f') →
  m.neighbor c' f' = some (c, f) ∧ ∀ q, m.faceJxw c' f' q = m.faceJxw c f q ∧ ∀ k, m.normal c' f' q k = - m.normal c f q k

/-- What is transported out of cell `c` through face point `q` of a face with neighbour `(c', f')`, per unit of time: the value upstream times
the speed through the face times the area -/
def upwindFlux (m : Mesh K d n nQ nf nq C) (e : Fin d → K) (u : C × Fin n → K) (c : C) (f : Fin nf) (c' : C) (f' : Fin nf) (q : Fin nq) : K :=
  m.faceJxw c f q * (∑ k, m.normal c f q k * e k) *
    if (∑ k, m.normal c f q k * e k) < 0 then u (c', m.faceDof f' q) else u (c, m.faceDof f q)

end Sedg
end NATriuM
