import Verif.Model.Problem
import Mathlib.Data.List.Dedup

/-!
# Specification of the problem description
-/

namespace NATriuM
namespace Problem

/-- The indicators for which a call wants to register an object, with that object. -/
def Registration.wants : Registration → List (ℕ × Boundary)
  | .periodic i1 i2 t => [(i1, .periodic t), (i2, .periodic t)]
  | .plain i t => [(i, .plain t)]

/-- The object of the first call that names an indicator. -/
def firstFor (rs : List Registration) (i : ℕ) : Option Boundary := (rs.flatMap Registration.wants).lookup i

/-- The indicators named by some calls. -/
def named (rs : List Registration) : List ℕ := (rs.flatMap Registration.wants).map Prod.fst

/-- A call whose indicators are new, and different from each other. -/
def Fresh (rs : List Registration) (c : Registration) : Prop := (c.wants.map Prod.fst).Nodup ∧ ∀ i ∈ c.wants.map Prod.fst, i ∉ named rs

/-- Each call names new indicators. -/
def AllFresh (rs : List Registration) : Prop := ∀ pre c post, rs = pre ++ c :: post → Fresh pre c

/-- Mesh and registry have the same ids. -/
def IdsAgree (mesh : List ℕ) (r : Registry) : Prop := ∀ i, i ∈ mesh ↔ ∃ b, getBoundary i r = .ok b

/-- The set of flags in a flag value. -/
def Holds (v : ℕ) (f : Flag) : Prop := ∃ k, f.code = 2 ^ k ∧ v.testBit k = true

end Problem
end NATriuM
