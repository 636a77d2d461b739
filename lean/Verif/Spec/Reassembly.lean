import Verif.Model.Reassembly

/-!
# Specification: how often the operator has been assembled
-/

namespace NATriuM
namespace Reassembly

/-- The number of assemblies since the matrix has been initialised; `resets` are the calls that initialise it. -/
def assemblies {K : Type*} (resets : Call K → Bool) : ℕ → List (Call K) → ℕ
  | n, [] => n
  | n, c :: cs => assemblies resets (if resets c then 0 else match c with | .reassemble => n + 1 | _ => n) cs

/-- The last time step that was set -/
def lastDeltaT {K : Type*} (dt : K) : List (Call K) → K
  | [] => dt
  | .setDeltaT dt' :: cs => lastDeltaT dt' cs
  | _ :: cs => lastDeltaT dt cs

/-- `setDeltaT` -/
def Call.isSetDeltaT {K : Type*} : Call K → Bool
  | .setDeltaT _ => true
  | _ => false

/-- `setupDoFs` -/
def Call.isSetupDoFs {K : Type*} : Call K → Bool
  | .setupDoFs => true
  | _ => false

/-- `reassemble` -/
def Call.isReassemble {K : Type*} : Call K → Bool
  | .reassemble => true
  | _ => false

end Reassembly
end NATriuM
