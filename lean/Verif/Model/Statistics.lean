import Mathlib.Algebra.Field.Basic
import Mathlib.Algebra.Order.Field.Basic
import Mathlib.Algebra.BigOperators.Fin
import Mathlib.Algebra.BigOperators.Group.List.Basic
import Mathlib.Data.Finset.Lattice.Fold
import Mathlib.Data.List.FinRange
import Mathlib.Analysis.SpecialFunctions.Log.Basic
import Mathlib.Analysis.SpecialFunctions.Pow.Real
import Mathlib.Analysis.Real.Sqrt

/-!
# Model of the integral quantities reported by a run

`P/solver/PhysicalProperties.cpp`, `P/dataprocessors/GlobalTurbulenceStats.cpp`, `P/dataprocessors/CompressibleTurbulenceStats.cpp`; `P` stands
for `src/library/natrium` in `/repo`.

Every process loops over the active cells and skips those that it does not own, so a run is given by the list, over the processes, of the
lists of their cells.  `MPI::min_max_avg(x).sum` and `MPI::sum(x)` add up the values of all processes.  `C` is the type of the cells, `N` that
of the global degrees of freedom.
-/

namespace NATriuM
namespace Stats

/-- What deal.II's `FEValues` and `get_dof_indices` supply for a cell: global indices of its `n` degrees of freedom, values and gradients of
the shape functions and the weights in `nq` quadrature points. -/
structure FE (K : Type*) (d n nq : ℕ) (C N : Type*) where
  dof : C → Fin n → N
  value : C → Fin n → Fin nq → K
  grad : C → Fin n → Fin nq → Fin d → K
  jxw : C → Fin nq → K

section

variable {K : Type*} [Field K] {d n nq : ℕ} {C N : Type*}

/-- the sum, over all processes, of what they collected in their cells, e.g. `P/solver/PhysicalProperties.cpp:285-309` -/
def overProcesses (processes : List (List C)) (contribution : C → K) : K :=
  (processes.map fun owned => (owned.map contribution).sum).sum

/-- `kineticEnergy`, `P/solver/PhysicalProperties.cpp:29-79` with two components, `P/solver/PhysicalProperties.cpp:80-131` with three -/
def kineticEnergy (fe : FE K d n nq C N) (processes : List (List C)) (u : Fin d → N → K) (rho : N → K) : K :=
  1 / 2 * overProcesses processes fun c => ∑ q, ∑ i,
    rho (fe.dof c i) * (∑ a, u a (fe.dof c i) * u a (fe.dof c i)) * fe.value c i q * fe.jxw c q

/-- `vorticity` in a quadrature point, `P/solver/PhysicalProperties.cpp:170-175` -/
def vorticity2D (fe : FE K 2 n nq C N) (u : Fin 2 → N → K) (c : C) (q : Fin nq) : K :=
  ∑ i, (u 1 (fe.dof c i) * fe.grad c i q 0 - u 0 (fe.dof c i) * fe.grad c i q 1)

/-- `enstrophy` in two dimensions, `P/solver/PhysicalProperties.cpp:133-193`; the second component is `*squared` -/
def enstrophy2D (fe : FE K 2 n nq C N) (processes : List (List C)) (u : Fin 2 → N → K) : K × K :=
  (overProcesses processes fun c => ∑ q, vorticity2D fe u c q * vorticity2D fe u c q * fe.jxw c q,
   overProcesses processes fun c => ∑ q,
    vorticity2D fe u c q * vorticity2D fe u c q * vorticity2D fe u c q * vorticity2D fe u c q * fe.jxw c q)

/-- `du_dxk`, `dv_dxk`, `dw_dxk`, `P/solver/PhysicalProperties.cpp:239-250` -/
def du_dx (fe : FE K 3 n nq C N) (u : N → K) (c : C) (q : Fin nq) (k : Fin 3) : K := ∑ i, u (fe.dof c i) * fe.grad c i q k

/-- `frobenius_sq`, `P/solver/PhysicalProperties.cpp:237-253` -/
def frobeniusSq (fe : FE K 3 n nq C N) (u : Fin 3 → N → K) (c : C) (q : Fin nq) : K :=
  ∑ k, (du_dx fe (u 0) c q k * du_dx fe (u 0) c q k + du_dx fe (u 1) c q k * du_dx fe (u 1) c q k
    + du_dx fe (u 2) c q k * du_dx fe (u 2) c q k)

/-- `enstrophy` in three dimensions, `P/solver/PhysicalProperties.cpp:195-267`; the second component is `*squared` -/
def enstrophy3D (fe : FE K 3 n nq C N) (processes : List (List C)) (u : Fin 3 → N → K) : K × K :=
  (overProcesses processes fun c => ∑ q, frobeniusSq fe u c q * fe.jxw c q,
   overProcesses processes fun c => ∑ q, frobeniusSq fe u c q * frobeniusSq fe u c q * fe.jxw c q)

/-- `mass`, `P/solver/PhysicalProperties.cpp:269-310` -/
def mass (fe : FE K d n nq C N) (processes : List (List C)) (rho : N → K) : K :=
  overProcesses processes fun c => ∑ q, ∑ i, rho (fe.dof c i) * fe.value c i q * fe.jxw c q

/-- `meanVelocityX`, `P/solver/PhysicalProperties.cpp:322-363`; `none` if it divides by zero.  The shape functions are not evaluated. -/
def meanVelocityX [DecidableEq K] (fe : FE K d n nq C N) (processes : List (List C)) (ux : N → K) : Option K :=
  let result := overProcesses processes fun c => ∑ q, ∑ i, ux (fe.dof c i) * fe.jxw c q
  let area := overProcesses processes fun c => ∑ q, ∑ _i : Fin n, fe.jxw c q
  if area = 0 then none else some (result / area)

end

section

variable {K : Type*} [Field K] [LinearOrder K] {N : Type*}

/-- `maximalPressure`, `P/solver/PhysicalProperties.cpp:312-320`, of a vector that is not empty: the maximal and the minimal pressure -/
def maximalPressure [Fintype N] [Nonempty N] (rho : N → K) (speedOfSound : K) : K × K :=
  ((Finset.univ.sup' Finset.univ_nonempty rho - 1) * (speedOfSound * speedOfSound),
   (Finset.univ.inf' Finset.univ_nonempty rho - 1) * speedOfSound * speedOfSound)

end

/-- `entropy`, `P/solver/PhysicalProperties.cpp:365-411`; the shape functions are not evaluated.  For negative populations the program
reports `nan`, the model a number. -/
noncomputable def entropy {d n nq Q : ℕ} {C N : Type*} (fe : FE ℝ d n nq C N) (processes : List (List C)) (weights : Fin Q → ℝ)
    (f : Fin Q → N → ℝ) : ℝ :=
  overProcesses processes fun c => ∑ q, ∑ i, ∑ j,
    -(f j (fe.dof c i) * Real.log (f j (fe.dof c i) / weights j) * fe.jxw c q)

/-! ## Global turbulence statistics -/

/-- The names of the observables, `P/dataprocessors/GlobalTurbulenceStats.cpp:27-49`: `"rho"`, `"drho/dx"`, …, `"ux"`, …, `"dux/dx"`, … -/
inductive Name (d : ℕ) where
  | rho
  | drho (k : Fin d)
  | u (a : Fin d)
  | du (a k : Fin d)
  deriving DecidableEq

/-- `m_names` in two dimensions, `P/dataprocessors/GlobalTurbulenceStats.cpp:27-49` -/
def names2 : List (Name 2) := [.rho, .drho 0, .drho 1, .u 0, .u 1, .du 0 0, .du 0 1, .du 1 0, .du 1 1]

/-- `m_names` in three dimensions, `P/dataprocessors/GlobalTurbulenceStats.cpp:27-49` -/
def names3 : List (Name 3) :=
  [.rho, .drho 0, .drho 1, .drho 2, .u 0, .u 1, .u 2, .du 0 0, .du 0 1, .du 0 2, .du 1 0, .du 1 1, .du 1 2, .du 2 0, .du 2 1, .du 2 2]

section

variable {K : Type*} [Field K] {d n nq : ℕ} {C N : Type*}

/-- `get_function_values`, called in `P/dataprocessors/GlobalTurbulenceStats.cpp:229-236` -/
def functionValue (fe : FE K d n nq C N) (u : N → K) (c : C) (q : Fin nq) : K := ∑ i, u (fe.dof c i) * fe.value c i q

/-- `get_function_gradients`, called in `P/dataprocessors/GlobalTurbulenceStats.cpp:227-235` -/
def functionGradient (fe : FE K d n nq C N) (u : N → K) (c : C) (q : Fin nq) (k : Fin d) : K := ∑ i, u (fe.dof c i) * fe.grad c i q k

/-- `l_values` in two dimensions, `P/dataprocessors/GlobalTurbulenceStats.cpp:242-282` -/
def values2 (fe : FE K 2 n nq C N) (u : Fin 2 → N → K) (rho : N → K) (c : C) (q : Fin nq) : List K :=
  [functionValue fe rho c q, functionGradient fe rho c q 0, functionGradient fe rho c q 1,
   functionValue fe (u 0) c q, functionValue fe (u 1) c q,
   functionGradient fe (u 0) c q 0, functionGradient fe (u 0) c q 1,
   functionGradient fe (u 1) c q 0, functionGradient fe (u 1) c q 1]

/-- `l_values` in three dimensions, `P/dataprocessors/GlobalTurbulenceStats.cpp:242-282` -/
def values3 (fe : FE K 3 n nq C N) (u : Fin 3 → N → K) (rho : N → K) (c : C) (q : Fin nq) : List K :=
  [functionValue fe rho c q, functionGradient fe rho c q 0, functionGradient fe rho c q 1, functionGradient fe rho c q 2,
   functionValue fe (u 0) c q, functionValue fe (u 1) c q, functionValue fe (u 2) c q,
   functionGradient fe (u 0) c q 0, functionGradient fe (u 0) c q 1, functionGradient fe (u 0) c q 2,
   functionGradient fe (u 1) c q 0, functionGradient fe (u 1) c q 1, functionGradient fe (u 1) c q 2,
   functionGradient fe (u 2) c q 0, functionGradient fe (u 2) c q 1, functionGradient fe (u 2) c q 2]

/-- `m_averages`, `P/dataprocessors/GlobalTurbulenceStats.cpp:284-287, 325`; `values` is `l_values` in the quadrature points, with `m`
observables -/
def averages (fe : FE K d n nq C N) (processes : List (List C)) (values : C → Fin nq → List K) (m : ℕ) : List K :=
  (List.range m).map fun j => overProcesses processes fun c => ∑ q, (values c q).getD j 0 * fe.jxw c q

/-- `m_correlations`, `P/dataprocessors/GlobalTurbulenceStats.cpp:289-295, 328-331` -/
def correlations (fe : FE K d n nq C N) (processes : List (List C)) (values : C → Fin nq → List K) (m : ℕ) : List (List K) :=
  (List.range m).map fun j => (List.range (j + 1)).map fun r =>
    overProcesses processes fun c => ∑ q, ((values c q).getD j 0 * (values c q).getD r 0) * fe.jxw c q

/-- `m_EX3` (`e = 3`) and `m_EX4` (`e = 4`), `P/dataprocessors/GlobalTurbulenceStats.cpp:296-300, 326-327` -/
def moments (fe : FE K d n nq C N) (processes : List (List C)) (values : C → Fin nq → List K) (m e : ℕ) : List K :=
  (List.range m).map fun j => overProcesses processes fun c => ∑ q, (values c q).getD j 0 ^ e * fe.jxw c q

/-- `e1` of the energies, `P/dataprocessors/GlobalTurbulenceStats.cpp:302-307` -/
def energyDensity (fe : FE K d n nq C N) (u : Fin d → N → K) (c : C) (q : Fin nq) : K :=
  ∑ a, 1 / 2 * functionValue fe (u a) c q * functionValue fe (u a) c q

/-- `e2` in two dimensions, `P/dataprocessors/GlobalTurbulenceStats.cpp:304-305`, `P/dataprocessors/CompressibleTurbulenceStats.cpp:170-171` -/
def enstrophyDensity2 (fe : FE K 2 n nq C N) (u : Fin 2 → N → K) (c : C) (q : Fin nq) : K :=
  (functionGradient fe (u 1) c q 0 - functionGradient fe (u 0) c q 1) ^ 2

/-- `e2` in three dimensions, `P/dataprocessors/GlobalTurbulenceStats.cpp:304-312`,
`P/dataprocessors/CompressibleTurbulenceStats.cpp:170-178` -/
def enstrophyDensity3 (fe : FE K 3 n nq C N) (u : Fin 3 → N → K) (c : C) (q : Fin nq) : K :=
  (functionGradient fe (u 1) c q 0 - functionGradient fe (u 0) c q 1) ^ 2
    + (functionGradient fe (u 2) c q 1 - functionGradient fe (u 1) c q 2) ^ 2
    + (functionGradient fe (u 0) c q 2 - functionGradient fe (u 2) c q 0) ^ 2

/-- `m_energy`, `m_enstrophy`, `m_energySquared`, `m_enstrophySquared`, `P/dataprocessors/GlobalTurbulenceStats.cpp:313-316, 332-335`, for the
densities of energy and enstrophy -/
def energies (fe : FE K d n nq C N) (processes : List (List C)) (e1 e2 : C → Fin nq → K) : K × K × K × K :=
  (overProcesses processes fun c => ∑ q, e1 c q * fe.jxw c q,
   overProcesses processes fun c => ∑ q, e2 c q * fe.jxw c q,
   overProcesses processes fun c => ∑ q, e1 c q * e1 c q * fe.jxw c q,
   overProcesses processes fun c => ∑ q, e2 c q * e2 c q * fe.jxw c q)

end

/-- What stands in a column of the table -/
inductive Column (d : ℕ) where
  | iteration
  | time
  | average (x : Name d)
  | correlation (x y : Name d)
  | third (x : Name d)
  | fourth (x : Name d)
  | energy
  | enstrophy
  | energySquared
  | enstrophySquared
  deriving DecidableEq

/-- the columns with correlations: the lower triangle row by row, `P/dataprocessors/GlobalTurbulenceStats.cpp:99-105, 137-142` -/
def correlationColumns {d : ℕ} (names : List (Name d)) : List (Column d) :=
  (List.range names.length).flatMap fun i => (List.range (i + 1)).map fun j =>
    .correlation (names.getD i .rho) (names.getD j .rho)

/-- a line of the table, `P/dataprocessors/GlobalTurbulenceStats.cpp:130-152` -/
def tableLine {d : ℕ} (names : List (Name d)) : List (Column d) :=
  [.iteration, .time] ++ names.map .average ++ correlationColumns names ++ names.map .third ++ names.map .fourth
    ++ [.energy, .enstrophy, .energySquared, .enstrophySquared]

/-- the legend file: number and meaning, `P/dataprocessors/GlobalTurbulenceStats.cpp:91-121`; `k` starts at 3 -/
def legend {d : ℕ} (names : List (Name d)) : List (ℕ × Column d) :=
  [(1, .iteration), (3, .time)] ++
    ((names.map Column.average ++ correlationColumns names ++ names.map Column.third ++ names.map Column.fourth
      ++ [Column.energy, Column.enstrophy, Column.energySquared, Column.enstrophySquared]).zipIdx 3).map fun x : Column d × ℕ => (x.2, x.1)

/-! ## Compressible turbulence statistics -/

section

variable {d n nq : ℕ} {C N : Type*}

/-- `sunderland_factor`, `P/dataprocessors/CompressibleTurbulenceStats.cpp:165` -/
noncomputable def sutherland (T : ℝ) : ℝ := 1.402 * T ^ (1.5 : ℝ) / (T + 0.40417)

/-- `m_dilatation`, `P/dataprocessors/CompressibleTurbulenceStats.cpp:168-180, 200` -/
noncomputable def dilatation (fe : FE ℝ d n nq C N) (processes : List (List C)) (u : Fin d → N → ℝ) (T : N → ℝ) : ℝ :=
  overProcesses processes fun c => ∑ q,
    sutherland (functionValue fe T c q) * ((∑ a, functionGradient fe (u a) c q a) * ∑ a, functionGradient fe (u a) c q a) * fe.jxw c q

/-- `m_solenoidal`, `P/dataprocessors/CompressibleTurbulenceStats.cpp:170-181, 201`, for the density `e2` of the enstrophy -/
noncomputable def solenoidal (fe : FE ℝ d n nq C N) (processes : List (List C)) (T : N → ℝ) (e2 : C → Fin nq → ℝ) : ℝ :=
  overProcesses processes fun c => ∑ q, sutherland (functionValue fe T c q) * e2 c q * fe.jxw c q

/-- `localMach`, `P/dataprocessors/CompressibleTurbulenceStats.cpp:183-187` -/
noncomputable def localMach (fe : FE ℝ d n nq C N) (u : Fin d → N → ℝ) (T : N → ℝ) (gamma : ℝ) (c : C) (q : Fin nq) : ℝ :=
  √(∑ a, functionValue fe (u a) c q * functionValue fe (u a) c q) / √(gamma * functionValue fe T c q)

/-- the update of `globalMach`, `P/dataprocessors/CompressibleTurbulenceStats.cpp:188-189` -/
noncomputable def machStep (globalMach localMach : ℝ) : ℝ := if localMach > globalMach then localMach else globalMach

/-- `globalMach` of a process, `P/dataprocessors/CompressibleTurbulenceStats.cpp:120, 136-194` -/
noncomputable def processMach (fe : FE ℝ d n nq C N) (u : Fin d → N → ℝ) (T : N → ℝ) (gamma : ℝ) (owned : List C) : ℝ :=
  owned.foldl (fun m c => (List.finRange nq).foldl (fun m q => machStep m (localMach fe u T gamma c q)) m) 0

/-- `m_maxMach`, `P/dataprocessors/CompressibleTurbulenceStats.cpp:202`: the maximum over the processes, of which there is at least one -/
noncomputable def maxMach (fe : FE ℝ d n nq C N) (processes : List (List C)) (u : Fin d → N → ℝ) (T : N → ℝ) (gamma : ℝ) : Option ℝ :=
  (processes.map (processMach fe u T gamma)).max?

/-- `m_totalEnergy`, `P/dataprocessors/CompressibleTurbulenceStats.cpp:164, 203` -/
noncomputable def totalEnergy (fe : FE ℝ d n nq C N) (processes : List (List C)) (T : N → ℝ) : ℝ :=
  overProcesses processes fun c => ∑ q, functionValue fe T c q * fe.jxw c q

/-- Columns of the table of the compressible statistics -/
inductive CColumn where
  | iteration | time | dilatation | solenoidal | maxMach | totalEnergy
  deriving DecidableEq

/-- a line of the table, `P/dataprocessors/CompressibleTurbulenceStats.cpp:72-78` -/
def compressibleLine : List CColumn := [.iteration, .time, .dilatation, .solenoidal, .maxMach, .totalEnergy]

/-- the legend file, `P/dataprocessors/CompressibleTurbulenceStats.cpp:57-62` -/
def compressibleLegend : List (ℕ × CColumn) := [(0, .dilatation), (1, .solenoidal), (2, .maxMach)]

end

end Stats
end NATriuM
