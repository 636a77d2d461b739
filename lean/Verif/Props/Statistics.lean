import Verif.Lemmas.Statistics
import Mathlib.Tactic.FinCases
import Mathlib.Tactic.NormNum

/-!
# Properties of the reported integral quantities (C77–C80)
-/

namespace NATriuM
namespace Stats

section Samples

/-- Two cells on two processes. -/
example : Distributed [[true], [false]] := by intro c; cases c <;> decide

/-- One cell on the second of three processes. -/
theorem unit_distributed : Distributed [[], [()], []] := by intro c; cases c; decide

theorem quadraticCell_collocated : Collocated quadraticCell id := fun _ _ _ => rfl

theorem midpointCell_partition : PartitionOfUnity midpointCell := by
  intro c q
  simp [midpointCell]

end Samples

section

variable {K : Type*} [Field K] {d n nq : ℕ} {C N : Type*} [Fintype C] [DecidableEq C]

/-! ## C77: mass and kinetic energy -/

/-- C77: the reported mass is the integral of the discrete density, however the cells are distributed among the processes. -/
theorem C77_mass (fe : FE K d n nq C N) {processes : List (List C)} (h : Distributed processes) (rho : N → K) :
    mass fe processes rho = integral fe (discrete fe rho) := by
  rw [mass, overProcesses_eq h, integral]
  exact Finset.sum_congr rfl fun c _ => Finset.sum_congr rfl fun q _ => by rw [discrete, Finset.sum_mul]

example : mass quadraticCell [[], [()], []] ![6, 3, 12] = 5 := by
  rw [C77_mass _ unit_distributed]; decide +kernel

/-- C77: a uniform density `r` is reported as `r` times the volume. -/
theorem C77_mass_uniform (fe : FE K d n nq C N) (hu : PartitionOfUnity fe) {processes : List (List C)} (h : Distributed processes) (r : K) :
    mass fe processes (fun _ => r) = r * volume fe := by
  rw [C77_mass fe h, ← integral_const]
  exact congrArg (integral fe) (funext fun c => funext fun q => discrete_const fe hu r c q)

example : mass midpointCell [[], [()], []] (fun _ => 3) = 3 * volume midpointCell :=
  C77_mass_uniform _ midpointCell_partition unit_distributed 3

/-- C77: the reported kinetic energy is half the integral of the function that interpolates the density times the square of the velocity. -/
theorem C77_energy_partial (fe : FE K d n nq C N) {processes : List (List C)} (h : Distributed processes) (u : Fin d → N → K) (rho : N → K) :
    kineticEnergy fe processes u rho = 1 / 2 * integral fe (discrete fe fun x => rho x * ∑ a, u a x * u a x) := by
  rw [kineticEnergy, overProcesses_eq h, integral]
  congr 1
  exact Finset.sum_congr rfl fun c _ => Finset.sum_congr rfl fun q _ => by rw [discrete, Finset.sum_mul]

/-- C77: if the quadrature points are the support points, it is half the integral of the discrete density times the square of the discrete
velocity. -/
theorem C77_energy_collocated (fe : FE K d n nq C N) {node : Fin nq → Fin n} (hc : Collocated fe node) {processes : List (List C)}
    (h : Distributed processes) (u : Fin d → N → K) (rho : N → K) :
    kineticEnergy fe processes u rho =
      1 / 2 * integral fe fun c q => discrete fe rho c q * ∑ a, discrete fe (u a) c q * discrete fe (u a) c q := by
  rw [C77_energy_partial fe h]
  congr 2
  funext c q
  simp only [discrete_collocated fe hc]

example : kineticEnergy quadraticCell [[], [()], []] ![![0, 3, 0]] (fun _ => 2) = 6 := by
  rw [C77_energy_collocated _ quadraticCell_collocated unit_distributed]; decide +kernel

omit [Fintype C] [DecidableEq C] in
/-- C77 fails for other quadrature points: two nodes with velocities `1` and `-1` have no velocity in the middle, where the energy is
reported to be `1/2`. -/
theorem C77_energy_fails :
    kineticEnergy midpointCell [[()]] ![![1, -1]] (fun _ => 1) = 1 / 2 ∧
    1 / 2 * integral midpointCell (fun c q => discrete midpointCell (fun _ => 1) c q *
      ∑ a, discrete midpointCell (![![1, -1]] a) c q * discrete midpointCell (![![1, -1]] a) c q) = 0 := by
  constructor <;> decide +kernel

/-! ## C78: enstrophy -/

/-- C78 in two dimensions: the reported enstrophy is the integral of the square of the vorticity, and the second value that of its fourth
power. -/
theorem C78_plane (fe : FE K 2 n nq C N) {processes : List (List C)} (h : Distributed processes) (u : Fin 2 → N → K) :
    enstrophy2D fe processes u = (integral fe fun c q => curl2 fe u c q ^ 2, integral fe fun c q => curl2 fe u c q ^ 4) := by
  have e : ∀ c q, vorticity2D fe u c q = curl2 fe u c q := fun c q => by
    rw [vorticity2D, curl2, derivative, derivative, Finset.sum_sub_distrib]
  rw [enstrophy2D, overProcesses_eq h, overProcesses_eq h, integral, integral]
  simp only [e]
  congr 1
  · exact Finset.sum_congr rfl fun c _ => Finset.sum_congr rfl fun q _ => by ring
  · exact Finset.sum_congr rfl fun c _ => Finset.sum_congr rfl fun q _ => by ring

/-- A plane cell with the three shape functions `1 - x - y`, `x`, `y` and one quadrature point. -/
def triangleCell : FE ℚ 2 3 1 Unit (Fin 3) where
  dof _ i := i
  value _ _ _ := 1 / 3
  grad _ i _ k := ![![-1, -1], ![1, 0], ![0, 1]] i k
  jxw _ _ := 1 / 2

/-- the velocity `(-y, x)` has vorticity 2 -/
example : enstrophy2D triangleCell [[], [()], []] ![![0, 0, -1], ![0, 1, 0]] = (2, 8) := by
  rw [C78_plane _ unit_distributed]; decide +kernel

/-- C78 in three dimensions: the reported value is the integral of the square of the vorticity plus that of the trace of the square of the
velocity gradient. -/
theorem C78_space_partial (fe : FE K 3 n nq C N) {processes : List (List C)} (h : Distributed processes) (u : Fin 3 → N → K) :
    (enstrophy3D fe processes u).1 = integral fe (curlSq3 fe u) + integral fe (gradSqTrace fe u) := by
  rw [enstrophy3D, overProcesses_eq h, integral, integral, ← Finset.sum_add_distrib]
  refine Finset.sum_congr rfl fun c _ => ?_
  rw [← Finset.sum_add_distrib]
  refine Finset.sum_congr rfl fun q _ => ?_
  have e : ∀ a k, du_dx fe (u a) c q k = derivative fe (u a) k c q := fun a k => rfl
  simp only [frobeniusSq, curlSq3, gradSqTrace, e, Fin.sum_univ_three]
  ring

/-- C78: so it is right for flows in which the trace integrates to zero. -/
theorem C78_space_right (fe : FE K 3 n nq C N) {processes : List (List C)} (h : Distributed processes) (u : Fin 3 → N → K)
    (h0 : integral fe (gradSqTrace fe u) = 0) : (enstrophy3D fe processes u).1 = integral fe (curlSq3 fe u) := by
  rw [C78_space_partial fe h, h0, add_zero]

/-- A cell in space with the shape functions `1 - x - y - z`, `x`, `y`, `z` and one quadrature point. -/
def tetrahedronCell : FE ℚ 3 4 1 Unit (Fin 4) where
  dof _ i := i
  value _ _ _ := 1 / 4
  grad _ i _ k := ![![-1, -1, -1], ![1, 0, 0], ![0, 1, 0], ![0, 0, 1]] i k
  jxw _ _ := 1 / 6

/-- a shear flow `(y, 0, 0)` -/
example : (enstrophy3D tetrahedronCell [[], [()], []] ![![0, 0, 1, 0], 0, 0]).1 = 1 / 6 := by
  rw [C78_space_right _ unit_distributed _ (by decide +kernel)]; decide +kernel

omit [Fintype C] [DecidableEq C] in
/-- C78 fails in three dimensions: the flow `(x, -y, 0)` has no vorticity, and its reported enstrophy is twice the volume. -/
theorem C78_space_fails :
    (∀ c q, curlSq3 tetrahedronCell ![![0, 1, 0, 0], ![0, 0, -1, 0], 0] c q = 0) ∧
    (enstrophy3D tetrahedronCell [[()]] ![![0, 1, 0, 0], ![0, 0, -1, 0], 0]).1 = 2 * volume tetrahedronCell ∧
    volume tetrahedronCell ≠ 0 := by
  refine ⟨fun c q => ?_, ?_, ?_⟩
  · cases c; fin_cases q; decide +kernel
  · decide +kernel
  · decide +kernel

/-! ## C79: mean velocity and entropy -/

/-- What the program averages: every degree of freedom of a cell with the volume of the cell. -/
theorem meanVelocityX_eq [DecidableEq K] (fe : FE K d n nq C N) {processes : List (List C)} (h : Distributed processes) (ux : N → K)
    (hn : (n : K) * volume fe ≠ 0) :
    meanVelocityX fe processes ux = some ((∑ c, (∑ i, ux (fe.dof c i)) * ∑ q, fe.jxw c q) / (n * volume fe)) := by
  have area : (∑ c : C, ∑ q, ∑ _i : Fin n, fe.jxw c q) = n * volume fe := by
    simp only [volume, integral, Finset.sum_const, Finset.card_univ, Fintype.card_fin, nsmul_eq_mul, one_mul, Finset.mul_sum]
  have res : (∑ c : C, ∑ q, ∑ i, ux (fe.dof c i) * fe.jxw c q) = ∑ c, (∑ i, ux (fe.dof c i)) * ∑ q, fe.jxw c q := by
    refine Finset.sum_congr rfl fun c _ => ?_
    rw [Finset.sum_comm, Finset.sum_mul]
    exact Finset.sum_congr rfl fun i _ => by rw [Finset.mul_sum]
  rw [meanVelocityX]
  simp only [overProcesses_eq h, area, res]
  rw [if_neg hn]

/-- C79: a uniform velocity is reported as it is. -/
theorem C79_mean_uniform [DecidableEq K] (fe : FE K d n nq C N) {processes : List (List C)} (h : Distributed processes) (U : K)
    (hn : (n : K) * volume fe ≠ 0) : meanVelocityX fe processes (fun _ => U) = some U := by
  rw [meanVelocityX_eq fe h _ hn]
  congr 1
  rw [div_eq_iff hn]
  simp only [volume, integral, Finset.sum_const, Finset.card_univ, Fintype.card_fin, nsmul_eq_mul, one_mul, Finset.mul_sum]
  exact Finset.sum_congr rfl fun c _ => Finset.sum_congr rfl fun q _ => by ring

example : meanVelocityX quadraticCell [[], [()], []] (fun _ => 7) = some 7 :=
  C79_mean_uniform _ unit_distributed 7 (by decide +kernel)

/-- C79: if all shape functions of a cell have the same integral, as in cells of order one, the reported mean velocity is the integral of the
discrete velocity divided by the volume. -/
theorem C79_mean_partial [DecidableEq K] (fe : FE K d n nq C N) {processes : List (List C)} (h : Distributed processes) (ux : N → K)
    (hn : (n : K) * volume fe ≠ 0) (same : ∀ c i, n * ∑ q, fe.value c i q * fe.jxw c q = ∑ q, fe.jxw c q) :
    meanVelocityX fe processes ux = some (integral fe (discrete fe ux) / volume fe) := by
  rw [meanVelocityX_eq fe h _ hn]
  congr 1
  have hn0 : (n : K) ≠ 0 := left_ne_zero_of_mul hn
  have e : (∑ c, (∑ i, ux (fe.dof c i)) * ∑ q, fe.jxw c q) = n * integral fe (discrete fe ux) := by
    rw [integral, Finset.mul_sum]
    refine Finset.sum_congr rfl fun c _ => ?_
    simp only [discrete]
    rw [Finset.sum_mul]
    rw [show (∑ q, (∑ i, ux (fe.dof c i) * fe.value c i q) * fe.jxw c q) =
        ∑ i, ∑ q, ux (fe.dof c i) * fe.value c i q * fe.jxw c q by
      rw [Finset.sum_comm]; exact Finset.sum_congr rfl fun q _ => Finset.sum_mul _ _ _, Finset.mul_sum]
    refine Finset.sum_congr rfl fun i _ => ?_
    rw [← same c i]
    simp only [Finset.mul_sum]
    exact Finset.sum_congr rfl fun q _ => by ring
  rw [e, mul_div_mul_left _ _ hn0]

example : meanVelocityX midpointCell [[], [()], []] ![2, 4] = some 3 := by
  rw [C79_mean_partial _ unit_distributed _ (by decide +kernel) (by intro c i; cases c; fin_cases i <;> decide +kernel)]
  decide +kernel

omit [Fintype C] [DecidableEq C] in
/-- C79 fails for elements of order two: the parabola `4 x (1 - x)` has the mean 2/3, and 1/3 is reported. -/
theorem C79_mean_fails :
    meanVelocityX quadraticCell [[()]] ![0, 1, 0] = some (1 / 3) ∧
    integral quadraticCell (discrete quadraticCell ![0, 1, 0]) / volume quadraticCell = 2 / 3 := by
  constructor <;> decide +kernel

end

section Entropy

variable {d n nq Q : ℕ} {C N : Type*} [Fintype C] [DecidableEq C]

/-- The density of the entropy. -/
noncomputable def entropyDensity (weights : Fin Q → ℝ) (f : Fin Q → ℝ) : ℝ := -∑ j, f j * Real.log (f j / weights j)

/-- What the program adds up: the entropy of every degree of freedom of a cell times the volume of the cell. -/
theorem entropy_eq (fe : FE ℝ d n nq C N) {processes : List (List C)} (h : Distributed processes) (weights : Fin Q → ℝ)
    (f : Fin Q → N → ℝ) :
    entropy fe processes weights f = ∑ c, (∑ i, entropyDensity weights fun j => f j (fe.dof c i)) * ∑ q, fe.jxw c q := by
  rw [entropy, overProcesses_eq h]
  refine Finset.sum_congr rfl fun c _ => ?_
  rw [Finset.sum_comm, Finset.sum_mul]
  refine Finset.sum_congr rfl fun i _ => ?_
  rw [Finset.mul_sum]
  refine Finset.sum_congr rfl fun q _ => ?_
  rw [entropyDensity, neg_mul, Finset.sum_mul, Finset.sum_neg_distrib]

/-- C79: for uniform populations the reported entropy is the density of the entropy times the volume times the number of degrees of freedom of
a cell. -/
theorem C79_entropy_partial (fe : FE ℝ d n nq C N) {processes : List (List C)} (h : Distributed processes) (weights : Fin Q → ℝ)
    (f : Fin Q → ℝ) : entropy fe processes weights (fun j _ => f j) = n * (entropyDensity weights f * volume fe) := by
  rw [entropy_eq fe h]
  simp only [volume, integral, Finset.sum_const, Finset.card_univ, Fintype.card_fin, nsmul_eq_mul, one_mul, Finset.mul_sum]
  exact Finset.sum_congr rfl fun c _ => Finset.sum_congr rfl fun q _ => by ring

/-- A cell of length 1 with linear shape functions and the midpoint rule. -/
noncomputable def realCell : FE ℝ 1 2 1 Unit (Fin 2) where
  dof _ i := i
  value _ _ _ := 1 / 2
  grad _ i _ _ := ![-1, 1] i
  jxw _ _ := 1

example : entropy realCell [[], [()], []] (fun _ : Fin 1 => 1) (fun _ _ => 2) =
    2 * (entropyDensity (fun _ : Fin 1 => 1) (fun _ => 2) * volume realCell) :=
  C79_entropy_partial realCell unit_distributed _ _

omit [Fintype C] [DecidableEq C] in
/-- C79 fails for the entropy: already for uniform populations it is not the integral of its density, which here is `-2 log 2`. -/
theorem C79_entropy_fails :
    entropy realCell [[()]] (fun _ : Fin 1 => 1) (fun _ _ => 2) ≠
      integral realCell fun _ _ => entropyDensity (fun _ : Fin 1 => 1) fun _ => 2 := by
  have hd : Distributed [[()]] := by intro c; cases c; decide
  have hv : volume realCell = 1 := by simp [volume, integral, realCell]
  rw [C79_entropy_partial realCell hd, integral_const, hv]
  have hl : 0 < Real.log 2 := Real.log_pos (by norm_num)
  simp only [entropyDensity, Finset.univ_unique, Finset.sum_singleton, div_one, mul_one]
  norm_num

end Entropy

/-! ## C80: turbulence statistics -/

section

variable {K : Type*} [Field K] {d n nq : ℕ} {C N : Type*} [Fintype C] [DecidableEq C]

omit [Fintype C] [DecidableEq C] in
/-- C80: the observables are what their names say. -/
theorem C80_names2 (fe : FE K 2 n nq C N) (u : Fin 2 → N → K) (rho : N → K) (c : C) (q : Fin nq) :
    values2 fe u rho c q = names2.map fun x => x.field fe u rho c q := rfl

omit [Fintype C] [DecidableEq C] in
/-- C80: the observables are what their names say. -/
theorem C80_names3 (fe : FE K 3 n nq C N) (u : Fin 3 → N → K) (rho : N → K) (c : C) (q : Fin nq) :
    values3 fe u rho c q = names3.map fun x => x.field fe u rho c q := rfl

omit [Fintype C] [DecidableEq C] in
theorem getD_names {fe : FE K d n nq C N} {names : List (Name d)} {u : Fin d → N → K} {rho : N → K} {values : C → Fin nq → List K}
    (hv : ∀ c q, values c q = names.map fun x => x.field fe u rho c q) {j : ℕ} (hj : j < names.length) (c : C) (q : Fin nq) :
    (values c q).getD j 0 = names[j].field fe u rho c q := by
  rw [hv, List.getD_eq_getElem?_getD, List.getElem?_map, List.getElem?_eq_getElem hj]; rfl

/-- C80: the entry of an observable in the averages is its integral over the domain. -/
theorem C80_averages (fe : FE K d n nq C N) {processes : List (List C)} (h : Distributed processes) (names : List (Name d))
    (u : Fin d → N → K) (rho : N → K) (values : C → Fin nq → List K) (hv : ∀ c q, values c q = names.map fun x => x.field fe u rho c q) :
    averages fe processes values names.length = names.map fun x => integral fe (x.field fe u rho) := by
  refine List.ext_getElem (by simp [averages]) fun j h1 h2 => ?_
  have hj : j < names.length := by simpa using h2
  simp only [averages, List.getElem_map, List.getElem_range, overProcesses_eq h, getD_names hv hj]
  rfl

/-- C80: the entries of the table of correlations are the integrals of the products. -/
theorem C80_correlations (fe : FE K d n nq C N) {processes : List (List C)} (h : Distributed processes) (names : List (Name d))
    (u : Fin d → N → K) (rho : N → K) (values : C → Fin nq → List K) (hv : ∀ c q, values c q = names.map fun x => x.field fe u rho c q)
    {j r : ℕ} (hr : r ≤ j) (hj : j < names.length) :
    (correlations fe processes values names.length)[j]?.bind (·[r]?) =
      some (integral fe fun c q => names[j].field fe u rho c q * (names[r]'(hr.trans_lt hj)).field fe u rho c q) := by
  have e : ∀ c q, (values c q).getD r 0 = (names[r]'(hr.trans_lt hj)).field fe u rho c q := fun c q => getD_names hv (hr.trans_lt hj) c q
  rw [correlations, List.getElem?_map, List.getElem?_range hj]
  simp only [Option.map_some, Option.bind_some]
  rw [List.getElem?_map, List.getElem?_range (Nat.lt_succ_of_le hr)]
  simp only [Option.map_some, overProcesses_eq h, getD_names hv hj, e]
  rfl

/-- C80: the third and fourth moments are the integrals of the powers. -/
theorem C80_moments (fe : FE K d n nq C N) {processes : List (List C)} (h : Distributed processes) (names : List (Name d))
    (u : Fin d → N → K) (rho : N → K) (values : C → Fin nq → List K) (hv : ∀ c q, values c q = names.map fun x => x.field fe u rho c q)
    (e : ℕ) : moments fe processes values names.length e = names.map fun x => integral fe fun c q => x.field fe u rho c q ^ e := by
  refine List.ext_getElem (by simp [moments]) fun j h1 h2 => ?_
  have hj : j < names.length := by simpa using h2
  simp only [moments, List.getElem_map, List.getElem_range, overProcesses_eq h, getD_names hv hj]
  rfl

example : averages triangleCell [[], [()], []] (values2 triangleCell ![![0, 0, -1], ![0, 1, 0]] ![3, 3, 6]) 9 =
    [2, 0, 3 / 2, -1 / 6, 1 / 6, 0, -1 / 2, 1 / 2, 0] := by
  have := C80_averages triangleCell unit_distributed names2 ![![0, 0, -1], ![0, 1, 0]] ![3, 3, 6] _ (C80_names2 triangleCell _ _)
  rw [show (9 : ℕ) = names2.length from rfl, this]
  decide +kernel

omit [Fintype C] [DecidableEq C] in
/-- C80: what is called an average is divided by the volume nowhere: the average of a density that is 1 everywhere is reported as 1/2 in a
triangle with area 1/2. -/
theorem C80_averages_fails : (averages triangleCell [[()]] (values2 triangleCell 0 fun _ => 1) 9).head? = some (1 / 2) := by decide +kernel

/-- C80: the energies and enstrophies are the integrals of half the square of the velocity, the square of the vorticity, and their squares, in
two dimensions. -/
theorem C80_energies2 (fe : FE K 2 n nq C N) {processes : List (List C)} (h : Distributed processes) (u : Fin 2 → N → K) :
    energies fe processes (energyDensity fe u) (enstrophyDensity2 fe u) =
      (integral fe fun c q => 1 / 2 * (discrete fe (u 0) c q ^ 2 + discrete fe (u 1) c q ^ 2), integral fe fun c q => curl2 fe u c q ^ 2,
       integral fe fun c q => (1 / 2 * (discrete fe (u 0) c q ^ 2 + discrete fe (u 1) c q ^ 2)) ^ 2,
       integral fe fun c q => (curl2 fe u c q ^ 2) ^ 2) := by
  have e1 : ∀ c q, energyDensity fe u c q = 1 / 2 * (discrete fe (u 0) c q ^ 2 + discrete fe (u 1) c q ^ 2) := fun c q => by
    simp only [energyDensity, Fin.sum_univ_two, functionValue_eq]; ring
  have e2 : ∀ c q, enstrophyDensity2 fe u c q = curl2 fe u c q ^ 2 := fun c q => rfl
  simp only [energies, overProcesses_eq h, e1, e2, integral, sq]

/-- C80: the same in three dimensions; here the enstrophy is that of the vorticity, unlike in `C78_space_fails`. -/
theorem C80_energies3 (fe : FE K 3 n nq C N) {processes : List (List C)} (h : Distributed processes) (u : Fin 3 → N → K) :
    energies fe processes (energyDensity fe u) (enstrophyDensity3 fe u) =
      (integral fe fun c q => 1 / 2 * (discrete fe (u 0) c q ^ 2 + discrete fe (u 1) c q ^ 2 + discrete fe (u 2) c q ^ 2),
       integral fe (curlSq3 fe u),
       integral fe fun c q => (1 / 2 * (discrete fe (u 0) c q ^ 2 + discrete fe (u 1) c q ^ 2 + discrete fe (u 2) c q ^ 2)) ^ 2,
       integral fe fun c q => curlSq3 fe u c q ^ 2) := by
  have e1 : ∀ c q, energyDensity fe u c q =
      1 / 2 * (discrete fe (u 0) c q ^ 2 + discrete fe (u 1) c q ^ 2 + discrete fe (u 2) c q ^ 2) := fun c q => by
    simp only [energyDensity, Fin.sum_univ_three, functionValue_eq]; ring
  have e2 : ∀ c q, enstrophyDensity3 fe u c q = curlSq3 fe u c q := fun c q => by
    simp only [enstrophyDensity3, curlSq3, functionGradient_eq]; ring
  simp only [energies, overProcesses_eq h, e1, e2, integral, sq]

example : energies triangleCell [[], [()], []] (energyDensity triangleCell ![![3, 3, 3], 0]) (enstrophyDensity2 triangleCell ![![3, 3, 3], 0])
    = (9 / 4, 0, 81 / 8, 0) := by
  rw [C80_energies2 _ unit_distributed]; decide +kernel

end

section Order

variable {K : Type*} [Field K] [LinearOrder K] [IsStrictOrderedRing K] {d n nq : ℕ} {C N : Type*} [Fintype C] [DecidableEq C]

/-- C77: the kinetic energy of a flow with positive densities is not negative if the quadrature points are the support points. -/
theorem C77_energy_nonneg (fe : FE K d n nq C N) {node : Fin nq → Fin n} (hc : Collocated fe node) (hw : ∀ c q, 0 ≤ fe.jxw c q)
    {processes : List (List C)} (h : Distributed processes) (u : Fin d → N → K) (rho : N → K) (hr : ∀ x, 0 ≤ rho x) :
    0 ≤ kineticEnergy fe processes u rho := by
  rw [C77_energy_partial fe h]
  refine mul_nonneg (by norm_num) (integral_nonneg fe hw fun c q => ?_)
  rw [discrete_collocated fe hc]
  exact mul_nonneg (hr _) (Finset.sum_nonneg fun a _ => mul_self_nonneg _)

example : 0 ≤ kineticEnergy quadraticCell [[], [()], []] ![![-1, 3, 5]] ![1, 0, 2] :=
  C77_energy_nonneg _ quadraticCell_collocated (by intro c q; cases c; fin_cases q <;> decide +kernel) unit_distributed _ _
    (by intro x; fin_cases x <;> decide +kernel)

/-- C77: the reported maximal and minimal pressures bound the pressure of every node, and are the pressures of two nodes. -/
theorem C77_pressure {N : Type*} [Fintype N] [Nonempty N] (rho : N → K) (cs : K) :
    (∀ x, (maximalPressure rho cs).2 ≤ (rho x - 1) * cs ^ 2 ∧ (rho x - 1) * cs ^ 2 ≤ (maximalPressure rho cs).1) ∧
    (∃ x, (maximalPressure rho cs).1 = (rho x - 1) * cs ^ 2) ∧ ∃ x, (maximalPressure rho cs).2 = (rho x - 1) * cs ^ 2 := by
  refine ⟨fun x => ⟨?_, ?_⟩, ?_, ?_⟩
  · rw [maximalPressure, mul_assoc, ← sq]
    exact mul_le_mul_of_nonneg_right (sub_le_sub_right (Finset.inf'_le _ (Finset.mem_univ x)) 1) (sq_nonneg cs)
  · rw [maximalPressure, ← sq]
    exact mul_le_mul_of_nonneg_right (sub_le_sub_right (Finset.le_sup' _ (Finset.mem_univ x)) 1) (sq_nonneg cs)
  · obtain ⟨x, -, e⟩ := Finset.exists_mem_eq_sup' Finset.univ_nonempty rho
    exact ⟨x, by rw [maximalPressure, e, ← sq]⟩
  · obtain ⟨x, -, e⟩ := Finset.exists_mem_eq_inf' Finset.univ_nonempty rho
    exact ⟨x, by rw [maximalPressure, e, mul_assoc, ← sq]⟩

example : maximalPressure (![3 / 2, 1 / 2, 1] : Fin 3 → ℚ) 2 = (2, -2) := by decide +kernel

/-- C78: at least half of the integral of the square of the vorticity is reported in three dimensions. -/
theorem C78_space_bound (fe : FE K 3 n nq C N) (hw : ∀ c q, 0 ≤ fe.jxw c q) {processes : List (List C)} (h : Distributed processes)
    (u : Fin 3 → N → K) : 1 / 2 * integral fe (curlSq3 fe u) ≤ (enstrophy3D fe processes u).1 := by
  have e : (enstrophy3D fe processes u).1 = integral fe fun c q => ∑ a, ∑ k, derivative fe (u a) k c q ^ 2 := by
    rw [enstrophy3D, overProcesses_eq h, integral]
    refine Finset.sum_congr rfl fun c _ => Finset.sum_congr rfl fun q _ => ?_
    have e : ∀ a k, du_dx fe (u a) c q k = derivative fe (u a) k c q := fun a k => rfl
    simp only [frobeniusSq, e, Fin.sum_univ_three]
    ring
  have e2 : 1 / 2 * integral fe (curlSq3 fe u) = integral fe fun c q => 1 / 2 * curlSq3 fe u c q := by
    simp only [integral, Finset.mul_sum, mul_assoc]
  rw [e, e2]
  refine integral_mono fe hw fun c q => ?_
  simp only [curlSq3, Fin.sum_univ_three]
  nlinarith [sq_nonneg (derivative fe (u 2) 1 c q + derivative fe (u 1) 2 c q), sq_nonneg (derivative fe (u 0) 2 c q + derivative fe (u 2) 0 c q),
    sq_nonneg (derivative fe (u 1) 0 c q + derivative fe (u 0) 1 c q), sq_nonneg (derivative fe (u 0) 0 c q),
    sq_nonneg (derivative fe (u 1) 1 c q), sq_nonneg (derivative fe (u 2) 2 c q)]

example : 1 / 2 * integral tetrahedronCell (curlSq3 tetrahedronCell ![![0, 0, 1, 0], 0, 0]) ≤
    (enstrophy3D tetrahedronCell [[], [()], []] ![![0, 0, 1, 0], 0, 0]).1 :=
  C78_space_bound _ (by intro c q; cases c; fin_cases q; decide +kernel) unit_distributed _

/-- C80: the reported numbers satisfy the inequality between an average and the correlation with itself: the variance is not negative, once the
averages are divided by the volume. -/
theorem C80_variance (fe : FE K d n nq C N) (hw : ∀ c q, 0 ≤ fe.jxw c q) {processes : List (List C)} (h : Distributed processes)
    (names : List (Name d)) (u : Fin d → N → K) (rho : N → K) (values : C → Fin nq → List K)
    (hv : ∀ c q, values c q = names.map fun x => x.field fe u rho c q) {j : ℕ} {a v : K}
    (ha : (averages fe processes values names.length)[j]? = some a)
    (hc : (correlations fe processes values names.length)[j]?.bind (·[j]?) = some v) : a ^ 2 ≤ v * volume fe := by
  rw [C80_averages fe h names u rho values hv] at ha
  obtain ⟨hj, e⟩ := List.getElem?_eq_some_iff.1 ha
  rw [List.length_map] at hj
  rw [C80_correlations fe h names u rho values hv le_rfl hj, Option.some_inj] at hc
  rw [List.getElem_map] at e
  rw [← e, ← hc]
  have := integral_cauchy_schwarz fe hw (names[j].field fe u rho) fun _ _ => 1
  simpa only [mul_one, volume] using this

/-- C80: the correlation of two observables is bounded by those with themselves. -/
theorem C80_cauchy_schwarz (fe : FE K d n nq C N) (hw : ∀ c q, 0 ≤ fe.jxw c q) {processes : List (List C)} (h : Distributed processes)
    (names : List (Name d)) (u : Fin d → N → K) (rho : N → K) (values : C → Fin nq → List K)
    (hv : ∀ c q, values c q = names.map fun x => x.field fe u rho c q) {j r : ℕ} (hr : r ≤ j) (hj : j < names.length) {a b v : K}
    (ha : (correlations fe processes values names.length)[j]?.bind (·[j]?) = some a)
    (hb : (correlations fe processes values names.length)[r]?.bind (·[r]?) = some b)
    (hc : (correlations fe processes values names.length)[j]?.bind (·[r]?) = some v) : v ^ 2 ≤ a * b := by
  rw [C80_correlations fe h names u rho values hv le_rfl hj, Option.some_inj] at ha
  rw [C80_correlations fe h names u rho values hv le_rfl (hr.trans_lt hj), Option.some_inj] at hb
  rw [C80_correlations fe h names u rho values hv hr hj, Option.some_inj] at hc
  rw [← ha, ← hb, ← hc]
  exact integral_cauchy_schwarz fe hw _ _

example : ∃ a v, (averages triangleCell [[()]] (values2 triangleCell ![![0, 0, -1], ![0, 1, 0]] ![3, 3, 6]) names2.length)[3]? = some a ∧
    (correlations triangleCell [[()]] (values2 triangleCell ![![0, 0, -1], ![0, 1, 0]] ![3, 3, 6]) names2.length)[3]?.bind (·[3]?) = some v :=
  ⟨-1 / 6, 1 / 18, by decide +kernel, by decide +kernel⟩

end Order

/-! ### The tables and their legends -/

/-- What stands in column `k` (from 1) of a line. -/
def inColumn {α : Type*} (line : List α) (k : ℕ) : Option α := if k = 0 then none else line[k - 1]?

/-- C80: except for the time, every line of the legend names what stands in the column with its number. -/
theorem C80_legend_partial {d : ℕ} (names : List (Name d)) (k : ℕ) (x : Column d) (h : (k, x) ∈ legend names) (hx : x ≠ .time) :
    inColumn (tableLine names) k = some x := by
  rw [legend, List.mem_append] at h
  rcases h with h | h
  · simp only [List.mem_cons, Prod.mk.injEq, List.not_mem_nil, or_false] at h
    rcases h with ⟨rfl, rfl⟩ | ⟨_, rfl⟩
    · rfl
    · exact absurd rfl hx
  · obtain ⟨⟨y, l⟩, hm, e⟩ := List.mem_map.1 h
    obtain ⟨rfl, rfl⟩ := Prod.mk.inj e
    rw [List.mem_iff_getElem?] at hm
    obtain ⟨i, hi⟩ := hm
    rw [List.getElem?_zipIdx, Option.map_eq_some_iff] at hi
    obtain ⟨z, hz, e⟩ := hi
    obtain ⟨rfl, rfl⟩ := Prod.mk.inj e
    rw [inColumn, if_neg (by simp), tableLine]
    simp only [List.append_assoc] at hz ⊢
    rw [show 3 + i - 1 = i + 2 by omega]
    exact hz

/-- C80: every column occurs in the legend. -/
theorem C80_legend_complete {d : ℕ} (names : List (Name d)) (x : Column d) (h : x ∈ tableLine names) :
    ∃ k, (k, x) ∈ legend names := by
  rw [tableLine] at h
  simp only [List.append_assoc, List.cons_append, List.nil_append, List.mem_cons] at h
  rw [legend]
  rcases h with rfl | rfl | h
  · exact ⟨1, by simp⟩
  · exact ⟨3, by simp⟩
  · obtain ⟨i, hi⟩ := List.mem_iff_getElem?.1 h
    refine ⟨3 + i, List.mem_append.2 (.inr (List.mem_map.2 ⟨(x, 3 + i), List.mem_iff_getElem?.2 ⟨i, ?_⟩, rfl⟩))⟩
    rw [List.getElem?_zipIdx]
    simp only [List.append_assoc] at hi ⊢
    simp only [hi, Option.map_some]

/-- the number of columns for flows in the plane -/
example : (tableLine names2).length = 78 ∧ inColumn (tableLine names2) 12 = some (.correlation .rho .rho) := by decide

/-- C80 fails for the time: it stands in column 2, the legend names column 3, which is that of the density. -/
theorem C80_legend_fails : (3, .time) ∈ legend names2 ∧ inColumn (tableLine names2) 3 = some (.average .rho) ∧
    inColumn (tableLine names2) 2 = some .time := by decide

/-- C80 fails for the compressible statistics: no line of the legend names the right column. -/
theorem C80_compressible_legend_fails : ∀ k x, (k, x) ∈ compressibleLegend → inColumn compressibleLine k ≠ some x := by
  intro k x h
  simp only [compressibleLegend, List.mem_cons, Prod.mk.injEq, List.not_mem_nil, or_false] at h
  rcases h with ⟨rfl, rfl⟩ | ⟨rfl, rfl⟩ | ⟨rfl, rfl⟩ <;> decide

section Compressible

variable {d n nq : ℕ} {C N : Type*}

/-- C80: the dilatational dissipation is the integral of the viscosity of Sutherland times the square of the divergence. -/
theorem C80_dilatation [Fintype C] [DecidableEq C] (fe : FE ℝ d n nq C N) {processes : List (List C)} (h : Distributed processes)
    (u : Fin d → N → ℝ) (T : N → ℝ) :
    dilatation fe processes u T = integral fe fun c q => sutherland (discrete fe T c q) * divergence fe u c q ^ 2 := by
  simp only [dilatation, overProcesses_eq h, integral, sq, functionValue_eq, functionGradient_eq, divergence]

/-- C80: the solenoidal dissipation is the integral of the viscosity of Sutherland times the square of the vorticity. -/
theorem C80_solenoidal3 [Fintype C] [DecidableEq C] (fe : FE ℝ 3 n nq C N) {processes : List (List C)} (h : Distributed processes)
    (u : Fin 3 → N → ℝ) (T : N → ℝ) :
    solenoidal fe processes T (enstrophyDensity3 fe u) = integral fe fun c q => sutherland (discrete fe T c q) * curlSq3 fe u c q := by
  have e2 : ∀ c q, enstrophyDensity3 fe u c q = curlSq3 fe u c q := fun c q => by
    simp only [enstrophyDensity3, curlSq3, functionGradient_eq]; ring
  simp only [solenoidal, overProcesses_eq h, integral, functionValue_eq, e2]

/-- C80: the same in the plane. -/
theorem C80_solenoidal2 [Fintype C] [DecidableEq C] (fe : FE ℝ 2 n nq C N) {processes : List (List C)} (h : Distributed processes)
    (u : Fin 2 → N → ℝ) (T : N → ℝ) :
    solenoidal fe processes T (enstrophyDensity2 fe u) = integral fe fun c q => sutherland (discrete fe T c q) * curl2 fe u c q ^ 2 := by
  simp only [solenoidal, overProcesses_eq h, integral, functionValue_eq]
  rfl

theorem machStep_eq (a b : ℝ) : machStep a b = max a b := by
  rw [machStep]
  split_ifs with h
  · exact (max_eq_right h.le).symm
  · exact (max_eq_left (not_lt.1 h)).symm

theorem foldl_max_le_iff {α : Type*} (g : α → ℝ) : ∀ (l : List α) (m b : ℝ),
    l.foldl (fun m x => machStep m (g x)) m ≤ b ↔ m ≤ b ∧ ∀ x ∈ l, g x ≤ b
  | [], m, b => by simp
  | x :: l, m, b => by
    rw [List.foldl_cons, foldl_max_le_iff g l, machStep_eq, max_le_iff, and_assoc]
    simp

theorem processMach_le_iff (fe : FE ℝ d n nq C N) (u : Fin d → N → ℝ) (T : N → ℝ) (gamma : ℝ) (owned : List C) (b : ℝ) :
    processMach fe u T gamma owned ≤ b ↔ 0 ≤ b ∧ ∀ c ∈ owned, ∀ q, localMach fe u T gamma c q ≤ b := by
  have gen : ∀ (l : List C) (m : ℝ),
      l.foldl (fun m c => (List.finRange nq).foldl (fun m q => machStep m (localMach fe u T gamma c q)) m) m ≤ b ↔
        m ≤ b ∧ ∀ c ∈ l, ∀ q, localMach fe u T gamma c q ≤ b := by
    intro l
    induction l with
    | nil => simp
    | cons c l ih =>
      intro m
      rw [List.foldl_cons, ih, foldl_max_le_iff, and_assoc]
      simp
  exact gen owned 0

/-- The Mach number in a point: the absolute value of the velocity divided by the velocity of sound. -/
noncomputable def machNumber (fe : FE ℝ d n nq C N) (u : Fin d → N → ℝ) (T : N → ℝ) (gamma : ℝ) (c : C) (q : Fin nq) : ℝ :=
  √(∑ a, discrete fe (u a) c q ^ 2) / √(gamma * discrete fe T c q)

theorem localMach_eq (fe : FE ℝ d n nq C N) (u : Fin d → N → ℝ) (T : N → ℝ) (gamma : ℝ) :
    localMach fe u T gamma = machNumber fe u T gamma := by
  funext c q
  simp only [localMach, machNumber, functionValue_eq, sq]

/-- C80: the reported maximal Mach number is the maximum over all quadrature points of the mesh. -/
theorem C80_maxMach [DecidableEq C] (fe : FE ℝ d n nq C N) {processes : List (List C)} (h : Distributed processes) (hp : processes ≠ [])
    (u : Fin d → N → ℝ) (T : N → ℝ) (gamma : ℝ) :
    ∃ m, maxMach fe processes u T gamma = some m ∧ ∀ b, m ≤ b ↔ 0 ≤ b ∧ ∀ c q, machNumber fe u T gamma c q ≤ b := by
  obtain ⟨m, hm⟩ : ∃ m, maxMach fe processes u T gamma = some m := by
    cases e : maxMach fe processes u T gamma with
    | none => exact absurd (List.map_eq_nil_iff.1 (List.max?_eq_none_iff.1 e)) hp
    | some m => exact ⟨m, rfl⟩
  refine ⟨m, hm, fun b => ?_⟩
  rw [maxMach, List.max?_eq_some_iff] at hm
  obtain ⟨mem, ub⟩ := hm
  have le : m ≤ b ↔ ∀ owned ∈ processes, processMach fe u T gamma owned ≤ b := by
    constructor
    · intro hb owned ho
      exact (ub _ (List.mem_map_of_mem ho)).trans hb
    · intro hb
      obtain ⟨owned, ho, rfl⟩ := List.mem_map.1 mem
      exact hb owned ho
  rw [le]
  simp only [processMach_le_iff, localMach_eq]
  constructor
  · intro hb
    obtain ⟨o, ho⟩ := List.exists_mem_of_ne_nil _ hp
    refine ⟨(hb o ho).1, fun c q => ?_⟩
    have hc : c ∈ processes.flatten := List.count_pos_iff.1 (by rw [h c]; exact one_pos)
    obtain ⟨owned, ho, hc⟩ := List.mem_flatten.1 hc
    exact (hb owned ho).2 c hc q
  · exact fun hb owned _ => ⟨hb.1, fun c _ q => hb.2 c q⟩

example (u : Fin 1 → Fin 2 → ℝ) (T : Fin 2 → ℝ) : ∃ m, maxMach realCell [[], [()], []] u T 1.4 = some m ∧
    ∀ b, m ≤ b ↔ 0 ≤ b ∧ ∀ c q, machNumber realCell u T 1.4 c q ≤ b :=
  C80_maxMach realCell unit_distributed (by simp) u T 1.4

/-- C80: what is called the total energy is the integral of the temperature. -/
theorem C80_totalEnergy_partial [Fintype C] [DecidableEq C] (fe : FE ℝ d n nq C N) {processes : List (List C)} (h : Distributed processes)
    (T : N → ℝ) : totalEnergy fe processes T = integral fe (discrete fe T) := by
  simp only [totalEnergy, overProcesses_eq h, integral, functionValue_eq]

/-- The total energy of an ideal gas: internal and kinetic. -/
noncomputable def gasEnergy [Fintype C] (fe : FE ℝ d n nq C N) (cv : ℝ) (rho : N → ℝ) (u : Fin d → N → ℝ) (T : N → ℝ) : ℝ :=
  integral fe fun c q => discrete fe rho c q * (cv * discrete fe T c q + 1 / 2 * ∑ a, discrete fe (u a) c q ^ 2)

/-- C80 fails for the total energy: whatever the heat capacity and the unit, the reported number is not proportional to it. -/
theorem C80_totalEnergy_fails (cv unit : ℝ) (hu : unit ≠ 0) : ¬∀ (rho T : Fin 2 → ℝ) (u : Fin 1 → Fin 2 → ℝ),
    totalEnergy realCell [[()]] T = unit * gasEnergy realCell cv rho u T := by
  intro h
  have h0 := h (fun _ => 1) (fun _ => 1) 0
  have h1 := h (fun _ => 1) (fun _ => 1) fun _ _ => 1
  rw [h0] at h1
  have := mul_left_cancel₀ hu h1
  simp [gasEnergy, integral, discrete, realCell] at this

end Compressible

end Stats
end NATriuM
