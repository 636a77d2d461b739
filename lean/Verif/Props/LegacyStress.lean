import Verif.Lemmas.LegacyStress
import Verif.Props.LegacyBGK
import Verif.Props.LegacyMRT

/-!
# C103: the class based collision models relax the stress at the rate that belongs to the viscosity
-/

namespace NATriuM.Legacy

open Finset Spec

section

variable {K : Type*} [Field K] [LinearOrder K] [IsStrictOrderedRing K] {D Q : ℕ}

omit [IsStrictOrderedRing K] in
theorem Obj.Valid.rate {b : Obj K D Q} (h : b.Valid) : -b.prefactor = 1 / (b.tau + 1 / 2) := by rw [h.prefactor]; ring

theorem stress9_of_standard {c : K} (hc : c ≠ 0) {b : Obj K 2 9} (hS : b.stencil = D2Q9.stencil c) (hv : b.Valid)
    (hf : b.forceType = .noForcing) {n n' : Node K 2 9} (h : standardD2Q9Node b false n = .ok n') :
    StressRelaxes (D2Q9.stencil c).dir (D2Q9.stencil c).cs2 (1 / (b.tau + 1 / 2)) n.f n'.f := by
  have hC := (C66_standardD2Q9 hc hS hf h).1
  unfold standardD2Q9Node at h
  rw [hS] at h
  obtain ⟨hr, rfl⟩ := ite_ok h
  have hr' : mass n.f ≠ 0 := pos_of_not hr
  simp only [hf, Bool.false_eq_true, if_false, forcedVelocity, sourceD2Q9, add_zero] at hC ⊢
  rw [← hv.rate]
  exact relax_stress hr' hC (velocity9 c _ hr' n.f) (feq9_flux c _ hc _)

theorem stress19_of_standard {c : K} (hc : c ≠ 0) {b : Obj K 3 19} (hS : b.stencil = D3Q19.stencil c) (hv : b.Valid)
    (hf : b.forceType = .noForcing) {n n' : Node K 3 19} (h0 : ∀ i : Fin 19, i.val = 0 → ∀ a, (D3Q19.stencil c).dir i a = 0)
    (h : standardD3Q19Node b false n = .ok n') :
    StressRelaxes (D3Q19.stencil c).dir (D3Q19.stencil c).cs2 (1 / (b.tau + 1 / 2)) n.f n'.f := by
  have hC := ((C66_standardD3Q19 hc hS h).1 hf).1
  unfold standardD3Q19Node at h
  rw [hS] at h
  obtain ⟨hr, rfl⟩ := ite_ok h
  have hr' : mass n.f ≠ 0 := pos_of_not hr
  simp only [hf, Bool.false_eq_true, if_false, forcedVelocity] at hC ⊢
  rw [← hv.rate]
  refine relax_stress hr' hC (velocity19 c _ hr' n.f) ?_
  have hcs : (D3Q19.stencil c).cs2 ≠ 0 := by simpa [D3Q19.stencil] using hc
  rw [feq19_eq c _ hc]
  exact equilibrium_flux _ (D3Q19.iso5 c).toIso4 hcs h0 _ _

theorem stress15_of_standard {c : K} (hc : c ≠ 0) {b : Obj K 3 15} (hS : b.stencil = D3Q15.stencil c) (hv : b.Valid)
    {n n' : Node K 3 15} (h0 : ∀ i : Fin 15, i.val = 0 → ∀ a, (D3Q15.stencil c).dir i a = 0)
    (h : standardD3Q15Node b false n = .ok n') :
    StressRelaxes (D3Q15.stencil c).dir (D3Q15.stencil c).cs2 (1 / (b.tau + 1 / 2)) n.f n'.f := by
  have hC := ((C66_standardD3Q15 hc hS).1 h).1
  unfold standardD3Q15Node at h
  rw [hS] at h
  obtain ⟨hr, rfl⟩ := ite_ok h
  have hr' : mass n.f ≠ 0 := pos_of_not hr
  simp only [Bool.false_eq_true, if_false] at hC ⊢
  rw [← hv.rate]
  refine relax_stress hr' hC (velocity15 c _ hr' n.f) ?_
  have hcs : (D3Q15.stencil c).cs2 ≠ 0 := by simpa [D3Q15.stencil] using hc
  rw [feq15_eq c _ hc]
  exact equilibrium_flux _ (D3Q15.iso5 c).toIso4 hcs h0 _ _

theorem stress_of_generic {b : Obj K D Q} {n n' : Node K D Q} (hv : b.Valid)
    (iso : Iso4 b.stencil.weight b.stencil.dir b.stencil.cs2) (hc : b.stencil.cs2 ≠ 0)
    (h0 : ∀ i, i.val = 0 → ∀ a, b.stencil.dir i a = 0) (h : genericNode equilibrium b false n = .ok n') :
    StressRelaxes b.stencil.dir b.stencil.cs2 (1 / (b.tau + 1 / 2)) n.f n'.f := by
  have hC := (generic_conserves (fun u rho => equilibrium_mass _ iso hc h0 u rho)
    (fun u rho a => equilibrium_momentum _ iso hc h0 u rho a) h).1
  obtain ⟨hr, rfl⟩ := generic_ok h _ rfl
  have hr' : mass n.f ≠ 0 := pos_of_not hr
  simp only [Bool.false_eq_true, if_false] at hC ⊢
  rw [← hv.rate]
  refine relax_stress hr' hC (fun a => ?_) (equilibrium_flux _ iso hc h0 _ _)
  show mass n.f * (_ / mass n.f) = _
  rw [mul_div_cancel₀ _ hr']; rfl

/-! ## BGK transformed, D2Q9 -/

/-- **C103 (BGK transformed, D2Q9)**: the stored populations are deviations from the weights; the stress of the full populations is relaxed at the rate of the
viscosity. -/
theorem C103_transformedD2Q9 {c : K} (hc : c ≠ 0) {b : Obj K 2 9} (hS : b.stencil = D2Q9.stencil c) (hv : b.Valid) {n n' : Node K 2 9}
    (h : transformedD2Q9Node b false n = .ok n') :
    StressRelaxes (D2Q9.stencil c).dir (D2Q9.stencil c).cs2 (1 / (b.tau + 1 / 2))
      (fun i => n.f i + (D2Q9.stencil c).weight i) (fun i => n'.f i + (D2Q9.stencil c).weight i) := by
  have hC := (C66_transformedD2Q9 hc hS h).1
  have iso := (D2Q9.iso5 c).toIso4
  have hm : ∀ f : Fin 9 → K, mass (fun i => f i + (D2Q9.stencil c).weight i) = mass f + 1 := fun f => by
    unfold mass; rw [sum_add_distrib, iso.m0]
  have hp : ∀ (f : Fin 9 → K) a, momentum (D2Q9.stencil c).dir (fun i => f i + (D2Q9.stencil c).weight i) a =
      momentum (D2Q9.stencil c).dir f a := fun f a => by
    unfold momentum
    simp only [add_mul, sum_add_distrib, iso.m1, add_zero]
  unfold transformedD2Q9Node at h
  rw [hS] at h
  obtain ⟨hr, rfl⟩ := ite_ok h
  have hr' : mass (fun i => n.f i + (D2Q9.stencil c).weight i) ≠ 0 := by rw [hm]; exact pos_of_not hr
  simp only [Bool.false_eq_true, if_false] at hC ⊢
  rw [← hv.rate]
  set u := velocityD2Q9 (D2Q9.stencil c).scaling (density n.f + 1) n.f with hu
  have hw : ∀ i : Fin 9, (![4 / 9, 1 / 9, 1 / 9, 1 / 9, 1 / 9, 1 / 36, 1 / 36, 1 / 36, 1 / 36] : Fin 9 → K) i = (D2Q9.stencil c).weight i :=
    fun i => rfl
  have e : ∀ i, n.f i + b.prefactor * (n.f i - (feqD2Q9 (D2Q9.stencil c) (density n.f + 1) u i -
      (![4 / 9, 1 / 9, 1 / 9, 1 / 9, 1 / 9, 1 / 36, 1 / 36, 1 / 36, 1 / 36] : Fin 9 → K) i * 1)) + (D2Q9.stencil c).weight i =
      (n.f i + (D2Q9.stencil c).weight i) + b.prefactor * (n.f i + (D2Q9.stencil c).weight i
        - feqD2Q9 (D2Q9.stencil c) (density n.f + 1) u i) := fun i => by rw [hw]; ring
  simp only [e]
  refine relax_stress hr' ⟨?_, fun a => ?_⟩ (u := u) (fun a => ?_) fun a b => ?_
  · simp only [← e]; rw [hm, hm, hC.mass]
  · simp only [← e]; rw [hp, hp, hC.momentum]
  · rw [hm, hp]; exact velocity9 c _ (pos_of_not hr) n.f a
  · rw [hm]; exact feq9_flux c _ hc u a b

/-! ## BGK steady state, D2Q9 -/

/-- **C103 (BGK steady state, D2Q9)**: the momentum flux is relaxed towards that of the preconditioned equations, in which the convective part is divided by
`gamma`. -/
theorem C103_steadyD2Q9 {c gamma : K} (hc : c ≠ 0) (hg : gamma ≠ 0) {b : Obj K 2 9} (hS : b.stencil = D2Q9.stencil c) (hv : b.Valid)
    {n n' : Node K 2 9} (h : steadyD2Q9Node gamma b false n = .ok n') (x y : Fin 2) :
    let target := mass n.f * (D2Q9.stencil c).cs2 * δ x y
      + momentum (D2Q9.stencil c).dir n.f x * momentum (D2Q9.stencil c).dir n.f y / (gamma * mass n.f)
    momentumFlux (D2Q9.stencil c).dir n'.f x y - target =
      (1 - 1 / (b.tau + 1 / 2)) * (momentumFlux (D2Q9.stencil c).dir n.f x y - target) := by
  unfold steadyD2Q9Node at h
  rw [hS] at h
  obtain ⟨hr, rfl⟩ := ite_ok h
  have hr' : mass n.f ≠ 0 := pos_of_not hr
  simp only [Bool.false_eq_true, if_false]
  have hV := velocity9 c _ hr' n.f
  rw [flux_relax, terms9_flux, ← hv.rate, ← hV, ← hV]
  have hs : (D2Q9.stencil c).scaling = c := rfl
  have hd : density n.f = mass n.f := rfl
  rw [hs, hd]
  generalize velocityD2Q9 c (mass n.f) n.f = u
  generalize momentumFlux (D2Q9.stencil c).dir n.f x y = F
  generalize hρ : mass n.f = rho at *
  simp only [D2Q9.stencil]
  field_simp
  ring

/-! ## BGK regularized -/

/-- What the regularised collision on D2Q9 does to the stress: it is divided by the square of the scaling of the stencil. -/
theorem C103_regularizedD2Q9_stress {c : K} (hc : c ≠ 0) {b : Obj K 2 9} (hS : b.stencil = D2Q9.stencil c) (hv : b.Valid) {n n' : Node K 2 9}
    (h : regularizedD2Q9Node b false n = .ok n') (x y : Fin 2) :
    viscousStress (D2Q9.stencil c).dir (D2Q9.stencil c).cs2 n'.f x y =
      (1 - 1 / (b.tau + 1 / 2)) * (viscousStress (D2Q9.stencil c).dir (D2Q9.stencil c).cs2 n.f x y / c ^ 2) := by
  have hC := (C66_regularizedD2Q9 hc hS h).1
  unfold regularizedD2Q9Node at h
  rw [hS] at h
  obtain ⟨hr, rfl⟩ := ite_ok h
  have hr' : mass n.f ≠ 0 := pos_of_not hr
  have hV := velocity9 c _ hr' n.f
  simp only [Bool.false_eq_true, if_false] at hC ⊢
  have hcs : (D2Q9.stencil c).cs2 ≠ 0 := by simpa [D2Q9.stencil] using hc
  rw [viscous_of_conserves hC, flux_lin, regFi1_flux _ (D2Q9.iso5 c).toIso4 hcs _ (fun x y => ?_), feq9_flux c _ hc, viscousStress,
    ideal_eq _ _ hr' _ _ hV, ← hv.rate]
  · have h1 := momentumFlux9 c n.f x y
    have h2 := momentumFlux9 c (feqD2Q9 (D2Q9.stencil c) (density n.f) (velocityD2Q9 (D2Q9.stencil c).scaling (density n.f) n.f)) x y
    rw [feq9_flux c _ hc] at h2
    rw [pi9, pi9, h1]
    have hs : (D2Q9.stencil c).scaling = c := rfl
    have hd : density n.f = mass n.f := rfl
    rw [hs, hd] at h2 ⊢
    rw [h2]; field_simp; ring
  · simp only [pi9]
    have h2 : ∀ f : Fin 9 → K, flux9 f x y = flux9 f y x := fun f => by
      fin_cases x <;> fin_cases y <;> rfl
    rw [h2, h2]

/-- **C103 (BGK regularized, D2Q9), partial**: with a stencil of scaling one the stress relaxes at the rate of the viscosity.  With any other scaling it does not,
unless the stress vanishes: the stress is computed in lattice units and used in scaled units. -/
theorem C103_regularizedD2Q9_partial {c : K} (hc : c ≠ 0) {b : Obj K 2 9} (hS : b.stencil = D2Q9.stencil c) (hv : b.Valid) {n n' : Node K 2 9}
    (h : regularizedD2Q9Node b false n = .ok n') (hc1 : c ^ 2 = 1) :
    StressRelaxes (D2Q9.stencil c).dir (D2Q9.stencil c).cs2 (1 / (b.tau + 1 / 2)) n.f n'.f := by
  intro x y
  rw [C103_regularizedD2Q9_stress hc hS hv h, hc1, div_one]

/-- **C103 is false for BGK regularized on D2Q9** with any scaling other than one: every node with a viscous stress gets a wrong one (unless `tau = 1/2`, when
the stress is wiped out). -/
theorem C103_regularizedD2Q9_fails {c : K} (hc : c ≠ 0) {b : Obj K 2 9} (hS : b.stencil = D2Q9.stencil c) (hv : b.Valid) {n n' : Node K 2 9}
    (h : regularizedD2Q9Node b false n = .ok n') (hc1 : c ^ 2 ≠ 1) (ht : b.tau ≠ 1 / 2) (x y : Fin 2)
    (hn : viscousStress (D2Q9.stencil c).dir (D2Q9.stencil c).cs2 n.f x y ≠ 0) :
    ¬StressRelaxes (D2Q9.stencil c).dir (D2Q9.stencil c).cs2 (1 / (b.tau + 1 / 2)) n.f n'.f := by
  intro hs
  have h1 := hs x y
  rw [C103_regularizedD2Q9_stress hc hS hv h] at h1
  have hp : b.tau + 1 / 2 ≠ 0 := by have := hv.tau; positivity
  have h2 : 1 - 1 / (b.tau + 1 / 2) ≠ 0 := by
    intro h0
    have h5 : 1 / (b.tau + 1 / 2) = 1 := by linear_combination -h0
    rw [div_eq_one_iff_eq hp] at h5
    apply ht
    linear_combination -h5
  have h3 := mul_left_cancel₀ h2 h1
  rw [div_eq_iff (pow_ne_zero 2 hc)] at h3
  have h4 : viscousStress (D2Q9.stencil c).dir (D2Q9.stencil c).cs2 n.f x y * 1 =
      viscousStress (D2Q9.stencil c).dir (D2Q9.stencil c).cs2 n.f x y * c ^ 2 := by rw [mul_one]; exact h3
  exact hc1 (mul_left_cancel₀ hn h4).symm

/-- What the regularised collision on D3Q19 does to the stress: as the equilibrium part is not subtracted, the whole momentum flux takes the place of the
viscous stress. -/
theorem C103_regularizedD3Q19_stress {c : K} (hc : c ≠ 0) {b : Obj K 3 19} (hS : b.stencil = D3Q19.stencil c) (hv : b.Valid)
    (hf : b.forceType = .noForcing) {junk : Fin 3 → K} {n n' : Node K 3 19} (h : regularizedD3Q19Node junk b false n = .ok n')
    (h0 : ∀ i : Fin 19, i.val = 0 → ∀ a, (D3Q19.stencil c).dir i a = 0) (x y : Fin 3) :
    viscousStress (D3Q19.stencil c).dir (D3Q19.stencil c).cs2 n'.f x y =
      (1 - 1 / (b.tau + 1 / 2)) * momentumFlux (D3Q19.stencil c).dir n.f x y := by
  have hC := ((C66_regularizedD3Q19_partial hc hS hv h).1 hf).1
  unfold regularizedD3Q19Node at h
  rw [hS] at h
  obtain ⟨hr, rfl⟩ := ite_ok h
  have hr' : mass n.f ≠ 0 := pos_of_not hr
  have hV := velocity19 c _ hr' n.f
  simp only [hf, Bool.false_eq_true, if_false, forcedVelocity] at hC ⊢
  have hcs : (D3Q19.stencil c).cs2 ≠ 0 := by simpa [D3Q19.stencil] using hc
  have hpi : ∀ x y, piD3Q19 (D3Q19.stencil c) n.f x y = momentumFlux (D3Q19.stencil c).dir n.f x y := fun x y =>
    sum_congr rfl fun i _ => by ring
  rw [viscous_of_conserves hC, flux_lin, regFi1_flux _ (D3Q19.iso5 c).toIso4 hcs _ (fun x y => ?_), feq19_eq c _ hc,
    equilibrium_flux _ (D3Q19.iso5 c).toIso4 hcs h0, ideal_eq _ _ hr' _ _ hV, ← hv.rate, hpi]
  · have hs : (D3Q19.stencil c).scaling = c := rfl
    have hd : density n.f = mass n.f := rfl
    rw [hs, hd]; ring
  · rw [hpi, hpi, flux_symm]

/-! ## MRT standard and entropic, D2Q9 -/

omit [LinearOrder K] [IsStrictOrderedRing K] in
theorem moments_flux [CharZero K] (f : Fin 9 → K) : flux9 f 0 1 = moments f 8 ∧ flux9 f 1 0 = moments f 8 ∧ flux9 f 0 0 - flux9 f 1 1 = moments f 7 := by
  refine ⟨by simp [flux9, moments], by simp [flux9, moments], by simp [flux9, moments]; ring⟩

omit [LinearOrder K] [IsStrictOrderedRing K] in
theorem back_flux [CharZero K] (m : Fin 9 → K) :
    moments (backTransform fun j => m j / mrtWeights j) 8 = m 8 ∧ moments (backTransform fun j => m j / mrtWeights j) 7 = m 7 := by
  refine ⟨?_, ?_⟩ <;> simp [moments, backTransform, mrtWeights] <;> ring

omit [LinearOrder K] [IsStrictOrderedRing K] in
/-- the deviator relaxes if the moments 7 and 8 do -/
theorem deviator_of_moments [CharZero K] {c omega : K} {f f' : Fin 9 → K} (hC : Conserves (D2Q9.stencil c).dir f f')
    (h7 : moments f' 7 = moments f 7 - omega * (moments f 7 - (moments f 3 * moments f 3 - moments f 5 * moments f 5) / mass f))
    (h8 : moments f' 8 = moments f 8 - omega * (moments f 8 - moments f 3 * moments f 5 / mass f)) :
    DeviatorRelaxes (D2Q9.stencil c).dir (D2Q9.stencil c).cs2 omega f f' := by
  have p0 : momentum (D2Q9.stencil c).dir f 0 = c * moments f 3 := by rw [momentum9, (moments_momentum f).1]
  have p1 : momentum (D2Q9.stencil c).dir f 1 = c * moments f 5 := by rw [momentum9, (moments_momentum f).2]
  obtain ⟨a1, a2, a3⟩ := moments_flux f
  obtain ⟨b1, b2, b3⟩ := moments_flux f'
  intro x y hxy
  simp only [viscousStress, momentumFlux9, idealFlux, hC.mass, hC.momentum]
  fin_cases x <;> fin_cases y <;> simp only [Fin.zero_eta, Fin.mk_one, ne_eq, not_true_eq_false] at hxy ⊢
  · constructor
    · rw [a1, b1, h8, p0, p1]; simp [δ]; ring
    · rw [p0, p1]; simp only [δ, if_true]; linear_combination c * c * b3 - (1 - omega) * c * c * a3 + c * c * h7
  · constructor
    · rw [a2, b2, h8, p0, p1]; simp [δ]; ring
    · rw [p0, p1]; simp only [δ, if_true]; linear_combination -c * c * b3 + (1 - omega) * c * c * a3 - c * c * h7

/-- **C103 (MRT standard, D2Q9), partial**: at density one the deviator of the stress relaxes at the rate of the viscosity.  At other densities the equilibrium stress
of the code is `rho · j_x · j_y` with the momenta `j` (instead of `j_x · j_y / rho`), see `C103_mrtStandard_fails`. -/
theorem C103_mrtStandard_partial {c : K} {b : Obj K 2 9} (hS : b.stencil = D2Q9.stencil c) (hb : 0 < b.tau) (inInit : Bool) (n : Node K 2 9)
    (hr : mass n.f = 1) :
    DeviatorRelaxes (D2Q9.stencil c).dir (D2Q9.stencil c).cs2 (1 / (b.tau + 1 / 2)) n.f (mrtStandardD2Q9Node b inInit n).f := by
  have hC := (C66_mrtStandard hS hb inInit n fun _ => by rw [hr]; exact one_ne_zero).1
  have hd : density n.f = 1 := hr
  refine deviator_of_moments hC ?_ ?_
  · unfold mrtStandardD2Q9Node; dsimp only
    rw [(back_flux _).2, hr, hd]; simp [standardRates, standardMeq]
  · unfold mrtStandardD2Q9Node; dsimp only
    rw [(back_flux _).1, hr, hd]; simp [standardRates, standardMeq]

/-- **C103 (entropic MRT, D2Q9), partial**: at density one the deviator of the stress relaxes at the rate of the viscosity.  At other densities the equilibrium stress
lacks the division by the density, see `C103_mrtEntropic_fails`. -/
theorem C103_mrtEntropic_partial {c : K} {b : Obj K 2 9} (hS : b.stencil = D2Q9.stencil c) {inInit : Bool} {n n' : Node K 2 9}
    (h : mrtEntropicD2Q9Node b inInit n = .ok n') (hr : mass n.f = 1) :
    DeviatorRelaxes (D2Q9.stencil c).dir (D2Q9.stencil c).cs2 (1 / (b.tau + 1 / 2)) n.f n'.f := by
  have hC := (C66_mrtEntropicD2Q9 hS (by rw [hr]; exact one_ne_zero) h).1
  have e1 := (mrtEntropic_ok h).1
  refine deviator_of_moments hC ?_ ?_
  · rw [e1, (back_flux _).2, hr]; simp [entropicMoments]; ring
  · rw [e1, (back_flux _).1, hr]; simp [entropicMoments]; ring

/-! ## KBC -/

/-- If the shear part carries the whole momentum flux, the flux is relaxed with `2 beta`, whatever the stabilizer. -/
theorem kbc_full {e : Fin Q → Fin D → K} {tau : K} {f feq k s seq : Fin Q → K} {a b : Fin D}
    (hs : momentumFlux e s a b - momentumFlux e seq a b = momentumFlux e f a b - momentumFlux e feq a b) :
    momentumFlux e (kbcUpdate tau f feq k s seq) a b =
      momentumFlux e f a b - 1 / (tau + 1 / 2) * (momentumFlux e f a b - momentumFlux e feq a b) := by
  rw [kbcUpdate_flux, hs, sub_self, mul_zero, add_zero]
  unfold kbcBeta
  ring

omit [LinearOrder K] [IsStrictOrderedRing K] in
/-- the second central moments in terms of the raw ones -/
theorem centralMoment_two {c : K} (hc : c ≠ 0) (ux uy : K) (f : Fin 9 → K) :
    centralMoment (D2Q9.stencil c) ux uy f 2 0 = flux9 f 0 0 - 2 * ux * lat9 f 0 + ux * ux * mass f ∧
    centralMoment (D2Q9.stencil c) ux uy f 0 2 = flux9 f 1 1 - 2 * uy * lat9 f 1 + uy * uy * mass f ∧
    centralMoment (D2Q9.stencil c) ux uy f 1 1 = flux9 f 0 1 - uy * lat9 f 0 - ux * lat9 f 1 + ux * uy * mass f := by
  unfold centralMoment mass
  simp only [sum9]
  refine ⟨?_, ?_, ?_⟩ <;> simp [D2Q9.stencil, D2Q9.dir, flux9, lat9] <;> field_simp <;> ring

/-- **C103 (KBC with central moments, D2Q9)**: the whole stress relaxes at the rate of the viscosity, whatever the stabilizer does. -/
theorem C103_kbcCentral {c : K} (hc : c ≠ 0) {b : Obj K 2 9} (hS : b.stencil = D2Q9.stencil c) {n n' : Node K 2 9}
    (h : kbcCentralD2Q9Node b false n = .ok n') (hfeq : ∀ i, centralFeq (D2Q9.stencil c) n'.rho (n'.u 0 / c) (n'.u 1 / c) i ≠ 0) :
    StressRelaxes (D2Q9.stencil c).dir (D2Q9.stencil c).cs2 (1 / (b.tau + 1 / 2)) n.f n'.f := by
  have hC := (C66_kbcCentral hc hS h hfeq).1
  clear hfeq
  unfold kbcCentralD2Q9Node at h
  rw [hS] at h
  obtain ⟨hr, rfl⟩ := ite_ok h
  have hr' : mass n.f ≠ 0 := pos_of_not hr
  have hV := velocity9 c _ hr' n.f
  simp only [Bool.false_eq_true, if_false] at hC ⊢
  have hs : (D2Q9.stencil c).scaling = c := rfl
  have hd : density n.f = mass n.f := rfl
  rw [hs, hd] at hC ⊢
  set u := velocityD2Q9 c (mass n.f) n.f with hu
  clear_value u
  set feq := centralFeq (D2Q9.stencil c) (mass n.f) (u 0 / c) (u 1 / c) with hfe
  have hm : mass feq = mass n.f := by
    rw [hfe]; unfold centralFeq
    rw [terms9_mass]; simp [D2Q9.stencil]; field_simp; ring
  have hl : ∀ a, lat9 feq a = lat9 n.f a := by
    intro a
    refine mul_left_cancel₀ hc ?_
    rw [← momentum9, ← momentum9, ← hV a, hfe]
    unfold centralFeq
    rw [terms9_momentum]
    fin_cases a <;> simp [D2Q9.stencil] <;> field_simp
  have hF : ∀ x y, momentumFlux (D2Q9.stencil c).dir feq x y = mass n.f * ((D2Q9.stencil c).cs2 * δ x y + u x * u y) := by
    intro x y
    rw [hfe]; unfold centralFeq
    rw [terms9_flux]
    fin_cases x <;> fin_cases y <;> simp [D2Q9.stencil, δ] <;> field_simp <;> ring
  clear_value feq
  intro x y
  have key : momentumFlux (D2Q9.stencil c).dir (centralShear (D2Q9.stencil c) (mass n.f) (u 0 / c) (u 1 / c) n.f) x y -
      momentumFlux (D2Q9.stencil c).dir (centralShear (D2Q9.stencil c) (mass n.f) (u 0 / c) (u 1 / c) feq) x y =
      momentumFlux (D2Q9.stencil c).dir n.f x y - momentumFlux (D2Q9.stencil c).dir feq x y := by
    obtain ⟨a1, a2, a3⟩ := centralMoment_two hc (u 0 / c) (u 1 / c) n.f
    obtain ⟨b1, b2, b3⟩ := centralMoment_two hc (u 0 / c) (u 1 / c) feq
    rw [hm, hl, hl] at b3
    rw [hm, hl] at b1 b2
    unfold centralShear
    rw [central_flux, central_flux, momentumFlux9 c n.f, momentumFlux9 c feq]
    simp only [a1, a2, a3, b1, b2, b3]
    have hsym : ∀ f : Fin 9 → K, flux9 f 1 0 = flux9 f 0 1 := fun f => rfl
    fin_cases x <;> fin_cases y <;> simp [hsym] <;> field_simp <;> ring
  rw [viscous_of_conserves hC, kbc_full key, viscousStress, ideal_eq _ _ hr' u _ hV, hF]
  ring

/-- What the KBC collision on D3Q15 with scaling one does to the stress: the normal stresses relax at the rate of the viscosity, but the shear stresses at
`beta · gamma`, where `gamma` is the stabilizer, because they do not belong to the shear part `s` (which contains the third moment `Q_xyz`
instead). -/
theorem C103_kbcD3Q15_partial {b : Obj K 3 15} (hS : b.stencil = D3Q15.stencil 1) {n n' : Node K 3 15}
    (h : kbcStandardD3Q15Node b false n = .ok n')
    (hfeq : ∀ i, termsD3Q15 ((D3Q15.stencil (1 : K)).scaling / (D3Q15.stencil (1 : K)).cs2) (-((n'.u 0 / 1) * (n'.u 0 / 1)
      + (n'.u 1 / 1) * (n'.u 1 / 1) + (n'.u 2 / 1) * (n'.u 2 / 1)) / (2 * (D3Q15.stencil (1 : K)).cs2)) n'.rho n'.u i ≠ 0)
    (h0 : ∀ i : Fin 15, i.val = 0 → ∀ a, (D3Q15.stencil (1 : K)).dir i a = 0) :
    (∀ a, viscousStress (D3Q15.stencil 1).dir (D3Q15.stencil 1).cs2 n'.f a a =
      (1 - 1 / (b.tau + 1 / 2)) * viscousStress (D3Q15.stencil 1).dir (D3Q15.stencil 1).cs2 n.f a a) ∧
    ∃ gamma, ShearRelaxes (D3Q15.stencil 1).dir (D3Q15.stencil 1).cs2 (1 / (b.tau + 1 / 2) / 2 * gamma) n.f n'.f := by
  have hC := (C66_kbcD3Q15_partial one_ne_zero hS h rfl hfeq).1
  clear hfeq
  unfold kbcStandardD3Q15Node at h
  rw [hS] at h
  obtain ⟨hr, rfl⟩ := ite_ok h
  have hr' : mass n.f ≠ 0 := pos_of_not hr
  have hV := velocity15 1 _ hr' n.f
  simp only [Bool.false_eq_true, if_false] at hC ⊢
  have hs : (D3Q15.stencil (1 : K)).scaling = 1 := rfl
  have hd : density n.f = mass n.f := rfl
  rw [hs, hd] at hC ⊢
  set u := velocityD3Q15 1 (mass n.f) n.f with hu
  clear_value u
  have hfe : termsD3Q15 (1 / (D3Q15.stencil (1 : K)).cs2) (-((u 0 / 1) * (u 0 / 1) + (u 1 / 1) * (u 1 / 1) + (u 2 / 1) * (u 2 / 1))
      / (2 * (D3Q15.stencil (1 : K)).cs2)) (mass n.f) u = feqD3Q15 (D3Q15.stencil 1) (mass n.f) u := by
    unfold feqD3Q15; simp only [div_one, hs]
  rw [hfe] at hC ⊢
  have hF : ∀ x y, momentumFlux (D3Q15.stencil 1).dir (feqD3Q15 (D3Q15.stencil 1) (mass n.f) u) x y =
      mass n.f * ((D3Q15.stencil 1).cs2 * δ x y + u x * u y) := by
    rw [feq15_eq 1 _ one_ne_zero]
    exact equilibrium_flux _ (D3Q15.iso5 (1 : K)).toIso4 (by simp [D3Q15.stencil]) h0 _ _
  generalize feqD3Q15 (D3Q15.stencil 1) (mass n.f) u = feq at *
  have sd : ∀ (f : Fin 15 → K) a, momentumFlux (D3Q15.stencil 1).dir (kbcShearD3Q15 (mass n.f) f) a a =
      momentumFlux (D3Q15.stencil 1).dir f a a := by
    intro f a
    unfold momentumFlux
    rw [sum15, sum15]
    fin_cases a <;> simp [kbcShearD3Q15, D3Q15.stencil, D3Q15.dir] <;> field_simp <;> ring
  have so : ∀ (f : Fin 15 → K) a b, a ≠ b → momentumFlux (D3Q15.stencil 1).dir (kbcShearD3Q15 (mass n.f) f) a b = 0 := by
    intro f a b hab
    unfold momentumFlux
    rw [sum15]
    fin_cases a <;> fin_cases b <;> simp at hab <;> simp [kbcShearD3Q15, D3Q15.stencil, D3Q15.dir]
  refine ⟨fun a => ?_, kbcGamma b.tau n.f feq (kbcKinematicD3Q15 (mass n.f) (u 0 / 1) (u 1 / 1) (u 2 / 1)) (kbcShearD3Q15 (mass n.f) n.f)
    (kbcShearD3Q15 (mass n.f) feq), fun x y hxy => ?_⟩
  · rw [viscous_of_conserves hC, kbc_full (by rw [sd, sd]), viscousStress, ideal_eq _ _ hr' u _ hV, hF]
    ring
  · rw [viscous_of_conserves hC, kbcUpdate_flux, so _ _ _ hxy, so _ _ _ hxy, viscousStress, ideal_eq _ _ hr' u _ hV, hF]
    unfold kbcBeta
    ring

end

/-! ## Counterexamples and non-vacuity -/

/-- A fluid at rest with a shear stress, on D2Q9. -/
def sheared9 : Node ℚ 2 9 := { f := ![4 / 9, 1 / 9, 1 / 9, 1 / 9, 1 / 9, 1 / 18, 1 / 36, 1 / 18, 1 / 36], rho := 1, u := 0 }

/-- A moving fluid on D2Q9, with density two. -/
def moving9 : Node ℚ 2 9 := { f := ![4 / 9, 1 / 9, 1 / 9, 1 / 9, 1 / 9, 37 / 36, 1 / 36, 1 / 36, 1 / 36], rho := 1, u := 0 }

/-- A moving fluid on D2Q9, with density one. -/
def drifting9 : Node ℚ 2 9 := { f := ![1 / 9, 1 / 9, 1 / 9, 1 / 9, 1 / 9, 13 / 36, 1 / 36, 1 / 36, 1 / 36], rho := 1, u := 0 }

theorem pushed_valid (c : ℚ) (t : ForceType) : (pushed c t).Valid := ⟨by norm_num [pushed, Obj.make], by norm_num [pushed, Obj.make], rfl⟩

/-- the hypotheses of `C103_regularizedD2Q9_fails` can be met -/
example : ∃ n', regularizedD2Q9Node (pushed 2 .noForcing) false sheared9 = .ok n' ∧ (2 : ℚ) ^ 2 ≠ 1 ∧ (pushed 2 .noForcing).tau ≠ 1 / 2 ∧
    viscousStress (D2Q9.stencil 2).dir (D2Q9.stencil 2).cs2 sheared9.f 0 1 ≠ 0 := by
  have hd : density sheared9.f = 19 / 18 := by decide +kernel
  unfold regularizedD2Q9Node; dsimp only; rw [if_neg (by rw [hd]; norm_num)]
  exact ⟨_, rfl, by norm_num, by norm_num [pushed, Obj.make], by decide +kernel⟩

/-- and those of `C103_regularizedD2Q9_partial` -/
example : ∃ n', regularizedD2Q9Node (pushed 1 .noForcing) false sheared9 = .ok n' ∧
    viscousStress (D2Q9.stencil 1).dir (D2Q9.stencil 1).cs2 sheared9.f 0 1 ≠ 0 := by
  have hd : density sheared9.f = 19 / 18 := by decide +kernel
  unfold regularizedD2Q9Node; dsimp only; rw [if_neg (by rw [hd]; norm_num)]
  exact ⟨_, rfl, by decide +kernel⟩

example : ∃ n', transformedD2Q9Node (pushed 2 .noForcing) false sheared9 = .ok n' := by
  have hd : density sheared9.f = 19 / 18 := by decide +kernel
  unfold transformedD2Q9Node; dsimp only; rw [if_neg (by rw [hd]; norm_num)]
  exact ⟨_, rfl⟩

example : ∃ n', steadyD2Q9Node 3 (pushed 2 .noForcing) false moving9 = .ok n' ∧
    momentum (D2Q9.stencil 2).dir moving9.f 0 * momentum (D2Q9.stencil 2).dir moving9.f 1 ≠ 0 := by
  have hd : density moving9.f = 2 := by decide +kernel
  unfold steadyD2Q9Node; dsimp only; rw [if_neg (by rw [hd]; norm_num)]
  exact ⟨_, rfl, by decide +kernel⟩

/-- **C103 is false for BGK regularized on D3Q19**: a fluid at rest in equilibrium is driven out of equilibrium. -/
theorem C103_regularizedD3Q19_fails : ∃ n', regularizedD3Q19Node 0 (pushed19 .noForcing) false rest19 = .ok n' ∧
    (∀ x y, viscousStress (D3Q19.stencil 2).dir (D3Q19.stencil 2).cs2 rest19.f x y = 0) ∧
    ¬StressRelaxes (D3Q19.stencil 2).dir (D3Q19.stencil 2).cs2 (1 / ((pushed19 .noForcing).tau + 1 / 2)) rest19.f n'.f := by
  have he : ∃ n', regularizedD3Q19Node 0 (pushed19 .noForcing) false rest19 = .ok n' := by
    unfold regularizedD3Q19Node; dsimp only; rw [if_neg (by rw [rest19_density]; norm_num)]; exact ⟨_, rfl⟩
  obtain ⟨n', h⟩ := he
  have hz : ∀ x y, viscousStress (D3Q19.stencil 2).dir (D3Q19.stencil 2).cs2 rest19.f x y = 0 := by decide +kernel
  refine ⟨n', h, hz, fun hs => ?_⟩
  have h1 := hs 0 0
  have h0 : ∀ i : Fin 19, i.val = 0 → ∀ a, (D3Q19.stencil (2 : ℚ)).dir i a = 0 := by decide +kernel
  rw [C103_regularizedD3Q19_stress (c := 2) two_ne_zero rfl (pushed19_valid _) rfl h h0, hz, mul_zero] at h1
  have h2 : momentumFlux (D3Q19.stencil 2).dir rest19.f 0 0 = 4 / 3 := by decide +kernel
  rw [h2] at h1
  norm_num [pushed19, Obj.make] at h1

/-- **C103 is false for MRT standard on D2Q9** when the density is not one. -/
theorem C103_mrtStandard_fails : ¬ShearRelaxes (D2Q9.stencil 1).dir (D2Q9.stencil 1).cs2 (1 / ((pushed 1 .noForcing).tau + 1 / 2)) moving9.f
    (mrtStandardD2Q9Node (pushed 1 .noForcing) false moving9).f := by
  intro h
  have h1 := h 0 1 (by decide)
  revert h1
  decide +kernel

/-- **C103 is false for the entropic MRT on D2Q9** when the density is not one. -/
theorem C103_mrtEntropic_fails : ∃ n', mrtEntropicD2Q9Node (pushed 1 .noForcing) false moving9 = .ok n' ∧
    ¬ShearRelaxes (D2Q9.stencil 1).dir (D2Q9.stencil 1).cs2 (1 / ((pushed 1 .noForcing).tau + 1 / 2)) moving9.f n'.f := by
  unfold mrtEntropicD2Q9Node; rw [if_neg (by norm_num [moving9])]
  refine ⟨_, rfl, fun h => ?_⟩
  have h1 := h 0 1 (by decide)
  revert h1
  decide +kernel

example : mass drifting9.f = 1 ∧ momentum (D2Q9.stencil 2).dir drifting9.f 0 * momentum (D2Q9.stencil 2).dir drifting9.f 1 ≠ 0 ∧
    ∃ n', mrtEntropicD2Q9Node (pushed 2 .noForcing) false drifting9 = .ok n' := by
  refine ⟨by decide +kernel, by decide +kernel, ?_⟩
  unfold mrtEntropicD2Q9Node; rw [if_neg (by norm_num [drifting9])]; exact ⟨_, rfl⟩

/-- the hypotheses of `C103_kbcCentral` are met by a fluid with a shear stress -/
example : ∃ n', kbcCentralD2Q9Node (pushed 2 .noForcing) false sheared9 = .ok n' ∧
    ∀ i, centralFeq (D2Q9.stencil 2) n'.rho (n'.u 0 / 2) (n'.u 1 / 2) i ≠ 0 := by
  have hd : density sheared9.f = 19 / 18 := by decide +kernel
  unfold kbcCentralD2Q9Node; dsimp only; rw [if_neg (by rw [hd]; norm_num)]
  refine ⟨_, rfl, ?_⟩
  decide +kernel

/-- and those of `C103_kbcD3Q15_partial` by `moving15` -/
example : ∃ n', kbcStandardD3Q15Node (Obj.make 1 1 (D3Q15.stencil 1)) false moving15 = .ok n' ∧
    (∀ i, termsD3Q15 ((D3Q15.stencil (1 : ℚ)).scaling / (D3Q15.stencil (1 : ℚ)).cs2) (-((n'.u 0 / 1) * (n'.u 0 / 1)
      + (n'.u 1 / 1) * (n'.u 1 / 1) + (n'.u 2 / 1) * (n'.u 2 / 1)) / (2 * (D3Q15.stencil (1 : ℚ)).cs2)) n'.rho n'.u i ≠ 0) ∧
    ∀ i : Fin 15, i.val = 0 → ∀ a, (D3Q15.stencil (1 : ℚ)).dir i a = 0 := by
  have hd : density moving15.f = 9 / 8 := by decide +kernel
  unfold kbcStandardD3Q15Node; dsimp only; rw [if_neg (by rw [hd]; norm_num)]
  refine ⟨_, rfl, ?_, ?_⟩ <;> decide +kernel

/-- **C103 is false for KBC on D3Q15**: the shear stresses do not relax at the rate of the viscosity. -/
theorem C103_kbcD3Q15_fails : ∃ n', kbcStandardD3Q15Node (Obj.make 1 1 (D3Q15.stencil 1)) false moving15 = .ok n' ∧
    ¬ShearRelaxes (D3Q15.stencil 1).dir (D3Q15.stencil 1).cs2 (1 / (1 + 1 / 2)) moving15.f n'.f := by
  have hd : density moving15.f = 9 / 8 := by decide +kernel
  unfold kbcStandardD3Q15Node; dsimp only; rw [if_neg (by rw [hd]; norm_num)]
  refine ⟨_, rfl, fun h => ?_⟩
  have h1 := h 0 1 (by decide)
  revert h1
  decide +kernel

/-- **C103 is false for BGK incompressible**: a fluid of density one at rest in equilibrium is driven out of equilibrium. -/
theorem C103_incompressible_fails : ∃ n', incompressibleD2Q9Node (pushed 1 .noForcing) false rest9 = .ok n' ∧
    (∀ x y, viscousStress (D2Q9.stencil 1).dir (D2Q9.stencil 1).cs2 rest9.f x y = 0) ∧
    ¬StressRelaxes (D2Q9.stencil 1).dir (D2Q9.stencil 1).cs2 (1 / ((pushed 1 .noForcing).tau + 1 / 2)) rest9.f n'.f := by
  unfold incompressibleD2Q9Node; dsimp only; rw [if_neg (by rw [rest9_density]; norm_num)]
  refine ⟨_, rfl, by decide +kernel, fun h => ?_⟩
  have h1 := h 0 0
  revert h1
  decide +kernel

/-! ## KBC on D2Q9 -/

/-- **C103 (KBC, D2Q9)**: as long as both components of the velocity are smaller than the lattice velocity, the shear stress relaxes at the rate of the viscosity,
whatever the stabilizer does.  (The normal stresses of the entropic equilibrium of this model are not exactly those of an isothermal
fluid.) -/
theorem C103_kbcD2Q9 {c : ℝ} (hc : c ≠ 0) {b : Obj ℝ 2 9} (hS : b.stencil = D2Q9.stencil c) {n n' : Node ℝ 2 9}
    (h : kbcStandardD2Q9Node b false n = .ok n') (hu : ∀ a, |n'.u a| < |c|) :
    ShearRelaxes (D2Q9.stencil c).dir (D2Q9.stencil c).cs2 (1 / (b.tau + 1 / 2)) n.f n'.f := by
  have hC := (C66_kbcD2Q9 hc hS h hu).1
  unfold kbcStandardD2Q9Node at h
  rw [hS] at h
  obtain ⟨hr, rfl⟩ := ite_ok h
  have hr' : mass n.f ≠ 0 := pos_of_not hr
  have hV := velocity9 c _ hr' n.f
  simp only [Bool.false_eq_true, if_false] at hu hC ⊢
  have hcp : 0 < |c| := abs_pos.mpr hc
  have hs : (D2Q9.stencil c).scaling = c := rfl
  have hd : density n.f = mass n.f := rfl
  rw [hs, hd] at hC hu ⊢
  set u := velocityD2Q9 c (mass n.f) n.f with hu'
  clear_value u
  have hx : ∀ a, |u a / c| < 1 := by
    intro a; rw [abs_div]; exact (div_lt_one hcp).mpr (hu a)
  have hF : flux9 (kbcFeqD2Q9 (mass n.f) (u 0 / c) (u 1 / c)) 0 1 = mass n.f * (u 0 / c) * (u 1 / c) := by
    have e : ∀ p q : ℝ, flux9 (kbcFeqD2Q9 (mass n.f) p q) 0 1 =
        mass n.f * ((2 - kbcRoot p) * (kbcPost p - 1 / kbcPost p) / 6) * ((2 - kbcRoot q) * (kbcPost q - 1 / kbcPost q) / 6) := by
      intro p q
      simp [flux9, kbcFeqD2Q9]; ring
    rw [e, kbc_odd (hx 0), kbc_odd (hx 1)]
  intro x y hxy
  have hF' : momentumFlux (D2Q9.stencil c).dir (kbcFeqD2Q9 (mass n.f) (u 0 / c) (u 1 / c)) x y =
      mass n.f * ((D2Q9.stencil c).cs2 * δ x y + u x * u y) := by
    rw [momentumFlux9]
    have hsym : ∀ f : Fin 9 → ℝ, flux9 f 1 0 = flux9 f 0 1 := fun f => rfl
    fin_cases x <;> fin_cases y <;> simp at hxy <;> simp [hsym, hF, δ] <;> field_simp
  rw [viscous_of_conserves hC, kbc_full (by rw [kbcShear9_flux _ _ hr', kbcShear9_flux _ _ hr']), viscousStress, ideal_eq _ _ hr' u _ hV, hF']
  ring

/-! ## Every exact stencil -/

/-- **C103 (BGK standard)**: on every exact stencil a collision without external force multiplies the viscous stress by `1 - 1 / (tau + 1/2)`. -/
theorem C103_standard (t : StencilType) (ht : t.exact = true) {c : ℝ} (hc : c ≠ 0) (b : Obj ℝ t.D t.Q) (hS : b.stencil = t.stencil c)
    (hv : b.Valid) (hf : b.forceType = .noForcing) (n n' : Node ℝ t.D t.Q) (h : standardNode t b false n = .ok n') :
    StressRelaxes (t.stencil c).dir (t.stencil c).cs2 (1 / (b.tau + 1 / 2)) n.f n'.f := by
  have h0 := dir_zero t ht c
  have gen : genericNode equilibrium b false n = .ok n' →
      StressRelaxes (t.stencil c).dir (t.stencil c).cs2 (1 / (b.tau + 1 / 2)) n.f n'.f := by
    intro h
    have iso := (C03_isotropy t ht c).toIso4
    have hcs := t.cs2_ne ht hc
    rw [← hS] at iso hcs h0 ⊢
    exact stress_of_generic hv iso hcs h0 h
  cases t
  case D2Q9 => exact stress9_of_standard hc hS hv hf h
  case D3Q19 => exact stress19_of_standard hc hS hv hf h0 h
  case D3Q15 => exact stress15_of_standard hc hS hv h0 h
  all_goals exact gen h

example (c : ℝ) : ∃ n', standardNode .D2Q25H (Obj.make 1 1 (StencilType.D2Q25H.stencil c)) false (weights .D2Q25H c) = .ok n' ∧
    (Obj.make 1 1 (StencilType.D2Q25H.stencil c)).Valid ∧ (Obj.make 1 1 (StencilType.D2Q25H.stencil c)).forceType = .noForcing := by
  obtain ⟨n', h⟩ := generic_ok_weights .D2Q25H rfl c equilibrium
  exact ⟨n', h, Obj.make_valid _ _ _ one_pos one_pos, rfl⟩

end NATriuM.Legacy
