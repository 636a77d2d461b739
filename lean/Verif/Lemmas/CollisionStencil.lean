import Verif.Lemmas.MRT
import Verif.Lemmas.Sweep
import Verif.Props.Stencils

/-! # Helper lemmas: the collision of a concrete stencil class -/

namespace NATriuM

open Finset NATriuM.Spec

/-! ## Selection -/

section select

variable {σ : Type*} (sweep : CollisionClass → EquilibriumClass → σ → Except CollError σ)

theorem runRows_none (cfg : SelectionConfig) (rows : List Row) (s : σ) (n : ℕ) (h : rows.find? (·.applies cfg) = none) :
    runRows sweep cfg rows (s, n) = .ok (s, n) := by
  induction rows with
  | nil => rfl
  | cons r rs ih =>
    rw [List.find?_cons] at h
    cases hr : r.applies cfg
    · rw [hr] at h
      simp only [runRows, hr, Bool.false_eq_true, if_false]
      exact ih h
    · rw [hr] at h; cases h

/-- rows of which at most one applies -/
def Exclusive (rows : List Row) : Prop :=
  rows.Pairwise fun r r' => ¬ (r.stencil = r'.stencil ∧ r.scheme = r'.scheme ∧ r.eq = r'.eq)

instance (rows : List Row) : Decidable (Exclusive rows) := inferInstanceAs (Decidable (List.Pairwise _ rows))

theorem applies_iff (r : Row) (cfg : SelectionConfig) :
    r.applies cfg = true ↔ cfg.stencil = r.stencil ∧ cfg.scheme = r.scheme ∧ cfg.eq = r.eq := by
  simp [Row.applies]

theorem runRows_some (cfg : SelectionConfig) (rows : List Row) (hx : Exclusive rows) (r : Row) (s : σ) (n : ℕ)
    (h : rows.find? (·.applies cfg) = some r) :
    runRows sweep cfg rows (s, n) = match sweep r.collisionType r.equilibriumType s with
      | .error err => .error err
      | .ok s' => .ok (s', n + 1) := by
  induction rows with
  | nil => cases h
  | cons r' rs ih =>
    rw [Exclusive, List.pairwise_cons] at hx
    rw [List.find?_cons] at h
    cases hr : r'.applies cfg
    · rw [hr] at h
      simp only [runRows, hr, Bool.false_eq_true, if_false]
      exact ih hx.2 h
    · rw [hr] at h
      cases h
      simp only [runRows, hr, if_true]
      cases sweep r.collisionType r.equilibriumType s with
      | error err => rfl
      | ok s' =>
        refine runRows_none _ _ _ _ _ (List.find?_eq_none.mpr fun q hq hq' => hx.1 q hq ?_)
        rw [applies_iff] at hr hq'
        exact ⟨hr.1.symm.trans hq'.1, hr.2.1.symm.trans hq'.2.1, hr.2.2.symm.trans hq'.2.2⟩

/-- With exclusive rows, the selection is: look the configuration up and perform that sweep. -/
theorem selectCollision_eq (rows : List Row) (hx : Exclusive rows) (chk : Bool) (cfg : SelectionConfig) (s : σ) :
    selectCollision rows chk sweep cfg s = match rows.find? (·.applies cfg) with
      | none => .error .noCollision
      | some r => sweep r.collisionType r.equilibriumType s := by
  unfold selectCollision
  cases h : rows.find? (·.applies cfg) with
  | none => rw [runRows_none _ _ _ _ _ h]; rfl
  | some r =>
    rw [runRows_some _ _ _ hx _ _ _ h]
    simp only
    cases sweep r.collisionType r.equilibriumType s with
    | error err => rfl
    | ok s' => simp

end select

theorem isoSelection_exclusive (D : ℕ) : Exclusive (isoSelection D).1 := by
  unfold isoSelection; split <;> decide

theorem compSelection_exclusive (D : ℕ) : Exclusive (compSelection D).1 := by
  unfold compSelection; split <;> decide

/-! ## The data of an exactly isotropic stencil -/

namespace StencilType

theorem scaling_eq (t : StencilType) (c : ℝ) : (t.stencil c).scaling = c := by cases t <;> rfl

theorem cs2_ne (t : StencilType) (ht : t.exact = true) {c : ℝ} (hc : c ≠ 0) : (t.stencil c).cs2 ≠ 0 := by
  cases t <;> simp only [exact, Bool.false_eq_true] at ht
  all_goals
    simp only [stencil, D2Q9.stencil, D3Q19.stencil, D3Q15.stencil, D3Q27.stencil, D2Q25H.stencil, D3Q13.stencil,
      RD3Q27.stencil]
    positivity

variable (t : StencilType) {c viscosity dt : ℝ} (cfg : CollisionConfig t.D)

theorem data_cs2_ne (ht : t.exact = true) (hc : c ≠ 0) : (collisionData t c viscosity dt cfg).cs2 ≠ 0 := by
  have := t.cs2_ne ht hc
  simp only [collisionData, CollData.mk', scaling_eq]
  exact div_ne_zero this (mul_ne_zero hc hc)

theorem data_scaling : (collisionData t c viscosity dt cfg).scaling = c := t.scaling_eq c

theorem data_e (i : Fin t.Q) (a : Fin t.D) : (collisionData t c viscosity dt cfg).e i a = (t.stencil c).dir i a / c := by
  simp only [collisionData, CollData.mk', scaling_eq]

theorem data_iso5 (ht : t.exact = true) (hc : c ≠ 0) :
    Iso5 (collisionData t c viscosity dt cfg).weight (collisionData t c viscosity dt cfg).e
      (collisionData t c viscosity dt cfg).cs2 := by
  have := NATriuM.Iso5.unit (C03_isotropy t ht c) (s := (t.stencil c).scaling) (by rw [scaling_eq]; exact hc)
  exact this

theorem D2Q9_e (cfg : CollisionConfig 2) (hc : c ≠ 0) :
    (collisionData .D2Q9 c viscosity dt cfg).e = NATriuM.D2Q9.dir 1 :=
  unit_dir_of_table (e := NATriuM.D2Q9.dir) NATriuM.D2Q9.dir_eq hc

theorem D3Q19_e (cfg : CollisionConfig 3) (hc : c ≠ 0) :
    (collisionData .D3Q19 c viscosity dt cfg).e = NATriuM.D3Q19.dir 1 :=
  unit_dir_of_table (e := NATriuM.D3Q19.dir) NATriuM.D3Q19.dir_eq hc

/-- All specialisations of `calculateVelocity` agree with the generic template. -/
theorem velocity_eq (hc : c ≠ 0) (f : Fin t.Q → ℝ) (rho : ℝ) :
    t.velocity (collisionData t c viscosity dt cfg) f rho = calculateVelocity (collisionData t c viscosity dt cfg) f rho := by
  cases t
  case D2Q9 => exact velocityD2Q9_eq _ (D2Q9_e cfg hc) f rho
  case D3Q19 => exact velocityD3Q19_eq _ (D3Q19_e cfg hc) f rho
  all_goals rfl

/-- The specialisation of `BGKEquilibrium` agrees with the generic template. -/
theorem bgk_eq (hc : c ≠ 0) (m : Macro ℝ t.D) :
    t.equilibrium .bgk (collisionData t c viscosity dt cfg) m = bgkEquilibrium (collisionData t c viscosity dt cfg) m := by
  cases t
  case D2Q9 => exact bgkD2Q9_eq _ rfl (D2Q9_e cfg hc) m
  all_goals rfl

theorem conservative (ht : t.exact = true) (hc : c ≠ 0) (ec : EquilibriumClass) :
    Conservative (t.equilibrium ec) (collisionData t c viscosity dt cfg) := by
  have h := t.data_iso5 (viscosity := viscosity) (dt := dt) cfg ht hc
  have h0 := t.data_cs2_ne (viscosity := viscosity) (dt := dt) cfg ht hc
  cases ec
  · have hb := bgk_conservative h.toIso4 h0
    exact ⟨fun m => by rw [bgk_eq t cfg hc]; exact hb.mass m, fun m a => by rw [bgk_eq t cfg hc]; exact hb.momentum m a⟩
  · cases t <;> simp only [exact, Bool.false_eq_true] at ht
    all_goals first
      | exact quartic2_mass_momentum h h0
      | exact quartic3_mass_momentum h h0

end StencilType

theorem rho_mul_velocity {K : Type*} [Field K] {D Q : ℕ} (d : CollData K D Q) (f : Fin Q → K) {rho : K} (h : rho ≠ 0) (a : Fin D) :
    rho * calculateVelocity d f rho a = momentum d.e f a := by
  unfold calculateVelocity momentum
  rw [mul_one, mul_div_cancel₀ _ h]
  exact Finset.sum_congr rfl fun i _ => by ring

theorem calculateVelocity_eq {K : Type*} [Field K] {D Q : ℕ} (d : CollData K D Q) (f : Fin Q → K) (rho : K) (a : Fin D) :
    calculateVelocity d f rho a = momentum d.e f a / rho := by
  unfold calculateVelocity momentum
  rw [mul_one]; congr 1
  exact Finset.sum_congr rfl fun i _ => by ring

theorem momentum_scale {K : Type*} [Field K] {D Q : ℕ} {e e' : Fin Q → Fin D → K} {c : K} (he : ∀ i a, e i a = e' i a / c) (hc : c ≠ 0)
    (f : Fin Q → K) (a : Fin D) : momentum e' f a = c * momentum e f a := by
  unfold momentum
  rw [Finset.mul_sum]
  exact Finset.sum_congr rfl fun i _ => by rw [he]; field_simp

theorem flux_scale {K : Type*} [Field K] {D Q : ℕ} {e e' : Fin Q → Fin D → K} {c : K} (he : ∀ i a, e i a = e' i a / c) (hc : c ≠ 0)
    (f : Fin Q → K) (a b : Fin D) : momentumFlux e' f a b = c * c * momentumFlux e f a b := by
  unfold momentumFlux
  rw [Finset.mul_sum]
  exact Finset.sum_congr rfl fun i _ => by rw [he, he]; field_simp

/-! ## What `relax` does to mass and momentum -/

/-- the rate with which a relaxation pulls the momentum towards the momentum of the equilibrium it is given -/
structure Pulls {K : Type*} [Field K] {D Q : ℕ} (relax : Relaxation K D Q) (d : CollData K D Q) (w0 : K) (w1 : Fin D → K) : Prop where
  mass : ∀ feq f, mass (relax d feq f) = mass f + w0 * (mass feq - mass f)
  momentum : ∀ feq f a, momentum d.e (relax d feq f) a = momentum d.e f a + w1 a * (momentum d.e feq a - momentum d.e f a)

theorem bgk_pulls {K : Type*} [Field K] {D Q : ℕ} (d : CollData K D Q) : Pulls bgkRelax d (1 / d.tau) fun _ => 1 / d.tau :=
  ⟨bgkRelax_mass d, bgkRelax_momentum d⟩

theorem regularized_pulls {K : Type*} [Field K] {D Q : ℕ} {d : CollData K D Q} (h : Iso4 d.weight d.e d.cs2) :
    Pulls regularizedRelax d 1 fun _ => 1 :=
  ⟨fun feq f => by rw [regularized_mass h]; ring, fun feq f a => by rw [regularized_momentum h]; ring⟩

theorem mrt_pulls {K : Type*} [Field K] {D Q : ℕ} {d : CollData K D Q} {M T : Fin Q → Fin Q → K} (h : InversePair M T) {k0 kj}
    (hr : ConservedRows M d.e k0 kj) (omega : Fin Q → K) :
    Pulls (mrtRelax M T omega) d (omega k0) fun a => omega (kj a) where
  mass feq f := by
    have := mrtRelax_moment h omega d feq f k0
    simp only [conservedRows_mass hr] at this
    rw [this]; ring
  momentum feq f a := by
    have := mrtRelax_moment h omega d feq f (kj a)
    simp only [conservedRows_momentum hr] at this
    rw [this]; ring

/-! ## The MRT relaxation of the two stencils that have one -/

theorem mrt9_cases {b : MRTBasis} {r : RelaxMode} {tau : ℝ} {relax : Relaxation ℝ 2 9}
    (h : StencilType.D2Q9.mrtRelaxation b r tau = .ok relax) :
    ∃ M T : Fin 9 → Fin 9 → ℚ, ∃ omega : Fin 9 → ℝ, MRT.makeM9 b = .ok (MRT.ofTable M : Fin 9 → Fin 9 → ℝ) ∧
      MRT.makeT9 b = .ok (MRT.ofTable T : Fin 9 → Fin 9 → ℝ) ∧
      MRT.makeDiag9 tau b r = .ok omega ∧ relax = mrtRelax (MRT.ofTable M) (MRT.ofTable T) omega ∧
      InversePair M T ∧ ConservedRows M (D2Q9.dir 1) 0 ![1, 2] ∧ omega 0 = 1 / tau ∧ (∀ a, omega ((![1, 2] : Fin 2 → Fin 9) a) = 1 / tau) := by
  simp only [StencilType.mrtRelaxation] at h
  cases b
  case dHumieresD3Q19 => cases h
  all_goals
    cases r
    case relaxDHumieresPaper => cases h
  · cases h
    exact ⟨_, _, _, rfl, rfl, rfl, rfl, MRT.dellar_inverse, MRT.dellar_rows, rfl, by intro a; fin_cases a <;> rfl⟩
  · cases h
    exact ⟨_, _, _, rfl, rfl, rfl, rfl, MRT.dellar_inverse, MRT.dellar_rows, rfl, by intro a; fin_cases a <;> rfl⟩
  · cases h
    exact ⟨_, _, _, rfl, rfl, rfl, rfl, MRT.lallemand_inverse, MRT.lallemand_rows, rfl, by intro a; fin_cases a <;> rfl⟩
  · cases h

theorem mrt19_cases {b : MRTBasis} {r : RelaxMode} {tau : ℝ} {relax : Relaxation ℝ 3 19}
    (h : StencilType.D3Q19.mrtRelaxation b r tau = .ok relax) :
    b = .dHumieresD3Q19 ∧ 1 / 2 < tau ∧ ∃ omega : Fin 19 → ℝ, MRT.makeDiag19 tau b r = .ok omega ∧
      relax = mrtRelax (MRT.ofTable MRT.dHumieresM) (MRT.ofTable MRT.dHumieresT) omega ∧
      (r = .relaxFull ∧ omega 0 = 1 / tau ∧ (∀ a, omega ((![3, 5, 7] : Fin 3 → Fin 19) a) = 1 / tau) ∨
        r = .relaxDHumieresPaper ∧ omega 0 = 0 ∧ (∀ a, omega ((![3, 5, 7] : Fin 3 → Fin 19) a) = 0)) := by
  simp only [StencilType.mrtRelaxation] at h
  cases b
  case dellarD2Q9 => cases h
  case lallemandD2Q9 => cases h
  refine ⟨rfl, ?_⟩
  by_cases ht : tau > 1 / 2
  · refine ⟨ht, ?_⟩
    unfold MRT.makeDiag19 at h ⊢
    rw [if_neg (not_not.mpr ht)] at h ⊢
    cases r
    · cases h
      exact ⟨_, rfl, rfl, .inl ⟨rfl, rfl, by intro a; fin_cases a <;> rfl⟩⟩
    · cases h
    · cases h
      exact ⟨_, rfl, rfl, .inr ⟨rfl, rfl, by intro a; fin_cases a <;> rfl⟩⟩
  · unfold MRT.makeDiag19 at h
    rw [if_pos ht] at h; cases h

theorem D2Q9_dir_one (i : Fin 9) (a : Fin 2) : (D2Q9.dir 1 i a : ℝ) = ((D2Q9.dir 1 i a : ℚ) : ℝ) := by
  rw [D2Q9.dir_eq]; simp

theorem D3Q19_dir_one (i : Fin 19) (a : Fin 3) : (D3Q19.dir 1 i a : ℝ) = ((D3Q19.dir 1 i a : ℚ) : ℝ) := by
  rw [D3Q19.dir_eq]; simp

theorem D2Q9_rows {M : Fin 9 → Fin 9 → ℚ} {c viscosity dt : ℝ} (hc : c ≠ 0) (cfg : CollisionConfig 2)
    (h : ConservedRows M (D2Q9.dir 1) 0 ![1, 2]) :
    ConservedRows (MRT.ofTable M : Fin 9 → Fin 9 → ℝ) (collisionData .D2Q9 c viscosity dt cfg).e 0 ![1, 2] := by
  rw [StencilType.D2Q9_e cfg hc]
  exact conservedRows_of_table D2Q9_dir_one h

theorem D3Q19_rows {c viscosity dt : ℝ} (hc : c ≠ 0) (cfg : CollisionConfig 3) :
    ConservedRows (MRT.ofTable MRT.dHumieresM : Fin 19 → Fin 19 → ℝ) (collisionData .D3Q19 c viscosity dt cfg).e 0 ![3, 5, 7] := by
  rw [StencilType.D3Q19_e cfg hc]
  exact conservedRows_of_table D3Q19_dir_one MRT.dHumieres_rows

/-- Every relaxation the library can construct for an exactly isotropic stencil pulls mass and momentum with some rate. -/
theorem relaxation_pulls (t : StencilType) (ht : t.exact = true) {c viscosity dt : ℝ} (hc : c ≠ 0) (cfg : CollisionConfig t.D)
    (cc : CollisionClass) {relax : Relaxation ℝ t.D t.Q}
    (h : t.relaxation cfg.mrtBasis cfg.relaxMode (collisionData t c viscosity dt cfg).tau cc = .ok relax) :
    ∃ w0 w1, Pulls relax (collisionData t c viscosity dt cfg) w0 w1 := by
  cases cc
  · cases h; exact ⟨_, _, bgk_pulls _⟩
  · cases h; exact ⟨_, _, regularized_pulls (t.data_iso5 cfg ht hc).toIso4⟩
  · simp only [StencilType.relaxation] at h
    cases t <;> first | (exfalso; revert h; simp only [StencilType.mrtRelaxation]; intro h; cases h) | skip
    · obtain ⟨M, T, omega, -, -, -, rfl, hi, hr, -, -⟩ := mrt9_cases h
      exact ⟨_, _, mrt_pulls (inversePair_of_table M T hi) (D2Q9_rows hc cfg hr) omega⟩
    · obtain ⟨-, -, omega, -, rfl, -⟩ := mrt19_cases h
      exact ⟨_, _, mrt_pulls (inversePair_of_table _ _ MRT.dHumieres_inverse) (D3Q19_rows hc cfg) omega⟩

/-- What a successful isothermal step did. -/
theorem isothermalCollide_ok {ι : Type*} [DecidableEq ι] (t : StencilType) {c viscosity dt : ℝ} (cfg : CollisionConfig t.D)
    (ini : Bool) (owned : List ι) (hn : owned.Nodup) (nodes nodes' : ι → Node ℝ t.D t.Q) :
    isothermalCollide t c viscosity dt cfg ini owned nodes = .ok nodes' ↔
      ∃ r relax, (isoSelection t.D).1.find? (·.applies { stencil := t, scheme := cfg.scheme, eq := cfg.eq }) = some r ∧
        t.relaxation cfg.mrtBasis cfg.relaxMode (collisionData t c viscosity dt cfg).tau r.collisionType = .ok relax ∧
        (∀ j ∈ owned, collideNode { velocity := t.velocity, eq := t.equilibrium r.equilibriumType, relax := relax }
          (collisionData t c viscosity dt cfg) cfg.force.isSome ini (nodes j) = .ok (nodes' j)) ∧
        (∀ j, j ∉ owned → nodes' j = nodes j) ∧
        ∃ j, owned.getLast? = some j ∧ 1 / 10 ^ 10 < mass (nodes j).f := by
  simp only [isothermalCollide]
  rw [selectCollision_eq _ _ (isoSelection_exclusive _)]
  cases h : (isoSelection t.D).1.find? (·.applies { stencil := t, scheme := cfg.scheme, eq := cfg.eq }) with
  | none =>
    constructor
    · intro h; cases h
    · rintro ⟨r, _, h, -⟩; cases h
  | some r =>
    simp only
    cases hr : t.relaxation cfg.mrtBasis cfg.relaxMode (collisionData t c viscosity dt cfg).tau r.collisionType with
    | error err =>
      simp only
      constructor
      · intro h; cases h
      · rintro ⟨r', _, h, h', -⟩
        cases h; rw [hr] at h'; cases h'
    | ok relax =>
      simp only
      rw [collideAll_ok _ _ _ _ _ hn]
      constructor
      · rintro ⟨h1, h2, h3⟩
        exact ⟨r, relax, rfl, hr, h1, h2, h3⟩
      · rintro ⟨r', relax', h, h', h1, h2, h3⟩
        cases h; rw [hr] at h'; cases h'
        exact ⟨h1, h2, h3⟩

end NATriuM
