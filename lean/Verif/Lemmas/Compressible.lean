import Verif.Lemmas.CollisionStencil
import Verif.Model.CollisionCompressible

/-! # Helper lemmas: the compressible collision -/

namespace NATriuM

open Finset NATriuM.Spec

section star

variable {K : Type*} [Field K] {D Q : ℕ}

theorem totalEnergy_eq (e : Fin Q → Fin D → K) (cs2 : K) (f g : Fin Q → K) :
    totalEnergy e cs2 f g = (∑ a, momentumFlux e f a a) / cs2 + mass g := by
  unfold totalEnergy momentumFlux mass
  rw [Finset.sum_add_distrib, Finset.sum_comm, Finset.sum_div]
  congr 1
  refine Finset.sum_congr rfl fun i _ => ?_
  rw [← Finset.mul_sum]; ring

theorem totalEnergy_scale {e e' : Fin Q → Fin D → K} {c cs2 : K} (he : ∀ i a, e i a = e' i a / c) (hc : c ≠ 0) (hcs : cs2 ≠ 0) (f g : Fin Q → K) :
    totalEnergy e' cs2 f g = totalEnergy e (cs2 / (c * c)) f g := by
  rw [totalEnergy_eq, totalEnergy_eq]
  congr 1
  simp only [flux_scale he hc, ← Finset.mul_sum]
  field_simp

/-- Moments of `fStar`. -/
theorem fStar_moment (d : CollData K D Q) (q : Fin D → Fin D → Fin D → K) (h : Fin Q → K) :
    ∑ i, calculateFStar d q i * h i = ∑ a, ∑ b, ∑ c, q a b c / (6 * d.cs2 * d.cs2 * d.cs2) *
      ((∑ i, d.weight i * (d.e i a * d.e i b * d.e i c * h i)) - 3 * d.cs2 * δ a b * ∑ i, d.weight i * (d.e i c * h i)) := by
  simp only [calculateFStar, Finset.sum_mul]
  rw [Finset.sum_comm]
  refine Finset.sum_congr rfl fun a _ => ?_
  rw [Finset.sum_comm]
  refine Finset.sum_congr rfl fun b _ => ?_
  rw [Finset.sum_comm]
  refine Finset.sum_congr rfl fun c _ => ?_
  rw [Finset.mul_sum, ← Finset.sum_sub_distrib, Finset.mul_sum]
  refine Finset.sum_congr rfl fun i _ => ?_
  rw [eye_eq]; ring

variable {d : CollData K D Q} {q : Fin D → Fin D → Fin D → K}

theorem fStar_mass (h : Iso4 d.weight d.e d.cs2) : mass (calculateFStar d q) = 0 := by
  have := fStar_moment d q fun _ => 1
  simp only [mul_one, h.m3, h.m1, mul_zero, sub_zero, Finset.sum_const_zero] at this
  exact this

theorem fStar_flux (h : Iso5 d.weight d.e d.cs2) (f g : Fin D) : momentumFlux d.e (calculateFStar d q) f g = 0 := by
  have := fStar_moment d q fun i => d.e i f * d.e i g
  have h5 : ∀ a b c, ∑ i, d.weight i * (d.e i a * d.e i b * d.e i c * (d.e i f * d.e i g)) = 0 := fun a b c => by
    rw [← h.m5 a b c f g]; exact Finset.sum_congr rfl fun i _ => by ring
  have h3 : ∀ c, ∑ i, d.weight i * (d.e i c * (d.e i f * d.e i g)) = 0 := fun c => by
    rw [← h.m3 c f g]; exact Finset.sum_congr rfl fun i _ => by ring
  simp only [h5, h3, mul_zero, sub_zero, Finset.sum_const_zero] at this
  exact this

/-- `q` is symmetric -/
structure Sym3 (q : Fin D → Fin D → Fin D → K) : Prop where
  swap12 : ∀ a b c, q a b c = q b a c
  swap23 : ∀ a b c, q a b c = q a c b

omit [Field K] in
theorem Sym3.rot (h : Sym3 q) (a b c : Fin D) : q a b c = q b c a := by rw [h.swap12, h.swap23]

/-- sum over all index triples -/
def sum3 (F : Fin D → Fin D → Fin D → K) : K := ∑ a, ∑ b, ∑ c, F a b c

theorem sum3_swap12 (F : Fin D → Fin D → Fin D → K) : sum3 F = sum3 fun a b c => F b a c := by
  unfold sum3; rw [Finset.sum_comm]

theorem sum3_swap23 (F : Fin D → Fin D → Fin D → K) : sum3 F = sum3 fun a b c => F a c b := by
  unfold sum3; exact Finset.sum_congr rfl fun a _ => Finset.sum_comm

theorem sum3_rot (F : Fin D → Fin D → Fin D → K) : sum3 F = sum3 fun a b c => F b c a := by
  rw [sum3_swap23, sum3_swap12]

theorem sum3_add (F G : Fin D → Fin D → Fin D → K) : sum3 (fun a b c => F a b c + G a b c) = sum3 F + sum3 G := by
  simp only [sum3, Finset.sum_add_distrib]

theorem sum3_sub (F G : Fin D → Fin D → Fin D → K) : sum3 (fun a b c => F a b c - G a b c) = sum3 F - sum3 G := by
  simp only [sum3, Finset.sum_sub_distrib]

theorem sum3_mul (s : K) (F : Fin D → Fin D → Fin D → K) : sum3 (fun a b c => s * F a b c) = s * sum3 F := by
  simp only [sum3, Finset.mul_sum]

theorem sum3_congr {F G : Fin D → Fin D → Fin D → K} (h : ∀ a b c, F a b c = G a b c) : sum3 F = sum3 G := by
  unfold sum3; simp only [h]

theorem fStar_momentum (h : Iso4 d.weight d.e d.cs2) (hq : Sym3 q) (f : Fin D) : momentum d.e (calculateFStar d q) f = 0 := by
  have := fStar_moment d q fun i => d.e i f
  simp only [h.m4, h.m2] at this
  refine this.trans ?_
  set s := (6 * d.cs2 * d.cs2 * d.cs2) with hs
  change sum3 (fun a b c => _) = 0
  have h1 : sum3 (fun a b c => q a b c * (δ a c * δ b f : K)) = sum3 fun a b c => q a b c * (δ a b * δ c f : K) := by
    rw [sum3_swap23]; exact sum3_congr fun a b c => by rw [hq.swap23]
  have h2 : sum3 (fun a b c => q a b c * (δ a f * δ b c : K)) = sum3 fun a b c => q a b c * (δ a b * δ c f : K) := by
    rw [sum3_rot fun a b c => q a b c * (δ a b * δ c f : K)]; exact sum3_congr fun a b c => by rw [hq.rot a b c]; ring
  calc sum3 (fun a b c => q a b c / s * (d.cs2 ^ 2 * (δ a b * δ c f + δ a c * δ b f + δ a f * δ b c) - 3 * d.cs2 * δ a b * (d.cs2 * δ c f)))
      = sum3 (fun a b c => d.cs2 ^ 2 / s * (q a b c * (δ a c * δ b f) + q a b c * (δ a f * δ b c) - 2 * (q a b c * (δ a b * δ c f)))) :=
        sum3_congr fun a b c => by ring
    _ = 0 := by rw [sum3_mul, sum3_sub, sum3_add, sum3_mul, h1, h2]; ring

theorem sum3_pick (q : Fin D → Fin D → Fin D → K) (f g h : Fin D) : sum3 (fun a b c => q a b c * (δ a f * δ b g * δ c h : K)) = q f g h := by
  unfold sum3
  rw [Finset.sum_eq_single f, Finset.sum_eq_single g, Finset.sum_eq_single h] <;> simp +contextual [δ]

/-- The third moment of `fStar` is the tensor it was made of. -/
theorem fStar_heatFlux [CharZero K] (h : Iso6 d.weight d.e d.cs2) (hc : d.cs2 ≠ 0) (hq : Sym3 q) (f g k : Fin D) :
    heatFlux d.e (calculateFStar d q) f g k = q f g k := by
  have := fStar_moment d q fun i => d.e i f * d.e i g * d.e i k
  have h6 : ∀ a b c, ∑ i, d.weight i * (d.e i a * d.e i b * d.e i c * (d.e i f * d.e i g * d.e i k)) = d.cs2 ^ 3 * δ6 a b c f g k := fun a b c => by
    rw [← h.m6 a b c f g k]; exact Finset.sum_congr rfl fun i _ => by ring
  have h4 : ∀ c, ∑ i, d.weight i * (d.e i c * (d.e i f * d.e i g * d.e i k)) = d.cs2 ^ 2 * (δ c f * δ g k + δ c g * δ f k + δ c k * δ f g) := fun c => by
    rw [← h.m4 c f g k]; exact Finset.sum_congr rfl fun i _ => by ring
  simp only [h6, h4] at this
  refine this.trans ?_
  change sum3 (fun a b c => _) = _
  -- pairs inside `abc`
  have p (x : Fin D) : sum3 (fun a b c => q a b c * (δ a c * δ b x : K)) = sum3 fun a b c => q a b c * (δ a b * δ c x : K) := by
    rw [sum3_swap23]; exact sum3_congr fun a b c => by rw [hq.swap23]
  have p' (x : Fin D) : sum3 (fun a b c => q a b c * (δ a x * δ b c : K)) = sum3 fun a b c => q a b c * (δ a b * δ c x : K) := by
    rw [sum3_rot fun a b c => q a b c * (δ a b * δ c x : K)]; exact sum3_congr fun a b c => by rw [hq.rot a b c]; ring
  have e1 := sum3_pick q f g k
  have e2 := (sum3_pick q f k g).trans (hq.swap23 f k g)
  have e3 := (sum3_pick q g f k).trans (hq.swap12 g f k)
  have e4 := (sum3_pick q g k f).trans (hq.rot f g k).symm
  have e5 := (sum3_pick q k f g).trans (hq.rot k f g)
  have e6 := (sum3_pick q k g f).trans ((hq.swap23 k g f).trans (hq.rot k f g))
  have hs : (6 * d.cs2 * d.cs2 * d.cs2) ≠ 0 := by simp [hc]
  have key : ∀ a b c, q a b c / (6 * d.cs2 * d.cs2 * d.cs2) * (d.cs2 ^ 3 * δ6 a b c f g k
        - 3 * d.cs2 * δ a b * (d.cs2 ^ 2 * (δ c f * δ g k + δ c g * δ f k + δ c k * δ f g)))
      = 1 / 6 * (((((((((((q a b c * (δ a f * δ b g * δ c k) + q a b c * (δ a f * δ b k * δ c g)) + q a b c * (δ a g * δ b f * δ c k))
          + q a b c * (δ a g * δ b k * δ c f)) + q a b c * (δ a k * δ b f * δ c g)) + q a b c * (δ a k * δ b g * δ c f))
        + δ g k * (q a b c * (δ a c * δ b f))) + δ f k * (q a b c * (δ a c * δ b g))) + δ f g * (q a b c * (δ a c * δ b k)))
        + δ g k * (q a b c * (δ a f * δ b c))) + δ f k * (q a b c * (δ a g * δ b c))) + δ f g * (q a b c * (δ a k * δ b c)))
        - 2 / 6 * (((δ g k * (q a b c * (δ a b * δ c f))) + δ f k * (q a b c * (δ a b * δ c g))) + δ f g * (q a b c * (δ a b * δ c k))) := by
    intro a b c
    unfold δ6
    field_simp
    ring
  rw [sum3_congr key]
  simp only [sum3_sub, sum3_mul, sum3_add, p, p', e1, e2, e3, e4, e5, e6]
  ring

theorem gStar_moment (d : CollData K D Q) (T : K) (x : Fin D → K) (h : Fin Q → K) :
    ∑ i, calculateGStar d T x i * h i = ∑ a, x a / T * ∑ i, d.weight i * (d.e i a * h i) := by
  simp only [calculateGStar, Finset.sum_mul, Finset.mul_sum]
  rw [Finset.sum_comm]
  exact Finset.sum_congr rfl fun a _ => Finset.sum_congr rfl fun i _ => by ring

theorem gStar_mass (h : Iso2 d.weight d.e d.cs2) (T : K) (x : Fin D → K) : mass (calculateGStar d T x) = 0 := by
  have := gStar_moment d T x fun _ => 1
  simp only [mul_one, h.m1, mul_zero, Finset.sum_const_zero] at this
  exact this

theorem gStar_momentum (h : Iso2 d.weight d.e d.cs2) (T : K) (x : Fin D → K) (b : Fin D) :
    momentum d.e (calculateGStar d T x) b = d.cs2 / T * x b := by
  have := gStar_moment d T x fun i => d.e i b
  simp only [h.m2] at this
  refine this.trans ?_
  rw [← sum_δ x b, Finset.mul_sum]
  exact Finset.sum_congr rfl fun a _ => by ring

theorem centered_sym (d : CollData K D Q) (u : Fin D → K) (f : Fin Q → K) : Sym3 (calculateCenteredHeatFluxTensor d u f) where
  swap12 a b c := Finset.sum_congr rfl fun i _ => by ring
  swap23 a b c := Finset.sum_congr rfl fun i _ => by ring

/-- The centred third moment of a distribution without mass, momentum and momentum flux is its third moment. -/
theorem centered_eq (d : CollData K D Q) (u : Fin D → K) {f : Fin Q → K} (h0 : mass f = 0) (h1 : ∀ a, momentum d.e f a = 0)
    (h2 : ∀ a b, momentumFlux d.e f a b = 0) (a b c : Fin D) :
    calculateCenteredHeatFluxTensor d u f a b c = heatFlux d.e f a b c := by
  have : calculateCenteredHeatFluxTensor d u f a b c = heatFlux d.e f a b c
      - u c * momentumFlux d.e f a b - u b * momentumFlux d.e f a c - u a * momentumFlux d.e f b c
      + u b * u c * momentum d.e f a + u a * u c * momentum d.e f b + u a * u b * momentum d.e f c - u a * u b * u c * mass f := by
    simp only [calculateCenteredHeatFluxTensor, heatFlux, momentumFlux, momentum, mass, Finset.mul_sum, ← Finset.sum_sub_distrib,
      ← Finset.sum_add_distrib]
    exact Finset.sum_congr rfl fun i _ => by ring
  rw [this]; simp only [h0, h1, h2]; ring

end star

section energy

variable {K : Type*} [Field K] {D Q : ℕ}

/-- Energy of a node in terms of its macroscopic values. -/
theorem temperature_energy {d : CollData K D Q} {f g : Fin Q → K} {gamma : K} {u : Fin D → K} {rho T : K} [CharZero K]
    (h0 : mass f = rho) (hrho : rho ≠ 0) (h1 : ∀ a, momentum d.e f a = rho * u a) (hg : gamma - 1 ≠ 0) (hc : d.cs2 ≠ 0)
    (hT : T = calculateTemperature d gamma f g u rho) :
    totalEnergy d.e d.cs2 f g = rho * (∑ a, u a * u a) / d.cs2 + 2 * rho * T / (gamma - 1) := by
  have h2 : ∑ i, ((∑ a, (d.e i a - u a) * (d.e i a - u a)) * f i / d.cs2 + g i)
      = totalEnergy d.e d.cs2 f g - rho * (∑ a, u a * u a) / d.cs2 := by
    have e1 : ∑ i, (∑ a, (d.e i a - u a) * (d.e i a - u a)) * f i
        = (∑ a, momentumFlux d.e f a a) - 2 * (∑ a, u a * momentum d.e f a) + (∑ a, u a * u a) * mass f := by
      simp only [momentumFlux, momentum, mass, Finset.mul_sum, Finset.sum_mul]
      rw [Finset.sum_comm, ← Finset.sum_sub_distrib, Finset.sum_comm (s := univ (α := Fin Q)) (t := univ (α := Fin D)), ← Finset.sum_add_distrib]
      refine Finset.sum_congr rfl fun a _ => ?_
      rw [← Finset.sum_sub_distrib, ← Finset.sum_add_distrib]
      exact Finset.sum_congr rfl fun i _ => by ring
    rw [totalEnergy_eq, Finset.sum_add_distrib, ← Finset.sum_div, e1, h0]
    simp only [h1]
    rw [show ∑ a, u a * (rho * u a) = rho * ∑ a, u a * u a by rw [Finset.mul_sum]; exact Finset.sum_congr rfl fun a _ => by ring]
    unfold mass
    field_simp
    ring
  rw [hT, calculateTemperature, h2]
  field_simp
  ring

/-- Energy of an equilibrium with temperature `T'` of the translational degrees of freedom. -/
theorem equilibrium_energy {d : CollData K D Q} {feq : Fin Q → K} {gamma : K} {u : Fin D → K} {rho T T' : K}
    (h0 : mass feq = rho) (hc : d.cs2 ≠ 0) (h2 : ∀ a b, momentumFlux d.e feq a b = rho * (d.cs2 * T' * δ a b + u a * u b)) :
    totalEnergy d.e d.cs2 feq (calculateGeqFromFeq (D := D) gamma T feq)
      = rho * (∑ a, u a * u a) / d.cs2 + 2 * rho * T / (gamma - 1) + rho * D * (T' - T) := by
  have hg : mass (calculateGeqFromFeq (D := D) gamma T feq) = rho * T * (2 * (1 / (gamma - 1)) - D) := by
    rw [← h0]; unfold mass calculateGeqFromFeq; rw [Finset.sum_mul, Finset.sum_mul]
  have ht : ∑ a, momentumFlux d.e feq a a = rho * (D * d.cs2 * T' + ∑ a, u a * u a) := by
    simp only [h2, δ_self, ← Finset.mul_sum, Finset.sum_add_distrib, Finset.sum_const, Finset.card_univ, Fintype.card_fin]
    simp only [nsmul_eq_mul]; ring
  rw [totalEnergy_eq, hg, ht]
  field_simp
  ring

end energy

section relax

variable {D Q : ℕ} {d : CollData ℝ D Q}

/-- the combination of `fStar`s that `relaxWithG` adds -/
noncomputable def starF (cc : CompressibleConfig) (d : CollData ℝ D Q) (m : Macro ℝ D) (fNeq : Fin Q → ℝ) : Fin Q → ℝ :=
  match cc.prandtl with
  | some _ => calculateFStar d (calculateCenteredHeatFluxTensor d m.u fNeq)
  | none => fun _ => 0

/-- the same for `g` -/
noncomputable def starG (cc : CompressibleConfig) (d : CollData ℝ D Q) (m : Macro ℝ D) (gNeq : Fin Q → ℝ) : Fin Q → ℝ :=
  match cc.prandtl with
  | some _ => calculateGStar d m.T (calculateCenteredMomentumFlux d m.u gNeq)
  | none => fun _ => 0

/-- the rate `1/prandtl_tau` -/
noncomputable def prandtlOmega (cc : CompressibleConfig) (tau : ℝ) (m : Macro ℝ D) : ℝ :=
  1 / ((viscTau cc tau m - 1 / 2) / cc.prandtl.getD 1 + 1 / 2)

theorem starF_mass (h : Iso4 d.weight d.e d.cs2) (cc) (m : Macro ℝ D) (x : Fin Q → ℝ) : mass (starF cc d m x) = 0 := by
  unfold starF; split
  · exact fStar_mass h
  · simp [mass]

theorem starF_momentum (h : Iso4 d.weight d.e d.cs2) (cc) (m : Macro ℝ D) (x : Fin Q → ℝ) (a) : momentum d.e (starF cc d m x) a = 0 := by
  unfold starF; split
  · exact fStar_momentum h (centered_sym d m.u x) a
  · simp [momentum]

theorem starF_flux (h : Iso5 d.weight d.e d.cs2) (cc) (m : Macro ℝ D) (x : Fin Q → ℝ) (a b) : momentumFlux d.e (starF cc d m x) a b = 0 := by
  unfold starF; split
  · exact fStar_flux h a b
  · simp [momentumFlux]

theorem starG_mass (h : Iso2 d.weight d.e d.cs2) (cc) (m : Macro ℝ D) (x : Fin Q → ℝ) : mass (starG cc d m x) = 0 := by
  unfold starG; split
  · exact gStar_mass h m.T _
  · simp [mass]

theorem relaxWithG_f (cc : CompressibleConfig) (eq : Equilibrium ℝ D Q) (m : Macro ℝ D) (f g : Fin Q → ℝ) :
    (relaxWithG cc eq d m f g).1 = fun p => f p - (1 / viscTau cc d.tau m * (f p - eq d m p)
      - (1 / viscTau cc d.tau m - prandtlOmega cc d.tau m) * starF cc d m (fun p => f p - eq d m p) p) := rfl

theorem relaxWithG_g (cc : CompressibleConfig) (eq : Equilibrium ℝ D Q) (m : Macro ℝ D) (f g : Fin Q → ℝ) :
    (relaxWithG cc eq d m f g).2.1 = fun p => g p - (1 / viscTau cc d.tau m * (g p - calculateGeqFromFeq (D := D) cc.gamma m.T (eq d m) p)
      - (1 / viscTau cc d.tau m - prandtlOmega cc d.tau m)
        * starG cc d m (fun p => g p - calculateGeqFromFeq (D := D) cc.gamma m.T (eq d m) p) p) := rfl

/-- linear functionals of `f - (ω (f - feq) - s fs)` -/
theorem lin_relax (f feq fs h : Fin Q → ℝ) (w s : ℝ) :
    ∑ p, (f p - (w * (f p - feq p) - s * fs p)) * h p
      = (∑ p, f p * h p) - w * ((∑ p, f p * h p) - ∑ p, feq p * h p) + s * ∑ p, fs p * h p := by
  simp only [Finset.mul_sum, ← Finset.sum_sub_distrib, ← Finset.sum_add_distrib]
  exact Finset.sum_congr rfl fun i _ => by ring

theorem mass_relax (f feq fs : Fin Q → ℝ) (w s : ℝ) :
    mass (fun p => f p - (w * (f p - feq p) - s * fs p)) = mass f - w * (mass f - mass feq) + s * mass fs := by
  have := lin_relax f feq fs (fun _ => 1) w s
  unfold mass
  simpa only [mul_one] using this

theorem momentum_relax (e : Fin Q → Fin D → ℝ) (f feq fs : Fin Q → ℝ) (w s : ℝ) (a : Fin D) :
    momentum e (fun p => f p - (w * (f p - feq p) - s * fs p)) a
      = momentum e f a - w * (momentum e f a - momentum e feq a) + s * momentum e fs a :=
  lin_relax f feq fs (fun i => e i a) w s

theorem flux_relax (e : Fin Q → Fin D → ℝ) (f feq fs : Fin Q → ℝ) (w s : ℝ) (a b : Fin D) :
    momentumFlux e (fun p => f p - (w * (f p - feq p) - s * fs p)) a b
      = momentumFlux e f a b - w * (momentumFlux e f a b - momentumFlux e feq a b) + s * momentumFlux e fs a b :=
  lin_relax f feq fs (fun i => e i a * e i b) w s

theorem relaxWithG_mass (h : Iso4 d.weight d.e d.cs2) {eq : Equilibrium ℝ D Q} (he : Conservative eq d) (cc) (m : Macro ℝ D) (f g : Fin Q → ℝ) :
    mass (relaxWithG cc eq d m f g).1 = mass f - 1 / viscTau cc d.tau m * (mass f - m.rho) := by
  rw [relaxWithG_f, mass_relax, starF_mass h, he.mass]; ring

theorem relaxWithG_momentum (h : Iso4 d.weight d.e d.cs2) {eq : Equilibrium ℝ D Q} (he : Conservative eq d) (cc) (m : Macro ℝ D) (f g : Fin Q → ℝ)
    (a : Fin D) :
    momentum d.e (relaxWithG cc eq d m f g).1 a = momentum d.e f a - 1 / viscTau cc d.tau m * (momentum d.e f a - m.rho * m.u a) := by
  rw [relaxWithG_f, momentum_relax, starF_momentum h, he.momentum]; ring

theorem relaxWithG_energy (h : Iso5 d.weight d.e d.cs2) (eq : Equilibrium ℝ D Q) (cc) (m : Macro ℝ D) (f g : Fin Q → ℝ) :
    totalEnergy d.e d.cs2 (relaxWithG cc eq d m f g).1 (relaxWithG cc eq d m f g).2.1
      = totalEnergy d.e d.cs2 f g - 1 / viscTau cc d.tau m * (totalEnergy d.e d.cs2 f g
        - totalEnergy d.e d.cs2 (eq d m) (calculateGeqFromFeq (D := D) cc.gamma m.T (eq d m))) := by
  rw [relaxWithG_f, relaxWithG_g]
  simp only [totalEnergy_eq, flux_relax, mass_relax, starF_flux h, starG_mass h.toIso2, mul_zero, add_zero, Finset.sum_sub_distrib,
    ← Finset.mul_sum]
  ring

end relax

section nodeG

variable {D Q : ℕ} (velocity : CollData ℝ D Q → (Fin Q → ℝ) → ℝ → Fin D → ℝ) (eq : Equilibrium ℝ D Q) (cc : CompressibleConfig)
  (d : CollData ℝ D Q) (n : GNode D Q)

/-- the macroscopic state of a node before forces -/
noncomputable def macroG : Macro ℝ D :=
  { rho := mass n.f, u := velocity d n.f (mass n.f), T := calculateTemperature d cc.gamma n.f n.g (velocity d n.f (mass n.f)) (mass n.f) }

theorem collideNodeG_free (h : ¬ mass n.f < 1 / 10 ^ 10) :
    collideNodeG velocity eq cc d false false n = .ok
      { f := (relaxWithG cc eq d (macroG velocity cc d n) n.f n.g).1, g := (relaxWithG cc eq d (macroG velocity cc d n) n.f n.g).2.1,
        rho := mass n.f, u := fun j => velocity d n.f (mass n.f) j * d.scaling, T := (macroG velocity cc d n).T,
        shock := (relaxWithG cc eq d (macroG velocity cc d n) n.f n.g).2.2 } := by
  unfold collideNodeG
  rw [calculateDensity_ok.mpr ⟨h, rfl⟩]; rfl

theorem collideNodeG_shifting (h : ¬ mass n.f < 1 / 10 ^ 10) (ht : d.forceType = .shiftingVelocity) :
    let m : Macro ℝ D := { macroG velocity cc d n with
      u := fun i => velocity d n.f (mass n.f) i + d.tau * d.dt * d.forces i / mass n.f / d.scaling }
    collideNodeG velocity eq cc d true false n = .ok
      { f := (relaxWithG cc eq d m n.f n.g).1, g := (relaxWithG cc eq d m n.f n.g).2.1,
        rho := mass n.f, u := fun j => velocity d n.f (mass n.f) j * d.scaling + 1 / 2 * d.dt * d.forces j / mass n.f,
        T := (macroG velocity cc d n).T, shock := (relaxWithG cc eq d m n.f n.g).2.2 } := by
  unfold collideNodeG
  rw [calculateDensity_ok.mpr ⟨h, rfl⟩]
  simp only [applyMacroscopicForces, applyForces, postCollisionApplyForces, ht]
  rfl

theorem collideNodeG_exact (h : ¬ mass n.f < 1 / 10 ^ 10) (ht : d.forceType = .exactDifference) :
    let m := macroG velocity cc d n
    collideNodeG velocity eq cc d true false n = .ok
      { f := fun i => (relaxWithG cc eq d m n.f n.g).1 i
          + (eq d { m with u := fun j => velocity d n.f (mass n.f) j + d.dt * d.forces j / mass n.f / d.scaling } i - eq d m i),
        g := (relaxWithG cc eq d m n.f n.g).2.1,
        rho := mass n.f, u := fun j => velocity d n.f (mass n.f) j * d.scaling + 1 / 2 * d.dt * d.forces j / mass n.f,
        T := m.T, shock := (relaxWithG cc eq d m n.f n.g).2.2 } := by
  unfold collideNodeG
  rw [calculateDensity_ok.mpr ⟨h, rfl⟩]
  simp only [applyMacroscopicForces, applyForces, postCollisionApplyForces, ht]
  rfl

theorem collideNodeG_low (hf ini : Bool) (h : mass n.f < 1 / 10 ^ 10) :
    collideNodeG velocity eq cc d hf ini n = .error .densityTooSmall := by
  unfold collideNodeG
  rw [calculateDensity_error.mpr h]; rfl

theorem except_bind_ok {ε α β : Type*} {x : Except ε α} {k : α → Except ε β} {b : β} (h : x.bind k = .ok b) :
    ∃ a, x = .ok a ∧ k a = .ok b := by
  cases x with
  | error e => cases h
  | ok a => exact ⟨a, rfl, h⟩

theorem collideNodeG_rho (hf ini : Bool) (n' : GNode D Q) (h : collideNodeG velocity eq cc d hf ini n = .ok n') :
    n'.rho = mass n.f ∧ ¬ mass n.f < 1 / 10 ^ 10 := by
  unfold collideNodeG at h
  generalize relaxWithG cc eq d = R at h
  generalize calculateTemperature d cc.gamma n.f n.g = T at h
  obtain ⟨rho, hr, h⟩ := except_bind_ok h
  obtain ⟨hl, rfl⟩ := calculateDensity_ok.mp hr
  refine ⟨?_, hl⟩
  generalize mass n.f = rho at h ⊢
  clear hr hl
  cases hf <;> cases ini <;> cases ht : d.forceType <;>
    simp only [applyMacroscopicForces, applyForces, postCollisionApplyForces, ht, bind, Except.bind, pure, Except.pure, if_true,
      Bool.false_eq_true, if_false] at h <;> first | exact (congrArg GNode.rho (Except.ok.inj h)).symm | cases h

end nodeG

section sweepG

variable {D Q : ℕ} {ι : Type*} [DecidableEq ι]

/-- The loop over the owned nodes: it succeeds iff every node succeeds from its own original state. -/
theorem sweepG_ok (step : GNode D Q → Except CollError (GNode D Q)) (owned : List ι) (hn : owned.Nodup)
    (s s' : (ι → GNode D Q) × ℝ) :
    owned.foldlM (sweepStepG step) s = .ok s' ↔
      (∀ j ∈ owned, step (s.1 j) = .ok (s'.1 j)) ∧ (∀ j, j ∉ owned → s'.1 j = s.1 j) ∧
      s'.2 = (owned.getLast?.map fun j => (s'.1 j).rho).getD s.2 := by
  induction owned generalizing s with
  | nil =>
    constructor
    · intro h
      cases h; simp
    · rintro ⟨-, h2, h3⟩
      have : s = s' := Prod.ext (funext fun j => (h2 j (by simp)).symm) (by simpa using h3.symm)
      rw [this]; rfl
  | cons x xs ih =>
    rw [List.nodup_cons] at hn
    rw [foldlM_cons]
    unfold sweepStepG
    cases hx : step (s.1 x) with
    | error err =>
      simp only
      constructor
      · intro h; cases h
      · rintro ⟨h, -⟩
        have := h x (by simp)
        rw [hx] at this; cases this
    | ok n =>
      simp only
      have := ih hn.2 (Function.update s.1 x n, n.rho)
      unfold sweepStepG at this
      rw [this]
      simp only
      have hxs : ∀ j ∈ xs, j ≠ x := fun j hj e => hn.1 (e ▸ hj)
      constructor
      · rintro ⟨h1, h2, h3⟩
        have hx' : s'.1 x = n := by rw [h2 x hn.1]; simp
        refine ⟨?_, ?_, ?_⟩
        · intro j hj
          rcases List.mem_cons.mp hj with rfl | hj
          · rw [hx, hx']
          · have := h1 j hj
            rwa [Function.update_of_ne (hxs j hj)] at this
        · intro j hj
          rw [List.mem_cons, not_or] at hj
          rw [h2 j hj.2, Function.update_of_ne hj.1]
        · rw [h3]
          cases hl : xs.getLast? with
          | none =>
            rw [List.getLast?_eq_none_iff] at hl
            subst hl; simp [hx']
          | some y =>
            rw [List.getLast?_cons, hl]; simp
      · rintro ⟨h1, h2, h3⟩
        have hx' : s'.1 x = n := by
          have := h1 x (by simp)
          rw [hx] at this; cases this; rfl
        refine ⟨?_, ?_, ?_⟩
        · intro j hj
          rw [Function.update_of_ne (hxs j hj)]
          exact h1 j (by simp [hj])
        · intro j hj
          by_cases e : j = x
          · subst e; simp [hx']
          · rw [Function.update_of_ne e]
            exact h2 j (by simp [e, hj])
        · rw [h3]
          cases hl : xs.getLast? with
          | none =>
            rw [List.getLast?_eq_none_iff] at hl
            subst hl; simp [hx']
          | some y =>
            rw [List.getLast?_cons, hl]; simp

/-- Characterisation of a successful compressible sweep. -/
theorem collideAllG_ok (step : GNode D Q → Except CollError (GNode D Q)) (owned : List ι) (hn : owned.Nodup)
    (hs : ∀ n n', step n = .ok n' → n'.rho = mass n.f) (nodes nodes' : ι → GNode D Q) :
    collideAllG step owned nodes = .ok nodes' ↔
      (∀ j ∈ owned, step (nodes j) = .ok (nodes' j)) ∧ (∀ j, j ∉ owned → nodes' j = nodes j) ∧
      ∃ j, owned.getLast? = some j ∧ 1 / 10 ^ 10 < mass (nodes j).f := by
  unfold collideAllG
  have hpos : (0 : ℝ) ≤ 1 / 10 ^ 10 := by positivity
  constructor
  · intro h
    cases hfold : owned.foldlM (sweepStepG step) (nodes, 0) with
    | error err => rw [hfold] at h; cases h
    | ok s' =>
      rw [hfold] at h
      obtain ⟨h1, h2, h3⟩ := (sweepG_ok _ owned hn _ _).mp hfold
      obtain ⟨ns, dn⟩ := s'
      simp only at h h1 h2 h3
      split at h
      · cases h
      rename_i hd
      cases h
      refine ⟨h1, h2, ?_⟩
      cases hl : owned.getLast? with
      | none => rw [hl] at h3; simp only [Option.map_none, Option.getD_none] at h3; rw [h3] at hd; exact absurd hpos hd
      | some j =>
        refine ⟨j, rfl, ?_⟩
        rw [hl] at h3
        simp only [Option.map_some, Option.getD_some] at h3
        rw [← hs _ _ (h1 j (List.mem_of_getLast? hl)), ← h3]
        exact not_le.mp hd
  · rintro ⟨h1, h2, j, hl, hj⟩
    rw [(sweepG_ok step owned hn (nodes, 0) (nodes', (nodes' j).rho)).mpr ⟨h1, h2, by rw [hl]; simp⟩]
    simp only
    rw [if_neg]
    rw [hs _ _ (h1 j (List.mem_of_getLast? hl))]
    exact not_le.mpr hj

theorem comp_rows_bgk : ∀ D, ∀ r ∈ (compSelection D).1, r.collisionType = .bgk ∧
    (r.eq = .bgk ∧ r.equilibriumType = .bgk ∨ r.eq = .quartic ∧ r.equilibriumType = .quartic) := by
  intro D
  unfold compSelection
  split <;> decide

theorem compressibleCollide_ok (t : StencilType) {c viscosity dt : ℝ} (cfg : CollisionConfig t.D) (cc : CompressibleConfig)
    (ini : Bool) (owned : List ι) (hn : owned.Nodup) (nodes nodes' : ι → GNode t.D t.Q) :
    compressibleCollide t c viscosity dt cfg cc ini owned nodes = .ok nodes' ↔
      ∃ ec, (cfg.eq = .bgk ∧ ec = .bgk ∨ cfg.eq = .quartic ∧ ec = .quartic) ∧
        (∃ r, (compSelection t.D).1.find? (·.applies { stencil := t, scheme := cfg.scheme, eq := cfg.eq }) = some r) ∧
        (∀ j ∈ owned, collideNodeG t.velocity (t.equilibrium ec) cc (collisionData t c viscosity dt cfg) cfg.force.isSome ini (nodes j)
          = .ok (nodes' j)) ∧
        (∀ j, j ∉ owned → nodes' j = nodes j) ∧
        ∃ j, owned.getLast? = some j ∧ 1 / 10 ^ 10 < mass (nodes j).f := by
  simp only [compressibleCollide]
  rw [selectCollision_eq _ _ (compSelection_exclusive _)]
  cases h : (compSelection t.D).1.find? (·.applies { stencil := t, scheme := cfg.scheme, eq := cfg.eq }) with
  | none =>
    constructor
    · intro h; cases h
    · rintro ⟨_, _, ⟨r, h⟩, -⟩; cases h
  | some r =>
    obtain ⟨hb, he⟩ := comp_rows_bgk _ r (List.mem_of_find?_eq_some h)
    have ha := List.find?_some h
    rw [applies_iff] at ha
    obtain ⟨-, -, heq⟩ := ha
    simp only [hb]
    rw [collideAllG_ok _ _ hn fun n n' hh => (collideNodeG_rho _ _ _ _ _ _ _ _ hh).1]
    simp only at heq
    rw [heq]
    constructor
    · rintro ⟨h1, h2, h3⟩
      exact ⟨r.equilibriumType, he, ⟨r, rfl⟩, h1, h2, h3⟩
    · rintro ⟨ec, hec, -, h1, h2, h3⟩
      have : ec = r.equilibriumType := by
        rcases hec with ⟨e1, e2⟩ | ⟨e1, e2⟩ <;> rcases he with ⟨e3, e4⟩ | ⟨e3, e4⟩ <;> simp_all
      subst this
      exact ⟨h1, h2, h3⟩

end sweepG

end NATriuM
