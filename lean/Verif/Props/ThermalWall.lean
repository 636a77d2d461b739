import Verif.Props.Walls

/-!
# Property C49: the thermal wall

`temperature S.dir S.cs2 γ f g` and `translationalTemperature S.dir S.cs2 f` are the temperatures of a node (`Spec/Walls.lean`).  The code
accepts stencils with 45 directions only and computes with `γ = 1.4`.
-/

namespace NATriuM.Walls

open Finset NATriuM.Spec

section

variable {K : Type*} [Field K] [LinearOrder K] [IsStrictOrderedRing K] {Q : ℕ}

/-- Result of the thermal wall on the populations of one node. -/
theorem thermalNode_spec (S : Stencil K 3 Q) (h : Iso6 S.weight S.dir S.cs2) (hs : S.scaling ≠ 0) (hc : S.cs2 ≠ 0) (Tw : K)
    (f g : Fin Q → K) (hr : 1 / 10 ^ 10 ≤ mass f) :
    ∃ r, thermalNode quarticEquilibrium3 S Tw f g = .ok r ∧
      (|temperature S.dir S.cs2 (14 / 10) f g - Tw| ≤ 1 / 100000 → r = none) ∧
      (1 / 100000 < |temperature S.dir S.cs2 (14 / 10) f g - Tw| → ∃ f' g', r = some (f', g') ∧
        mass f' = mass f ∧ (∀ a, momentum S.dir f' a = momentum S.dir f a) ∧
        mass g' = 2 * Tw * mass f ∧
        temperature S.dir S.cs2 (14 / 10) f' g'
          = Tw + 3 / 5 * (translationalTemperature S.dir S.cs2 f - temperature S.dir S.cs2 (14 / 10) f g)) := by
  have hm : mass f ≠ 0 := (lt_of_lt_of_le (by positivity) hr).ne'
  have hc' : (wallData S).cs2 ≠ 0 := div_ne_zero hc (mul_ne_zero hs hs)
  have hi := wallData_iso h hs
  have hd : calculateDensity f = .ok (mass f) := by
    exact if_neg (not_lt.mpr hr)
  set u := calculateVelocity (wallData S) f (mass f) with hu
  have hmom : ∀ a, momentum (wallData S).e f a = mass f * u a := fun a => by
    rw [hu]; unfold calculateVelocity momentum
    rw [show ∑ i, (wallData S).e i a * f i = ∑ i, f i * (wallData S).e i a from Finset.sum_congr rfl fun i _ => mul_comm _ _]
    field_simp
  have hT : calculateTemperature (wallData S) wallGamma f g u (mass f) = temperature S.dir S.cs2 (14 / 10) f g := by
    rw [temperature_scale S hs hc, ← calculateTemperature_spec (wallData S) (14 / 10) (by norm_num) hc' f g hm]; rfl
  set T := temperature S.dir S.cs2 (14 / 10) f g with hTdef
  have hn : thermalNode quarticEquilibrium3 S Tw f g = .ok (if |T - Tw| > 1 / 100000 then
      some (fun i => f i - quarticEquilibrium3 (wallData S) ⟨mass f, u, T⟩ i + quarticEquilibrium3 (wallData S) ⟨mass f, u, Tw⟩ i,
        calculateGeqFromFeq (D := 3) wallGamma Tw (quarticEquilibrium3 (wallData S) ⟨mass f, u, Tw⟩)) else none) := by
    unfold thermalNode
    rw [hd]
    simp only [bind, Except.bind, pure, Except.pure]
    rw [← hu, hT]
    split <;> rfl
  refine ⟨_, hn, fun hle => if_neg (not_lt.mpr hle), fun hgt => ⟨_, _, if_pos hgt, ?_⟩⟩
  have hcons := quartic3_mass_momentum (d := wallData S) hi.toIso5 hc'
  set F := quarticEquilibrium3 (wallData S) ⟨mass f, u, T⟩ with hF
  set G := quarticEquilibrium3 (wallData S) ⟨mass f, u, Tw⟩ with hG
  have e0 : mass F = mass f := hcons.mass _
  have e0' : mass G = mass f := hcons.mass _
  have e1 : ∀ a, momentum (wallData S).e F a = mass f * u a := hcons.momentum ⟨mass f, u, T⟩
  have e1' : ∀ a, momentum (wallData S).e G a = mass f * u a := hcons.momentum ⟨mass f, u, Tw⟩
  have e2 : ∀ a b, momentumFlux (wallData S).e F a b = mass f * ((wallData S).cs2 * T * δ a b + u a * u b) :=
    quartic3_flux hi hc' ⟨mass f, u, T⟩
  have e2' : ∀ a b, momentumFlux (wallData S).e G a b = mass f * ((wallData S).cs2 * Tw * δ a b + u a * u b) :=
    quartic3_flux hi hc' ⟨mass f, u, Tw⟩
  have m0 : mass (fun i => f i - F i + G i) = mass f := by
    have : mass (fun i => f i - F i + G i) = mass f - mass F + mass G := by
      unfold mass; rw [Finset.sum_add_distrib, Finset.sum_sub_distrib]
    rw [this, e0, e0']; ring
  have m1 : ∀ a, momentum (wallData S).e (fun i => f i - F i + G i) a = momentum (wallData S).e f a := fun a => by
    have : momentum (wallData S).e (fun i => f i - F i + G i) a
        = momentum (wallData S).e f a - momentum (wallData S).e F a + momentum (wallData S).e G a := by
      unfold momentum; rw [← Finset.sum_sub_distrib, ← Finset.sum_add_distrib]
      exact Finset.sum_congr rfl fun i _ => by ring
    rw [this, e1, e1']; ring
  have m2 : ∑ a, momentumFlux (wallData S).e (fun i => f i - F i + G i) a a
      = (∑ a, momentumFlux (wallData S).e f a a) + 3 * mass f * (wallData S).cs2 * (Tw - T) := by
    have : ∀ a, momentumFlux (wallData S).e (fun i => f i - F i + G i) a a
        = momentumFlux (wallData S).e f a a + mass f * (wallData S).cs2 * (Tw - T) := fun a => by
      have : momentumFlux (wallData S).e (fun i => f i - F i + G i) a a
          = momentumFlux (wallData S).e f a a - momentumFlux (wallData S).e F a a + momentumFlux (wallData S).e G a a := by
        unfold momentumFlux; rw [← Finset.sum_sub_distrib, ← Finset.sum_add_distrib]
        exact Finset.sum_congr rfl fun i _ => by ring
      rw [this, e2, e2', δ_self]; ring
    simp only [this, Finset.sum_add_distrib, Finset.sum_const, Finset.card_univ, Fintype.card_fin, nsmul_eq_mul]
    push_cast; ring
  have mg : mass (calculateGeqFromFeq (D := 3) (wallGamma : K) Tw G) = 2 * Tw * mass f := by
    have : mass (calculateGeqFromFeq (D := 3) (wallGamma : K) Tw G) = mass G * Tw * (2 * (1 / ((wallGamma : K) - 1)) - (3 : ℕ)) := by
      unfold mass calculateGeqFromFeq; rw [Finset.sum_mul, Finset.sum_mul]
    rw [this, e0']; unfold wallGamma; push_cast; norm_num; ring
  have he : ∀ i a, (wallData S).e i a = S.dir i a / S.scaling := fun _ _ => rfl
  refine ⟨m0, fun a => ?_, mg, ?_⟩
  · rw [momentum_scale he hs, momentum_scale he hs, m1]
  · rw [temperature_scale S hs hc, translational_scale S hs]
    unfold temperature translationalTemperature
    rw [totalEnergy_eq, m0, m2, mg]
    simp only [m1, hmom]
    rw [show ∑ a, mass f * u a * (mass f * u a) = mass f * mass f * ∑ a, u a * u a by
      rw [Finset.mul_sum]; exact Finset.sum_congr rfl fun a _ => by ring]
    push_cast
    field_simp
    ring

variable {ι : Type*} [DecidableEq ι]

/-- **C49** (partial) The thermal wall leaves density and velocity of the node as they are and touches no other node.  The new
temperature is the wall temperature up to `3/5` of the difference between the translational temperature and the temperature of the
node before; it is the wall temperature exactly if these two were equal.  Nothing happens if the temperature is within `1e-5` of the
wall temperature already. -/
theorem C49_wall_partial (S : Stencil K 3 45) (h : Iso6 S.weight S.dir S.cs2) (hs : S.scaling ≠ 0) (hc : S.cs2 ≠ 0) (Tw : K) (x : ι)
    (f g : Store K 45 ι) (hr : 1 / 10 ^ 10 ≤ mass (fun i => f i x)) :
    ∃ f' g', thermalWall quarticEquilibrium3 S Tw x f g = .ok (f', g') ∧
      (∀ i y, y ≠ x → f' i y = f i y ∧ g' i y = g i y) ∧
      mass (fun i => f' i x) = mass (fun i => f i x) ∧
      (∀ a, momentum S.dir (fun i => f' i x) a = momentum S.dir (fun i => f i x) a) ∧
      let T := temperature S.dir S.cs2 (14 / 10) (fun i => f i x) (fun i => g i x)
      let θ := translationalTemperature S.dir S.cs2 (fun i => f i x)
      let T' := temperature S.dir S.cs2 (14 / 10) (fun i => f' i x) (fun i => g' i x)
      (1 / 100000 < |T - Tw| → T' = Tw + 3 / 5 * (θ - T)) ∧
      (1 / 100000 < |T - Tw| → (T' = Tw ↔ θ = T)) ∧
      (|T - Tw| ≤ 1 / 100000 → f' = f ∧ g' = g ∧ |T' - Tw| ≤ 1 / 100000) := by
  obtain ⟨r, h1, h2, h3⟩ := thermalNode_spec S h hs hc Tw (fun i => f i x) (fun i => g i x) hr
  have hq : ¬ (45 : ℕ) ≠ 45 := fun h => h rfl
  by_cases hT : 1 / 100000 < |temperature S.dir S.cs2 (14 / 10) (fun i => f i x) (fun i => g i x) - Tw|
  · obtain ⟨f', g', rfl, m0, m1, -, ht⟩ := h3 hT
    refine ⟨fun i y => if y = x then f' i else f i y, fun i y => if y = x then g' i else g i y, ?_, ?_, ?_, ?_, ?_⟩
    · unfold thermalWall; rw [if_neg hq, h1]
    · intro i y hy; simp only [if_neg hy, and_self]
    · simpa using m0
    · simpa using m1
    · dsimp only
      simp only [if_true]
      refine ⟨fun _ => ht, fun _ => ?_, fun hle => absurd hT (not_lt.mpr hle)⟩
      rw [ht]
      constructor
      · intro h; linear_combination 5 / 3 * h
      · intro h; rw [h]; ring
  · have hle := not_lt.mp hT
    rw [h2 hle] at h1
    refine ⟨f, g, ?_, fun i y _ => ⟨rfl, rfl⟩, rfl, fun _ => rfl, fun h => absurd h hT, fun h => absurd h hT, fun _ => ⟨rfl, rfl, hle⟩⟩
    unfold thermalWall; rw [if_neg hq, h1]

omit [IsStrictOrderedRing K] in
/-- **C49** Other stencils are refused. -/
theorem C49_other_stencils {D : ℕ} (eq : Equilibrium K D Q) (S : Stencil K D Q) (Tw : K) (x : ι) (f g : Store K Q ι) (hq : Q ≠ 45) :
    thermalWall eq S Tw x f g = .error .assertion := if_pos hq

/-- **C49**, finding: used without a second set of populations (isothermal solver), the wall multiplies the density of the node with
`2 Tw`, because the populations are overwritten by those of the internal energy. -/
theorem C49_isothermal_fails (S : Stencil K 3 45) (h : Iso6 S.weight S.dir S.cs2) (hs : S.scaling ≠ 0) (hc : S.cs2 ≠ 0) (Tw : K) (x : ι)
    (f : Store K 45 ι) (hr : 1 / 10 ^ 10 ≤ mass (fun i => f i x))
    (hT : 1 / 100000 < |temperature S.dir S.cs2 (14 / 10) (fun i => f i x) (fun i => f i x) - Tw|) :
    ∃ f', thermalWallOneDistribution quarticEquilibrium3 S Tw x f = .ok f' ∧
      mass (fun i => f' i x) = 2 * Tw * mass (fun i => f i x) := by
  obtain ⟨r, h1, -, h3⟩ := thermalNode_spec S h hs hc Tw (fun i => f i x) (fun i => f i x) hr
  obtain ⟨f', g', rfl, -, -, mg, -⟩ := h3 hT
  refine ⟨fun i y => if y = x then g' i else f i y, ?_, by simpa using mg⟩
  unfold thermalWallOneDistribution
  rw [if_neg (fun h => h rfl), h1]

end

/-! ## A concrete stencil -/

namespace Sample

/-- directions of the 39-velocity stencil with exact sixth-order isotropy, filled up to 45 -/
def dirs : List (Fin 3 → ℤ) :=
  [![0, 0, 0],
   ![1, 0, 0], ![-1, 0, 0], ![0, 1, 0], ![0, -1, 0], ![0, 0, 1], ![0, 0, -1],
   ![1, 1, 1], ![-1, 1, 1], ![1, -1, 1], ![1, 1, -1], ![-1, -1, 1], ![-1, 1, -1], ![1, -1, -1], ![-1, -1, -1],
   ![2, 0, 0], ![-2, 0, 0], ![0, 2, 0], ![0, -2, 0], ![0, 0, 2], ![0, 0, -2],
   ![2, 2, 0], ![-2, 2, 0], ![2, -2, 0], ![-2, -2, 0], ![0, 2, 2], ![0, -2, 2], ![0, 2, -2], ![0, -2, -2],
   ![2, 0, 2], ![-2, 0, 2], ![2, 0, -2], ![-2, 0, -2],
   ![3, 0, 0], ![-3, 0, 0], ![0, 3, 0], ![0, -3, 0], ![0, 0, 3], ![0, 0, -3],
   ![0, 0, 0], ![0, 0, 0], ![0, 0, 0], ![0, 0, 0], ![0, 0, 0], ![0, 0, 0]]

/-- weights -/
def weights : List ℚ :=
  [1 / 12] ++ List.replicate 6 (1 / 12) ++ List.replicate 8 (1 / 27) ++ List.replicate 6 (2 / 135) ++ List.replicate 12 (1 / 432)
    ++ List.replicate 6 (1 / 1620) ++ List.replicate 6 0

/-- a stencil with 45 directions and exact sixth-order isotropy -/
def stencil : Stencil ℚ 3 45 where
  weight i := weights.getD i 0
  dir i a := (dirs.getD i 0 a : ℚ)
  opp i := i
  cs2 := 2 / 3
  scaling := 1

theorem iso6 : Iso6 stencil.weight stencil.dir stencil.cs2 where
  m0 := by decide +kernel
  m1 := by decide +kernel
  m2 := by decide +kernel
  m3 := by decide +kernel
  m4 := by decide +kernel
  m5 := by decide +kernel
  m6 := by decide +kernel

theorem mass_one : mass (fun i => stencil.weight i) = 1 := iso6.m0

theorem mass_weight (s : ℚ) : mass (fun i => s * stencil.weight i) = s := by
  unfold mass; rw [← Finset.mul_sum, iso6.m0, mul_one]

theorem temperature_sample (s : ℚ) :
    temperature stencil.dir stencil.cs2 (14 / 10) stencil.weight (fun i => s * stencil.weight i) = (3 + s) / 5 := by
  unfold temperature
  have h0 : mass stencil.weight = 1 := iso6.m0
  have h1 : ∀ a, momentum stencil.dir stencil.weight a = 0 := iso6.m1
  have h2 : ∀ a b, momentumFlux stencil.dir stencil.weight a b = stencil.cs2 * δ a b := iso6.m2
  rw [totalEnergy_eq, h0, mass_weight]
  simp only [h1, h2, δ_self]
  norm_num [stencil]
  ring

theorem translational_sample : translationalTemperature stencil.dir stencil.cs2 stencil.weight = 1 := by
  unfold translationalTemperature
  have h0 : mass stencil.weight = 1 := iso6.m0
  have h1 : ∀ a, momentum stencil.dir stencil.weight a = 0 := iso6.m1
  have h2 : ∀ a b, momentumFlux stencil.dir stencil.weight a b = stencil.cs2 * δ a b := iso6.m2
  rw [h0]
  simp only [h1, h2, δ_self]
  norm_num [stencil]

/-- **C49**, finding: a node at rest with temperature 2 of which the translational part is 1; the wall has temperature 1 and leaves the
node at temperature 0.4, although temperature 1 was asked for. -/
theorem C49_temperature_fails :
    ∃ f' g', thermalWall quarticEquilibrium3 stencil 1 () (fun i _ => stencil.weight i) (fun i _ => 7 * stencil.weight i) = .ok (f', g') ∧
      temperature stencil.dir stencil.cs2 (14 / 10) (fun i => stencil.weight i) (fun i => 7 * stencil.weight i) = 2 ∧
      temperature stencil.dir stencil.cs2 (14 / 10) (fun i => f' i ()) (fun i => g' i ()) = 2 / 5 := by
  obtain ⟨f', g', h1, -, -, -, h2, -⟩ := C49_wall_partial stencil iso6 (by norm_num [stencil]) (by norm_num [stencil]) 1 ()
    (fun i _ => stencil.weight i) (fun i _ => 7 * stencil.weight i) (by rw [mass_one]; norm_num)
  have hT : temperature stencil.dir stencil.cs2 (14 / 10) (fun i => stencil.weight i) (fun i => 7 * stencil.weight i) = 2 := by
    rw [show (fun i => stencil.weight i) = stencil.weight from rfl, temperature_sample]; norm_num
  refine ⟨f', g', h1, hT, ?_⟩
  rw [hT] at h2
  rw [h2 (by norm_num), show (fun i => stencil.weight i) = stencil.weight from rfl, translational_sample]
  norm_num

/-- In equilibrium the wall works: a node at temperature 1 next to a wall of temperature 3/2. -/
example : ∃ f' g', thermalWall quarticEquilibrium3 stencil (3 / 2) () (fun i _ => stencil.weight i) (fun i _ => 2 * stencil.weight i)
    = .ok (f', g') ∧ temperature stencil.dir stencil.cs2 (14 / 10) (fun i => f' i ()) (fun i => g' i ()) = 3 / 2 := by
  obtain ⟨f', g', h1, -, -, -, -, h2, -⟩ := C49_wall_partial stencil iso6 (by norm_num [stencil]) (by norm_num [stencil]) (3 / 2) ()
    (fun i _ => stencil.weight i) (fun i _ => 2 * stencil.weight i) (by rw [mass_one]; norm_num)
  have hT : temperature stencil.dir stencil.cs2 (14 / 10) (fun i => stencil.weight i) (fun i => 2 * stencil.weight i) = 1 := by
    rw [show (fun i => stencil.weight i) = stencil.weight from rfl, temperature_sample]; norm_num
  refine ⟨f', g', h1, ?_⟩
  rw [hT] at h2
  exact (h2 (by norm_num [abs_of_neg])).mpr translational_sample

/-- the isothermal solver next to a wall of temperature 1: the density doubles -/
example : ∃ f', thermalWallOneDistribution quarticEquilibrium3 stencil 1 () (fun i _ => stencil.weight i) = .ok f' ∧
    mass (fun i => f' i ()) = 2 := by
  have hT : temperature stencil.dir stencil.cs2 (14 / 10) (fun i => stencil.weight i) (fun i => stencil.weight i) = 4 / 5 := by
    have := temperature_sample 1
    simp only [one_mul] at this
    rw [show (fun i => stencil.weight i) = stencil.weight from rfl, this]; norm_num
  obtain ⟨f', h1, h2⟩ := C49_isothermal_fails stencil iso6 (by norm_num [stencil]) (by norm_num [stencil]) 1 ()
    (fun i _ => stencil.weight i) (by rw [mass_one]; norm_num) (by rw [hT]; norm_num [abs_of_neg])
  refine ⟨f', h1, ?_⟩
  rw [h2, mass_one]; norm_num

end Sample

end NATriuM.Walls
