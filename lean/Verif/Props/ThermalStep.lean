import Verif.Model.ThermalStep
import Verif.Props.ThermalWall
import Mathlib.Tactic.FinCases

/-!
# Property C119: the thermal wall in a step of the compressible solver

`temperature S.dir S.cs2 γ f g` and `translationalTemperature S.dir S.cs2 f` are the temperatures of a node (`Spec/Walls.lean`).
-/

namespace NATriuM.Walls

open Finset NATriuM.Spec

section

variable {K : Type*} [Field K] [LinearOrder K] [IsStrictOrderedRing K] {Q : ℕ}

omit [LinearOrder K] [IsStrictOrderedRing K] in
/-- The temperature is the mean of the translational one (weight 3/5) and that of the inner degrees of freedom (weight 2/5). -/
theorem temperature_split [CharZero K] (S : Stencil K 3 Q) (hc : S.cs2 ≠ 0) (f g : Fin Q → K) (hm : mass f ≠ 0) :
    temperature S.dir S.cs2 (14 / 10) f g = (3 * translationalTemperature S.dir S.cs2 f + mass g / mass f) / 5 := by
  unfold temperature translationalTemperature
  rw [totalEnergy_eq]
  push_cast
  field_simp
  ring

variable {ι : Type*} [DecidableEq ι]

/-- What is left of the difference to the wall temperature after hits of a node: nothing of importance, or a difference `e` of the translational
temperature and the temperature that is `2/5` of what it was before. -/
def Relaxed (Tw e T θ : K) : Prop := |T - Tw| ≤ 1 / 100000 ∨ T = Tw + 3 / 2 * e ∧ θ - T = e

/-- **C119** (hits) A node that is hit `k + 1` times in a step (once for each direction that comes from the wall) comes close to the wall
temperature, whatever its state was: the difference is at most `1e-5` or `3/5 (2/5)^k` of the difference between the translational temperature and the
temperature before.  Density, momentum and the other nodes are unchanged. -/
theorem C119_hits (S : Stencil K 3 45) (h : Iso6 S.weight S.dir S.cs2) (hs : S.scaling ≠ 0) (hc : S.cs2 ≠ 0) (Tw : K) (x : ι)
    (f g : Store K 45 ι) (hr : 1 / 10 ^ 10 ≤ mass (fun i => f i x)) (k : ℕ) :
    ∃ f' g', thermalHits quarticEquilibrium3 S Tw (List.replicate (k + 1) x) f g = .ok (f', g') ∧
      (∀ i y, y ≠ x → f' i y = f i y ∧ g' i y = g i y) ∧
      mass (fun i => f' i x) = mass (fun i => f i x) ∧
      (∀ a, momentum S.dir (fun i => f' i x) a = momentum S.dir (fun i => f i x) a) ∧
      let T := temperature S.dir S.cs2 (14 / 10) (fun i => f i x) (fun i => g i x)
      let θ := translationalTemperature S.dir S.cs2 (fun i => f i x)
      let T' := temperature S.dir S.cs2 (14 / 10) (fun i => f' i x) (fun i => g' i x)
      (|T' - Tw| ≤ 1 / 100000 ∨ T' = Tw + 3 / 5 * (2 / 5) ^ k * (θ - T)) := by
  have hq : ¬ (45 : ℕ) ≠ 45 := fun h => h rfl
  -- one hit
  have one : ∀ f g : Store K 45 ι, 1 / 10 ^ 10 ≤ mass (fun i => f i x) → ∃ f' g', thermalWall quarticEquilibrium3 S Tw x f g = .ok (f', g') ∧
      (∀ i y, y ≠ x → f' i y = f i y ∧ g' i y = g i y) ∧ mass (fun i => f' i x) = mass (fun i => f i x) ∧
      (∀ a, momentum S.dir (fun i => f' i x) a = momentum S.dir (fun i => f i x) a) ∧
      Relaxed Tw (2 / 5 * (translationalTemperature S.dir S.cs2 (fun i => f i x) - temperature S.dir S.cs2 (14 / 10) (fun i => f i x) (fun i => g i x)))
        (temperature S.dir S.cs2 (14 / 10) (fun i => f' i x) (fun i => g' i x)) (translationalTemperature S.dir S.cs2 (fun i => f' i x)) := by
    intro f g hr
    obtain ⟨r, h1, h2, h3⟩ := thermalNode_spec S h hs hc Tw (fun i => f i x) (fun i => g i x) hr
    have hm : mass (fun i => f i x) ≠ 0 := (lt_of_lt_of_le (by positivity) hr).ne'
    by_cases hT : 1 / 100000 < |temperature S.dir S.cs2 (14 / 10) (fun i => f i x) (fun i => g i x) - Tw|
    · obtain ⟨f', g', rfl, m0, m1, mg, ht⟩ := h3 hT
      refine ⟨fun i y => if y = x then f' i else f i y, fun i y => if y = x then g' i else g i y, ?_, ?_, ?_, ?_, ?_⟩
      · unfold thermalWall; rw [if_neg hq, h1]
      · intro i y hy; simp only [if_neg hy, and_self]
      · simpa using m0
      · simpa using m1
      · simp only [if_true]
        right
        have hsp := temperature_split S hc f' g' (by rw [m0]; exact hm)
        rw [mg, m0, ht] at hsp
        have hdiv : 2 * Tw * mass (fun i => f i x) / mass (fun i => f i x) = 2 * Tw := by field_simp
        rw [hdiv] at hsp
        refine ⟨?_, ?_⟩
        · show temperature S.dir S.cs2 (14 / 10) f' g' = _
          rw [ht]; ring
        · show translationalTemperature S.dir S.cs2 f' - temperature S.dir S.cs2 (14 / 10) f' g' = _
          rw [ht]; linear_combination -(5 / 3) * hsp
    · have hle := not_lt.mp hT
      rw [h2 hle] at h1
      refine ⟨f, g, ?_, fun i y _ => ⟨rfl, rfl⟩, rfl, fun _ => rfl, .inl hle⟩
      unfold thermalWall; rw [if_neg hq, h1]
  -- k further hits
  have more : ∀ k (f g : Store K 45 ι) (e : K), 1 / 10 ^ 10 ≤ mass (fun i => f i x) →
      Relaxed Tw e (temperature S.dir S.cs2 (14 / 10) (fun i => f i x) (fun i => g i x)) (translationalTemperature S.dir S.cs2 (fun i => f i x)) →
      ∃ f' g', thermalHits quarticEquilibrium3 S Tw (List.replicate k x) f g = .ok (f', g') ∧
      (∀ i y, y ≠ x → f' i y = f i y ∧ g' i y = g i y) ∧ mass (fun i => f' i x) = mass (fun i => f i x) ∧
      (∀ a, momentum S.dir (fun i => f' i x) a = momentum S.dir (fun i => f i x) a) ∧
      Relaxed Tw ((2 / 5) ^ k * e) (temperature S.dir S.cs2 (14 / 10) (fun i => f' i x) (fun i => g' i x))
        (translationalTemperature S.dir S.cs2 (fun i => f' i x)) := by
    intro k
    induction k with
    | zero =>
      intro f g e _ hR
      exact ⟨f, g, rfl, fun _ _ _ => ⟨rfl, rfl⟩, rfl, fun _ => rfl, by simpa using hR⟩
    | succ k ih =>
      intro f g e hr hR
      have hstep : ∃ f' g', thermalWall quarticEquilibrium3 S Tw x f g = .ok (f', g') ∧
          (∀ i y, y ≠ x → f' i y = f i y ∧ g' i y = g i y) ∧ mass (fun i => f' i x) = mass (fun i => f i x) ∧
          (∀ a, momentum S.dir (fun i => f' i x) a = momentum S.dir (fun i => f i x) a) ∧
          Relaxed Tw (2 / 5 * e) (temperature S.dir S.cs2 (14 / 10) (fun i => f' i x) (fun i => g' i x))
            (translationalTemperature S.dir S.cs2 (fun i => f' i x)) := by
        rcases hR with hR | hR
        · obtain ⟨r, h1, h2, -⟩ := thermalNode_spec S h hs hc Tw (fun i => f i x) (fun i => g i x) hr
          rw [h2 hR] at h1
          refine ⟨f, g, ?_, fun i y _ => ⟨rfl, rfl⟩, rfl, fun _ => rfl, .inl hR⟩
          unfold thermalWall; rw [if_neg hq, h1]
        · obtain ⟨f', g', a1, a2, a3, a4, a5⟩ := one f g hr
          rw [hR.2] at a5
          exact ⟨f', g', a1, a2, a3, a4, a5⟩
      obtain ⟨f1, g1, a1, a2, a3, a4, a5⟩ := hstep
      obtain ⟨f2, g2, b1, b2, b3, b4, b5⟩ := ih f1 g1 (2 / 5 * e) (by rw [a3]; exact hr) a5
      refine ⟨f2, g2, ?_, fun i y hy => ?_, b3.trans a3, fun a => (b4 a).trans (a4 a), ?_⟩
      · rw [List.replicate_succ, thermalHits, a1]; exact b1
      · exact ⟨(b2 i y hy).1.trans (a2 i y hy).1, (b2 i y hy).2.trans (a2 i y hy).2⟩
      · rw [pow_succ, mul_assoc]; exact b5
  obtain ⟨f1, g1, a1, a2, a3, a4, a5⟩ := one f g hr
  obtain ⟨f2, g2, b1, b2, b3, b4, b5⟩ := more k f1 g1 _ (by rw [a3]; exact hr) a5
  refine ⟨f2, g2, ?_, fun i y hy => ?_, b3.trans a3, fun a => (b4 a).trans (a4 a), ?_⟩
  · rw [List.replicate_succ, thermalHits, a1]; exact b1
  · exact ⟨(b2 i y hy).1.trans (a2 i y hy).1, (b2 i y hy).2.trans (a2 i y hy).2⟩
  · rcases b5 with b5 | b5
    · exact .inl b5
    · right
      rw [b5.1]; ring

omit [LinearOrder K] [IsStrictOrderedRing K] in
/-- The temperature with other populations `g` -/
theorem temperature_other [CharZero K] (S : Stencil K 3 Q) (hc : S.cs2 ≠ 0) (f g g' : Fin Q → K) (hm : mass f ≠ 0) :
    temperature S.dir S.cs2 (14 / 10) f g' = temperature S.dir S.cs2 (14 / 10) f g + (mass g' - mass g) / (5 * mass f) := by
  rw [temperature_split S hc f g hm, temperature_split S hc f g' hm]
  field_simp
  ring

/-- **C119** (partial; the full claim – after the streaming of a step a node at the wall has the wall temperature – is false, see `C119_step_fails`)
After the streaming of a step, the temperature of a node that was hit `k + 1` times is that set by the wall plus `1 / (5 ρ)` times the amount by which the
streaming of `g`, which comes afterwards, changes the sum of the `g` of the node. -/
theorem C119_step_partial (S : Stencil K 3 45) (h : Iso6 S.weight S.dir S.cs2) (hs : S.scaling ≠ 0) (hc : S.cs2 ≠ 0) (Tw : K) (x : ι)
    (vmult : Store K 45 ι → Store K 45 ι) (f g : Store K 45 ι) (hr : 1 / 10 ^ 10 ≤ mass (fun i => vmult f i x)) (k : ℕ) :
    ∃ f' g1, thermalHits quarticEquilibrium3 S Tw (List.replicate (k + 1) x) (vmult f) g = .ok (f', g1) ∧
      thermalStream quarticEquilibrium3 S vmult Tw (List.replicate (k + 1) x) f g = .ok (f', vmult g1) ∧
      temperature S.dir S.cs2 (14 / 10) (fun i => f' i x) (fun i => vmult g1 i x)
        = temperature S.dir S.cs2 (14 / 10) (fun i => f' i x) (fun i => g1 i x)
          + (mass (fun i => vmult g1 i x) - mass (fun i => g1 i x)) / (5 * mass (fun i => vmult f i x)) := by
  obtain ⟨f', g1, h1, -, h3, -⟩ := C119_hits S h hs hc Tw x (vmult f) g hr k
  refine ⟨f', g1, h1, by rw [thermalStream, h1], ?_⟩
  have hm : mass (fun i => vmult f i x) ≠ 0 := (lt_of_lt_of_le (by positivity) hr).ne'
  rw [← h3]
  exact temperature_other S hc _ _ _ (by rw [h3]; exact hm)

end

namespace Sample

/-- Two nodes that change places in all directions but the first -/
def swap (f : Store ℚ 45 (Fin 2)) : Store ℚ 45 (Fin 2) := fun i y => if i = 0 then f i y else f i (1 - y)

/-- Gas in equilibrium at rest: node 0 has temperature 1, node 1 temperature `(3 + s) / 5` (`s = 2` is temperature 1) -/
def gas (s : ℚ) : Store ℚ 45 (Fin 2) := fun i y => if y = 0 then 2 * stencil.weight i else s * stencil.weight i

theorem weights_without : ∑ i : Fin 45, (if i = 0 then 2 * stencil.weight i else 7 * stencil.weight i) = 79 / 12 := by
  decide +kernel

/-- **C119 fails** A node of temperature 1 at a wall of temperature 1, next to a warmer node: the wall does nothing, as it looks at the `g` before the
streaming, and after the streaming the node has temperature 23/12. -/
theorem C119_step_fails :
    temperature stencil.dir stencil.cs2 (14 / 10) (fun i => swap (fun i _ => stencil.weight i) i 0) (fun i => gas 7 i 0) = 1 ∧
    thermalStream quarticEquilibrium3 stencil swap 1 [0] (fun i _ => stencil.weight i) (gas 7) = .ok (fun i _ => stencil.weight i, swap (gas 7)) ∧
    temperature stencil.dir stencil.cs2 (14 / 10) (fun i => stencil.weight i) (fun i => swap (gas 7) i 0) = 23 / 12 := by
  have hsw : swap (fun i _ => stencil.weight i) = fun i _ => stencil.weight i := by
    funext i y; simp [swap]
  have h1 : temperature stencil.dir stencil.cs2 (14 / 10) (fun i => stencil.weight i) (fun i => gas 7 i 0) = 1 := by
    have : (fun i => gas 7 i 0) = fun i => 2 * stencil.weight i := by funext i; simp [gas]
    rw [this, show (fun i => stencil.weight i) = stencil.weight from rfl, temperature_sample]; norm_num
  refine ⟨by rw [hsw]; exact h1, ?_, ?_⟩
  · obtain ⟨f', g', a1, -, -, -, -, -, a2⟩ := C49_wall_partial stencil iso6 (by norm_num [stencil]) (by norm_num [stencil]) 1 (0 : Fin 2)
      (fun i _ => stencil.weight i) (gas 7) (by rw [mass_one]; norm_num)
    rw [h1] at a2
    obtain ⟨rfl, rfl, -⟩ := a2 (by norm_num)
    simp only [thermalStream, hsw, thermalHits, a1]
  · have h2 := temperature_other stencil (by norm_num [stencil]) (fun i => stencil.weight i) (fun i => gas 7 i 0) (fun i => swap (gas 7) i 0)
      (by rw [mass_one]; norm_num)
    have h3 : mass (fun i => swap (gas 7) i 0) = 79 / 12 := by
      rw [← weights_without]
      unfold mass
      refine Finset.sum_congr rfl fun i _ => ?_
      simp [swap, gas]
    have h4 : mass (fun i => gas 7 i 0) = 2 := by
      have : (fun i => gas 7 i 0) = fun i => 2 * stencil.weight i := by funext i; simp [gas]
      rw [this, mass_weight]
    rw [h2, h1, h3, h4, mass_one]; norm_num

/-- Three hits bring the node of `C49_temperature_fails` from temperature 2 to 1 - 12/125 · … -/
example : ∃ f' g', thermalHits quarticEquilibrium3 stencil 1 (List.replicate 3 ()) (fun i _ => stencil.weight i) (fun i _ => 7 * stencil.weight i)
      = .ok (f', g') ∧ |temperature stencil.dir stencil.cs2 (14 / 10) (fun i => f' i ()) (fun i => g' i ()) - 1| ≤ 12 / 125 := by
  obtain ⟨f', g', h1, -, -, -, h2⟩ := C119_hits stencil iso6 (by norm_num [stencil]) (by norm_num [stencil]) 1 ()
    (fun i _ => stencil.weight i) (fun i _ => 7 * stencil.weight i) (by rw [mass_one]; norm_num) 2
  refine ⟨f', g', h1, ?_⟩
  rcases h2 with h2 | h2
  · exact h2.trans (by norm_num)
  · rw [h2, show (fun i => stencil.weight i) = stencil.weight from rfl, temperature_sample, translational_sample]
    norm_num [abs_of_neg]

end Sample

end NATriuM.Walls
