import Verif.Lemmas.BoundaryValues
import Mathlib.Tactic.FinCases
import Mathlib.Tactic.NormNum
import Mathlib.Tactic.Positivity
import Mathlib.Algebra.BigOperators.Fin
import Mathlib.Data.Rat.Defs
import Mathlib.Algebra.BigOperators.Field

/-!
# Properties C84–C86: flow variables at boundaries, prescribed values, application of the boundaries
-/

namespace NATriuM.BoundaryValues

open Finset NATriuM.Walls NATriuM.Spec.BoundaryFlow

/-! ## C84: flow variables at boundary points -/

section C84

theorem has_none : (onlyDistributions).has boundaryRho = false := by decide
theorem has_rho : (onlyDistributions ||| boundaryRho : Flags).has boundaryRho = true := by decide
theorem has_no_u : (onlyDistributions ||| boundaryRho : Flags).has boundaryU = false := by decide
theorem u_has_rho : (onlyDistributions ||| boundaryRho ||| boundaryU : Flags).has boundaryRho = true := by decide
theorem u_has_u : (onlyDistributions ||| boundaryRho ||| boundaryU : Flags).has boundaryU = true := by decide
theorem u_has_no_drho : (onlyDistributions ||| boundaryRho ||| boundaryU : Flags).has boundaryDRhoDt = false := by decide
theorem u_has_no_du : (onlyDistributions ||| boundaryRho ||| boundaryU : Flags).has boundaryDuDt = false := by decide
theorem d_has_rho : (onlyDistributions ||| boundaryRho ||| boundaryU ||| boundaryDRhoDt : Flags).has boundaryRho = true := by decide
theorem d_has_u : (onlyDistributions ||| boundaryRho ||| boundaryU ||| boundaryDRhoDt : Flags).has boundaryU = true := by decide
theorem d_has_no_du : (onlyDistributions ||| boundaryRho ||| boundaryU ||| boundaryDRhoDt : Flags).has boundaryDuDt = false := by decide

variable {K : Type*} [Field K] [LinearOrder K] {D Q n : ℕ}

/-- **C84** Whatever was calculated before at other points, after `reinit` the density and the momentum are those of the interpolated
populations, the velocity is the interpolated velocity, and the time derivatives are the right-hand sides of the continuity and momentum
equations of the interpolated fields — for those variables that were asked for. -/
theorem C84_values (c : Cell K D Q n) (p : Shape K D n) (s s' : State K D n) (h : reinit c p s = .ok s') :
    (c.flags ≠ onlyDistributions → s'.rho = ∑ i, getDistribution c p i) ∧
    (c.flags.has boundaryU ∨ c.flags.has boundaryDRhoDt ∨ c.flags.has boundaryDuDt →
      (∀ a, s'.rhoU a = ∑ i, c.S.dir i a * getDistribution c p i) ∧ (∀ a, s'.u a = at' p.value (velocity c.S.dir c.f a))) ∧
    (c.flags.has boundaryDRhoDt → s'.drhodt = continuityRhs c.S.dir p c.f) ∧
    (c.flags.has boundaryDuDt → ∀ a, s'.dudt a = momentumRhs c.S.dir c.S.cs2 c.viscosity p c.f a) := by
  have h0 : reinitSteps c p s = .ok s' := by
    rw [reinit] at h
    cases h1 : reinitSteps c p s with
    | error e => simp [h1] at h
    | ok t =>
      simp only [h1, check_ok] at h
      rw [h.2]
  rw [reinitSteps, andIf_ok] at h0
  obtain ⟨s3, h3, h4a, h4b⟩ := h0
  rw [andIf_ok] at h3
  obtain ⟨s2, h2, h3a, h3b⟩ := h3
  rw [andIf_ok] at h2
  obtain ⟨s1, h1, h2a, h2b⟩ := h2
  rw [andIf_ok] at h1
  obtain ⟨s0, h0, h1a, h1b⟩ := h1
  -- the flags that ask for the velocity also ask for the density
  have hnz : ∀ b, c.flags.has b = true → c.flags ≠ onlyDistributions := by
    intro b hb he
    rw [he] at hb
    simp [Flags.has, onlyDistributions] at hb
  have hrho : c.flags ≠ onlyDistributions → s1 = afterRho c p s0 := fun hne =>
    (calculateRho_ok.1 (h1a (by simpa using hne))).2.symm
  have hu : c.flags.has boundaryU = true ∨ c.flags.has boundaryDRhoDt = true ∨ c.flags.has boundaryDuDt = true →
      s2 = afterU c p (afterRho c p s0) := by
    intro hh
    have hne : c.flags ≠ onlyDistributions := by
      rcases hh with hh | hh | hh <;> exact hnz _ hh
    rw [← hrho hne]
    refine (calculateU_ok.1 (h2a ?_)).2.2.symm
    rcases hh with hh | hh | hh <;> simp [hh]
  -- the last two steps change nothing but the time derivatives
  have e3 : s3.rho = s2.rho ∧ s3.rhoU = s2.rhoU ∧ s3.u = s2.u ∧ s3.rhoDof = s2.rhoDof ∧ s3.uDof = s2.uDof := by
    cases hb : c.flags.has boundaryDRhoDt with
    | false =>
      rw [h3b hb]
      exact ⟨rfl, rfl, rfl, rfl, rfl⟩
    | true =>
      rw [← (calculateDRhoDt_ok.1 (h3a hb)).2.2]
      exact ⟨rfl, rfl, rfl, rfl, rfl⟩
  have e4 : s'.rho = s3.rho ∧ s'.rhoU = s3.rhoU ∧ s'.u = s3.u ∧ s'.drhodt = s3.drhodt := by
    cases hb : c.flags.has boundaryDuDt with
    | false =>
      rw [h4b hb]
      exact ⟨rfl, rfl, rfl, rfl⟩
    | true =>
      rw [← (calculateDuDt_ok.1 (h4a hb)).2.2.2]
      exact ⟨rfl, rfl, rfl, rfl⟩
  have e2 : s2.rho = s1.rho := by
    cases hb : (c.flags.has boundaryDRhoDt || c.flags.has boundaryU || c.flags.has boundaryDuDt) with
    | false => rw [h2b hb]
    | true =>
      rw [← (calculateU_ok.1 (h2a hb)).2.2]
      rfl
  refine ⟨fun hne => ?_, fun hh => ⟨fun a => ?_, fun a => ?_⟩, fun hb => ?_, fun hb a => ?_⟩
  · rw [e4.1, e3.1, e2, hrho hne, rho_eq, rho_interp]
  · rw [e4.2.1, e3.2.1, hu hh]
    exact rhoU_interp c p a
  · rw [e4.2.2.1, e3.2.2.1, hu hh]
    rfl
  · rw [e4.2.2.2, ← (calculateDRhoDt_ok.1 (h3a hb)).2.2, hu (Or.inr (Or.inl hb))]
    exact drhodt_interp c p
  · rw [← (calculateDuDt_ok.1 (h4a hb)).2.2.2]
    have hu2 := hu (Or.inr (Or.inr hb))
    refine dudt_interp c p s3 ?_ ?_ (fun j a => ?_) (fun a => ?_) a
    · rw [e3.2.2.2.1, hu2]
      rfl
    · rw [e3.1, hu2]
      rfl
    · rw [e3.2.2.2.2, hu2]
      rfl
    · rw [e3.2.2.1, hu2]
      rfl

/-- **C84** With assertions, `reinit` succeeds exactly for six sets of flags — nothing; the density; density and velocity; these with one or
both time derivatives — if viscosity and time step are positive, no density that is divided by vanishes, and the interpolated momentum is
the product of the interpolated density and velocity up to `1e-10`. -/
theorem C84_accepted (c : Cell K D Q n) (hd : c.debug = true) (p : Shape K D n) (s : State K D n) :
    (∃ s', reinit c p s = .ok s') ↔
      (c.flags = 0 ∨ c.flags = 1 ∨ c.flags = 3 ∨ c.flags = 11 ∨ c.flags = 19 ∨ c.flags = 27) ∧
      (c.flags ≠ 0 → 0 < c.viscosity ∧ 0 < c.dt) ∧
      (3 ≤ c.flags → (∀ j, density c.f j ≠ 0) ∧
        ∑ a, (at' p.value (velocity c.S.dir c.f a) * at' p.value (density c.f) - ∑ i, c.S.dir i a * getDistribution c p i) ^ 2
          < (1 / 10 ^ 10) ^ 2) ∧
      (19 ≤ c.flags → at' p.value (density c.f) ≠ 0) := by
  have hcons : ∀ s0 : State K D n, velocityConsistent (afterU c p (afterRho c p s0)) = true ↔
      ∑ a, (at' p.value (velocity c.S.dir c.f a) * at' p.value (density c.f) - ∑ i, c.S.dir i a * getDistribution c p i) ^ 2
          < (1 / 10 ^ 10) ^ 2 := by
    intro s0
    rw [velocityConsistent, decide_eq_true_eq]
    have : ∀ a, (afterU c p (afterRho c p s0)).rhoU a = ∑ i, c.S.dir i a * getDistribution c p i := fun a => rhoU_interp c p a
    simp only [this]
    exact Iff.rfl
  constructor
  · rintro ⟨s', h⟩
    rw [reinit] at h
    cases h0 : reinitSteps c p s with
    | error e => simp [h0] at h
    | ok t =>
      simp only [h0, check_ok] at h
      obtain ⟨hflags, hts⟩ := h
      have hfl : c.flags = t.upToDate := by simpa using hflags hd
      rw [reinitSteps, andIf_ok] at h0
      obtain ⟨s3, h3, h4a, h4b⟩ := h0
      rw [andIf_ok] at h3
      obtain ⟨s2, h2, h3a, h3b⟩ := h3
      rw [andIf_ok] at h2
      obtain ⟨s1, h1, h2a, h2b⟩ := h2
      rw [andIf_ok] at h1
      obtain ⟨s0, h00, h1a, h1b⟩ := h1
      obtain rfl : { s with upToDate := onlyDistributions } = s0 := Except.ok.inj h00
      by_cases hne : c.flags = onlyDistributions
      · have hz : c.flags = 0 := hne
        exact ⟨Or.inl hz, fun hn => absurd hz hn, fun h3 => absurd h3 (by rw [hz]; decide), fun h3 => absurd h3 (by rw [hz]; decide)⟩
      · obtain ⟨hr, rfl⟩ := calculateRho_ok.1 (h1a (by simpa using hne))
        obtain ⟨-, hnu, hdt⟩ := hr hd
        cases hU : (c.flags.has boundaryDRhoDt || c.flags.has boundaryU || c.flags.has boundaryDuDt) with
        | false =>
          obtain rfl := h2b hU
          simp only [Bool.or_eq_false_iff] at hU
          obtain rfl := h3b hU.1.1
          obtain rfl := h4b hU.2
          have h1 : c.flags = 1 := hfl.trans (show (onlyDistributions ||| boundaryRho : Flags) = 1 by decide)
          exact ⟨by simp [h1], fun _ => ⟨hnu, hdt⟩, fun h3 => absurd h3 (by rw [h1]; decide), fun h3 => absurd h3 (by rw [h1]; decide)⟩
        | true =>
          obtain ⟨hu1, hu2, rfl⟩ := calculateU_ok.1 (h2a hU)
          have hcs := (hcons _).1 (hu1 hd).2.2.2.2
          cases hR : c.flags.has boundaryDRhoDt with
          | false =>
            obtain rfl := h3b hR
            cases hT : c.flags.has boundaryDuDt with
            | false =>
              obtain rfl := h4b hT
              have h1 : c.flags = 3 := hfl.trans (show (onlyDistributions ||| boundaryRho ||| boundaryU : Flags) = 3 by decide)
              exact ⟨by simp [h1], fun _ => ⟨hnu, hdt⟩, fun _ => ⟨hu2, hcs⟩, fun h3 => absurd h3 (by rw [h1]; decide)⟩
            | true =>
              obtain ⟨-, -, hr0, rfl⟩ := calculateDuDt_ok.1 (h4a hT)
              have h1 : c.flags = 19 :=
                hfl.trans (show (onlyDistributions ||| boundaryRho ||| boundaryU ||| boundaryDuDt : Flags) = 19 by decide)
              exact ⟨by simp [h1], fun _ => ⟨hnu, hdt⟩, fun _ => ⟨hu2, hcs⟩, fun _ => hr0⟩
          | true =>
            obtain ⟨-, -, rfl⟩ := calculateDRhoDt_ok.1 (h3a hR)
            cases hT : c.flags.has boundaryDuDt with
            | false =>
              obtain rfl := h4b hT
              have h1 : c.flags = 11 := hfl.trans (show (onlyDistributions ||| boundaryRho ||| boundaryU ||| boundaryDRhoDt : Flags) = 11 by decide)
              exact ⟨by simp [h1], fun _ => ⟨hnu, hdt⟩, fun _ => ⟨hu2, hcs⟩, fun h3 => absurd h3 (by rw [h1]; decide)⟩
            | true =>
              obtain ⟨-, -, hr0, rfl⟩ := calculateDuDt_ok.1 (h4a hT)
              have h1 : c.flags = 27 :=
                hfl.trans (show (onlyDistributions ||| boundaryRho ||| boundaryU ||| boundaryDRhoDt ||| boundaryDuDt : Flags) = 27 by decide)
              exact ⟨by simp [h1], fun _ => ⟨hnu, hdt⟩, fun _ => ⟨hu2, hcs⟩, fun _ => hr0⟩
  · rintro ⟨hfl, hpos, hvel, hrho⟩
    have key : ∃ t, reinitSteps c p s = .ok t ∧ c.flags = t.upToDate := by
      have ne0 : 3 ≤ c.flags → c.flags ≠ 0 := fun h3 he => absurd h3 (by rw [he]; decide)
      have hR : c.flags ≠ 0 → calculateRho c p { s with upToDate := onlyDistributions }
          = .ok (afterRho c p { s with upToDate := onlyDistributions }) := fun hn =>
        calculateRho_ok.2 ⟨fun _ => ⟨has_none, hpos hn⟩, rfl⟩
      have hU : 3 ≤ c.flags → calculateU c p (afterRho c p { s with upToDate := onlyDistributions })
          = .ok (afterU c p (afterRho c p { s with upToDate := onlyDistributions })) := fun hn =>
        calculateU_ok.2 ⟨fun _ => ⟨has_rho, has_no_u, (hpos (ne0 hn)).1, (hpos (ne0 hn)).2, (hcons _).2 (hvel hn).2⟩, (hvel hn).1, rfl⟩
      simp only [reinitSteps]
      rcases hfl with hfl | hfl | hfl | hfl | hfl | hfl <;> rw [hfl] at hR hU hrho ⊢
      · exact ⟨_, rfl, rfl⟩
      · refine ⟨afterRho c p { s with upToDate := onlyDistributions }, ?_, show 1 = (onlyDistributions ||| boundaryRho : Flags) by decide⟩
        rw [andIf_ok]
        refine ⟨_, ?_, fun h => absurd h (by decide), fun _ => rfl⟩
        rw [andIf_ok]
        refine ⟨_, ?_, fun h => absurd h (by decide), fun _ => rfl⟩
        rw [andIf_ok]
        refine ⟨_, ?_, fun h => absurd h (by decide), fun _ => rfl⟩
        rw [andIf_ok]
        exact ⟨_, rfl, fun _ => hR (by decide), fun h => absurd h (by decide)⟩
      · refine ⟨afterU c p (afterRho c p { s with upToDate := onlyDistributions }), ?_,
          show 3 = (onlyDistributions ||| boundaryRho ||| boundaryU : Flags) by decide⟩
        rw [andIf_ok]
        refine ⟨_, ?_, fun h => absurd h (by decide), fun _ => rfl⟩
        rw [andIf_ok]
        refine ⟨_, ?_, fun h => absurd h (by decide), fun _ => rfl⟩
        rw [andIf_ok]
        refine ⟨_, ?_, fun _ => hU (by decide), fun h => absurd h (by decide)⟩
        rw [andIf_ok]
        exact ⟨_, rfl, fun _ => hR (by decide), fun h => absurd h (by decide)⟩
      · refine ⟨afterDRho c p (afterU c p (afterRho c p { s with upToDate := onlyDistributions })), ?_,
          show 11 = (onlyDistributions ||| boundaryRho ||| boundaryU ||| boundaryDRhoDt : Flags) by decide⟩
        rw [andIf_ok]
        refine ⟨_, ?_, fun h => absurd h (by decide), fun _ => rfl⟩
        rw [andIf_ok]
        refine ⟨afterU c p (afterRho c p { s with upToDate := onlyDistributions }), ?_, fun _ =>
          calculateDRhoDt_ok.2 ⟨fun _ => ⟨u_has_no_drho, u_has_u⟩, by rw [hfl]; decide, rfl⟩, fun h => absurd h (by decide)⟩
        rw [andIf_ok]
        refine ⟨_, ?_, fun _ => hU (by decide), fun h => absurd h (by decide)⟩
        rw [andIf_ok]
        exact ⟨_, rfl, fun _ => hR (by decide), fun h => absurd h (by decide)⟩
      · refine ⟨afterDu c p (afterU c p (afterRho c p { s with upToDate := onlyDistributions })), ?_,
          show 19 = (onlyDistributions ||| boundaryRho ||| boundaryU ||| boundaryDuDt : Flags) by decide⟩
        rw [andIf_ok]
        refine ⟨afterU c p (afterRho c p { s with upToDate := onlyDistributions }), ?_, fun _ =>
          calculateDuDt_ok.2 ⟨fun _ => ⟨u_has_no_du, u_has_u, u_has_rho⟩, by rw [hfl]; decide, hrho (by decide), rfl⟩,
          fun h => absurd h (by decide)⟩
        rw [andIf_ok]
        refine ⟨_, ?_, fun h => absurd h (by decide), fun _ => rfl⟩
        rw [andIf_ok]
        refine ⟨_, ?_, fun _ => hU (by decide), fun h => absurd h (by decide)⟩
        rw [andIf_ok]
        exact ⟨_, rfl, fun _ => hR (by decide), fun h => absurd h (by decide)⟩
      · refine ⟨afterDu c p (afterDRho c p (afterU c p (afterRho c p { s with upToDate := onlyDistributions }))), ?_,
          show 27 = (onlyDistributions ||| boundaryRho ||| boundaryU ||| boundaryDRhoDt ||| boundaryDuDt : Flags) by decide⟩
        rw [andIf_ok]
        refine ⟨afterDRho c p (afterU c p (afterRho c p { s with upToDate := onlyDistributions })), ?_, fun _ =>
          calculateDuDt_ok.2 ⟨fun _ => ⟨d_has_no_du, d_has_u, d_has_rho⟩, by rw [hfl]; decide, hrho (by decide), rfl⟩,
          fun h => absurd h (by decide)⟩
        rw [andIf_ok]
        refine ⟨afterU c p (afterRho c p { s with upToDate := onlyDistributions }), ?_, fun _ =>
          calculateDRhoDt_ok.2 ⟨fun _ => ⟨u_has_no_drho, u_has_u⟩, by rw [hfl]; decide, rfl⟩, fun h => absurd h (by decide)⟩
        rw [andIf_ok]
        refine ⟨_, ?_, fun _ => hU (by decide), fun h => absurd h (by decide)⟩
        rw [andIf_ok]
        exact ⟨_, rfl, fun _ => hR (by decide), fun h => absurd h (by decide)⟩
    obtain ⟨t, ht, hup⟩ := key
    refine ⟨t, ?_⟩
    rw [reinit, ht]
    exact check_ok.2 ⟨fun _ => by simpa using hup, rfl⟩

/-- **C84** (partial: only for a density that does not vary over the cell, see `C84_velocity_fails`) The velocity at the point is the momentum
there divided by the density there. -/
theorem C84_velocity_partial (c : Cell K D Q n) (p : Shape K D n) (s s' : State K D n) (h : reinit c p s = .ok s')
    (hu : c.flags.has boundaryU) (hone : ∑ j, p.value j = 1) (r : K) (hr : ∀ j, density c.f j = r) (a : Fin D) :
    s'.u a = s'.rhoU a / s'.rho := by
  have hne : c.flags ≠ onlyDistributions := by
    intro he
    rw [he] at hu
    simp [Flags.has, onlyDistributions] at hu
  obtain ⟨h1, h2, -, -⟩ := C84_values c p s s' h
  obtain ⟨h3, h4⟩ := h2 (Or.inl hu)
  have hrho : s'.rho = r := by
    rw [h1 hne, ← rho_interp, at']
    simp only [hr]
    rw [← Finset.mul_sum, hone, mul_one]
  rw [h4 a, h3 a, hrho, ← rhoU_interp, at', Finset.sum_div]
  refine Finset.sum_congr rfl fun j _ => ?_
  rw [velocity, hr j, momentumDof]
  ring

/-- A cell with two degrees of freedom: at rest with density 1, and with density 2 and momentum `(1, 0)` -/
def sampleCell (flags : Flags) (debug : Bool) : Cell ℚ 2 9 2 where
  S := D2Q9.stencil 1
  viscosity := 1 / 10
  dt := 1 / 100
  f := fun i j => if i = 0 then 1 else if i = 1 ∧ j = 1 then 1 else 0
  flags := flags
  debug := debug

/-- The middle of the cell -/
def sampleShape : Shape ℚ 2 2 where
  value := fun _ => 1 / 2
  grad := fun j => ![if j = 0 then -1 else 1, 0]
  hess := fun _ _ _ => 0

/-- **C84 fails** where the density varies: the velocity is interpolated by itself.  With assertions the program stops; without them the
velocity is not the quotient of momentum and density. -/
theorem C84_velocity_fails :
    (∀ j, density (sampleCell 3 true).f j > 0) ∧
    (∀ s, reinit (sampleCell 3 true) sampleShape s = .error .assertion) ∧
    (∀ s, ∃ s', reinit (sampleCell 3 false) sampleShape s = .ok s' ∧ s'.u 0 ≠ s'.rhoU 0 / s'.rho) := by
  have hden : ∀ (b : Bool) (j : Fin 2), density (sampleCell 3 b).f j = if j = 0 then 1 else 2 := by decide +kernel
  refine ⟨by decide +kernel, fun s => ?_, fun s => ?_⟩
  · have hR : calculateRho (sampleCell 3 true) sampleShape { s with upToDate := onlyDistributions }
        = .ok (afterRho (sampleCell 3 true) sampleShape { s with upToDate := onlyDistributions }) :=
      calculateRho_ok.2 ⟨fun _ => ⟨has_none, by norm_num [sampleCell], by norm_num [sampleCell]⟩, rfl⟩
    have hU : calculateU (sampleCell 3 true) sampleShape (afterRho (sampleCell 3 true) sampleShape { s with upToDate := onlyDistributions })
        = .error .assertion := by
      have hb : ¬ ∃ j, (afterRho (sampleCell 3 true) sampleShape { s with upToDate := onlyDistributions }).rhoDof j = 0 := by
        rintro ⟨j, hj⟩
        have : density (sampleCell 3 true).f j = 0 := hj
        rw [hden] at this
        split at this <;> norm_num at this
      have hv : velocityConsistent (afterU (sampleCell 3 true) sampleShape
          (afterRho (sampleCell 3 true) sampleShape { s with upToDate := onlyDistributions })) = false := by
        have e1 : ∀ a, (afterU (sampleCell 3 true) sampleShape
            (afterRho (sampleCell 3 true) sampleShape { s with upToDate := onlyDistributions })).u a
            = at' sampleShape.value (velocity (sampleCell 3 true).S.dir (sampleCell 3 true).f a) := fun _ => rfl
        rw [velocityConsistent, decide_eq_false_iff_not]
        have e2 : ∑ a, (at' sampleShape.value (velocity (sampleCell 3 true).S.dir (sampleCell 3 true).f a)
            * at' sampleShape.value (density (sampleCell 3 true).f)
            - ∑ j, momentumDof (sampleCell 3 true) j a * sampleShape.value j) ^ 2 = 1 / 64 := by decide +kernel
        intro hlt
        have e3 := lt_of_eq_of_lt e2.symm hlt
        norm_num at e3
      have hνd : (decide (0 < (sampleCell 3 true).viscosity)) = true := by norm_num [sampleCell]
      have hdt : (decide (0 < (sampleCell 3 true).dt)) = true := by norm_num [sampleCell]
      have hr : (afterRho (sampleCell 3 true) sampleShape { s with upToDate := onlyDistributions }).upToDate.has boundaryRho = true := has_rho
      have hnu : (afterRho (sampleCell 3 true) sampleShape { s with upToDate := onlyDistributions }).upToDate.has boundaryU = false := has_no_u
      rw [calculateU, hνd, hdt, if_neg hb, hv, hr, hnu]
      rfl
    have hsteps : reinitSteps (sampleCell 3 true) sampleShape s = .error .assertion := by
      have e1 : andIf (.ok { s with upToDate := onlyDistributions }) ((sampleCell 3 true).flags ≠ onlyDistributions)
          (calculateRho (sampleCell 3 true) sampleShape)
          = .ok (afterRho (sampleCell 3 true) sampleShape { s with upToDate := onlyDistributions }) :=
        andIf_ok.2 ⟨_, rfl, fun _ => hR, fun h => absurd h (by decide)⟩
      rw [reinitSteps, e1]
      have e2 : andIf (.ok (afterRho (sampleCell 3 true) sampleShape { s with upToDate := onlyDistributions }))
          ((sampleCell 3 true).flags.has boundaryDRhoDt || (sampleCell 3 true).flags.has boundaryU
            || (sampleCell 3 true).flags.has boundaryDuDt) (calculateU (sampleCell 3 true) sampleShape) = .error .assertion := by
        rw [andIf]
        exact (if_pos (by decide)).trans hU
      rw [e2]
      rfl
    rw [reinit, hsteps]
  · have hR : calculateRho (sampleCell 3 false) sampleShape { s with upToDate := onlyDistributions }
        = .ok (afterRho (sampleCell 3 false) sampleShape { s with upToDate := onlyDistributions }) :=
      calculateRho_ok.2 ⟨fun h => absurd h (by decide), rfl⟩
    have hU : calculateU (sampleCell 3 false) sampleShape (afterRho (sampleCell 3 false) sampleShape { s with upToDate := onlyDistributions })
        = .ok (afterU (sampleCell 3 false) sampleShape
            (afterRho (sampleCell 3 false) sampleShape { s with upToDate := onlyDistributions })) := by
      refine calculateU_ok.2 ⟨fun h => absurd h (by decide), fun j hj => ?_, rfl⟩
      have : density (sampleCell 3 false).f j = 0 := hj
      rw [hden] at this
      split at this <;> norm_num at this
    have hsteps : reinitSteps (sampleCell 3 false) sampleShape s = .ok (afterU (sampleCell 3 false) sampleShape
        (afterRho (sampleCell 3 false) sampleShape { s with upToDate := onlyDistributions })) := by
      rw [reinitSteps, andIf_ok]
      refine ⟨_, ?_, fun h => absurd h (by decide), fun _ => rfl⟩
      rw [andIf_ok]
      refine ⟨_, ?_, fun h => absurd h (by decide), fun _ => rfl⟩
      rw [andIf_ok]
      refine ⟨_, ?_, fun _ => hU, fun h => absurd h (by decide)⟩
      rw [andIf_ok]
      exact ⟨_, rfl, fun _ => hR, fun h => absurd h (by decide)⟩
    have hok : reinit (sampleCell 3 false) sampleShape s = .ok (afterU (sampleCell 3 false) sampleShape
        (afterRho (sampleCell 3 false) sampleShape { s with upToDate := onlyDistributions })) := by
      rw [reinit, hsteps]
      exact check_ok.2 ⟨fun h => absurd h (by decide), rfl⟩
    refine ⟨_, hok, ?_⟩
    obtain ⟨h1, h2, -, -⟩ := C84_values _ _ _ _ hok
    rw [h1 (by decide), (h2 (Or.inl (by decide))).1 0, (h2 (Or.inl (by decide))).2 0]
    decide +kernel

/-- The conditions of `C84_accepted` can be met: the density alone, in the cell with varying density. -/
example : ∃ s', reinit (sampleCell 1 true) sampleShape State.init = .ok s' ∧ s'.rho = 3 / 2 := by
  obtain ⟨s', h⟩ := (C84_accepted (sampleCell 1 true) rfl sampleShape State.init).2
    ⟨Or.inr (Or.inl rfl), fun _ => ⟨by norm_num [sampleCell], by norm_num [sampleCell]⟩, fun h => absurd h (by decide),
      fun h => absurd h (by decide)⟩
  refine ⟨s', h, ?_⟩
  rw [(C84_values _ _ _ _ h).1 (by decide)]
  decide +kernel

end C84

/-! ## C85: prescribed values -/

section C85

variable {K : Type*} {D : ℕ}

/-- **C85** (partial: all but the temperature, see `C85_temperature_fails`) A boundary reports the pressure, the velocity, the velocity
gradient and the flags that it was constructed with. -/
theorem C85_kept_partial (v : Prescribed K D) :
    (boundaryValues v).pressure = v.pressure ∧ (boundaryValues v).velocity = v.velocity ∧
      (boundaryValues v).velocityGradient = v.velocityGradient ∧ (boundaryValues v).prescribed = v.prescribed :=
  ⟨rfl, rfl, rfl, rfl⟩

/-- **C85** Constants are reported at every point: pressure, velocity and gradient. -/
theorem C85_constants (p : K) (u : Fin D → K) (g : Fin D → Fin D → K) (T : K) :
    (∃ F, (boundaryValues (Prescribed.ofPressure p : Prescribed K D)).pressure = some F ∧ ∀ x, F x = p) ∧
    (∃ F, (boundaryValues (Prescribed.ofVelocity u)).velocity = some F ∧ ∀ x, F x = u) ∧
    (∃ F, (boundaryValues (Prescribed.ofGradient g)).velocityGradient = some F ∧ ∀ x, F x = g) ∧
    (∃ F, (boundaryValues (Prescribed.ofPUT p u T)).pressure = some F ∧ ∀ x, F x = p) ∧
    (∃ F, (boundaryValues (Prescribed.ofPUT p u T)).velocity = some F ∧ ∀ x, F x = u) :=
  ⟨⟨_, rfl, fun _ => rfl⟩, ⟨_, rfl, fun _ => rfl⟩, ⟨_, rfl, fun _ => rfl⟩, ⟨_, rfl, fun _ => rfl⟩, ⟨_, rfl, fun _ => rfl⟩⟩

/-- **C85 fails** for the temperature: no boundary reports one, whatever it was constructed with, and the object that is built from pressure,
velocity and temperature reports the pressure as its temperature. -/
theorem C85_temperature_fails (v : Prescribed K D) (p : K) (u : Fin D → K) (T : K) :
    (boundaryValues v).temperature = none ∧
      ∃ F, (Prescribed.ofPUT p u T).temperature = some F ∧ ∀ x, F x = p :=
  ⟨rfl, _, rfl, fun _ => rfl⟩

example : ∃ F, (Prescribed.ofPUT (1 : ℚ) (![2, 3] : Fin 2 → ℚ) 300).temperature = some F ∧ F ![0, 0] ≠ 300 :=
  ⟨_, rfl, by norm_num⟩

/-- **C85** A velocity wall can be constructed from a function exactly if the function has `D` components; it then prescribes the values of
the function.  (In one dimension a function with one component would be taken for a pressure.) -/
theorem C85_velocity_function (hD : 1 < D) (f : Func K D) :
    (∀ v, velocityBoundary f = .ok v → f.components = D ∧ v.prescribed = boundaryU ∧
      ∃ F, v.velocity = some F ∧ ∀ x (a : Fin D) (b : Fin f.components), a.val = b.val → F x a = f.value x b) ∧
    (f.components = D → ∃ v, velocityBoundary f = .ok v) ∧
    (f.components ≠ D → f.components ≠ 1 → velocityBoundary f = .error (.inl .components)) ∧
    (f.components = 1 → velocityBoundary f = .error (.inr .assertion)) := by
  have h3 : f.components = 1 → velocityBoundary f = .error (.inr .assertion) := by
    intro h
    simp [velocityBoundary, Prescribed.ofFunction, h, boundaryValues, Prescribed.copy, Prescribed.empty]
  have h2 : f.components ≠ D → f.components ≠ 1 → velocityBoundary f = .error (.inl .components) := by
    intro h h'
    simp [velocityBoundary, Prescribed.ofFunction, h, h']
  refine ⟨fun v hv => ?_, fun h => ?_, h2, h3⟩
  · by_cases h1 : f.components = 1
    · rw [h3 h1] at hv
      exact absurd hv (by simp)
    · by_cases hd : f.components = D
      · refine ⟨hd, ?_⟩
        have : velocityBoundary f = .ok (boundaryValues
            { Prescribed.empty with velocity := some fun x a => f.value x (a.cast hd.symm), prescribed := boundaryU }) := by
          rw [velocityBoundary, Prescribed.ofFunction, dif_neg h1, dif_pos hd]
          rfl
        rw [this] at hv
        obtain rfl := Except.ok.inj hv
        refine ⟨rfl, _, rfl, fun x a b hab => ?_⟩
        congr 1
        exact Fin.ext hab
      · rw [h2 hd h1] at hv
        exact absurd hv (by simp)
  · have h1 : f.components ≠ 1 := by omega
    refine ⟨boundaryValues { Prescribed.empty with velocity := some fun x a => f.value x (a.cast h.symm), prescribed := boundaryU }, ?_⟩
    rw [velocityBoundary, Prescribed.ofFunction, dif_neg h1, dif_pos h]
    rfl

example : ∃ v, velocityBoundary (⟨2, fun x a => x a⟩ : Func ℚ 2) = .ok v := (C85_velocity_function (by norm_num) _).2.1 rfl

/-- **C85 fails** for sums: the sum of two sets of prescribed values has the flags of both and the values of neither. -/
theorem C85_add_fails (v w : Prescribed K D) :
    (v.add w).prescribed = v.prescribed ||| w.prescribed ∧ (v.add w).pressure = none ∧ (v.add w).velocity = none ∧
      (v.add w).temperature = none ∧ (v.add w).velocityGradient = none :=
  ⟨rfl, rfl, rfl, rfl, rfl⟩

end C85

/-! ## C86: application of the boundaries -/

section C86

variable {K : Type*} [Field K] [LinearOrder K] [IsStrictOrderedRing K] {D Q : ℕ} {ι : Type*} [DecidableEq ι]

omit [IsStrictOrderedRing K] in
theorem reinit_library (c : Cell K D Q n) (hf : c.flags = 0 ∨ c.flags = 1) (hv : 0 < c.viscosity) (ht : 0 < c.dt) (p : Shape K D n)
    (s : State K D n) : ∃ s', reinit c p s = .ok s' := by
  rcases hf with hf | hf
  · refine ⟨{ s with upToDate := onlyDistributions }, ?_⟩
    rw [reinit, reinitSteps, hf]
    exact check_ok.2 ⟨fun _ => rfl, rfl⟩
  · have h1 : reinitSteps c p s = .ok (afterRho c p { s with upToDate := onlyDistributions }) := by
      simp only [reinitSteps]
      rw [andIf_ok]
      refine ⟨_, ?_, fun h => absurd h (by rw [hf]; decide), fun _ => rfl⟩
      rw [andIf_ok]
      refine ⟨_, ?_, fun h => absurd h (by rw [hf]; decide), fun _ => rfl⟩
      rw [andIf_ok]
      refine ⟨_, ?_, fun h => absurd h (by rw [hf]; decide), fun _ => rfl⟩
      rw [andIf_ok]
      exact ⟨_, rfl, fun _ => calculateRho_ok.2 ⟨fun _ => ⟨has_none, hv, ht⟩, rfl⟩, fun h => absurd h (by rw [hf]; decide)⟩
    refine ⟨afterRho c p { s with upToDate := onlyDistributions }, ?_⟩
    rw [reinit, h1]
    exact check_ok.2 ⟨fun _ => by rw [hf]; exact (show decide (1 = (onlyDistributions ||| boundaryRho : Flags)) = true by decide), rfl⟩

omit [IsStrictOrderedRing K] in
theorem applyPoints_total (h : Handler K D Q ι) (c : Cell K D Q n) (hf : c.flags = 0 ∨ c.flags = 1) (hv : 0 < c.viscosity)
    (ht : 0 < c.dt) (l : List (PointHits K D Q n ι)) (s : State K D n) (fg : Store K Q ι × Store K Q ι)
    (hrun : ∀ p ∈ l, ∀ fg : Store K Q ι × Store K Q ι, ∃ fg', applyHits h p.point p.hits fg = .ok fg') :
    ∃ fg', applyPoints h c l s fg = .ok fg' := by
  induction l generalizing s fg with
  | nil => exact ⟨fg, rfl⟩
  | cons p rest ih =>
    obtain ⟨s', hs⟩ := reinit_library c hf hv ht p.shape s
    obtain ⟨fg', hfg⟩ := hrun p (List.mem_cons_self ..) fg
    rw [applyPoints]
    simp only [hs, hfg]
    exact ih s' fg' fun q hq => hrun q (List.mem_cons_of_mem _ hq)

omit [IsStrictOrderedRing K] in
theorem applyHits_total (h : Handler K D Q ι) (p : HitPoint K D) (l : List (HitRecord K Q ι))
    (hl : ∀ r ∈ l, ∃ w, h.boundaries r.boundary = some w ∧ IsLocal w) (fg : Store K Q ι × Store K Q ι) :
    ∃ fg', applyHits h p l fg = .ok fg' := by
  induction l generalizing fg with
  | nil => exact ⟨fg, rfl⟩
  | cons r rest ih =>
    obtain ⟨w, hw, hloc⟩ := hl r (List.mem_cons_self ..)
    obtain ⟨f', h1, -, -⟩ := applyHit_local h p r w hw hloc fg.1 fg.2
    rw [applyHits]
    have h1' : applyHit h p r fg = .ok (f', fg.2) := h1
    simp only [h1']
    exact ih (fun q hq => hl q (List.mem_cons_of_mem _ hq)) _

/-- **C86** If every boundary face of the cells with hits belongs to a periodic boundary or to one that supports semi-Lagrangian streaming,
and every hit to a wall with prescribed velocity, first-order bounce back, "do nothing" or equilibrium boundary, then the application of the
boundaries succeeds for every positive time step. -/
theorem C86_succeeds (h : Handler K D Q ι) (ht : 0 < h.timeStep) (cells : List (CellHits K D Q ι))
    (hfaces : ∀ c ∈ cells, ∀ b, some b ∈ c.faces → ∃ w, h.boundaries b = some w ∧ (w.isPeriodic = true ∨ w.isSLSupported = true))
    (hhits : ∀ k ∈ allHits cells, ∃ w, h.boundaries k.2.boundary = some w ∧ IsLocal w) (fg : Store K Q ι × Store K Q ι) :
    ∃ fg', operate h cells fg = .ok fg' := by
  induction cells generalizing fg with
  | nil => exact ⟨fg, rfl⟩
  | cons c rest ih =>
    obtain ⟨flags, hfl⟩ := cellFlags_total h c.faces onlyDistributions (hfaces c (List.mem_cons_self ..))
    have hlib := cellFlags_library h c.faces _ _ (Or.inl rfl) hfl
    have hpts : ∀ p ∈ c.points, ∀ fg : Store K Q ι × Store K Q ι, ∃ fg', applyHits h p.point p.hits fg = .ok fg' := by
      intro p hp fg
      refine applyHits_total h _ _ (fun r hr => ?_) fg
      refine hhits (p.point, r) ?_
      rw [allHits, List.flatMap_cons, List.mem_append]
      exact Or.inl (List.mem_flatMap.2 ⟨p, hp, List.mem_map.2 ⟨r, hr, rfl⟩⟩)
    obtain ⟨fg1, h1⟩ := applyPoints_total h (cellData h c flags) hlib (by simp [cellData]) ht c.points State.init fg hpts
    have h2 : applyCell h c fg = .ok fg1 := by
      rw [applyCell]
      simp only [hfl, h1]
    rw [operate]
    simp only [h2]
    refine ih (fun c' hc' => hfaces c' (List.mem_cons_of_mem _ hc')) (fun k hk => hhits k ?_) fg1
    rw [allHits, List.flatMap_cons, List.mem_append]
    exact Or.inr hk

omit [IsStrictOrderedRing K] in
/-- **C86** Conversely, boundaries without support for semi-Lagrangian streaming are always reported. -/
theorem C86_supported (h : Handler K D Q ι) (cells : List (CellHits K D Q ι)) (fg fg' : Store K Q ι × Store K Q ι)
    (h1 : operate h cells fg = .ok fg') (c : CellHits K D Q ι) (hc : c ∈ cells) (b : ℕ) (hb : some b ∈ c.faces) :
    ∃ w, h.boundaries b = some w ∧ (w.isPeriodic = true ∨ w.isSLSupported = true) := by
  induction cells generalizing fg with
  | nil => simp at hc
  | cons c0 rest ih =>
    rw [operate] at h1
    cases h2 : applyCell h c0 fg with
    | error e => simp [h2] at h1
    | ok fg2 =>
      simp only [h2] at h1
      rcases List.mem_cons.1 hc with rfl | hc
      · rw [applyCell] at h2
        cases h4 : cellFlags h c.faces onlyDistributions with
        | error e => simp [h4] at h2
        | ok flags => exact cellFlags_supported h c.faces _ _ h4 b hb
      · exact ih fg2 h1 hc

omit [IsStrictOrderedRing K] in
/-- **C86** (partial: no thermal walls, and separate hits, see `C86_order_fails`) Each population that hit a wall gets the value that its wall
makes of the populations after streaming; no other population is changed. -/
theorem C86_values_partial (h : Handler K D Q ι) (cells : List (CellHits K D Q ι)) (hs : Separate h.boundaries h.S (allHits cells))
    (f g f' g' : Store K Q ι) (h1 : operate h cells (f, g) = .ok (f', g')) :
    g' = g ∧ (∀ i x, (∀ k ∈ allHits cells, (k.2.dir, k.2.dof) ≠ (i, x)) → f' i x = f i x) ∧
      ∀ k ∈ allHits cells, ∀ w, h.boundaries k.2.boundary = some w → f' k.2.dir k.2.dof = wallValue h.S h.t f w k.1 k.2 := by
  obtain ⟨f2, h2, h3, h4⟩ := runHits_separate h (allHits cells) hs f g
  rw [operate_run h cells _ _ h1] at h2
  have := Except.ok.inj h2
  obtain ⟨rfl, rfl⟩ := Prod.mk.inj this
  exact ⟨rfl, h3, h4⟩

omit [IsStrictOrderedRing K] in
/-- **C86** (partial, as above) The order of the cells, of the points and of the hits does not matter. -/
theorem C86_order_partial (h : Handler K D Q ι) (cells cells' : List (CellHits K D Q ι)) (hs : Separate h.boundaries h.S (allHits cells))
    (hp : (allHits cells).Perm (allHits cells')) (fg out out' : Store K Q ι × Store K Q ι) (h1 : operate h cells fg = .ok out)
    (h2 : operate h cells' fg = .ok out') : out = out' := by
  have hs' : Separate h.boundaries h.S (allHits cells') :=
    { known := fun k hk => hs.known k (hp.mem_iff.2 hk)
      distinct := (hp.map _).nodup_iff.1 hs.distinct
      opposite := fun k hk hf k' hk' => hs.opposite k (hp.mem_iff.2 hk) hf k' (hp.mem_iff.2 hk') }
  obtain ⟨f, g⟩ := fg
  obtain ⟨f1, g1⟩ := out
  obtain ⟨f2, g2⟩ := out'
  obtain ⟨rfl, hA, hB⟩ := C86_values_partial h cells hs f g f1 g1 h1
  obtain ⟨rfl, hA', hB'⟩ := C86_values_partial h cells' hs' f g1 f2 g2 h2
  refine Prod.ext ?_ rfl
  funext i x
  show f1 i x = f2 i x
  by_cases hk : ∃ k ∈ allHits cells, (k.2.dir, k.2.dof) = (i, x)
  · obtain ⟨k, hk, he⟩ := hk
    obtain ⟨rfl, rfl⟩ := Prod.mk.inj he
    obtain ⟨w, hw, -⟩ := hs.known k hk
    rw [hB k hk w hw, hB' k (hp.mem_iff.1 hk) w hw]
  · have hn : ∀ k ∈ allHits cells, (k.2.dir, k.2.dof) ≠ (i, x) := fun k hk' he => hk ⟨k, hk', he⟩
    rw [hA i x hn, hA' i x fun k hk' => hn k (hp.mem_iff.2 hk')]

/-- Samples: D2Q9, boundary 0 is a moving wall, 1 a first-order bounce back, 2 periodic, 3 an equilibrium boundary, 4 a wall for the
discontinuous Galerkin scheme -/
def sampleHandler : Handler ℚ 2 9 ℕ where
  boundaries
    | 0 => some (.velocity fun _ _ => ![1 / 10, 0])
    | 1 => some .firstOrder
    | 2 => some .periodic
    | 3 => some (.equilibrium 1 fun _ _ => ![1 / 10, 0])
    | 4 => some .dgOnly
    | _ => none
  S := D2Q9.stencil 1
  timeStep := 1 / 100
  t := 0
  fold := fun _ _ => 1
  eq := fun _ _ _ => 0
  debug := true

/-- One cell with the given hits at one point -/
def sampleHits (faces : List (Option ℕ)) (hits : List (HitRecord ℚ 9 ℕ)) : CellHits ℚ 2 9 ℕ where
  n := 2
  faces := faces
  localDofs := fun j => j
  points := [{ point := ⟨![0, 0], id⟩, shape := sampleShape, hits := hits }]

/-- The hypotheses of the theorems can be met: two walls, three hits. -/
example : Separate sampleHandler.boundaries sampleHandler.S
    (allHits [sampleHits [some 0, some 1, none, some 2] [⟨0, 5, 0, 0⟩, ⟨0, 6, 0, 0⟩, ⟨1, 2, 1, 0⟩]]) where
  known := by
    intro k hk
    simp only [allHits, sampleHits, List.flatMap_cons, List.flatMap_nil, List.append_nil, List.map_cons, List.map_nil, List.mem_cons,
      List.not_mem_nil, or_false] at hk
    rcases hk with rfl | rfl | rfl
    · exact ⟨_, rfl, trivial⟩
    · exact ⟨_, rfl, trivial⟩
    · exact ⟨_, rfl, trivial⟩
  distinct := by decide
  opposite := by
    intro k hk hf k' hk'
    simp only [allHits, sampleHits, List.flatMap_cons, List.flatMap_nil, List.append_nil, List.map_cons, List.map_nil, List.mem_cons,
      List.not_mem_nil, or_false] at hk hk'
    rcases hk with rfl | rfl | rfl
    · exact absurd hf (by simp [sampleHandler])
    · exact absurd hf (by simp [sampleHandler])
    · rcases hk' with rfl | rfl | rfl <;> decide

example (fg : Store ℚ 9 ℕ × Store ℚ 9 ℕ) : ∃ fg', operate sampleHandler
    [sampleHits [some 0, some 1, none, some 2] [⟨0, 5, 0, 0⟩, ⟨0, 6, 0, 0⟩, ⟨1, 2, 1, 0⟩]] fg = .ok fg' := by
  refine C86_succeeds _ (by norm_num [sampleHandler]) _ (fun c hc b hb => ?_) (fun k hk => ?_) fg
  · rw [List.mem_singleton] at hc
    subst hc
    simp only [sampleHits, List.mem_cons, Option.some.injEq, List.not_mem_nil, or_false, reduceCtorEq, false_or] at hb
    rcases hb with rfl | rfl | rfl
    · exact ⟨_, rfl, Or.inr rfl⟩
    · exact ⟨_, rfl, Or.inr rfl⟩
    · exact ⟨_, rfl, Or.inl rfl⟩
  · simp only [allHits, sampleHits, List.flatMap_cons, List.flatMap_nil, List.append_nil, List.map_cons, List.map_nil, List.mem_cons,
      List.not_mem_nil, or_false] at hk
    rcases hk with rfl | rfl | rfl
    · exact ⟨_, rfl, trivial⟩
    · exact ⟨_, rfl, trivial⟩
    · exact ⟨_, rfl, trivial⟩

/-- A boundary without support is reported. -/
example (fg : Store ℚ 9 ℕ × Store ℚ 9 ℕ) (fg' : Store ℚ 9 ℕ × Store ℚ 9 ℕ) :
    operate sampleHandler [sampleHits [some 4] []] fg ≠ .ok fg' := by
  intro h
  obtain ⟨w, hw, h2⟩ := C86_supported _ _ _ _ h _ (List.mem_singleton.2 rfl) 4 (by simp [sampleHits])
  obtain rfl : Wall.dgOnly = w := Option.some.inj hw
  rcases h2 with h2 | h2 <;> exact absurd h2 (by simp [Wall.isPeriodic, Wall.isSLSupported])

/-- **C86 fails** for first-order bounce back in a corner, where two opposite populations of one degree of freedom come from outside: the
second hit reads the population that the first one has overwritten, so that the result depends on the order of the hits, and one of the two
populations is lost. -/
theorem C86_order_fails (f g : Store ℚ 9 ℕ) (hne : f 6 0 ≠ f 8 0) :
    ∃ out out', operate sampleHandler [sampleHits [some 1] [⟨1, 6, 0, 0⟩, ⟨1, 8, 0, 0⟩]] (f, g) = .ok out ∧
      operate sampleHandler [sampleHits [some 1] [⟨1, 8, 0, 0⟩, ⟨1, 6, 0, 0⟩]] (f, g) = .ok out' ∧
      out.1 6 0 = f 8 0 ∧ out.1 8 0 = f 8 0 ∧ out'.1 6 0 = f 6 0 ∧ out'.1 8 0 = f 6 0 ∧ out ≠ out' := by
  have h1 : operate sampleHandler [sampleHits [some 1] [⟨1, 6, 0, 0⟩, ⟨1, 8, 0, 0⟩]] (f, g)
      = .ok (firstOrderBounceBack sampleHandler.S 8 0 (firstOrderBounceBack sampleHandler.S 6 0 f), g) := rfl
  have h2 : operate sampleHandler [sampleHits [some 1] [⟨1, 8, 0, 0⟩, ⟨1, 6, 0, 0⟩]] (f, g)
      = .ok (firstOrderBounceBack sampleHandler.S 6 0 (firstOrderBounceBack sampleHandler.S 8 0 f), g) := rfl
  have e1 : firstOrderBounceBack sampleHandler.S 8 0 (firstOrderBounceBack sampleHandler.S 6 0 f) 6 0 = f 8 0 := rfl
  have e2 : firstOrderBounceBack sampleHandler.S 8 0 (firstOrderBounceBack sampleHandler.S 6 0 f) 8 0 = f 8 0 := rfl
  have e3 : firstOrderBounceBack sampleHandler.S 6 0 (firstOrderBounceBack sampleHandler.S 8 0 f) 6 0 = f 6 0 := rfl
  have e4 : firstOrderBounceBack sampleHandler.S 6 0 (firstOrderBounceBack sampleHandler.S 8 0 f) 8 0 = f 6 0 := rfl
  refine ⟨_, _, h1, h2, e1, e2, e3, e4, fun he => hne ?_⟩
  have := congrFun (congrFun (congrArg Prod.fst he) 6) 0
  exact e3.symm.trans (this.symm.trans e1)

example : (fun i _ => (i : ℚ) : Store ℚ 9 ℕ) 6 0 ≠ (fun i _ => (i : ℚ) : Store ℚ 9 ℕ) 8 0 := by decide +kernel

end C86

end NATriuM.BoundaryValues
