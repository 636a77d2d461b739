import Verif.Spec.BoundaryValues
import Mathlib.Tactic.Ring
import Mathlib.Tactic.Linarith
import Mathlib.Tactic.Tauto

/-! # Lemmas for the flow variables at boundaries and the application of boundaries -/

namespace NATriuM.BoundaryValues

open Finset NATriuM.Walls NATriuM.Spec.BoundaryFlow

section

variable {K : Type*} [Field K] [LinearOrder K] {D Q n : ℕ}

theorem check_ok {α : Type*} {d p : Bool} {r : Except BVError α} {x : α} :
    check d p r = .ok x ↔ (d = true → p = true) ∧ r = .ok x := by
  cases d <;> cases p <;> simp [check]

omit [Field K] [LinearOrder K] in
theorem andIf_ok {r : Except BVError (State K D n)} {b : Bool} {step : State K D n → Except BVError (State K D n)} {s' : State K D n} :
    andIf r b step = .ok s' ↔ ∃ s, r = .ok s ∧ ((b = true → step s = .ok s') ∧ (b = false → s = s')) := by
  cases r with
  | error e => simp [andIf]
  | ok s => cases b <;> simp [andIf]

/-- The state after `calculateRho` -/
def afterRho (c : Cell K D Q n) (p : Shape K D n) (s : State K D n) : State K D n :=
  { s with rhoDof := densityDof c, rho := ∑ j, densityDof c j * p.value j, upToDate := s.upToDate ||| boundaryRho }

/-- The state after `calculateDRhoDt` -/
def afterDRho (_c : Cell K D Q n) (p : Shape K D n) (s : State K D n) : State K D n :=
  { s with drhodt := (∑ j, ∑ a, p.grad j a * s.rhoUDof j a) * -1, upToDate := s.upToDate ||| boundaryDRhoDt }

/-- The state after `calculateDuDt` -/
def afterDu (c : Cell K D Q n) (p : Shape K D n) (s : State K D n) : State K D n :=
  { s with dudt := dudtComponent c p s, upToDate := s.upToDate ||| boundaryDuDt }

theorem calculateRho_ok {c : Cell K D Q n} {p : Shape K D n} {s s' : State K D n} :
    calculateRho c p s = .ok s' ↔
      (c.debug = true → s.upToDate.has boundaryRho = false ∧ 0 < c.viscosity ∧ 0 < c.dt) ∧ afterRho c p s = s' := by
  simp only [calculateRho, check_ok, afterRho, Bool.not_eq_true', decide_eq_true_eq, Except.ok.injEq]
  tauto

theorem calculateU_ok {c : Cell K D Q n} {p : Shape K D n} {s s' : State K D n} :
    calculateU c p s = .ok s' ↔
      (c.debug = true → s.upToDate.has boundaryRho = true ∧ s.upToDate.has boundaryU = false ∧ 0 < c.viscosity ∧ 0 < c.dt ∧
        velocityConsistent (afterU c p s) = true) ∧ (∀ j, s.rhoDof j ≠ 0) ∧ afterU c p s = s' := by
  simp only [calculateU, check_ok, Bool.not_eq_true', decide_eq_true_eq]
  by_cases h : ∃ j, s.rhoDof j = 0
  · rw [if_pos h]
    refine ⟨fun h' => ?_, fun h' => ?_⟩
    · exact absurd h'.2.2.2.2 (by simp)
    · obtain ⟨j, hj⟩ := h
      exact absurd hj (h'.2.1 j)
  · rw [if_neg h, check_ok]
    have h2 : ∀ j, s.rhoDof j ≠ 0 := fun j hj => h ⟨j, hj⟩
    simp only [Except.ok.injEq]
    tauto

omit [LinearOrder K] in
theorem calculateDRhoDt_ok {c : Cell K D Q n} {p : Shape K D n} {s s' : State K D n} :
    calculateDRhoDt c p s = .ok s' ↔
      (c.debug = true → s.upToDate.has boundaryDRhoDt = false ∧ s.upToDate.has boundaryU = true) ∧ hasGradients c.flags = true ∧
        { s with drhodt := (∑ j, ∑ a, p.grad j a * s.rhoUDof j a) * -1, upToDate := s.upToDate ||| boundaryDRhoDt } = s' := by
  simp only [calculateDRhoDt, check_ok, Bool.not_eq_true']
  cases hasGradients c.flags with
  | false => simp
  | true =>
    simp
    tauto

theorem calculateDuDt_ok {c : Cell K D Q n} {p : Shape K D n} {s s' : State K D n} :
    calculateDuDt c p s = .ok s' ↔
      (c.debug = true → s.upToDate.has boundaryDuDt = false ∧ s.upToDate.has boundaryU = true ∧ s.upToDate.has boundaryRho = true) ∧
        (hasGradients c.flags = true ∧ hasHessians c.flags = true) ∧ s.rho ≠ 0 ∧
        { s with dudt := dudtComponent c p s, upToDate := s.upToDate ||| boundaryDuDt } = s' := by
  simp only [calculateDuDt, check_ok, Bool.not_eq_true']
  cases hasGradients c.flags with
  | false => simp
  | true =>
    cases hasHessians c.flags with
    | false => simp
    | true =>
      by_cases h : s.rho = 0
      · simp [h]
      · simp [h]
        tauto

omit [LinearOrder K] in
theorem velocityDof_afterRho (c : Cell K D Q n) (p : Shape K D n) (s : State K D n) (j : Fin n) (a : Fin D) :
    velocityDof c (afterRho c p s) j a = velocity c.S.dir c.f a j := rfl

omit [LinearOrder K] in
theorem rho_eq (c : Cell K D Q n) (p : Shape K D n) (s : State K D n) : (afterRho c p s).rho = at' p.value (density c.f) := rfl

omit [LinearOrder K] in
theorem rho_interp (c : Cell K D Q n) (p : Shape K D n) : at' p.value (density c.f) = ∑ i, getDistribution c p i := by
  simp only [at', density, getDistribution]
  rw [Finset.sum_comm]
  exact Finset.sum_congr rfl fun j _ => Finset.sum_mul ..

omit [LinearOrder K] in
theorem rhoU_interp (c : Cell K D Q n) (p : Shape K D n) (a : Fin D) :
    ∑ j, momentumDof c j a * p.value j = ∑ i, c.S.dir i a * getDistribution c p i := by
  simp only [momentumDof, getDistribution, Finset.mul_sum]
  rw [Finset.sum_comm]
  refine Finset.sum_congr rfl fun j _ => ?_
  rw [Finset.sum_mul]
  exact Finset.sum_congr rfl fun i _ => by ring

omit [LinearOrder K] in
theorem drhodt_interp (c : Cell K D Q n) (p : Shape K D n) :
    (∑ j, ∑ a, p.grad j a * momentumDof c j a) * -1 = continuityRhs c.S.dir p c.f := by
  rw [mul_neg_one, continuityRhs, Finset.sum_comm]
  congr 1
  refine Finset.sum_congr rfl fun a _ => ?_
  simp only [at', momentumDof, Finset.mul_sum]
  rw [Finset.sum_comm]
  exact Finset.sum_congr rfl fun i _ => Finset.sum_congr rfl fun j _ => by ring

omit [LinearOrder K] in
theorem dudt_interp (c : Cell K D Q n) (p : Shape K D n) (s : State K D n) (hd : s.rhoDof = densityDof c)
    (hr : s.rho = at' p.value (density c.f)) (hu : ∀ j a, s.uDof j a = velocity c.S.dir c.f a j)
    (hv : ∀ a, s.u a = at' p.value (velocity c.S.dir c.f a)) (a : Fin D) :
    dudtComponent c p s a = momentumRhs c.S.dir c.S.cs2 c.viscosity p c.f a := by
  have h1 : ∑ j, ∑ k, (p.hess j k k * s.uDof j a + p.hess j a k * s.uDof j k)
      = (∑ k, at' (fun j => p.hess j k k) (velocity c.S.dir c.f a)) + ∑ k, at' (fun j => p.hess j a k) (velocity c.S.dir c.f k) := by
    simp only [hu, Finset.sum_add_distrib, at']
    congr 1 <;>
    · rw [Finset.sum_comm]
      exact Finset.sum_congr rfl fun _ _ => Finset.sum_congr rfl fun _ _ => mul_comm _ _
  have h2 : ∑ j, ((∑ k, s.u k * p.grad j k * s.uDof j a) + c.S.cs2 / s.rho * p.grad j a * s.rhoDof j)
      = (∑ k, at' p.value (velocity c.S.dir c.f k) * at' (fun j => p.grad j k) (velocity c.S.dir c.f a))
        + c.S.cs2 / at' p.value (density c.f) * at' (fun j => p.grad j a) (density c.f) := by
    rw [Finset.sum_add_distrib, hr, hd]
    congr 1
    · rw [Finset.sum_comm]
      refine Finset.sum_congr rfl fun k _ => ?_
      rw [hv k, at', at', Finset.mul_sum]
      exact Finset.sum_congr rfl fun j _ => by rw [hu]; ring
    · have : at' (fun j => p.grad j a) (density c.f) = ∑ j, densityDof c j * p.grad j a := rfl
      rw [this, Finset.mul_sum]
      exact Finset.sum_congr rfl fun j _ => by ring
  rw [dudtComponent, h1, h2, momentumRhs]
  ring

end

/-! ## Application -/

section

variable {K : Type*} [Field K] [LinearOrder K] {D Q : ℕ} {ι : Type*} [DecidableEq ι]

/-- All hits one after the other -/
def runHits (h : Handler K D Q ι) : List (HitPoint K D × HitRecord K Q ι) → Store K Q ι × Store K Q ι →
    Except OperateError (Store K Q ι × Store K Q ι)
  | [], fg => .ok fg
  | r :: rest, fg =>
    match applyHit h r.1 r.2 fg with
    | .error e => .error e
    | .ok fg => runHits h rest fg

theorem runHits_append (h : Handler K D Q ι) (l l' : List (HitPoint K D × HitRecord K Q ι)) (fg fg' : Store K Q ι × Store K Q ι)
    (h1 : runHits h l fg = .ok fg') : runHits h (l ++ l') fg = runHits h l' fg' := by
  induction l generalizing fg with
  | nil =>
    cases h1
    rfl
  | cons r rest ih =>
    simp only [runHits, List.cons_append] at h1 ⊢
    cases h2 : applyHit h r.1 r.2 fg with
    | error e => simp [h2] at h1
    | ok fg2 =>
      simp only [h2] at h1 ⊢
      exact ih fg2 h1

theorem applyHits_run (h : Handler K D Q ι) (p : HitPoint K D) (l : List (HitRecord K Q ι)) (fg : Store K Q ι × Store K Q ι) :
    applyHits h p l fg = runHits h (l.map fun r => (p, r)) fg := by
  induction l generalizing fg with
  | nil => rfl
  | cons r rest ih =>
    simp only [applyHits, List.map_cons, runHits]
    cases applyHit h p r fg with
    | error e => rfl
    | ok fg2 => exact ih fg2

theorem applyPoints_run (h : Handler K D Q ι) {n : ℕ} (c : Cell K D Q n) (l : List (PointHits K D Q n ι)) (s : State K D n)
    (fg fg' : Store K Q ι × Store K Q ι) (h1 : applyPoints h c l s fg = .ok fg') :
    runHits h (l.flatMap fun p => p.hits.map fun r => (p.point, r)) fg = .ok fg' := by
  induction l generalizing s fg with
  | nil => exact h1
  | cons p rest ih =>
    rw [applyPoints] at h1
    cases h2 : reinit c p.shape s with
    | error e => simp [h2] at h1
    | ok s2 =>
      simp only [h2] at h1
      cases h3 : applyHits h p.point p.hits fg with
      | error e => simp [h3] at h1
      | ok fg2 =>
        simp only [h3] at h1
        rw [List.flatMap_cons, runHits_append h _ _ fg fg2 (by rw [← applyHits_run, h3])]
        exact ih s2 fg2 h1

theorem operate_run (h : Handler K D Q ι) (cells : List (CellHits K D Q ι)) (fg fg' : Store K Q ι × Store K Q ι)
    (h1 : operate h cells fg = .ok fg') : runHits h (allHits cells) fg = .ok fg' := by
  induction cells generalizing fg with
  | nil => exact h1
  | cons c rest ih =>
    rw [operate] at h1
    cases h2 : applyCell h c fg with
    | error e => simp [h2] at h1
    | ok fg2 =>
      simp only [h2] at h1
      have h3 : runHits h (c.points.flatMap fun p => p.hits.map fun r => (p.point, r)) fg = .ok fg2 := by
        rw [applyCell] at h2
        cases h4 : cellFlags h c.faces onlyDistributions with
        | error e => simp [h4] at h2
        | ok flags =>
          simp only [h4] at h2
          exact applyPoints_run h _ _ _ _ _ h2
      have h4 : allHits (c :: rest) = (c.points.flatMap fun p => p.hits.map fun r => (p.point, r)) ++ allHits rest := by
        simp [allHits]
      rw [h4, runHits_append h _ _ fg fg2 h3]
      exact ih fg2 h1

/-- One hit at a local wall -/
theorem applyHit_local (h : Handler K D Q ι) (p : HitPoint K D) (r : HitRecord K Q ι) (w : Wall K D)
    (hw : h.boundaries r.boundary = some w) (hl : IsLocal w) (f g : Store K Q ι) :
    ∃ f', applyHit h p r (f, g) = .ok (f', g) ∧ f' r.dir r.dof = wallValue h.S h.t f w p r ∧
      ∀ i x, (i, x) ≠ (r.dir, r.dof) → f' i x = f i x := by
  have hne : ∀ (v : K) (i : Fin Q) (x : ι), (i, x) ≠ (r.dir, r.dof) → Store.set f r.dir r.dof v i x = f i x := by
    intro v i x hix
    rw [Store.set, if_neg]
    rintro ⟨rfl, rfl⟩
    exact hix rfl
  have heq : ∀ v : K, Store.set f r.dir r.dof v r.dir r.dof = v := fun v => by simp [Store.set]
  cases w with
  | periodic => exact absurd hl id
  | thermal Tw => exact absurd hl id
  | dgOnly => exact absurd hl id
  | velocity v =>
    refine ⟨velocityWall h.S v p r.dir r.dof r.eps h.t f, by simp [applyHit, hw, applyWall], ?_, hne _⟩
    rw [velocityWall, heq]
    simp [wallValue, toAdd, evaluatedVelocity, getPoint]
  | firstOrder => exact ⟨firstOrderBounceBack h.S r.dir r.dof f, by simp [applyHit, hw, applyWall], heq _, hne _⟩
  | doNothing => exact ⟨f, by simp [applyHit, hw, applyWall, doNothing], rfl, fun _ _ _ => rfl⟩
  | equilibrium T v =>
    exact ⟨equilibriumBoundary h.S T v p r.dir r.dof r.eps h.t f, by simp [applyHit, hw, applyWall], heq _, hne _⟩

omit [LinearOrder K] [DecidableEq ι] in
theorem wallValue_congr (S : Stencil K D Q) (t : K) (f f' : Fin Q → ι → K) (w : Wall K D) (p : HitPoint K D) (r : HitRecord K Q ι)
    (h1 : f r.dir r.dof = f' r.dir r.dof) (h2 : w = .firstOrder → f (S.opp r.dir) r.dof = f' (S.opp r.dir) r.dof) :
    wallValue S t f w p r = wallValue S t f' w p r := by
  cases w with
  | firstOrder => exact h2 rfl
  | velocity v => simp only [wallValue, h1]
  | equilibrium T v => rfl
  | _ => exact h1

omit [Field K] [LinearOrder K] [DecidableEq ι] in
theorem separate_tail {b : ℕ → Option (Wall K D)} {S : Stencil K D Q} {x : HitPoint K D × HitRecord K Q ι}
    {l : List (HitPoint K D × HitRecord K Q ι)} (h : Separate b S (x :: l)) : Separate b S l where
  known k hk := h.known k (List.mem_cons_of_mem _ hk)
  distinct := (List.nodup_cons.1 h.distinct).2
  opposite k hk hf k' hk' := h.opposite k (List.mem_cons_of_mem _ hk) hf k' (List.mem_cons_of_mem _ hk')

theorem runHits_separate (h : Handler K D Q ι) (l : List (HitPoint K D × HitRecord K Q ι)) (hs : Separate h.boundaries h.S l)
    (f g : Store K Q ι) :
    ∃ f', runHits h l (f, g) = .ok (f', g) ∧
      (∀ i x, (∀ k ∈ l, (k.2.dir, k.2.dof) ≠ (i, x)) → f' i x = f i x) ∧
      ∀ k ∈ l, ∀ w, h.boundaries k.2.boundary = some w → f' k.2.dir k.2.dof = wallValue h.S h.t f w k.1 k.2 := by
  induction l generalizing f with
  | nil => exact ⟨f, rfl, fun _ _ _ => rfl, fun k hk => absurd hk (by simp)⟩
  | cons a l ih =>
    obtain ⟨w, hw, hl⟩ := hs.known a (List.mem_cons_self ..)
    obtain ⟨f1, h1, h2, h3⟩ := applyHit_local h a.1 a.2 w hw hl f g
    obtain ⟨f2, h4, h5, h6⟩ := ih (separate_tail hs) f1
    have hnot : ∀ k ∈ l, (k.2.dir, k.2.dof) ≠ (a.2.dir, a.2.dof) := by
      intro k hk he
      have := (List.nodup_cons.1 hs.distinct).1
      exact this (List.mem_map.2 ⟨k, hk, he⟩)
    refine ⟨f2, by simp only [runHits, h1, h4], fun i x hix => ?_, fun k hk w' hw' => ?_⟩
    · rw [h5 i x fun k hk => hix k (List.mem_cons_of_mem _ hk), h3 i x fun he => hix a (List.mem_cons_self ..) he.symm]
    · rcases List.mem_cons.1 hk with rfl | hk'
      · rw [hw] at hw'
        obtain rfl : w = w' := Option.some.inj hw'
        rw [h5 _ _ hnot, h2]
      · rw [h6 k hk' w' hw']
        refine wallValue_congr _ _ _ _ _ _ _ (h3 _ _ (hnot k hk')) fun hf => h3 _ _ fun he => ?_
        exact hs.opposite k hk (by rw [hw', hf]) a (List.mem_cons_self ..) he.symm

omit [Field K] [LinearOrder K] [DecidableEq ι] in
theorem cellFlags_library (h : Handler K D Q ι) (l : List (Option ℕ)) (flags out : Flags) (hf : flags = 0 ∨ flags = 1)
    (h1 : cellFlags h l flags = .ok out) : out = 0 ∨ out = 1 := by
  induction l generalizing flags with
  | nil =>
    cases h1
    exact hf
  | cons a rest ih =>
    cases a with
    | none => exact ih flags hf h1
    | some b =>
      rw [cellFlags] at h1
      cases hb : h.boundaries b with
      | none => simp [hb] at h1
      | some w =>
        simp only [hb] at h1
        split at h1
        · exact ih flags hf h1
        · split at h1
          · refine ih _ ?_ h1
            have hw : w.updateFlags = 0 ∨ w.updateFlags = 1 := by cases w <;> simp [Wall.updateFlags, boundaryRho, onlyDistributions]
            rcases hf with rfl | rfl <;> rcases hw with hw | hw <;> rw [hw] <;> decide
          · simp at h1

omit [Field K] [LinearOrder K] [DecidableEq ι] in
theorem cellFlags_supported (h : Handler K D Q ι) (l : List (Option ℕ)) (flags out : Flags) (h1 : cellFlags h l flags = .ok out) :
    ∀ b, some b ∈ l → ∃ w, h.boundaries b = some w ∧ (w.isPeriodic = true ∨ w.isSLSupported = true) := by
  induction l generalizing flags with
  | nil => intro b hb; simp at hb
  | cons a rest ih =>
    intro b hb
    cases a with
    | none => exact ih flags h1 b (by simpa using hb)
    | some b' =>
      rw [cellFlags] at h1
      cases hw : h.boundaries b' with
      | none => simp [hw] at h1
      | some w =>
        simp only [hw] at h1
        split at h1
        · next hp =>
          rcases List.mem_cons.1 hb with hb | hb
          · cases hb
            exact ⟨w, hw, Or.inl hp⟩
          · exact ih flags h1 b hb
        · split at h1
          · next hp =>
            rcases List.mem_cons.1 hb with hb | hb
            · cases hb
              exact ⟨w, hw, Or.inr hp⟩
            · exact ih _ h1 b hb
          · simp at h1

omit [Field K] [LinearOrder K] [DecidableEq ι] in
theorem cellFlags_total (h : Handler K D Q ι) (l : List (Option ℕ)) (flags : Flags)
    (h1 : ∀ b, some b ∈ l → ∃ w, h.boundaries b = some w ∧ (w.isPeriodic = true ∨ w.isSLSupported = true)) :
    ∃ out, cellFlags h l flags = .ok out := by
  induction l generalizing flags with
  | nil => exact ⟨flags, rfl⟩
  | cons a rest ih =>
    have ih' := fun flags => ih flags fun b hb => h1 b (List.mem_cons_of_mem _ hb)
    cases a with
    | none => exact ih' flags
    | some b =>
      obtain ⟨w, hw, h2⟩ := h1 b (List.mem_cons_self ..)
      rw [cellFlags]
      simp only [hw]
      by_cases hp : w.isPeriodic = true
      · rw [if_pos hp]
        exact ih' flags
      · rw [if_neg hp, if_pos (h2.resolve_left hp)]
        exact ih' _

end

end NATriuM.BoundaryValues
