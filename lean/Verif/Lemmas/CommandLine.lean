import Verif.Spec.CommandLine
import Verif.Lemmas.Config
import Mathlib.Tactic.IntervalCases

/-!
# Lemmas on the command line parser
-/

namespace NATriuM
namespace CommandLine

open Config

/-- The action is a setter call with arguments in range. -/
def Action.Fine : Action → Prop
  | .call c => c.InRange
  | .throw _ => False

/-- The action is not the call that can break the object. -/
def Action.Plain : Action → Prop
  | .call c => ∀ v, c ≠ .embedded v
  | .throw _ => True

theorem run_ok_iff (l : List Action) (h : Handler) (hg : Good h) (hp : ∀ x ∈ l, x.Plain) :
    (∃ h', run l h = (.ok (), h')) ↔ ∀ x ∈ l, x.Fine := by
  induction l generalizing h with
  | nil => simp [run]
  | cons x l ih =>
    cases x with
    | throw e => simp [run, Action.Fine]
    | call c =>
      have hpc : ∀ v, c ≠ .embedded v := hp (.call c) (by simp)
      by_cases hc : c.InRange
      · obtain ⟨h1, e1, a1⟩ := exec_ok hg c hc
        rw [run, e1]
        simp only
        rw [ih h1 a1.good fun x hx => hp x (List.mem_cons_of_mem _ hx)]
        simp [Action.Fine, hc]
      · rw [run, exec_error hg c hc hpc]
        simp [Action.Fine, hc]

theorem run_append (l₁ l₂ : List Action) (h h' : Handler) (hr : run (l₁ ++ l₂) h = (.ok (), h')) :
    ∃ h1, run l₁ h = (.ok (), h1) ∧ run l₂ h1 = (.ok (), h') := by
  induction l₁ generalizing h with
  | nil => exact ⟨h, rfl, hr⟩
  | cons x l ih =>
    cases x with
    | throw e => simp [run] at hr
    | call c =>
      simp only [List.cons_append, run] at hr ⊢
      rcases he : exec c h with ⟨r, h2⟩
      cases r with
      | error e => simp [he] at hr
      | ok u => simp only [he] at hr ⊢; exact ih h2 hr

theorem run_frame (l : List Action) (h h' : Handler) (hg : Good h) (hp : ∀ x ∈ l, x.Plain) (hr : run l h = (.ok (), h')) :
    Good h' ∧ ∀ k, (∀ c, .call c ∈ l → k ∉ c.touches) → h'.entries k = h.entries k := by
  induction l generalizing h with
  | nil => cases hr; exact ⟨hg, fun _ _ => rfl⟩
  | cons x l ih =>
    cases x with
    | throw e => simp [run] at hr
    | call c =>
      have hfine := (run_ok_iff _ h hg hp).1 ⟨h', hr⟩
      obtain ⟨h1, e1, a1⟩ := exec_ok hg c (hfine (.call c) (by simp))
      rw [run, e1] at hr
      simp only at hr
      obtain ⟨g, f⟩ := ih h1 a1.good (fun x hx => hp x (List.mem_cons_of_mem _ hx)) hr
      exact ⟨g, fun k hk => (f k fun c hc => hk c (List.mem_cons_of_mem _ hc)).trans (a1.frame k (hk c (by simp)))⟩

/-- The entry and the value written by a call. -/
noncomputable def stored : Call → Option (List String × Val)
  | .enum p n => (p.setTable.lookup n).map fun s => (p.key.1 ++ [p.key.2], .text s)
  | .dbl p v => some (p.key.1 ++ [p.key.2], v.toVal)
  | .int p i => some (p.key.1 ++ [p.key.2], .int i)
  | .bool p b => some (p.key.1 ++ [p.key.2], .bool b)
  | .outputDirectory s => some (["Output", "Output directory"], .text s)
  | _ => none

theorem exec_value {h h' : Handler} (hg : Good h) {c : Call} (hc : c.InRange) {k : List String} {v : Val} (hs : stored c = some (k, v))
    (he : exec c h = (.ok (), h')) : h'.value k = some v := by
  cases c with
  | enum p n =>
    obtain ⟨s, hl⟩ := (p.lookup_iff n).2 hc
    simp only [stored, hl, Option.map_some, Option.some.injEq, Prod.mk.injEq] at hs
    obtain ⟨rfl, rfl⟩ := hs
    have hp := p.declared_eq
    have hm : (Pattern.selection p.allowed).Match (.text s) := p.set_allowed hl
    simp only [exec, setEnum, hl] at he
    rw [plainSet_ok hg.path (by rw [hg.pattern, hp]) hm, Prod.mk.injEq] at he
    rw [← he.2]
    exact put_value _ _ _ (by rw [hg.pattern, hp])
  | dbl p v =>
    simp only [stored, Option.some.injEq, Prod.mk.injEq] at hs
    obtain ⟨rfl, rfl⟩ := hs
    obtain ⟨lo, hi, hp, hw⟩ := p.declared_iff
    obtain ⟨x, rfl, hx⟩ := hc
    have hm : (Pattern.double lo hi).Match (Num.fin x).toVal := (hw _).2 hx
    simp only [exec, setDbl] at he
    rw [guardedSet_ok hg.path (by rw [hg.pattern, hp]) hm, Prod.mk.injEq] at he
    rw [← he.2]
    exact put_value _ _ _ (by rw [hg.pattern, hp])
  | int p i =>
    simp only [stored, Option.some.injEq, Prod.mk.injEq] at hs
    obtain ⟨rfl, rfl⟩ := hs
    obtain ⟨lo, hi, hp, hw⟩ := p.declared_iff
    have hm : (Pattern.integer lo hi).Match (.int i) := (hw _).2 hc
    simp only [exec, setInt] at he
    rw [guardedSet_ok hg.path (by rw [hg.pattern, hp]) hm, Prod.mk.injEq] at he
    rw [← he.2]
    exact put_value _ _ _ (by rw [hg.pattern, hp])
  | bool p b =>
    simp only [stored, Option.some.injEq, Prod.mk.injEq] at hs
    obtain ⟨rfl, rfl⟩ := hs
    have hp := p.declared_eq
    simp only [exec, setBool] at he
    rw [plainSet_ok (pt := .bool) (v := .bool b) hg.path (by rw [hg.pattern, hp]) trivial, Prod.mk.injEq] at he
    rw [← he.2]
    exact put_value _ _ _ (by rw [hg.pattern, hp])
  | outputDirectory s =>
    simp only [stored, Option.some.injEq, Prod.mk.injEq] at hs
    obtain ⟨rfl, rfl⟩ := hs
    have hp : initial.pattern (["Output"] ++ ["Output directory"]) = some .directoryName := by rw [initial_pattern]; decide +kernel
    simp only [exec, setOutputDirectory] at he
    rw [guardedSet_ok (pt := .directoryName) (v := .text s) hg.path (by rw [hg.pattern, hp]) trivial, Prod.mk.injEq] at he
    rw [← he.2]
    exact put_value h _ _ (by rw [hg.pattern]; exact hp)
  | prandtlNumber v => simp [stored] at hs
  | sutherlandLaw => simp [stored] at hs
  | wallNormalCoordinates l => simp [stored] at hs
  | embedded v => simp [stored] at hs

/-- A value stays if every later call that touches the entry writes the same value. -/
theorem run_keeps (l : List Action) (h h' : Handler) (hg : Good h) (hp : ∀ x ∈ l, x.Plain) (hr : run l h = (.ok (), h')) {k : List String} {v : Val}
    (hv : h.value k = some v) (hl : ∀ c, .call c ∈ l → k ∈ c.touches → stored c = some (k, v)) : h'.value k = some v := by
  induction l generalizing h with
  | nil => cases hr; exact hv
  | cons x l ih =>
    cases x with
    | throw e => simp [run] at hr
    | call c =>
      have hfine := (run_ok_iff _ h hg hp).1 ⟨h', hr⟩
      have hc : c.InRange := hfine (.call c) (by simp)
      obtain ⟨h1, e1, a1⟩ := exec_ok hg c hc
      rw [run, e1] at hr
      refine ih h1 a1.good (fun x hx => hp x (List.mem_cons_of_mem _ hx)) hr ?_ fun c hc => hl c (List.mem_cons_of_mem _ hc)
      by_cases hk : k ∈ c.touches
      · exact exec_value hg hc (hl c (by simp) hk) e1
      · unfold Handler.value at hv ⊢
        rw [a1.frame k hk, hv]

/-- The value written by a call survives if every later call that touches the entry writes the same value. -/
theorem run_value {l₁ l₂ : List Action} {c : Call} {h h' : Handler} (hg : Good h) (hp : ∀ x ∈ l₁ ++ .call c :: l₂, x.Plain)
    (hr : run (l₁ ++ .call c :: l₂) h = (.ok (), h')) {k : List String} {v : Val} (hs : stored c = some (k, v))
    (hl : ∀ c', .call c' ∈ l₂ → k ∈ c'.touches → stored c' = some (k, v)) : h'.path = [] ∧ h'.value k = some v := by
  have hfine := (run_ok_iff _ h hg hp).1 ⟨h', hr⟩
  obtain ⟨h1, r1, r2⟩ := run_append _ _ _ _ hr
  have g1 := (run_frame l₁ h h1 hg (fun x hx => hp x (List.mem_append_left _ hx)) r1).1
  have hc : c.InRange := hfine (.call c) (by simp)
  obtain ⟨h2, e2, a2⟩ := exec_ok g1 c hc
  rw [run, e2] at r2
  simp only at r2
  have hp2 : ∀ x ∈ l₂, x.Plain := fun x hx => hp x (by simp [hx])
  exact ⟨(run_frame l₂ h2 h' a2.good hp2 r2).1.path, run_keeps l₂ h2 h' a2.good hp2 r2 (exec_value g1 hc hs e2) hl⟩

theorem enum_read {p : EnumParam} {n : ℕ} {k : List String} {v : Val} {h : Handler} (hs : stored (.enum p n) = some (k, v)) (h0 : h.path = [])
    (hv : h.value k = some v) : (getEnum p h).1 = .ok n := by
  simp only [stored, Option.map_eq_some_iff, Prod.mk.injEq] at hs
  obtain ⟨s, hl, rfl, rfl⟩ := hs
  rw [getEnum_eq p h0 hv, p.roundtrip hl]

theorem stored_enum {p : EnumParam} {n : ℕ} (hn : n < p.count) : ∃ v, stored (.enum p n) = some (p.key.1 ++ [p.key.2], v) := by
  obtain ⟨s, hl⟩ := (p.lookup_iff n).2 hn
  exact ⟨.text s, by simp [stored, hl]⟩

/-! ## The blocks -/

/-- The entries that a block may write. -/
def foot : Block → List (List String)
  | .standardLbm | .standardLbmWith => [["General", "CFL"], ["Advection", "SEDG", "Order of finite element"],
      (EnumParam.key .supportPoints).1 ++ [(EnumParam.key .supportPoints).2], (EnumParam.key .advectionScheme).1 ++ [(EnumParam.key .advectionScheme).2]]
  | .orderFe => [["Advection", "SEDG", "Order of finite element"]]
  | .cfl => [["General", "CFL"]]
  | .outputOn => [["Output", "Switch output off?"]]
  | .verbose => [["Output", "Command line verbosity"], ["Output", "Switch output off?"]]
  | .streaming => [(EnumParam.key .advectionScheme).1 ++ [(EnumParam.key .advectionScheme).2]]
  | .collision => [(EnumParam.key .collisionScheme).1 ++ [(EnumParam.key .collisionScheme).2]]
  | .integrator | .integratorId => [(EnumParam.key .timeIntegrator).1 ++ [(EnumParam.key .timeIntegrator).2],
      (EnumParam.key .dealIntegrator).1 ++ [(EnumParam.key .dealIntegrator).2]]
  | .scaling => [["General", "Stencil scaling"]]
  | .regularization => [(EnumParam.key .regularizationScheme).1 ++ [(EnumParam.key .regularizationScheme).2]]
  | .equilibrium => [(EnumParam.key .equilibriumScheme).1 ++ [(EnumParam.key .equilibriumScheme).2]]
  | .supportPoints => [(EnumParam.key .supportPoints).1 ++ [(EnumParam.key .supportPoints).2]]
  | .outputDir => [["Output", "Output directory"], ["Output", "Switch output off?"]]
  | .outputSol => [["Output", "Output solution interval"], ["Output", "Switch output off?"]]
  | .outputChk => [["Output", "Output checkpoint interval"], ["Output", "Switch output off?"]]
  | .outputTab => [["Output", "Output table interval"], ["Output", "Switch output off?"]]
  | .stencil => [(EnumParam.key .stencil).1 ++ [(EnumParam.key .stencil).2]]
  | .tmax => [["Stop condition", "Simulation end time"]]
  | .init => [(EnumParam.key .initializationScheme).1 ++ [(EnumParam.key .initializationScheme).2]]
  | .initRes => [["Initialization", "Iterative initialization stop condition", "Residual"]]
  | .initNiter => [["Initialization", "Iterative initialization stop condition", "Number of iterations"]]
  | .mrtBasis => [(EnumParam.key .mrtBasis).1 ++ [(EnumParam.key .mrtBasis).2]]
  | .mrtRelax => [(EnumParam.key .mrtRelaxationTimes).1 ++ [(EnumParam.key .mrtRelaxationTimes).2]]

theorem mem_throwIf {x : Action} {b : Bool} : x ∈ throwIf b ↔ b = true ∧ x = .throw .commandLine := by
  unfold throwIf; split_ifs with h <;> simp [h]

theorem mem_given {α : Type} {x : Action} {o : Option α} {f : α → List Action} : x ∈ given o f ↔ ∃ y, o = some y ∧ x ∈ f y := by
  unfold given; cases o <;> simp

theorem lookup_none_iff {α : Type} (l : List (String × α)) (s : String) : l.lookup s = none ↔ s ∉ l.map (·.1) := by
  induction l with
  | nil => simp
  | cons q l ih =>
    obtain ⟨q1, q2⟩ := q
    by_cases h : s = q1
    · subst h; simp
    · rw [List.lookup_cons, (beq_eq_false_iff_ne (a := s) (b := q1)).2 h]
      simp [ih, h]

theorem lookup_mem {α : Type} {l : List (String × α)} {s : String} {x : α} (h : l.lookup s = some x) : (s, x) ∈ l := by
  obtain ⟨l₁, l₂, rfl, -⟩ := List.lookup_eq_some_iff.1 h
  simp

/-- Two tables with the same rows. -/
theorem lookup_congr {α : Type} {l₁ l₂ : List (String × α)} (h₁ : ∀ q ∈ l₁, l₂.lookup q.1 = some q.2)
    (h₂ : ∀ q ∈ l₂, l₁.lookup q.1 = some q.2) (s : String) : l₁.lookup s = l₂.lookup s := by
  cases h : l₁.lookup s with
  | some x => exact (h₁ _ (lookup_mem h)).symm
  | none =>
    cases h' : l₂.lookup s with
    | none => rfl
    | some y => rw [h₂ _ (lookup_mem h')] at h; cases h

theorem streaming_table (s : String) : streamingTable.lookup s = streamingDoc.lookup s := rfl
theorem collision_table (s : String) : collisionTable.lookup s = collisionDoc.lookup s :=
  lookup_congr (by decide +kernel) (by decide +kernel) s
theorem integrator_table (s : String) : integratorTable.lookup s = integratorDoc.lookup s := rfl
theorem regularization_table (s : String) : regularizationTable.lookup s = regularizationDoc.lookup s := rfl
theorem equilibrium_table (s : String) : equilibriumTable.lookup s = equilibriumDoc.lookup s := rfl
theorem supportPoints_table (s : String) : supportPointsTable.lookup s = supportPointsDoc.lookup s := rfl
theorem stencil_table (s : String) : stencilTable.lookup s = (stencilDoc ++ stencilExtra).lookup s :=
  lookup_congr (by decide +kernel) (by decide +kernel) s
theorem init_table (s : String) : initTable.lookup s = initDoc.lookup s := rfl
theorem mrtBasis_table (s : String) : mrtBasisTable.lookup s = mrtBasisDoc.lookup s := rfl

theorem mem_select {x : Action} {p : EnumParam} {tbl : List (String × ℕ)} {s : String} :
    x ∈ select p tbl s ↔ (∃ n, tbl.lookup s = some n ∧ x = .call (.enum p n)) ∨ (tbl.lookup s = none ∧ x = .throw .commandLine) := by
  unfold select
  cases tbl.lookup s <;> simp

/-- All enumerators of a table exist. -/
theorem select_fine {p : EnumParam} {tbl : List (String × ℕ)} (ht : ∀ q ∈ tbl, q.2 < p.count) (s : String) :
    (∀ x ∈ select p tbl s, x.Fine) ↔ s ∈ tbl.map (·.1) := by
  unfold select
  cases h : tbl.lookup s with
  | none => simpa [Action.Fine] using (lookup_none_iff tbl s).1 h
  | some n =>
    have hm := lookup_mem h
    simp only [List.mem_singleton, forall_eq, Action.Fine, Call.InRange]
    exact ⟨fun _ => List.mem_map.2 ⟨_, hm, rfl⟩, fun _ => ht _ hm⟩

/-- All calls of a list write only to the entries `F`, and none can break the object. -/
def Inside (F : List (List String)) (l : List Action) : Prop := ∀ x ∈ l, x.Plain ∧ ∀ c, x = .call c → ∀ k ∈ c.touches, k ∈ F

section Inside

variable {F : List (List String)}

@[simp] theorem inside_nil : Inside F [] := by simp [Inside]

@[simp] theorem inside_call {c : Call} {l : List Action} :
    Inside F (.call c :: l) ↔ ((∀ v, c ≠ .embedded v) ∧ ∀ k ∈ c.touches, k ∈ F) ∧ Inside F l := by
  simp [Inside, Action.Plain]

@[simp] theorem inside_throw {e : Exc} {l : List Action} : Inside F (.throw e :: l) ↔ Inside F l := by
  simp [Inside, Action.Plain]

@[simp] theorem inside_append {l₁ l₂ : List Action} : Inside F (l₁ ++ l₂) ↔ Inside F l₁ ∧ Inside F l₂ := by
  simp only [Inside, List.mem_append]
  exact ⟨fun h => ⟨fun x hx => h x (.inl hx), fun x hx => h x (.inr hx)⟩, fun h x hx => hx.elim (h.1 x) (h.2 x)⟩

@[simp] theorem inside_throwIf {b : Bool} : Inside F (throwIf b) := by unfold throwIf; split_ifs <;> simp

@[simp] theorem inside_given {α : Type} {o : Option α} {f : α → List Action} : Inside F (given o f) ↔ ∀ y ∈ o, Inside F (f y) := by
  unfold given; cases o <;> simp

theorem inside_select {p : EnumParam} {tbl : List (String × ℕ)} {s : String} (hk : p.key.1 ++ [p.key.2] ∈ F) : Inside F (select p tbl s) := by
  unfold select
  split
  · simp only [inside_call, Call.touches, List.mem_singleton, forall_eq, inside_nil, and_true]
    exact ⟨fun v hv => by (try cases hv), hk⟩
  · simp

end Inside

theorem block_inside (t0 : ℕ) (a : Args) (b : Block) : Inside (foot b) (block t0 a b) := by
  cases b <;> simp only [block, inside_given, foot]
  case standardLbm => split_ifs <;> simp [Call.touches, DblParam.key, IntParam.key]
  case standardLbmWith => intro n _; split_ifs <;> simp [Call.touches, DblParam.key, IntParam.key]
  case orderFe => intro n _; simp [Call.touches, IntParam.key]
  case cfl => intro n _; simp [Call.touches, DblParam.key]
  case outputOn => split_ifs <;> simp [Call.touches, BoolParam.key]
  case verbose => split_ifs <;> simp [Call.touches, BoolParam.key, IntParam.key]
  case integrator => intro n _; split <;> simp [Call.touches]
  case integratorId => intro n _; simp [Call.touches]
  case scaling => intro n _; simp [Call.touches, DblParam.key]
  case outputDir => intro n _; simp [Call.touches, BoolParam.key]
  case outputSol => intro n _; simp [Call.touches, BoolParam.key, IntParam.key]
  case outputChk => intro n _; simp [Call.touches, BoolParam.key, IntParam.key]
  case outputTab => intro n _; simp [Call.touches, BoolParam.key, IntParam.key]
  case tmax => intro n _; simp [Call.touches, DblParam.key]
  case initRes => intro n _; simp [Call.touches, DblParam.key]
  case initNiter => intro n _; simp [Call.touches, IntParam.key]
  case mrtRelax => intro n _; split_ifs <;> simp [Call.touches]
  all_goals exact fun s _ => inside_select (by simp)

theorem actions_plain (t0 : ℕ) (a : Args) : ∀ x ∈ actions t0 a, x.Plain := by
  intro x hx
  simp only [actions, List.mem_flatten, List.mem_map] at hx
  obtain ⟨l, ⟨b, -, rfl⟩, hx⟩ := hx
  exact (block_inside t0 a b x hx).1

/-! ## When the options are accepted -/

/-- All actions of a list are calls with arguments in range. -/
def AllFine (l : List Action) : Prop := ∀ x ∈ l, x.Fine

@[simp] theorem fine_nil : AllFine [] := by simp [AllFine]
@[simp] theorem fine_call {c : Call} {l : List Action} : AllFine (.call c :: l) ↔ c.InRange ∧ AllFine l := by simp [AllFine, Action.Fine]
@[simp] theorem fine_throw {e : Exc} {l : List Action} : ¬ AllFine (.throw e :: l) := by simp [AllFine, Action.Fine]
@[simp] theorem fine_append {l₁ l₂ : List Action} : AllFine (l₁ ++ l₂) ↔ AllFine l₁ ∧ AllFine l₂ := by
  simp only [AllFine, List.mem_append]
  exact ⟨fun h => ⟨fun x hx => h x (.inl hx), fun x hx => h x (.inr hx)⟩, fun h x hx => hx.elim (h.1 x) (h.2 x)⟩
@[simp] theorem fine_throwIf {b : Bool} : AllFine (throwIf b) ↔ b = false := by
  unfold throwIf; cases b <;> simp
@[simp] theorem fine_given {α : Type} {o : Option α} {f : α → List Action} : AllFine (given o f) ↔ ∀ y ∈ o, AllFine (f y) := by
  unfold given; cases o <;> simp

theorem fine_select {p : EnumParam} {tbl : List (String × ℕ)} {s : String} (ht : ∀ q ∈ tbl, q.2 < p.count) :
    AllFine (select p tbl s) ↔ s ∈ tbl.map (·.1) := select_fine ht s

theorem Block.mem_all (b : Block) : b ∈ Block.all := by cases b <;> decide

theorem apply_ok_iff (t0 : ℕ) (a : Args) {h : Handler} (hg : Good h) :
    (∃ h', apply t0 a h = (.ok (), h')) ↔ ∀ b, AllFine (block t0 a b) := by
  unfold apply
  rw [run_ok_iff _ _ hg (actions_plain t0 a)]
  simp only [actions, List.mem_flatten, List.mem_map, AllFine]
  exact ⟨fun h b x hx => h x ⟨_, ⟨b, b.mem_all, rfl⟩, hx⟩, fun h x hx => by
    obtain ⟨l, ⟨b, -, rfl⟩, hx⟩ := hx
    exact h b x hx⟩

/-- Sixteen digits of a number not below 1 are not below 1. -/
theorem one_le_sixteenDigits {x : ℝ} (hx : 1 ≤ x) : 1 ≤ sixteenDigits x := by
  have h0 : x ≠ 0 := by linarith
  have hpos : 0 < x := by linarith
  obtain ⟨h1, h2⟩ := Checkpoint.log_bounds h0
  rw [abs_of_pos hpos] at h1 h2
  rw [sixteenDigits, if_neg h0, abs_of_pos hpos]
  set L := Int.log 10 x with hL
  have hL0 : 0 ≤ L := by
    by_contra hc
    have : (10 : ℝ) ^ (L + 1) ≤ 10 ^ (0 : ℤ) := zpow_le_zpow_right₀ (by norm_num) (by omega)
    rw [zpow_zero] at this
    linarith
  have hd : (0 : ℝ) < 10 ^ (L - 15) := zpow_pos (by norm_num) _
  have hq : (10 ^ 15 : ℝ) ≤ x / 10 ^ (L - 15) := by
    rw [le_div_iff₀ hd, ← zpow_natCast, ← zpow_add₀ (by norm_num)]
    simpa using h1
  have hr : (10 ^ 15 : ℤ) ≤ round (x / 10 ^ (L - 15)) := by
    rw [round_eq, Int.le_floor]
    push_cast
    linarith
  have hr' : (10 ^ 15 : ℝ) ≤ (round (x / 10 ^ (L - 15)) : ℤ) := by exact_mod_cast hr
  calc (1 : ℝ) = 10 ^ (0 : ℤ) := by norm_num
    _ ≤ 10 ^ L := zpow_le_zpow_right₀ (by norm_num) hL0
    _ = 10 ^ 15 * 10 ^ (L - 15) := by rw [← zpow_natCast, ← zpow_add₀ (by norm_num)]; congr 1; push_cast; ring
    _ ≤ _ := by gcongr

/-- Sixteen digits of a number between 1 and 10 are at most one unit of the last digit above it. -/
theorem sixteenDigits_le (x : ℝ) (h1 : 1 ≤ x) (h2 : x < 10) : sixteenDigits x ≤ x + 1 / 10 ^ 15 := by
  have h0 : x ≠ 0 := by linarith
  have hpos : 0 < x := by linarith
  have hlog : Int.log 10 x = 0 := by
    obtain ⟨b1, b2⟩ := Checkpoint.log_bounds h0
    rw [abs_of_pos hpos] at b1 b2
    set L := Int.log 10 x
    have a : L < 1 := by
      by_contra hc
      have : (10 : ℝ) ^ (1 : ℤ) ≤ 10 ^ L := zpow_le_zpow_right₀ (by norm_num) (by omega)
      rw [zpow_one] at this
      linarith
    have b : -1 < L := by
      by_contra hc
      have : (10 : ℝ) ^ (L + 1) ≤ 10 ^ (0 : ℤ) := zpow_le_zpow_right₀ (by norm_num) (by omega)
      rw [zpow_zero] at this
      linarith
    omega
  rw [sixteenDigits, if_neg h0, abs_of_pos hpos, hlog]
  have := abs_sub_round (x / 10 ^ (0 - 15 : ℤ))
  rw [abs_le] at this
  have h3 := this.1
  norm_num at h3 ⊢
  linarith

theorem cfl_range {n : ℤ} (hn : 0 < n) : DblParam.Range .cfl (sixteenDigits (√2 * n)) := by
  have h1 : (1 : ℝ) ≤ √2 := Real.one_le_sqrt.2 (by norm_num)
  have h2 : (1 : ℝ) ≤ n := by exact_mod_cast hn
  have := one_le_sixteenDigits (x := √2 * n) (by nlinarith)
  simp only [DblParam.Range]
  have : (1 / 10 ^ 10 : ℝ) ≤ 1 := by norm_num
  linarith

theorem integratorOfId_other (t0 : ℕ) (id : ℤ) (h : ¬ (1 ≤ id ∧ id ≤ 15)) : integratorOfId t0 id = (t0, NONE) := by
  unfold integratorOfId
  repeat rw [if_neg (by omega)]

theorem integratorOfId_doc (t0 : ℕ) (id : ℤ) (h : 1 ≤ id ∧ id ≤ 15) :
    ∃ s t d, integratorDoc[(id - 1).toNat]? = some (s, t, d) ∧ integratorOfId t0 id = (t, d) := by
  obtain ⟨h1, h2⟩ := h
  interval_cases id <;> exact ⟨_, _, _, rfl, rfl⟩

theorem integratorOfId_lt (t0 : ℕ) (id : ℤ) :
    (integratorOfId t0 id).1 < 4 ∧ (integratorOfId t0 id).2 < 13 ↔ (1 ≤ id ∧ id ≤ 15) ∨ t0 < 4 := by
  by_cases h : 1 ≤ id ∧ id ≤ 15
  · obtain ⟨s, t, d, h1, h2⟩ := integratorOfId_doc t0 id h
    have hq : ∀ q ∈ integratorDoc, q.2.1 < 4 ∧ q.2.2 < 13 := by decide +kernel
    have := hq _ (List.mem_of_getElem? h1)
    simp only [h2]
    exact ⟨fun _ => .inl h, fun _ => this⟩
  · simp [integratorOfId_other t0 id h, h]

/-- The options that are accepted: as documented, and moreover three more stencils, any relaxation times of the MRT model, and any integrator
number if the uninitialised variable happens to contain an enumerator. -/
theorem accepted_iff (t0 : ℕ) (a : Args) : (∀ b, AllFine (block t0 a b)) ↔ NoConflict a ∧ ValuesDocumented a ∧
    Named a.stencil (stencilDoc ++ stencilExtra) ∧ ∀ id ∈ a.integratorId, (1 ≤ id ∧ id ≤ 15) ∨ t0 < 4 := by
  have hid := integratorOfId_lt t0
  constructor
  · intro h
    have e : ∀ b, AllFine (block t0 a b) := h
    have b1 := e .standardLbm
    have b2 := e .standardLbmWith
    simp only [block, fine_given] at b2
    have hall : (a.standardLbm = true ∨ a.standardLbmWith.isSome) →
        a.cfl.isSome = false ∧ orderConflict a = false ∧ streamingConflict a = false := by
      rintro (hs | hs)
      · simp only [block, if_pos hs, fine_append, fine_throwIf] at b1
        exact ⟨b1.1.1.1, b1.1.1.2, b1.1.2⟩
      · obtain ⟨n, hn⟩ := Option.isSome_iff_exists.1 hs
        have := b2 n hn
        simp only [fine_append, fine_throwIf] at this
        exact ⟨this.1.1.1.1.1, this.1.1.1.1.2, this.1.1.1.2⟩
    refine ⟨⟨fun hs => by simpa using (hall hs).1, fun hs n hn => ?_, fun hs s hn => ?_, fun hs => ?_, fun hs => ?_⟩, ⟨fun n hn => ?_, fun n hn => ?_,
      fun n hn => ?_, fun s hs => ?_, fun s hs => ?_, fun s hs => ?_, fun v hv => ?_, fun s hs => ?_, fun s hs => ?_, fun s hs => ?_, fun n hn => ?_,
      fun n hn => ?_, fun n hn => ?_, fun v hv => ?_, fun s hs => ?_, fun v hv => ?_, fun n hn => ?_, fun s hs => ?_⟩, fun s hs => ?_, fun id hi => ?_⟩
    · have := (hall hs).2.1
      rw [Option.mem_def] at hn
      simpa [orderConflict, hn] using this
    · have := (hall hs).2.2
      rw [Option.mem_def] at hn
      simpa [streamingConflict, hn] using this
    · obtain ⟨n, hn⟩ := Option.isSome_iff_exists.1 hs.2
      have := b2 n hn
      simp only [fine_append, fine_throwIf, hs.1] at this
      exact absurd this.1.1.2 (by simp)
    · obtain ⟨s, hn⟩ := Option.isSome_iff_exists.1 hs.1
      have := e .integrator
      simp only [block, fine_given, fine_append, fine_throwIf] at this
      exact absurd (this s hn).1 (by simp [hs.2])
    · have := b2 n hn
      simp only [fine_append, fine_call] at this
      exact this.2.2.1
    · have := e .orderFe
      simp only [block, fine_given, fine_call] at this
      exact (this n hn).1
    · have := e .cfl
      simp only [block, fine_given, fine_call] at this
      exact (this n hn).1
    · have := e .streaming
      simp only [block, fine_given] at this
      exact (fine_select (by decide +kernel)).1 (this s hs)
    · have := e .collision
      simp only [block, fine_given] at this
      have h1 := (fine_select (by decide +kernel)).1 (this s hs)
      revert h1
      rw [← not_imp_not, ← lookup_none_iff, ← lookup_none_iff, collision_table]
      exact id
    · have := e .integrator
      simp only [block, fine_given, fine_append] at this
      have h1 := (this s hs).2
      by_contra hc
      rw [← lookup_none_iff, ← integrator_table] at hc
      simp [hc] at h1
    · have := e .scaling
      simp only [block, fine_given, fine_call] at this
      exact (this v hv).1
    · have := e .regularization
      simp only [block, fine_given] at this
      exact (fine_select (by decide +kernel)).1 (this s hs)
    · have := e .equilibrium
      simp only [block, fine_given] at this
      exact (fine_select (by decide +kernel)).1 (this s hs)
    · have := e .supportPoints
      simp only [block, fine_given] at this
      exact (fine_select (by decide +kernel)).1 (this s hs)
    · have := e .outputSol
      simp only [block, fine_given, fine_call] at this
      exact (this n hn).1
    · have := e .outputChk
      simp only [block, fine_given, fine_call] at this
      exact (this n hn).1
    · have := e .outputTab
      simp only [block, fine_given, fine_call] at this
      exact (this n hn).1
    · have := e .tmax
      simp only [block, fine_given, fine_call] at this
      exact (this v hv).1
    · have := e .init
      simp only [block, fine_given] at this
      exact (fine_select (by decide +kernel)).1 (this s hs)
    · have := e .initRes
      simp only [block, fine_given, fine_call] at this
      exact (this v hv).1
    · have := e .initNiter
      simp only [block, fine_given, fine_call] at this
      exact (this n hn).1
    · have := e .mrtBasis
      simp only [block, fine_given] at this
      exact (fine_select (by decide +kernel)).1 (this s hs)
    · have := e .stencil
      simp only [block, fine_given] at this
      have h1 := (fine_select (by decide +kernel)).1 (this s hs)
      revert h1
      rw [← not_imp_not, ← lookup_none_iff, ← lookup_none_iff, stencil_table]
      exact id
    · have := e .integratorId
      simp only [block, fine_given, fine_append, fine_call, Call.InRange, EnumParam.count] at this
      exact (hid id).1 ⟨(this id hi).2.1, (this id hi).2.2.1⟩
  · rintro ⟨hn, hv, hst, hids⟩ b
    have sel : ∀ {p : EnumParam} {tbl doc : List (String × ℕ)} {o : Option String}, (∀ s, tbl.lookup s = doc.lookup s) →
        (∀ q ∈ tbl, q.2 < p.count) → Named o doc → AllFine (given o (select p tbl)) := by
      intro p tbl doc o ht hc ho
      rw [fine_given]
      intro s hs
      rw [fine_select hc]
      have := ho s hs
      revert this
      rw [← not_imp_not, ← lookup_none_iff, ← lookup_none_iff, ht]
      exact id
    have hfree : ∀ (hs : a.standardLbm = true ∨ a.standardLbmWith.isSome),
        a.cfl.isSome = false ∧ orderConflict a = false ∧ streamingConflict a = false := by
      intro hs
      refine ⟨by simp [hn.cfl hs], ?_, ?_⟩
      · cases ho : a.orderFe with
        | none => simp [orderConflict, ho]
        | some n => simp [orderConflict, ho, hn.order hs n ho]
      · cases ho : a.streaming with
        | none => simp [streamingConflict, ho]
        | some n => simp [streamingConflict, ho, hn.streaming hs n ho]
    cases b <;> simp only [block]
    case standardLbm =>
      split_ifs with hs
      · obtain ⟨h1, h2, h3⟩ := hfree (.inl hs)
        simp only [fine_append, fine_throwIf, h1, h2, h3, fine_call, fine_nil, and_true, true_and, Call.InRange]
        refine ⟨⟨_, rfl, ?_⟩, by norm_num [IntParam.Range], by decide⟩
        have := cfl_range (n := 2) (by norm_num)
        exact_mod_cast this
      · simp
    case standardLbmWith =>
      rw [fine_given]
      intro n hm
      have hs : a.standardLbmWith.isSome := by rw [Option.mem_def.1 hm]; rfl
      obtain ⟨h1, h2, h3⟩ := hfree (.inr hs)
      have hr := hv.standardLbmWith n hm
      have hpos : 0 < n := by simp only [IntParam.Range] at hr; omega
      have hns : a.standardLbm = false := by
        by_contra hc
        exact hn.standard ⟨by simpa using hc, hs⟩
      simp only [fine_append, fine_throwIf, h1, h2, h3, hns, if_pos hpos, fine_call, fine_nil, and_true, true_and, Call.InRange]
      refine ⟨⟨_, rfl, ?_⟩, hr, by decide, by decide⟩
      have hne : (n : ℝ) ≠ 0 := by exact_mod_cast hpos.ne'
      rw [show √2 * (n : ℝ) * n / n = √2 * n by field_simp]
      exact cfl_range hpos
    case orderFe => simpa [Call.InRange, NumberIn, IntegerIn] using hv.orderFe
    case cfl => simpa [Call.InRange, NumberIn, IntegerIn] using hv.cfl
    case outputOn => split_ifs <;> simp [Call.InRange]
    case verbose => split_ifs <;> simp [Call.InRange, IntParam.Range]
    case streaming => exact sel streaming_table (by decide +kernel) hv.streaming
    case collision => exact sel collision_table (by decide +kernel) hv.collision
    case integrator =>
      rw [fine_given]
      intro s hs
      have hni : a.integratorId.isSome = false := by
        by_contra hc
        exact hn.integrator ⟨by rw [Option.mem_def.1 hs]; rfl, by simpa [Option.isSome_iff_ne_none] using hc⟩
      rw [fine_append, fine_throwIf]
      refine ⟨hni, ?_⟩
      cases hl : integratorTable.lookup s with
      | none =>
        rw [integrator_table, lookup_none_iff] at hl
        exact absurd (hv.integrator s hs) hl
      | some q =>
        have hq : ∀ q ∈ integratorTable, q.2.1 < 4 ∧ q.2.2 < 13 := by decide +kernel
        have := hq _ (lookup_mem hl)
        simpa [Call.InRange, EnumParam.count] using this
    case integratorId =>
      rw [fine_given]
      intro id hi
      have hni : a.integrator.isSome = false := by
        by_contra hc
        exact hn.integrator ⟨by simpa [Option.isSome_iff_ne_none] using hc, by rw [Option.mem_def.1 hi]; rfl⟩
      have := (hid id).2 (hids id hi)
      simpa [Call.InRange, EnumParam.count, hni] using this
    case scaling => simpa [Call.InRange, NumberIn, IntegerIn] using hv.scaling
    case regularization => exact sel regularization_table (by decide +kernel) hv.regularization
    case equilibrium => exact sel equilibrium_table (by decide +kernel) hv.equilibrium
    case supportPoints => exact sel supportPoints_table (by decide +kernel) hv.supportPoints
    case outputDir => simp [Call.InRange]
    case outputSol => simpa [Call.InRange, NumberIn, IntegerIn] using hv.outputSol
    case outputChk => simpa [Call.InRange, NumberIn, IntegerIn] using hv.outputChk
    case outputTab => simpa [Call.InRange, NumberIn, IntegerIn] using hv.outputTab
    case stencil => exact sel stencil_table (by decide +kernel) hst
    case tmax => simpa [Call.InRange, NumberIn, IntegerIn] using hv.tmax
    case init => exact sel init_table (by decide +kernel) hv.init
    case initRes => simpa [Call.InRange, NumberIn, IntegerIn] using hv.initRes
    case initNiter => simpa [Call.InRange, NumberIn, IntegerIn] using hv.initNiter
    case mrtBasis => exact sel mrtBasis_table (by decide +kernel) hv.mrtBasis
    case mrtRelax =>
      rw [fine_given]
      intro s _
      split_ifs <;> simp [Call.InRange, EnumParam.count]

/-! ## What the options write -/

/-- The blocks after a block. -/
def after (b : Block) : List Block := (Block.all.dropWhile (· ≠ b)).tail

theorem all_split (b : Block) : Block.all = Block.all.takeWhile (· ≠ b) ++ b :: after b := by
  cases b <;> decide

theorem block_value {t0 : ℕ} {a : Args} {h h' : Handler} (hg : Good h) (hr : apply t0 a h = (.ok (), h')) (b : Block) {pre post : List Action}
    {c : Call} (hb : block t0 a b = pre ++ .call c :: post) {k : List String} {v : Val} (hs : stored c = some (k, v))
    (hpost : ∀ c', .call c' ∈ post → k ∈ c'.touches → stored c' = some (k, v))
    (hlater : ∀ b' ∈ after b, k ∈ foot b' → ∀ c', .call c' ∈ block t0 a b' → k ∈ c'.touches → stored c' = some (k, v)) :
    h'.path = [] ∧ h'.value k = some v := by
  have hsplit : actions t0 a = (((Block.all.takeWhile (· ≠ b)).map (block t0 a)).flatten ++ pre) ++ .call c ::
      (post ++ ((after b).map (block t0 a)).flatten) := by
    unfold actions
    conv_lhs => rw [all_split b]
    simp only [List.map_append, List.map_cons, List.flatten_append, List.flatten_cons, hb, List.append_assoc, List.cons_append]
  have hp := actions_plain t0 a
  unfold apply at hr
  rw [hsplit] at hr hp
  refine run_value hg hp hr hs fun c' hc' hk => ?_
  rw [List.mem_append] at hc'
  rcases hc' with hc' | hc'
  · exact hpost c' hc' hk
  · simp only [List.mem_flatten, List.mem_map] at hc'
    obtain ⟨l, ⟨b', hb', rfl⟩, hc'⟩ := hc'
    exact hlater b' hb' ((block_inside t0 a b' _ hc').2 c' rfl k hk) c' hc' hk

theorem dbl_read {p : DblParam} (hp : p ≠ .exponentialFilterNc) {x : ℝ} {h : Handler} (h0 : h.path = [])
    (hv : h.value (p.key.1 ++ [p.key.2]) = some (Num.fin x).toVal) : (getDbl p h).1 = .ok (sixteenDigits x) := by
  have := guardedGet_eq (conv := fun v => (Val.toDbl v).map p.ret) h0 hv (x := p.ret (sixteenDigits x)) (by simp [Num.toVal, Val.toDbl])
  have hret : p.ret (sixteenDigits x) = sixteenDigits x := by cases p <;> first | rfl | exact absurd rfl hp
  rw [hret] at this
  exact congrArg Prod.fst this

theorem int_read {p : IntParam} {i : ℤ} {h : Handler} (h0 : h.path = []) (hv : h.value (p.key.1 ++ [p.key.2]) = some (.int i)) :
    (getInt p h).1 = .ok i := congrArg Prod.fst (guardedGet_eq (conv := Val.toInt) h0 hv rfl)

theorem bool_read {p : BoolParam} {b : Bool} {h : Handler} (h0 : h.path = []) (hv : h.value (p.key.1 ++ [p.key.2]) = some (.bool b)) :
    (getBool p h).1 = .ok b := congrArg Prod.fst (guardedGet_eq (conv := Val.toBool) h0 hv rfl)

/-! ## Reading one option -/

section Applied

variable {t0 : ℕ} {a : Args} {h h' : Handler}

theorem select_read (hg : Good h) (hr : apply t0 a h = (.ok (), h')) (b : Block) {o : Option String} {p : EnumParam} {tbl doc : List (String × ℕ)}
    (hb : block t0 a b = given o (select p tbl)) (ht : ∀ s, tbl.lookup s = doc.lookup s) (hc : ∀ q ∈ tbl, q.2 < p.count)
    (hl : ∀ b' ∈ after b, p.key.1 ++ [p.key.2] ∉ foot b') : EnumSet o doc p h' := by
  intro s hs
  rw [Option.mem_def] at hs
  have hf := (apply_ok_iff t0 a hg).1 ⟨h', hr⟩ b
  rw [hb, fine_given] at hf
  have hsel := hf s hs
  cases hlk : tbl.lookup s with
  | none => simp [select, hlk] at hsel
  | some n =>
    refine ⟨n, lookup_mem (by rw [← ht, hlk]), ?_⟩
    obtain ⟨v, hv⟩ := stored_enum (p := p) (hc _ (lookup_mem hlk))
    obtain ⟨h1, h2⟩ := block_value (pre := []) (post := []) hg hr b (c := .enum p n) (by rw [hb, hs]; simp [given, select, hlk]) hv (by simp)
      fun b' hb' hk => absurd hk (hl b' hb')
    exact enum_read hv h1 h2

theorem number_read (hg : Good h) (hr : apply t0 a h = (.ok (), h')) (b : Block) {o : Option Num} {p : DblParam} (hp : p ≠ .exponentialFilterNc)
    (hb : block t0 a b = given o fun x => [.call (.dbl p x)]) (hl : ∀ b' ∈ after b, p.key.1 ++ [p.key.2] ∉ foot b') : NumberSet o p h' := by
  intro v hv
  rw [Option.mem_def] at hv
  have hf := (apply_ok_iff t0 a hg).1 ⟨h', hr⟩ b
  rw [hb, fine_given] at hf
  obtain ⟨x, rfl, -⟩ := (fine_call.1 (hf v hv)).1
  obtain ⟨h1, h2⟩ := block_value (pre := []) (post := []) hg hr b (c := .dbl p (.fin x)) (by rw [hb, hv]; rfl) rfl (by simp)
    fun b' hb' hk => absurd hk (hl b' hb')
  exact ⟨x, rfl, dbl_read hp h1 h2⟩

theorem integer_read (hg : Good h) (hr : apply t0 a h = (.ok (), h')) (b : Block) {o : Option ℤ} {p : IntParam} {rest : List Action}
    (hb : block t0 a b = given o fun n => .call (.int p n) :: rest) (hrest : ∀ c, .call c ∈ rest → p.key.1 ++ [p.key.2] ∉ c.touches)
    (hl : ∀ b' ∈ after b, p.key.1 ++ [p.key.2] ∉ foot b') : IntegerSet o p h' := by
  intro n hn
  rw [Option.mem_def] at hn
  obtain ⟨h1, h2⟩ := block_value (pre := []) (post := rest) hg hr b (c := .int p n) (by rw [hb, hn]; rfl) rfl
    (fun c hc hk => absurd hk (hrest c hc)) fun b' hb' hk => absurd hk (hl b' hb')
  exact int_read h1 h2

/-- Every call that touches the switch for the output switches it on. -/
theorem switch_calls (b : Block) : ∀ c, .call c ∈ block t0 a b → ["Output", "Switch output off?"] ∈ c.touches →
    stored c = some (["Output", "Switch output off?"], .bool false) := by
  have key : ["Output", "Switch output off?"] ∈ foot b → b = .outputOn ∨ b = .verbose ∨ b = .outputDir ∨ b = .outputSol ∨ b = .outputChk ∨
      b = .outputTab := by
    cases b <;> decide +kernel
  intro c hc hk
  rcases key ((block_inside t0 a b _ hc).2 c rfl _ hk) with rfl | rfl | rfl | rfl | rfl | rfl <;> simp only [block, mem_given] at hc
  · split_ifs at hc
    · simp only [List.mem_singleton, Action.call.injEq] at hc; subst hc; rfl
    · simp at hc
  · split_ifs at hc
    · simp only [List.mem_cons, Action.call.injEq, List.not_mem_nil, or_false] at hc
      rcases hc with rfl | rfl
      · simp [Call.touches, IntParam.key] at hk
      · rfl
    · simp at hc
  all_goals
    obtain ⟨y, -, hc⟩ := hc
    simp only [List.mem_cons, Action.call.injEq, List.not_mem_nil, or_false] at hc
    rcases hc with rfl | rfl
    · simp [Call.touches, IntParam.key] at hk
    · rfl

theorem switch_read (hg : Good h) (hr : apply t0 a h = (.ok (), h')) (b : Block) {pre : List Action}
    (hb : block t0 a b = pre ++ [.call (.bool .switchOutputOff false)]) : (getBool .switchOutputOff h').1 = .ok false := by
  obtain ⟨h1, h2⟩ := block_value (pre := pre) (post := []) hg hr b (c := .bool .switchOutputOff false) hb
    (k := ["Output", "Switch output off?"]) (v := .bool false) rfl (by simp) fun b' _ _ => switch_calls b'
  exact bool_read (p := .switchOutputOff) h1 h2

end Applied

/-! ## Life cycle -/

section Lifecycle

variable {parse : Parse}

theorem imported_mono (o : Op) (p : Parser) (h : p.imported = true) : (step parse o p).2.imported = true := by
  cases o <;> simp only [step, declare, declarePositional, makePositional, importOptions, hasArgument, getArgument, h, if_true]
  · split <;> rfl
  · split
    · split <;> exact h
    · exact h

theorem imported_fold (ops : List Op) (p : Parser) (h : p.imported = true) :
    (ops.foldl (fun p o => (step parse o p).2) p).imported = true := by
  induction ops generalizing p with
  | nil => exact h
  | cons o ops ih => exact ih _ (imported_mono o p h)

theorem import_sets (p : Parser) : (step parse .importOptions p).2.imported = true := by
  simp only [step, importOptions]
  split <;> rfl

/-- The parser as a function of the calls: before the import. -/
theorem clean_fold (ops : List Op) (hn : .importOptions ∉ ops) (p : Parser) (h : p.imported = false) (hm : p.map = fun _ => none) :
    (ops.foldl (fun p o => (step parse o p).2) p).imported = false ∧
    (ops.foldl (fun p o => (step parse o p).2) p).declared = p.declared ++ declarations ops ∧
    (ops.foldl (fun p o => (step parse o p).2) p).map = fun _ => none := by
  induction ops generalizing p with
  | nil => simp [h, declarations, hm]
  | cons o ops ih =>
    simp only [List.mem_cons, not_or] at hn
    have hs : (step parse o p).2.imported = false ∧ (step parse o p).2.declared = p.declared ++ declarations [o] ∧
        (step parse o p).2.map = fun _ => none := by
      cases o <;> simp_all [step, declare, declarePositional, makePositional, hasArgument, getArgument, declarations]
    obtain ⟨h1, h2, h3⟩ := ih hn.2 _ hs.1 hs.2.2
    refine ⟨h1, ?_, h3⟩
    rw [List.foldl_cons, h2, hs.2.1, List.append_assoc]
    simp [declarations, ← List.filterMap_append]

/-- After the import the declarations are final, and further imports change nothing. -/
theorem imported_final (ops : List Op) (p : Parser) (h : p.imported = true) (hm : ∀ m, parse p.declared p.positional = .ok m → p.map = m) :
    (ops.foldl (fun p o => (step parse o p).2) p) = p := by
  induction ops with
  | nil => rfl
  | cons o ops ih =>
    have hs : (step parse o p).2 = p := by
      cases o <;> simp only [step, declare, declarePositional, makePositional, importOptions, hasArgument, getArgument, h, if_true]
      · split
        · cases p; simp_all
        · rename_i m hp
          have : (fun n => (p.map n).orElse fun _ => m n) = p.map := by
            funext n
            rw [hm m hp]
            cases m n <;> rfl
          cases p
          simp_all
      · split
        · split <;> rfl
        · rfl
    rw [List.foldl_cons, hs, ih]

theorem split_import (ops : List Op) (h : .importOptions ∈ ops) : ∃ rest, ops = beforeImport ops ++ .importOptions :: rest := by
  induction ops with
  | nil => simp at h
  | cons o ops ih =>
    by_cases ho : o = .importOptions
    · subst ho
      exact ⟨ops, rfl⟩
    · obtain ⟨rest, hr⟩ := ih (by simpa [Ne.symm ho] using h)
      refine ⟨rest, ?_⟩
      cases o <;> first | exact absurd rfl ho | (simp only [beforeImport, List.cons_append]; rw [← hr])

theorem before_no_import (ops : List Op) : .importOptions ∉ beforeImport ops := by
  induction ops with
  | nil => simp [beforeImport]
  | cons o ops ih => cases o <;> simp [beforeImport, ih]

theorem imported_history (ops : List Op) (h : .importOptions ∈ ops) : (history parse ops).imported = true := by
  obtain ⟨rest, hr⟩ := split_import ops h
  rw [hr, history, List.foldl_append, List.foldl_cons]
  exact imported_fold _ _ (import_sets _)

/-- The state after the first import, at any later time. -/
theorem after_import (ops : List Op) (h : .importOptions ∈ ops) :
    ∃ pos, (history parse ops).declared = reserved ++ declarations (beforeImport ops) ∧
      match parse (reserved ++ declarations (beforeImport ops)) pos with
      | .ok m => (history parse ops).map = m
      | .error _ => (history parse ops).map = fun _ => none := by
  obtain ⟨rest, hr⟩ := split_import ops h
  obtain ⟨h1, h2, h3⟩ := clean_fold (parse := parse) (beforeImport ops) (before_no_import ops) construct rfl rfl
  have hd : construct.declared = reserved := rfl
  rw [hd] at h2
  have hh : history parse ops = rest.foldl (fun p o => (step parse o p).2)
      (step parse .importOptions ((beforeImport ops).foldl (fun p o => (step parse o p).2) construct)).2 := by
    conv_lhs => rw [hr, history, List.foldl_append, List.foldl_cons]
  set q := (beforeImport ops).foldl (fun p o => (step parse o p).2) construct with hq
  refine ⟨q.positional, ?_⟩
  rw [← h2]
  rcases hp : parse q.declared q.positional with ⟨⟩ | m
  · have hs : (step parse .importOptions q).2 = { q with imported := true } := by simp only [step, importOptions, hp]
    rw [hh, hs, imported_final _ _ rfl (by simp [hp])]
    exact ⟨rfl, h3⟩
  · have hs : (step parse .importOptions q).2 = { q with imported := true, map := m } := by
      simp only [step, importOptions, hp, h3]
      rfl
    rw [hh, hs, imported_final _ _ rfl (by simp [hp])]
    exact ⟨rfl, rfl⟩

end Lifecycle

end CommandLine
end NATriuM
