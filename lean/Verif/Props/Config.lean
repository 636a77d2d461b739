import Verif.Lemmas.Config

/-!
# Properties C36 – C38, C73: solver configuration

A configuration is the object after any sequence of setter calls (`history cs`), with the exceptions of the calls caught by the caller.
`exec c h` is the outcome of one more call: the exception, if any, and the object afterwards.
-/

namespace NATriuM
namespace Config

/-! ## C36 -/

/-- **C36** If the setter of an enumeration parameter accepts an integer, the getter returns this integer, in every configuration. -/
theorem C36_roundtrip (cs : List Call) (p : EnumParam) (n : ℕ) (h' : Handler) (h : exec (.enum p n) (history cs) = (.ok (), h')) :
    (getEnum p h').1 = .ok n := by
  simp only [exec, setEnum] at h
  cases hl : p.setTable.lookup n with
  | none => simp [hl] at h
  | some s =>
    simp only [hl, plainSet] at h
    generalize history cs = h0 at h
    cases he : (h0.enter p.key.1).pattern ((h0.enter p.key.1).path ++ [p.key.2]) with
    | none =>
      have he' := Option.map_eq_none_iff.1 he
      simp [Handler.set, he'] at h
    | some pt =>
      by_cases hm : pt.Match (.text s)
      · simp only [set_ok he hm, put_leave_enter, Prod.mk.injEq, true_and] at h
        subst h
        have hv := put_value (h0.enter p.key.1) _ (.text s) he
        unfold Handler.value at hv
        obtain ⟨e, he, hes⟩ := Option.map_eq_some_iff.1 hv
        have hget : ((h0.put ((h0.enter p.key.1).path ++ [p.key.2]) (.text s)).enter p.key.1).get p.key.2 = .ok (.text s) := by
          have he2 : ((h0.put ((h0.enter p.key.1).path ++ [p.key.2]) (.text s)).enter p.key.1).entries
              (((h0.put ((h0.enter p.key.1).path ++ [p.key.2]) (.text s)).enter p.key.1).path ++ [p.key.2]) = some e := he
          simp only [Handler.get, he2, hes]
        simp only [getEnum, hget, p.roundtrip hl]
      · simp [set_error he hm] at h

/-- **C36** The setters accept every enumerator, and nothing else. -/
theorem C36_accepts (cs : List Call) (hs : Safe cs) (p : EnumParam) (n : ℕ) :
    (∃ h', exec (.enum p n) (history cs) = (.ok (), h')) ↔ n < p.count := by
  constructor
  · rintro ⟨h', h⟩
    by_contra hn
    rw [exec_error (good_history hs) (.enum p n) hn fun v hv => by cases hv] at h
    cases h
  · intro hn
    obtain ⟨h', h, -⟩ := exec_ok (good_history hs) (.enum p n) hn
    exact ⟨h', h⟩

/-- Non-vacuity: after a history with a rejected call, the deal.II integrator with the misspelt entry comes back. -/
example : ∃ h', exec (.enum .dealIntegrator CRANK_NICOLSON) (history [.int .numberOfTimeSteps 0, .enum .stencil Stencil_D3Q19]) = (.ok (), h') ∧
    (getEnum .dealIntegrator h').1 = .ok CRANK_NICOLSON := by
  obtain ⟨h', h⟩ := (C36_accepts [.int .numberOfTimeSteps 0, .enum .stencil Stencil_D3Q19] (by intro v hv; simp at hv) .dealIntegrator
    CRANK_NICOLSON).2 (by decide)
  exact ⟨h', h, C36_roundtrip _ _ _ _ h⟩

/-! ## C37 -/

/-- **C37** (partial: a `double` counts as it is written to the configuration, with 16 digits; histories and calls without out-of-range
calls of `setEmbeddedDealIntegratorParameters`) A call in range is accepted and changes no other parameter; a call out of range raises a
configuration error and leaves the whole object as it was. -/
theorem C37_range_partial (cs : List Call) (hs : Safe cs) (c : Call) :
    (c.InRange → ∃ h', exec c (history cs) = (.ok (), h') ∧ ∀ k ∉ c.touches, h'.entries k = (history cs).entries k) ∧
    (¬ c.InRange → (∀ v, c ≠ .embedded v) → exec c (history cs) = (.error .configuration, history cs)) := by
  refine ⟨fun hc => ?_, fun hc he => exec_error (good_history hs) c hc he⟩
  obtain ⟨h', h1, h2⟩ := exec_ok (good_history hs) c hc
  exact ⟨h', h1, h2.frame⟩

variable {h : Handler} {h' : Handler}

theorem guardedSet_value {subs : List String} {name : String} {v : Val} (hg : Good h) {pt : Pattern}
    (hp : initial.pattern (subs ++ [name]) = some pt) (hm : pt.Match v) (h1 : guardedSet subs name v h = (.ok (), h')) :
    h'.path = [] ∧ h'.value (subs ++ [name]) = some v := by
  rw [guardedSet_ok hg.path (by rw [hg.pattern, hp]) hm, Prod.mk.injEq] at h1
  rw [← h1.2]
  exact ⟨hg.path, put_value _ _ _ (by rw [hg.pattern, hp])⟩

/-- **C37** (partial: 16 digits) The getter returns the value stored by an accepted call; `getExponentialFilterNc` returns it without the
digits after the point. -/
theorem C37_double_read_partial (cs : List Call) (hs : Safe cs) (p : DblParam) (x : ℝ) (hx : p.Range (sixteenDigits x)) :
    ∃ h', exec (.dbl p (.fin x)) (history cs) = (.ok (), h') ∧ getDbl p h' = (.ok (p.ret (sixteenDigits x)), h') := by
  have hg := good_history hs
  obtain ⟨h', h1, -⟩ := exec_ok hg (.dbl p (.fin x)) ⟨x, rfl, hx⟩
  refine ⟨h', h1, ?_⟩
  obtain ⟨lo, hi, hp, hw⟩ := p.declared_iff
  obtain ⟨h0, hv⟩ := guardedSet_value hg hp (v := (Num.fin x).toVal) ((hw _).2 hx) h1
  exact guardedGet_eq h0 hv (by simp [Num.toVal, Val.toDbl])

/-- **C37** For numbers with at most 16 significant digits, and every parameter of type `double`: accepted exactly when in range, and then
read back as they were given (except `getExponentialFilterNc`). -/
theorem C37_double_exact_partial (cs : List Call) (hs : Safe cs) (p : DblParam) (m e : ℤ) (hm : |m| < 10 ^ 16) :
    (p.Range (m * 10 ^ e) → p ≠ .exponentialFilterNc →
      ∃ h', exec (.dbl p (.fin (m * 10 ^ e))) (history cs) = (.ok (), h') ∧ (getDbl p h').1 = .ok ((m : ℝ) * 10 ^ e)) ∧
    (¬ p.Range (m * 10 ^ e) → exec (.dbl p (.fin (m * 10 ^ e))) (history cs) = (.error .configuration, history cs)) := by
  have hd : sixteenDigits ((m : ℝ) * 10 ^ e) = m * 10 ^ e := (sixteenDigits_eq_iff _).2 ⟨m, e, hm, rfl⟩
  constructor
  · intro hr hn
    obtain ⟨h', h1, h2⟩ := C37_double_read_partial cs hs p (m * 10 ^ e) (by rwa [hd])
    refine ⟨h', h1, ?_⟩
    rw [h2, hd]
    cases p <;> first | rfl | exact absurd rfl hn
  · intro hr
    refine (C37_range_partial cs hs _).2 ?_ fun v hv => by cases hv
    rintro ⟨x, hx, hr'⟩
    cases hx
    exact hr (by rwa [hd] at hr')

/-- **C37** For integers: accepted exactly when in range, and then read back as given. -/
theorem C37_int (cs : List Call) (hs : Safe cs) (p : IntParam) (i : ℤ) :
    (p.Range i → ∃ h', exec (.int p i) (history cs) = (.ok (), h') ∧ (getInt p h').1 = .ok i) ∧
    (¬ p.Range i → exec (.int p i) (history cs) = (.error .configuration, history cs)) := by
  have hg := good_history hs
  refine ⟨fun hr => ?_, fun hr => (C37_range_partial cs hs _).2 hr fun v hv => by cases hv⟩
  obtain ⟨h', h1, -⟩ := exec_ok hg (.int p i) hr
  refine ⟨h', h1, ?_⟩
  obtain ⟨lo, hi, hp, hw⟩ := p.declared_iff
  obtain ⟨h0, hv⟩ := guardedSet_value hg hp (v := .int i) ((hw _).2 hr) h1
  simp only [getInt, guardedGet_eq (conv := Val.toInt) h0 hv rfl]

/-- **C37** For flags: always accepted and read back. -/
theorem C37_bool (cs : List Call) (hs : Safe cs) (p : BoolParam) (b : Bool) :
    ∃ h', exec (.bool p b) (history cs) = (.ok (), h') ∧ (getBool p h').1 = .ok b := by
  have hg := good_history hs
  have hp := p.declared_eq
  refine ⟨_, plainSet_ok (pt := .bool) (v := .bool b) hg.path (by rw [hg.pattern, hp]) trivial, ?_⟩
  have hv := put_value (history cs) _ (.bool b) (by rw [hg.pattern, hp])
  simp only [getBool, guardedGet_eq (conv := Val.toBool) (h := (history cs).put _ _) hg.path hv rfl]

/-- **C37** The Prandtl number and the mark that it was set change together or not at all. -/
theorem C37_prandtl (cs : List Call) (hs : Safe cs) (x : ℝ) :
    (1 / 10 ^ 10 ≤ sixteenDigits x → ∃ h', exec (.prandtlNumber (.fin x)) (history cs) = (.ok (), h') ∧
      (getPrandtlNumber h').1 = .ok (sixteenDigits x) ∧ (isPrandtlNumberSet h').1 = .ok true) ∧
    (¬ 1 / 10 ^ 10 ≤ sixteenDigits x → exec (.prandtlNumber (.fin x)) (history cs) = (.error .configuration, history cs)) := by
  have hg := good_history hs
  constructor
  · intro hx
    have hp : initial.pattern (["General"] ++ ["Prandtl"]) = some (.double (some (1 / 10 ^ 10)) none) := by rw [initial_pattern]; decide +kernel
    have hp' : initial.pattern (["General"] ++ ["Prandtl number set"]) = some .bool := by rw [initial_pattern]; decide +kernel
    have hm : (Pattern.double (some (1 / 10 ^ 10)) none).Match (Num.fin x).toVal := by
      simpa [Pattern.Match, Num.toVal, Within] using hx
    have e1 := set_ok (enter_pattern hg.path (by rw [hg.pattern, hp])) hm
    have e2 : (((history cs).enter ["General"]).put (((history cs).enter ["General"]).path ++ ["Prandtl"]) (Num.fin x).toVal).set
        "Prandtl number set" (.bool true) = .ok _ := set_ok (pt := .bool) (by
          rw [put_pattern, put_path]; exact enter_pattern hg.path (by rw [hg.pattern, hp'])) trivial
    have e3 := leave_append ((((history cs).put (["General"] ++ ["Prandtl"]) (Num.fin x).toVal)).put
      (["General"] ++ ["Prandtl number set"]) (.bool true)) (history cs).path ["General"]
    refine ⟨((history cs).put (["General"] ++ ["Prandtl"]) (Num.fin x).toVal).put (["General"] ++ ["Prandtl number set"]) (.bool true), ?_, ?_, ?_⟩
    · simp only [exec, setPrandtlNumber, e1, e2]
      simp only [put_path, enter_path hg.path]
      exact congrArg _ e3
    · have hv : (((history cs).put (["General"] ++ ["Prandtl"]) (Num.fin x).toVal).put (["General"] ++ ["Prandtl number set"])
          (.bool true)).value (["General"] ++ ["Prandtl"]) = some (.dbl (sixteenDigits x)) := by
        have : (["General"] ++ ["Prandtl"] : List String) ≠ ["General"] ++ ["Prandtl number set"] := by decide
        unfold Handler.value
        rw [put_entries_ne _ _ this]
        exact put_value _ _ _ (by rw [hg.pattern, hp])
      exact congrArg Prod.fst (guardedGet_eq (subs := ["General"]) (name := "Prandtl") (conv := Val.toDbl) (by exact hg.path) hv rfl)
    · have hv := put_value ((history cs).put (["General"] ++ ["Prandtl"]) (Num.fin x).toVal) (["General"] ++ ["Prandtl number set"])
        (.bool true) (by rw [put_pattern, hg.pattern, hp'])
      exact congrArg Prod.fst (guardedGet_eq (subs := ["General"]) (name := "Prandtl number set") (conv := Val.toBool) (by exact hg.path) hv rfl)
  · intro hx
    refine (C37_range_partial cs hs _).2 ?_ fun v hv => by cases hv
    rintro ⟨y, hy, hr⟩
    cases hy
    exact hx hr

/-- **C37** The output directory is stored as given. -/
theorem C37_outputDirectory (cs : List Call) (hs : Safe cs) (s : String) :
    ∃ h', exec (.outputDirectory s) (history cs) = (.ok (), h') ∧ (getOutputDirectory h').1 = .ok s := by
  have hg := good_history hs
  have hp : initial.pattern (["Output"] ++ ["Output directory"]) = some .directoryName := by rw [initial_pattern]; decide +kernel
  obtain ⟨h', h1, -⟩ := exec_ok hg (.outputDirectory s) trivial
  obtain ⟨h0, hv⟩ := guardedSet_value hg hp (v := .text s) trivial h1
  exact ⟨h', h1, congrArg Prod.fst (guardedGet_eq (subs := ["Output"]) (name := "Output directory") (conv := Val.toText) h0 hv rfl)⟩

/-- **C37** The switch for the Sutherland law. -/
theorem C37_sutherland (cs : List Call) (hs : Safe cs) :
    ∃ h', exec .sutherlandLaw (history cs) = (.ok (), h') ∧ (isSutherlandLawSet h').1 = .ok true := by
  have hg := good_history hs
  have hp : initial.pattern (["General"] ++ ["Sutherland law set"]) = some .bool := by rw [initial_pattern]; decide +kernel
  obtain ⟨h', h1, -⟩ := exec_ok hg .sutherlandLaw trivial
  obtain ⟨h0, hv⟩ := guardedSet_value hg hp (v := .bool true) trivial h1
  exact ⟨h', h1, congrArg Prod.fst (guardedGet_eq (subs := ["General"]) (name := "Sutherland law set") (conv := Val.toBool) h0 hv rfl)⟩

theorem mapM_sixDigits (xs : List ℝ) : (xs.map Num.fin).mapM Num.sixDigits? = some (xs.map Checkpoint.sixDigits) := by
  induction xs with
  | nil => rfl
  | cons x xs ih => simp [List.mapM_cons, ih, Num.sixDigits?]

/-- **C37** (partial: only six digits of each coordinate are stored; the empty list is refused) The list of wall-normal coordinates. -/
theorem C37_coordinates_partial (cs : List Call) (hs : Safe cs) (xs : List ℝ) (hne : xs ≠ [])
    (hx : ∀ x ∈ xs, |Checkpoint.sixDigits x| ≤ 10 ^ 10) :
    ∃ h', exec (.wallNormalCoordinates (xs.map .fin)) (history cs) = (.ok (), h') ∧
      (getWallNormalCoordinates h').1 = .ok (xs.map Checkpoint.sixDigits) := by
  have hg := good_history hs
  have hp : initial.pattern (["Output", "Turbulence Statistics"] ++ ["Wall normal coordinates"]) =
      some (.doubleList (-10 ^ 10) (10 ^ 10)) := by rw [initial_pattern]; decide +kernel
  obtain ⟨h', h1, -⟩ := exec_ok hg (.wallNormalCoordinates (xs.map .fin)) ⟨by simpa using hne, fun v hv => by
    obtain ⟨x, hx', rfl⟩ := List.mem_map.1 hv
    exact ⟨x, rfl, hx x hx'⟩⟩
  refine ⟨h', h1, ?_⟩
  have hn : xs.map Num.fin ≠ [] := by simpa using hne
  simp only [exec, setWallNormalCoordinates, if_neg hn, mapM_sixDigits] at h1
  obtain ⟨h0, hv⟩ := guardedSet_value hg hp (v := .list (xs.map Checkpoint.sixDigits)) (by
    intro y hy
    obtain ⟨x, hx', rfl⟩ := List.mem_map.1 hy
    simpa [Within, abs_le] using hx x hx') h1
  exact congrArg Prod.fst (guardedGet_eq (subs := ["Output", "Turbulence Statistics"]) (name := "Wall normal coordinates")
    (conv := Val.toList) h0 hv rfl)

/-- **C37** fails: the coordinate `0.1234567` is read back as `0.123457`; the empty list, a list without a value out of range, is refused. -/
theorem C37_coordinates_fails :
    (∃ h', exec (.wallNormalCoordinates [.fin 0.1234567]) initial = (.ok (), h') ∧ (getWallNormalCoordinates h').1 = .ok [0.123457]) ∧
    (exec (.wallNormalCoordinates []) initial).1 = .error .configuration := by
  have hd : Checkpoint.sixDigits 0.1234567 = 0.123457 := by
    have hx : (0.1234567 : ℝ) ≠ 0 := by norm_num
    have habs : |(0.1234567 : ℝ)| = 0.1234567 := abs_of_pos (by norm_num)
    have hlog : Int.log 10 |(0.1234567 : ℝ)| = -1 := by
      obtain ⟨h1, h2⟩ := Checkpoint.log_bounds hx
      rw [habs] at *
      set L := Int.log 10 (0.1234567 : ℝ)
      have a : L < 0 := by
        by_contra hc
        have : (10 : ℝ) ^ (0 : ℤ) ≤ 10 ^ L := zpow_le_zpow_right₀ (by norm_num) (by omega)
        rw [zpow_zero] at this
        have h3 := this.trans h1
        norm_num at h3
      have b : -2 < L := by
        by_contra hc
        have : (10 : ℝ) ^ (L + 1) ≤ 10 ^ (-1 : ℤ) := zpow_le_zpow_right₀ (by norm_num) (by omega)
        have h3 := h2.trans_le this
        norm_num at h3
      omega
    have hr : round ((0.1234567 : ℝ) / 10 ^ (-1 - 5 : ℤ)) = 123457 := by
      rw [round_eq, Int.floor_eq_iff]
      norm_num
    rw [Checkpoint.sixDigits, if_neg hx, hlog, hr]
    norm_num
  refine ⟨?_, by simp [exec, setWallNormalCoordinates]⟩
  obtain ⟨h', h1, h2⟩ := C37_coordinates_partial [] (by intro v hv; simp at hv) [0.1234567] (by simp) (by
    intro x hx
    rw [List.mem_singleton] at hx
    rw [hx, hd]
    norm_num [abs_le])
  refine ⟨h', h1, ?_⟩
  rw [h2, List.map_singleton, hd]

/-- Non-vacuity: zero time steps are refused, whatever was set before; a CFL number of 5 is accepted after an attempt to set it to −1. -/
example : exec (.int .numberOfTimeSteps 0) (history [.dbl .cfl (.fin (-1)), .dbl .cfl .nan]) =
    (.error .configuration, history [.dbl .cfl (.fin (-1)), .dbl .cfl .nan]) :=
  (C37_int _ (by intro v hv; simp at hv) _ _).2 (by norm_num [IntParam.Range])

example : ∃ h', exec (.dbl .cfl (.fin ((5 : ℤ) * 10 ^ (0 : ℤ)))) (history [.dbl .cfl (.fin (-1))]) = (.ok (), h') ∧
    (getDbl .cfl h').1 = .ok (((5 : ℤ) : ℝ) * 10 ^ (0 : ℤ)) :=
  (C37_double_exact_partial _ (by intro v hv; simp at hv) .cfl 5 0 (by norm_num)).1 (by norm_num [DblParam.Range]) (by decide)

/-- The double `1 + 2⁻⁵²` is written as `1`. -/
theorem sixteenDigits_one_plus : sixteenDigits (1 + 1 / 2 ^ 52) = 1 := by
  have hx : (1 + 1 / 2 ^ 52 : ℝ) ≠ 0 := by positivity
  have habs : |(1 + 1 / 2 ^ 52 : ℝ)| = 1 + 1 / 2 ^ 52 := abs_of_pos (by positivity)
  have hlog : Int.log 10 |(1 + 1 / 2 ^ 52 : ℝ)| = 0 := by
    obtain ⟨h1, h2⟩ := Checkpoint.log_bounds hx
    rw [habs] at *
    set L := Int.log 10 (1 + 1 / 2 ^ 52 : ℝ)
    have a : L < 1 := by
      by_contra hc
      have : (10 : ℝ) ^ (1 : ℤ) ≤ 10 ^ L := zpow_le_zpow_right₀ (by norm_num) (by omega)
      norm_num at this h1
      linarith
    have b : -1 < L := by
      by_contra hc
      have : (10 : ℝ) ^ (L + 1) ≤ 10 ^ (0 : ℤ) := zpow_le_zpow_right₀ (by norm_num) (by omega)
      rw [zpow_zero] at this
      have h3 := h2.trans_le this
      norm_num at h3
    omega
  have hr : round ((1 + 1 / 2 ^ 52 : ℝ) / 10 ^ (0 - 15 : ℤ)) = 10 ^ 15 := by
    rw [round_eq, Int.floor_eq_iff]
    norm_num
  rw [sixteenDigits, if_neg hx, hlog, hr]
  norm_num

/-- **C37** fails: a value that is a double out of range, `θ = 1 + 2⁻⁵²`, is accepted (and stored as `1`). -/
theorem C37_digits_fails : ¬ DblParam.Range .thetaMethodTheta (1 + 1 / 2 ^ 52) ∧
    ∃ h', exec (.dbl .thetaMethodTheta (.fin (1 + 1 / 2 ^ 52))) initial = (.ok (), h') ∧ (getDbl .thetaMethodTheta h').1 = .ok 1 := by
  refine ⟨fun h => ?_, ?_⟩
  · have := h.2
    norm_num at this
  · obtain ⟨h', h1, h2⟩ := C37_double_read_partial [] (by intro v hv; simp at hv) .thetaMethodTheta (1 + 1 / 2 ^ 52)
      (by rw [sixteenDigits_one_plus]; norm_num [DblParam.Range])
    exact ⟨h', h1, by rw [h2, sixteenDigits_one_plus]; rfl⟩

/-- **C37** fails: the value in range `N_c = 3/2` is accepted, and the getter returns `1`. -/
theorem C37_filter_fails :
    ∃ h', exec (.dbl .exponentialFilterNc (.fin (3 / 2))) initial = (.ok (), h') ∧ (getDbl .exponentialFilterNc h').1 = .ok 1 := by
  have hd : sixteenDigits (3 / 2) = 3 / 2 := (sixteenDigits_eq_iff _).2 ⟨15, -1, by norm_num, by norm_num⟩
  obtain ⟨h', h1, h2⟩ := C37_double_read_partial [] (by intro v hv; simp at hv) .exponentialFilterNc (3 / 2)
    (by rw [hd]; norm_num [DblParam.Range])
  refine ⟨h', h1, ?_⟩
  rw [h2, hd]
  simp only [DblParam.ret]
  norm_num

/-- **C37** fails: `setEmbeddedDealIntegratorParameters` with a coarsening factor out of range throws an exception of deal.II, not a
configuration error, and afterwards every setter and getter of this object fails, e.g. setting a valid CFL number. -/
theorem C37_embedded_fails : ∃ v, (exec (.embedded v) initial).1 = .error .dealii ∧
    (exec (.dbl .cfl (.fin 1)) (history [.embedded v])).1 = .error .configuration ∧
    (getEnum .stencil (history [.embedded v])).1 = .error .dealii := by
  have hd : sixteenDigits (1 / 2) = 1 / 2 := (sixteenDigits_eq_iff _).2 ⟨5, -1, by norm_num, by norm_num⟩
  have hp : (initial.enter ["Advection", "Embedded Parameters"]).pattern ((initial.enter ["Advection", "Embedded Parameters"]).path ++
      ["Coarsen parameter"]) = some (.double (some 1) (some 1000)) :=
    enter_pattern rfl (by rw [initial_pattern]; decide +kernel)
  have e := set_error hp (v := (Num.fin (1 / 2)).toVal) (by
    rintro ⟨h1, -⟩
    have := h1 1 rfl
    rw [hd] at this
    norm_num at this)
  have hx : exec (.embedded fun _ => .fin (1 / 2)) initial = (.error .dealii, initial.enter ["Advection", "Embedded Parameters"]) := by
    simp only [exec, setEmbedded, embeddedNames, List.ofFn_succ, List.zip_cons_cons, setAll, e]
  refine ⟨fun _ => .fin (1 / 2), by rw [hx], ?_, ?_⟩
  · simp only [history, List.foldl_cons, List.foldl_nil, hx]
    have : initial.entries ["Advection", "Embedded Parameters", "General", "CFL"] = none := by
      have : position ["Advection", "Embedded Parameters", "General", "CFL"] = none := by decide +kernel
      simp [initial, this]
    simp [exec, setDbl, guardedSet, DblParam.key, Handler.set, Handler.enter, show initial.path = [] from rfl, this]
  · simp only [history, List.foldl_cons, List.foldl_nil, hx]
    have : initial.entries ["Advection", "Embedded Parameters", "General", "Stencil"] = none := by
      have : position ["Advection", "Embedded Parameters", "General", "Stencil"] = none := by decide +kernel
      simp [initial, this]
    simp [getEnum, EnumParam.key, Handler.get, Handler.enter, show initial.path = [] from rfl, this]

/-! ## C38 -/

/-- **C38** (partial: the combinations of forcing schemes and three-dimensional stencils that the check reports as unsupported in the log are
not rejected) `isConsistent` raises a configuration error exactly if the time integrator is `OTHER` without a deal.II integrator, or the
multiphase collision is used without forcing scheme, or user interaction is on in a parallel run; it changes nothing. -/
theorem C38_consistent_partial (cs : List Call) (hs : Safe cs) (processes : ℕ) :
    ∃ t d c f u, (getEnum .timeIntegrator (history cs)).1 = .ok t ∧ (getEnum .dealIntegrator (history cs)).1 = .ok d ∧
      (getEnum .collisionScheme (history cs)).1 = .ok c ∧ (getEnum .forcingScheme (history cs)).1 = .ok f ∧
      (getBool .userInteraction (history cs)).1 = .ok u ∧
      (isConsistent processes (history cs) =
        if (t = OTHER ∧ d = NONE) ∨ (c = BGK_MULTIPHASE ∧ f = NO_FORCING) ∨ (1 < processes ∧ u = true)
        then (.error .configuration, history cs) else (.ok (), history cs)) := by
  have hg := good_history hs
  obtain ⟨t, ht⟩ := hg.getEnum .timeIntegrator
  obtain ⟨d, hd⟩ := hg.getEnum .dealIntegrator
  obtain ⟨c, hc⟩ := hg.getEnum .collisionScheme
  obtain ⟨f, hf⟩ := hg.getEnum .forcingScheme
  obtain ⟨v, hv, hm⟩ := hg.entry (BoolParam.declared_eq .userInteraction)
  obtain ⟨u, rfl⟩ : ∃ u, v = .bool u := by cases v <;> first | exact ⟨_, rfl⟩ | exact hm.elim
  have hu : getBool .userInteraction (history cs) = (.ok u, history cs) := guardedGet_eq hg.path hv rfl
  refine ⟨t, d, c, f, u, by rw [ht], by rw [hd], by rw [hc], by rw [hf], by rw [hu], ?_⟩
  simp only [isConsistent, bindRes, ht, hd, hc, hf, hu]
  split_ifs <;> tauto

/-- The reading of the check's own messages: a forcing scheme with `D3Q15` or `D3Q27`, and another one than the shifted velocity with `D3Q19`,
are reported as not supported. -/
def ReportedUnsupported (stencil force : ℕ) : Prop :=
  force ≠ NO_FORCING ∧ (stencil = Stencil_D3Q15 ∨ stencil = Stencil_D3Q27 ∨ (stencil = Stencil_D3Q19 ∧ force ≠ SHIFTING_VELOCITY))

/-- **C38** fails: such a configuration passes the check. -/
theorem C38_forcing_fails : ∃ cs s f, (getEnum .stencil (history cs)).1 = .ok s ∧ (getEnum .forcingScheme (history cs)).1 = .ok f ∧
    ReportedUnsupported s f ∧ isConsistent 1 (history cs) = (.ok (), history cs) := by
  have hs : Safe [.enum .stencil Stencil_D3Q15, .enum .forcingScheme GUO] := by intro v hv; simp at hv
  have g0 := good_initial
  have g1 := good_exec g0 (.enum .stencil Stencil_D3Q15) fun v hv => by cases hv
  have g2 := good_exec g1 (.enum .forcingScheme GUO) fun v hv => by cases hv
  have hform : history [.enum .stencil Stencil_D3Q15, .enum .forcingScheme GUO] =
      (initial.put ["General", "Stencil"] (.text "D3Q15")).put ["Collision", "BGK parameters", "Forcing scheme"] (.text "Guo") := by
    have e1 : exec (.enum .stencil Stencil_D3Q15) initial = (.ok (), initial.put ["General", "Stencil"] (.text "D3Q15")) :=
      plainSet_ok (pt := .selection (EnumParam.allowed .stencil)) (subs := ["General"]) (name := "Stencil") (v := .text "D3Q15") rfl (EnumParam.declared_eq .stencil)
        ((EnumParam.set_allowed .stencil (n := Stencil_D3Q15) (s := "D3Q15")) (by decide +kernel))
    have e2 : exec (.enum .forcingScheme GUO) (initial.put ["General", "Stencil"] (.text "D3Q15")) = (.ok (), _) :=
      plainSet_ok (pt := .selection (EnumParam.allowed .forcingScheme)) (subs := ["Collision", "BGK parameters"]) (name := "Forcing scheme") (v := .text "Guo") rfl
        (by rw [put_pattern]; exact EnumParam.declared_eq .forcingScheme)
        ((EnumParam.set_allowed .forcingScheme (n := GUO) (s := "Guo")) (by decide +kernel))
    simp only [history, List.foldl_cons, List.foldl_nil, e1, e2]
    rfl
  set h := history [.enum .stencil Stencil_D3Q15, .enum .forcingScheme GUO] with hh
  have hg : Good h := good_history hs
  have val : ∀ k v, h.value k = some v ↔ ((initial.put ["General", "Stencil"] (.text "D3Q15")).put
      ["Collision", "BGK parameters", "Forcing scheme"] (.text "Guo")).value k = some v := by rw [hform]; exact fun k v => Iff.rfl
  have initv : ∀ (k : List String) (i : ℕ), (position k).map Fin.val = some i → k ≠ ["General", "Stencil"] →
      k ≠ ["Collision", "BGK parameters", "Forcing scheme"] → h.value k = some (defaults.getD i (.bool false)) := by
    intro k i hk h1 h2
    rw [val]
    unfold Handler.value
    rw [put_entries_ne _ _ h2, put_entries_ne _ _ h1]
    obtain ⟨j, hj, rfl⟩ := Option.map_eq_some_iff.1 hk
    simp [initial, hj]
  have vs : h.value ["General", "Stencil"] = some (.text "D3Q15") := by
    rw [val]
    unfold Handler.value
    rw [put_entries_ne _ _ (by decide)]
    exact put_value _ _ _ (EnumParam.declared_eq .stencil)
  have vf : h.value ["Collision", "BGK parameters", "Forcing scheme"] = some (.text "Guo") := by
    rw [val]
    exact put_value _ _ _ (by rw [put_pattern]; exact EnumParam.declared_eq .forcingScheme)
  have vt := initv ["Advection", "Time integrator"] 12 (by decide +kernel) (by decide) (by decide)
  have vc := initv ["Collision", "Collision scheme"] 24 (by decide +kernel) (by decide) (by decide)
  have gs : getEnum .stencil h = (.ok Stencil_D3Q15, h) := (getEnum_eq .stencil hg.path vs).trans (by rfl)
  have gf : getEnum .forcingScheme h = (.ok GUO, h) := (getEnum_eq .forcingScheme hg.path vf).trans (by rfl)
  have gt : getEnum .timeIntegrator h = (.ok RUNGE_KUTTA_5STAGE, h) := (getEnum_eq .timeIntegrator hg.path vt).trans (by rfl)
  have gc : getEnum .collisionScheme h = (.ok BGK_STANDARD, h) := (getEnum_eq .collisionScheme hg.path vc).trans (by rfl)
  refine ⟨[.enum .stencil Stencil_D3Q15, .enum .forcingScheme GUO], Stencil_D3Q15, GUO, by rw [← hh, gs], by rw [← hh, gf],
    ⟨by decide, Or.inl rfl⟩, ?_⟩
  obtain ⟨t, d, c, f, u, h1, h2, h3, h4, h5, h6⟩ := C38_consistent_partial _ hs 1
  rw [← hh] at h1 h2 h3 h4 h5 h6 ⊢
  rw [gt] at h1; rw [gc] at h3; rw [gf] at h4
  cases h1; cases h3; cases h4
  rw [h6]
  simp

/-! ## C73 -/

/-- **C73** fails: the constructor with a file name throws for every file that contains at least one entry, e.g. for the file written from any
configuration. -/
theorem C73_constructor_fails (k : List String) (v : Val) (file : List (List String × Val)) : fromXML ((k, v) :: file) = .error .dealii := rfl

theorem writeXML_mem {h : Handler} (hg : Good h) {q : List String × Val} (hq : q ∈ writeXML h) :
    ∃ pt, initial.pattern q.1 = some pt ∧ pt.Match q.2 ∧ h.value q.1 = some q.2 := by
  simp only [writeXML, List.mem_filterMap, Option.map_eq_some_iff] at hq
  obtain ⟨d, -, e, he, rfl⟩ := hq
  refine ⟨e.pattern, ?_, hg.value _ _ he, by simp [Handler.value, he]⟩
  rw [← hg.pattern]
  simp [Handler.pattern, he]

/-- Reading a list of entries of a good configuration `g` into a good object gives `g` at these entries and keeps the others. -/
theorem readXML_ok {g : Handler} : ∀ (l : List (List String × Val)) (h : Handler), Good h →
    (∀ q ∈ l, ∃ pt, initial.pattern q.1 = some pt ∧ pt.Match q.2 ∧ g.value q.1 = some q.2) →
    ∃ h', readXML l h = .ok h' ∧ Good h' ∧ ∀ k, (k ∈ l.map (·.1) → h'.value k = g.value k) ∧ (k ∉ l.map (·.1) → h'.value k = h.value k)
  | [], h, hg, _ => ⟨h, rfl, hg, fun k => ⟨by simp, fun _ => rfl⟩⟩
  | (k, v) :: l, h, hg, hl => by
    obtain ⟨pt, hp, hm, hgv⟩ := hl (k, v) (by simp)
    have hp' := hp
    rw [← hg.pattern] at hp'
    unfold Handler.pattern at hp'
    obtain ⟨e, he, rfl⟩ := Option.map_eq_some_iff.1 hp'
    have hput : h.put k v = { h with entries := Function.update h.entries k (some { e with value := v }) } := by simp [Handler.put, he]
    obtain ⟨h', h1, h2, h3⟩ := readXML_ok l (h.put k v) (hg.put hp hm) fun q hq => hl q (List.mem_cons_of_mem _ hq)
    refine ⟨h', by simp only [readXML, he, if_pos hm, ← hput, h1], h2, fun k' => ⟨fun hk' => ?_, fun hk' => ?_⟩⟩
    · by_cases hin : k' ∈ l.map (·.1)
      · exact (h3 k').1 hin
      · have : k' = k := by
          rw [List.map_cons, List.mem_cons] at hk'
          exact hk'.resolve_right hin
        subst this
        rw [(h3 k').2 hin, put_value _ _ _ (by rw [hg.pattern, hp]), hgv]
    · rw [List.map_cons, List.mem_cons, not_or] at hk'
      rw [(h3 k').2 hk'.2]
      unfold Handler.value
      rw [put_entries_ne _ _ hk'.1]

/-- **C73** (partial: with the default constructor followed by `readFromXMLFile`) Reading the file written from a configuration restores the
value of every parameter. -/
theorem C73_read_partial (cs : List Call) (hs : Safe cs) :
    ∃ h', readXML (writeXML (history cs)) initial = .ok h' ∧ ∀ d ∈ declarations, h'.value (d.path ++ [d.name]) = (history cs).value (d.path ++ [d.name]) := by
  have hg := good_history hs
  obtain ⟨h', h1, -, h3⟩ := readXML_ok (g := history cs) (writeXML (history cs)) initial good_initial fun q hq => writeXML_mem hg hq
  refine ⟨h', h1, fun d hd => (h3 _).1 ?_⟩
  have hdec : ∀ d ∈ declarations, (position (d.path ++ [d.name])).isSome := by decide +kernel
  obtain ⟨i, hi⟩ := Option.isSome_iff_exists.1 (hdec d hd)
  have hp : initial.pattern (d.path ++ [d.name]) = some declarations[i].pattern := by rw [initial_pattern, hi]; rfl
  rw [← hg.pattern] at hp
  unfold Handler.pattern at hp
  obtain ⟨e, he, -⟩ := Option.map_eq_some_iff.1 hp
  rw [List.mem_map]
  refine ⟨(d.path ++ [d.name], e.value), ?_, rfl⟩
  simp only [writeXML, List.mem_filterMap, Option.map_eq_some_iff]
  exact ⟨d, hd, e, he, rfl⟩

end Config
end NATriuM
