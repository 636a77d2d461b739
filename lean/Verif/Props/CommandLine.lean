import Verif.Lemmas.CommandLine

/-!
# Properties C40 and C41: command line

`t0` is the content of an uninitialised variable; theorems hold for all of its values unless stated otherwise.
-/

namespace NATriuM
namespace CommandLine

open Config

/-! ## C40 -/

/-- **C40** If the options are applied without an exception, the configuration has exactly the documented values.  (For `standard-lbm` the CFL
number is the one of the code, see `C40_standardLbm_fails`; for `standard-lbm-with` the order is stated without `order-fe`, see
`C40_order_fails`.) -/
theorem C40_applied_partial (t0 : ℕ) (a : Args) (cs : List Call) (hs : Safe cs) (h' : Handler) (hr : apply t0 a (Config.history cs) = (.ok (), h')) :
    Applied a h' := by
  have hg := good_history hs
  have hf := (apply_ok_iff t0 a hg).1 ⟨h', hr⟩
  obtain ⟨hn, hv, hst, hid⟩ := (accepted_iff t0 a).1 hf
  have cflBlock : a.standardLbm = true ∨ a.standardLbmWith.isSome → block t0 a .cfl = [] := fun hs => by simp [block, hn.cfl hs, given]
  have adv : a.standardLbm = true ∨ a.standardLbmWith.isSome → ∀ c, .call c ∈ block t0 a .streaming →
      c = .enum .advectionScheme SEMI_LAGRANGIAN := by
    intro hs c hc
    simp only [block, mem_given] at hc
    obtain ⟨s, h1, h2⟩ := hc
    rw [hn.streaming hs s h1] at h2
    have : select .advectionScheme streamingTable "sl" = [.call (.enum .advectionScheme SEMI_LAGRANGIAN)] := rfl
    rw [this] at h2
    simpa using h2
  obtain ⟨vadv, hadv⟩ := stored_enum (p := .advectionScheme) (n := SEMI_LAGRANGIAN) (by decide)
  obtain ⟨vsup, hsup⟩ := stored_enum (p := .supportPoints) (n := EQUIDISTANT_POINTS) (by decide)
  constructor
  case standardLbm =>
    intro hs
    have hnw : a.standardLbmWith = none := by
      by_contra hc
      exact hn.standard ⟨hs, Option.isSome_iff_ne_none.2 hc⟩
    have hbw : block t0 a .standardLbmWith = [] := by simp [block, hnw, given]
    obtain ⟨f1, f2, f3⟩ : a.cfl.isSome = false ∧ orderConflict a = false ∧ streamingConflict a = false := by
      have := hf .standardLbm
      simp only [block, if_pos hs, fine_append, fine_throwIf] at this
      exact ⟨this.1.1.1, this.1.1.2, this.1.2⟩
    have hb : block t0 a .standardLbm = [.call (.dbl .cfl (.fin (√2 * 2))), .call (.int .sedgOrderOfFiniteElement 2),
        .call (.enum .advectionScheme SEMI_LAGRANGIAN)] := by
      simp [block, hs, f1, f2, f3, throwIf]
    refine ⟨?_, ?_, ?_⟩
    · obtain ⟨h1, h2⟩ := block_value (pre := []) hg hr .standardLbm (c := .dbl .cfl (.fin (√2 * 2))) hb rfl
        (by intro c hc; simp only [List.mem_cons, Action.call.injEq, List.not_mem_nil, or_false] at hc
            rcases hc with rfl | rfl <;> exact fun hk => absurd hk (by simp only [Call.touches]; decide +kernel))
        (by
          intro b' hb' hk c hc
          have : ∀ b' ∈ after .standardLbm, (DblParam.key .cfl).1 ++ [(DblParam.key .cfl).2] ∈ foot b' → b' = .standardLbmWith ∨ b' = .cfl := by
            decide +kernel
          rcases this b' hb' hk with rfl | rfl
          · simp [hbw] at hc
          · simp [cflBlock (.inl hs)] at hc)
      exact dbl_read (by decide) h1 h2
    · obtain ⟨h1, h2⟩ := block_value (pre := [.call (.dbl .cfl (.fin (√2 * 2)))]) hg hr .standardLbm (c := .int .sedgOrderOfFiniteElement 2) hb rfl
        (by intro c hc; simp only [List.mem_cons, Action.call.injEq, List.not_mem_nil, or_false] at hc
            rcases hc with rfl; exact fun hk => absurd hk (by simp only [Call.touches]; decide +kernel))
        (by
          intro b' hb' hk c hc
          have : ∀ b' ∈ after .standardLbm, (IntParam.key .sedgOrderOfFiniteElement).1 ++ [(IntParam.key .sedgOrderOfFiniteElement).2] ∈ foot b' →
            b' = .standardLbmWith ∨ b' = .orderFe := by decide +kernel
          rcases this b' hb' hk with rfl | rfl
          · simp [hbw] at hc
          · simp only [block, mem_given] at hc
            obtain ⟨n, h1, h2⟩ := hc
            rw [hn.order (.inl hs) n h1] at h2
            simp only [List.mem_singleton, Action.call.injEq] at h2
            subst h2
            exact fun _ => rfl)
      exact int_read h1 h2
    · obtain ⟨h1, h2⟩ := block_value (pre := [.call (.dbl .cfl (.fin (√2 * 2))), .call (.int .sedgOrderOfFiniteElement 2)]) hg hr .standardLbm
        (c := .enum .advectionScheme SEMI_LAGRANGIAN) hb hadv (by simp)
        (by
          intro b' hb' hk c hc
          have : ∀ b' ∈ after .standardLbm, (EnumParam.key .advectionScheme).1 ++ [(EnumParam.key .advectionScheme).2] ∈ foot b' →
            b' = .standardLbmWith ∨ b' = .streaming := by decide +kernel
          rcases this b' hb' hk with rfl | rfl
          · simp [hbw] at hc
          · rw [adv (.inl hs) c hc]
            exact fun _ => hadv)
      exact enum_read hadv h1 h2
  case standardLbmWith =>
    intro n hm
    have hsome : a.standardLbmWith.isSome := by rw [Option.mem_def.1 hm]; rfl
    obtain ⟨f1, f2, f3, f4, f5⟩ : a.cfl.isSome = false ∧ orderConflict a = false ∧ streamingConflict a = false ∧ a.standardLbm = false ∧ 0 < n := by
      have := hf .standardLbmWith
      simp only [block, fine_given, fine_append, fine_throwIf] at this
      have := (this n hm).1
      refine ⟨this.1.1.1.1, this.1.1.1.2, this.1.1.2, this.1.2, ?_⟩
      by_contra hc
      simp [hc] at this
    have hne : (n : ℝ) ≠ 0 := by exact_mod_cast f5.ne'
    have hb : block t0 a .standardLbmWith = [.call (.dbl .cfl (.fin (√2 * n))), .call (.int .sedgOrderOfFiniteElement n),
        .call (.enum .supportPoints EQUIDISTANT_POINTS), .call (.enum .advectionScheme SEMI_LAGRANGIAN)] := by
      rw [show √2 * (n : ℝ) = √2 * n * n / n by field_simp]
      simp [block, given, Option.mem_def.1 hm, f1, f2, f3, f4, f5, throwIf]
    refine ⟨?_, ?_, fun ho => ?_, fun ho => ?_⟩
    · obtain ⟨h1, h2⟩ := block_value (pre := []) hg hr .standardLbmWith (c := .dbl .cfl (.fin (√2 * n))) hb rfl
        (by intro c hc; simp only [List.mem_cons, Action.call.injEq, List.not_mem_nil, or_false] at hc
            rcases hc with rfl | rfl | rfl <;> exact fun hk => absurd hk (by simp only [Call.touches]; decide +kernel))
        (by
          intro b' hb' hk c hc
          have : ∀ b' ∈ after .standardLbmWith, (DblParam.key .cfl).1 ++ [(DblParam.key .cfl).2] ∈ foot b' → b' = .cfl := by decide +kernel
          rcases this b' hb' hk with rfl
          simp [cflBlock (.inr hsome)] at hc)
      exact dbl_read (by decide) h1 h2
    · obtain ⟨h1, h2⟩ := block_value (pre := [.call (.dbl .cfl (.fin (√2 * n))), .call (.int .sedgOrderOfFiniteElement n),
        .call (.enum .supportPoints EQUIDISTANT_POINTS)]) hg hr .standardLbmWith (c := .enum .advectionScheme SEMI_LAGRANGIAN) hb hadv (by simp)
        (by
          intro b' hb' hk c hc
          have : ∀ b' ∈ after .standardLbmWith, (EnumParam.key .advectionScheme).1 ++ [(EnumParam.key .advectionScheme).2] ∈ foot b' →
            b' = .streaming := by decide +kernel
          rcases this b' hb' hk with rfl
          rw [adv (.inr hsome) c hc]
          exact fun _ => hadv)
      exact enum_read hadv h1 h2
    · obtain ⟨h1, h2⟩ := block_value (pre := [.call (.dbl .cfl (.fin (√2 * n)))]) hg hr .standardLbmWith (c := .int .sedgOrderOfFiniteElement n) hb rfl
        (by intro c hc; simp only [List.mem_cons, Action.call.injEq, List.not_mem_nil, or_false] at hc
            rcases hc with rfl | rfl <;> exact fun hk => absurd hk (by simp only [Call.touches]; decide +kernel))
        (by
          intro b' hb' hk c hc
          have : ∀ b' ∈ after .standardLbmWith, (IntParam.key .sedgOrderOfFiniteElement).1 ++ [(IntParam.key .sedgOrderOfFiniteElement).2] ∈ foot b' →
            b' = .orderFe := by decide +kernel
          rcases this b' hb' hk with rfl
          simp [block, ho, given] at hc)
      exact int_read h1 h2
    · obtain ⟨h1, h2⟩ := block_value (pre := [.call (.dbl .cfl (.fin (√2 * n))), .call (.int .sedgOrderOfFiniteElement n)]) hg hr .standardLbmWith
        (c := .enum .supportPoints EQUIDISTANT_POINTS) hb hsup
        (by intro c hc; simp only [List.mem_cons, Action.call.injEq, List.not_mem_nil, or_false] at hc
            rcases hc with rfl; exact fun hk => absurd hk (by simp only [Call.touches]; decide +kernel))
        (by
          intro b' hb' hk c hc
          have : ∀ b' ∈ after .standardLbmWith, (EnumParam.key .supportPoints).1 ++ [(EnumParam.key .supportPoints).2] ∈ foot b' →
            b' = .supportPoints := by decide +kernel
          rcases this b' hb' hk with rfl
          simp [block, ho, given] at hc)
      exact enum_read hsup h1 h2
  case orderFe => exact integer_read (rest := []) hg hr .orderFe rfl (by simp) (by decide +kernel)
  case cfl => exact number_read hg hr .cfl (by decide) rfl (by decide +kernel)
  case output =>
    rintro (ho | ho | ho | ho | ho | ho)
    · exact switch_read (pre := []) hg hr .outputOn (by simp [block, ho])
    · exact switch_read (pre := [_]) hg hr .verbose (by simp only [block, if_pos ho]; rfl)
    all_goals obtain ⟨s, hs'⟩ := Option.isSome_iff_exists.1 ho
    · exact switch_read (pre := [_]) hg hr .outputDir (by simp only [block, hs', given]; rfl)
    · exact switch_read (pre := [_]) hg hr .outputSol (by simp only [block, hs', given]; rfl)
    · exact switch_read (pre := [_]) hg hr .outputChk (by simp only [block, hs', given]; rfl)
    · exact switch_read (pre := [_]) hg hr .outputTab (by simp only [block, hs', given]; rfl)
  case verbose =>
    intro ho
    obtain ⟨h1, h2⟩ := block_value (pre := []) hg hr .verbose (c := .int .commandLineVerbosity 8) (by simp only [block, if_pos ho]; rfl) rfl
      (by intro c hc; simp only [List.mem_singleton, Action.call.injEq] at hc
          rcases hc with rfl; exact fun hk => absurd hk (by simp only [Call.touches]; decide +kernel))
      fun b' hb' hk => absurd hk (by
        have : ∀ b' ∈ after .verbose, (IntParam.key .commandLineVerbosity).1 ++ [(IntParam.key .commandLineVerbosity).2] ∉ foot b' := by
          decide +kernel
        exact this b' hb')
    exact int_read h1 h2
  case streaming => exact select_read hg hr .streaming rfl streaming_table (by decide +kernel) (by decide +kernel)
  case collision => exact select_read hg hr .collision rfl collision_table (by decide +kernel) (by decide +kernel)
  case integrator =>
    intro s hs'
    rw [Option.mem_def] at hs'
    have hni : a.integratorId = none := by
      by_contra hc
      exact hn.integrator ⟨by rw [hs']; rfl, Option.isSome_iff_ne_none.2 hc⟩
    cases hl : integratorTable.lookup s with
    | none =>
      rw [integrator_table, lookup_none_iff] at hl
      exact absurd (hv.integrator s hs') hl
    | some q =>
      have hq : ∀ q ∈ integratorTable, q.2.1 < 4 ∧ q.2.2 < 13 := by decide +kernel
      have hq' := hq _ (lookup_mem hl)
      obtain ⟨v1, s1⟩ := stored_enum (p := .timeIntegrator) (n := q.1) hq'.1
      obtain ⟨v2, s2⟩ := stored_enum (p := .dealIntegrator) (n := q.2) hq'.2
      have hb : block t0 a .integrator = [.call (.enum .timeIntegrator q.1), .call (.enum .dealIntegrator q.2)] := by
        simp [block, given, hs', hni, throwIf, hl]
      have hbi : block t0 a .integratorId = [] := by simp [block, hni, given]
      refine ⟨q.1, q.2, lookup_mem (by rw [← integrator_table, hl]), ?_, ?_⟩
      · obtain ⟨h1, h2⟩ := block_value (pre := []) hg hr .integrator hb s1
          (by intro c hc; simp only [List.mem_singleton, Action.call.injEq] at hc
              rcases hc with rfl; exact fun hk => absurd hk (by simp only [Call.touches]; decide +kernel))
          (by
            intro b' hb' hk c hc
            have : ∀ b' ∈ after .integrator, (EnumParam.key .timeIntegrator).1 ++ [(EnumParam.key .timeIntegrator).2] ∈ foot b' →
              b' = .integratorId := by decide +kernel
            rcases this b' hb' hk with rfl
            simp [hbi] at hc)
        exact enum_read s1 h1 h2
      · obtain ⟨h1, h2⟩ := block_value (pre := [.call (.enum .timeIntegrator q.1)]) hg hr .integrator hb s2 (by simp)
          (by
            intro b' hb' hk c hc
            have : ∀ b' ∈ after .integrator, (EnumParam.key .dealIntegrator).1 ++ [(EnumParam.key .dealIntegrator).2] ∈ foot b' →
              b' = .integratorId := by decide +kernel
            rcases this b' hb' hk with rfl
            simp [hbi] at hc)
        exact enum_read s2 h1 h2
  case integratorId =>
    intro id hi h1 h2
    obtain ⟨s, t, d, h3, h4⟩ := integratorOfId_doc t0 id ⟨h1, h2⟩
    refine ⟨s, t, d, h3, ?_⟩
    have hlt := (integratorOfId_lt t0 id).2 (.inl ⟨h1, h2⟩)
    rw [h4] at hlt
    rw [Option.mem_def] at hi
    have hni : a.integrator = none := by
      by_contra hc
      exact hn.integrator ⟨Option.isSome_iff_ne_none.2 hc, by rw [hi]; rfl⟩
    have hb : block t0 a .integratorId = [.call (.enum .timeIntegrator t), .call (.enum .dealIntegrator d)] := by
      simp [block, given, hi, hni, throwIf, h4]
    obtain ⟨v1, s1⟩ := stored_enum (p := .timeIntegrator) (n := t) hlt.1
    obtain ⟨v2, s2⟩ := stored_enum (p := .dealIntegrator) (n := d) hlt.2
    constructor
    · obtain ⟨h1, h2⟩ := block_value (pre := []) hg hr .integratorId hb s1
        (by intro c hc; simp only [List.mem_singleton, Action.call.injEq] at hc
            rcases hc with rfl; exact fun hk => absurd hk (by simp only [Call.touches]; decide +kernel))
        fun b' hb' hk => absurd hk (by
          have : ∀ b' ∈ after .integratorId, (EnumParam.key .timeIntegrator).1 ++ [(EnumParam.key .timeIntegrator).2] ∉ foot b' := by
            decide +kernel
          exact this b' hb')
      exact enum_read s1 h1 h2
    · obtain ⟨h1, h2⟩ := block_value (pre := [.call (.enum .timeIntegrator t)]) hg hr .integratorId hb s2 (by simp)
        fun b' hb' hk => absurd hk (by
          have : ∀ b' ∈ after .integratorId, (EnumParam.key .dealIntegrator).1 ++ [(EnumParam.key .dealIntegrator).2] ∉ foot b' := by
            decide +kernel
          exact this b' hb')
      exact enum_read s2 h1 h2
  case scaling => exact number_read hg hr .scaling (by decide) rfl (by decide +kernel)
  case regularization => exact select_read hg hr .regularization rfl regularization_table (by decide +kernel) (by decide +kernel)
  case equilibrium => exact select_read hg hr .equilibrium rfl equilibrium_table (by decide +kernel) (by decide +kernel)
  case supportPoints => exact select_read hg hr .supportPoints rfl supportPoints_table (by decide +kernel) (by decide +kernel)
  case outputDir =>
    intro s hs'
    rw [Option.mem_def] at hs'
    obtain ⟨h1, h2⟩ := block_value (pre := []) hg hr .outputDir (c := .outputDirectory s) (by simp only [block, hs', given]; rfl) rfl
      (by intro c hc; simp only [List.mem_singleton, Action.call.injEq] at hc
          rcases hc with rfl; exact fun hk => absurd hk (by simp only [Call.touches]; decide +kernel))
      fun b' hb' hk => absurd hk (by
        have : ∀ b' ∈ after .outputDir, ["Output", "Output directory"] ∉ foot b' := by decide +kernel
        exact this b' hb')
    exact congrArg Prod.fst (guardedGet_eq (subs := ["Output"]) (name := "Output directory") (conv := Val.toText) h1 h2 rfl)
  case outputSol => exact integer_read hg hr .outputSol rfl (by
      intro c hc; simp only [List.mem_singleton, Action.call.injEq] at hc
      rcases hc with rfl; simp only [Call.touches]; decide +kernel) (by decide +kernel)
  case outputChk => exact integer_read hg hr .outputChk rfl (by
      intro c hc; simp only [List.mem_singleton, Action.call.injEq] at hc
      rcases hc with rfl; simp only [Call.touches]; decide +kernel) (by decide +kernel)
  case outputTab => exact integer_read hg hr .outputTab rfl (by
      intro c hc; simp only [List.mem_singleton, Action.call.injEq] at hc
      rcases hc with rfl; simp only [Call.touches]; decide +kernel) (by decide +kernel)
  case stencil => exact select_read hg hr .stencil rfl stencil_table (by decide +kernel) (by decide +kernel)
  case tmax => exact number_read hg hr .tmax (by decide) rfl (by decide +kernel)
  case init => exact select_read hg hr .init rfl init_table (by decide +kernel) (by decide +kernel)
  case initRes => exact number_read hg hr .initRes (by decide) rfl (by decide +kernel)
  case initNiter => exact integer_read (rest := []) hg hr .initNiter rfl (by simp) (by decide +kernel)
  case mrtBasis => exact select_read hg hr .mrtBasis rfl mrtBasis_table (by decide +kernel) (by decide +kernel)
  case mrtRelax =>
    intro hnamed s hs'
    have hm := hnamed s hs'
    rw [Option.mem_def] at hs'
    have hex : ∃ n, (s, n) ∈ mrtRelaxDoc ∧ n < 3 ∧ block t0 a .mrtRelax = [.call (.enum .mrtRelaxationTimes n)] := by
      simp only [mrtRelaxDoc, List.map_cons, List.map_nil, List.mem_cons, List.not_mem_nil, or_false] at hm
      rcases hm with rfl | rfl | rfl
      · exact ⟨RELAX_FULL, by decide, by decide, by simp [block, given, hs']⟩
      · exact ⟨DELLAR_RELAX_ONLY_N, by decide, by decide, by simp [block, given, hs']⟩
      · exact ⟨RELAX_DHUMIERES_PAPER, by decide, by decide, by simp [block, given, hs']⟩
    obtain ⟨n, hdoc, hlt, hb⟩ := hex
    obtain ⟨v, sv⟩ := stored_enum (p := .mrtRelaxationTimes) (n := n) hlt
    obtain ⟨h1, h2⟩ := block_value (pre := []) (post := []) hg hr .mrtRelax hb sv (by simp) fun b' hb' hk => absurd hk (by
      have : ∀ b' ∈ after .mrtRelax, (EnumParam.key .mrtRelaxationTimes).1 ++ [(EnumParam.key .mrtRelaxationTimes).2] ∉ foot b' := by
        decide +kernel
      exact this b' hb')
    exact ⟨n, hdoc, enum_read sv h1 h2⟩

/-- **C40** Documented values that do not conflict are accepted, and applied. -/
theorem C40_accepted (t0 : ℕ) (a : Args) (cs : List Call) (hs : Safe cs) (hn : NoConflict a) (hv : ValuesDocumented a)
    (hst : Named a.stencil stencilDoc) (hid : IdDocumented a) :
    ∃ h', apply t0 a (Config.history cs) = (.ok (), h') ∧ Applied a h' := by
  have := (apply_ok_iff t0 a (good_history hs)).2 ((accepted_iff t0 a).2 ⟨hn, hv, fun s h => by
    rw [List.map_append]; exact List.mem_append_left _ (hst s h), fun id h => .inl (hid id h)⟩)
  obtain ⟨h', hr⟩ := this
  exact ⟨h', hr, C40_applied_partial t0 a cs hs h' hr⟩

/-- **C40** (partial: not for `--mrt-relax`, `--integrator-id`, and three names of stencils) Conflicting options, and undocumented values of
the other options, raise an error. -/
theorem C40_rejected_partial (t0 : ℕ) (a : Args) (cs : List Call) (hs : Safe cs)
    (hbad : ¬ NoConflict a ∨ ¬ ValuesDocumented a ∨ ¬ Named a.stencil (stencilDoc ++ stencilExtra)) :
    ∃ e h', apply t0 a (Config.history cs) = (.error e, h') := by
  rcases hr : apply t0 a (Config.history cs) with ⟨r, h'⟩
  cases r with
  | error e => exact ⟨e, h', rfl⟩
  | ok u =>
    obtain ⟨h1, h2, h3, -⟩ := (accepted_iff t0 a).1 ((apply_ok_iff t0 a (good_history hs)).1 ⟨h', hr⟩)
    rcases hbad with h | h | h
    · exact absurd h1 h
    · exact absurd h2 h
    · exact absurd h3 h

/-- `--standard-lbm-with 4 --streaming sl --collision mrt --integrator-id 9 --output-dir out` -/
def sample : Args where
  standardLbmWith := some 4
  streaming := some "sl"
  collision := some "mrt"
  integratorId := some 9
  outputDir := some "out"

/-- Non-vacuity -/
example : ∃ h', apply 77 sample (Config.history []) = (.ok (), h') ∧
    (getInt .sedgOrderOfFiniteElement h').1 = .ok 4 ∧ (getEnum .collisionScheme h').1 = .ok MRT_STANDARD ∧
    (getEnum .dealIntegrator h').1 = .ok CRANK_NICOLSON := by
  obtain ⟨h', h1, h2⟩ := C40_accepted 77 sample [] (by intro v hv; simp at hv)
    ⟨fun _ => rfl, fun _ n hn => by simp [sample] at hn, fun _ s hs => by simpa [sample] using hs.symm, by simp [sample], by simp [sample]⟩
    (by constructor <;> simp [sample, IntegerIn, NumberIn, Named, IntParam.Range, streamingDoc, collisionDoc]) (by simp [sample, Named])
    (by simp [sample, IdDocumented])
  refine ⟨h', h1, (h2.standardLbmWith 4 rfl).2.2.1 rfl, ?_, ?_⟩
  · obtain ⟨n, h3, h4⟩ := h2.collision "mrt" rfl
    rw [h4]
    simp [collisionDoc] at h3
    rw [h3]
  · obtain ⟨s, t, d, h3, h4, h5⟩ := h2.integratorId 9 rfl (by norm_num) (by norm_num)
    rw [h5]
    simp [integratorDoc] at h3
    rw [← h3.2.2]

/-- Non-vacuity of the rejection: `--standard-lbm --cfl 1`, and `--collision BGK`. -/
example (t0 : ℕ) : ∃ e h', apply t0 { standardLbm := true, cfl := some (.fin 1) } (Config.history []) = (.error e, h') :=
  C40_rejected_partial t0 _ [] (by intro v hv; simp at hv) (.inl fun h => by simpa using h.cfl (.inl rfl))

example (t0 : ℕ) : ∃ e h', apply t0 { collision := some "BGK" } (Config.history []) = (.error e, h') :=
  C40_rejected_partial t0 _ [] (by intro v hv; simp at hv) (.inr (.inl fun h => by
    have := h.collision "BGK" rfl
    revert this
    decide +kernel))

/-- All options but the three exceptional ones are absent. -/
theorem only_exceptional (o : Option String) (i : Option ℤ) : NoConflict { mrtRelax := o, integratorId := i } ∧
    ValuesDocumented { mrtRelax := o, integratorId := i } := by
  constructor <;> constructor <;> simp [IntegerIn, NumberIn, Named]

/-- **C40** fails: any text is accepted for `--mrt-relax`, and read as `dhumieres-paper`. -/
theorem C40_mrtRelax_fails (t0 : ℕ) (s : String) (h1 : s ≠ "full") (h2 : s ≠ "dellar-only-N") :
    ∃ h', apply t0 { mrtRelax := some s } (Config.history []) = (.ok (), h') ∧ (getEnum .mrtRelaxationTimes h').1 = .ok RELAX_DHUMIERES_PAPER := by
  have hg := good_history (cs := []) (by intro v hv; simp at hv)
  obtain ⟨hn, hv⟩ := only_exceptional (some s) none
  obtain ⟨h', hr⟩ := (apply_ok_iff t0 { mrtRelax := some s } hg).2 ((accepted_iff t0 _).2 ⟨hn, hv, by simp [Named], by simp⟩)
  refine ⟨h', hr, ?_⟩
  obtain ⟨v, sv⟩ := stored_enum (p := .mrtRelaxationTimes) (n := RELAX_DHUMIERES_PAPER) (by decide)
  obtain ⟨h1, h2⟩ := block_value (pre := []) (post := []) hg hr .mrtRelax (by simp [block, given, h1, h2]) sv (by simp)
    fun b' hb' hk => absurd hk (by
      have : ∀ b' ∈ after .mrtRelax, (EnumParam.key .mrtRelaxationTimes).1 ++ [(EnumParam.key .mrtRelaxationTimes).2] ∉ foot b' := by
        decide +kernel
      exact this b' hb')
  exact enum_read sv h1 h2

/-- **C40** fails: `--integrator-id 16` is accepted if the uninitialised variable happens to hold `0`, and selects `rk4`. -/
theorem C40_integratorId_fails : ∃ h', apply 0 { integratorId := some 16 } (Config.history []) = (.ok (), h') ∧
    (getEnum .timeIntegrator h').1 = .ok RUNGE_KUTTA_5STAGE := by
  have hg := good_history (cs := []) (by intro v hv; simp at hv)
  obtain ⟨hn, hv⟩ := only_exceptional none (some 16)
  obtain ⟨h', hr⟩ := (apply_ok_iff 0 { integratorId := some 16 } hg).2 ((accepted_iff 0 _).2 ⟨hn, hv, by simp [Named], by simp⟩)
  refine ⟨h', hr, ?_⟩
  obtain ⟨v, sv⟩ := stored_enum (p := .timeIntegrator) (n := RUNGE_KUTTA_5STAGE) (by decide)
  obtain ⟨h1, h2⟩ := block_value (pre := []) (post := [.call (.enum .dealIntegrator NONE)]) hg hr .integratorId
    (by simp [block, given, throwIf, integratorOfId_other]) sv
    (by intro c hc; simp only [List.mem_singleton, Action.call.injEq] at hc
        rcases hc with rfl; exact fun hk => absurd hk (by simp only [Call.touches]; decide +kernel))
    fun b' hb' hk => absurd hk (by
      have : ∀ b' ∈ after .integratorId, (EnumParam.key .timeIntegrator).1 ++ [(EnumParam.key .timeIntegrator).2] ∉ foot b' := by
        decide +kernel
      exact this b' hb')
  exact enum_read sv h1 h2

/-- **C40** fails: the undocumented value `d3q13` of `--stencil` is accepted. -/
theorem C40_stencil_fails (t0 : ℕ) : ¬ Named (some "d3q13") stencilDoc ∧
    ∃ h', apply t0 { stencil := some "d3q13" } (Config.history []) = (.ok (), h') := by
  refine ⟨fun h => absurd (h _ rfl) (by decide +kernel), ?_⟩
  refine (apply_ok_iff t0 { stencil := some "d3q13" } (good_history (cs := []) (by intro v hv; simp at hv))).2 ((accepted_iff t0 _).2 ⟨?_, ?_, ?_, by simp⟩)
  · constructor <;> simp
  · constructor <;> simp [IntegerIn, NumberIn, Named]
  · intro s hs
    rw [Option.mem_def, Option.some.injEq] at hs
    rw [← hs]
    decide +kernel

/-- **C40** fails: `--standard-lbm` sets another CFL number than the documented `4·√2`. -/
theorem C40_standardLbm_fails (t0 : ℕ) : ∃ h' x, apply t0 { standardLbm := true } (Config.history []) = (.ok (), h') ∧
    (getDbl .cfl h').1 = .ok x ∧ x < 4 * √2 - 2 := by
  obtain ⟨h', h1, h2⟩ := C40_accepted t0 { standardLbm := true } [] (by intro v hv; simp at hv) (by constructor <;> simp)
    (by constructor <;> simp [IntegerIn, NumberIn, Named]) (by simp [Named]) (by simp [IdDocumented])
  refine ⟨h', _, h1, (h2.standardLbm rfl).1, ?_⟩
  have hs1 : (1.414 : ℝ) < √2 := Real.lt_sqrt_of_sq_lt (by norm_num)
  have hs2 : √2 < (1.415 : ℝ) := by rw [Real.sqrt_lt' (by norm_num)]; norm_num
  have hb := sixteenDigits_le (√2 * 2) (by linarith) (by linarith)
  linarith

/-- **C40** fails: `--standard-lbm-with 4 --order-fe 2` is accepted, with order 2 and the CFL number for order 4. -/
theorem C40_order_fails (t0 : ℕ) : ∃ h', apply t0 { standardLbmWith := some 4, orderFe := some 2 } (Config.history []) = (.ok (), h') ∧
    (getInt .sedgOrderOfFiniteElement h').1 = .ok 2 ∧ (getDbl .cfl h').1 = .ok (sixteenDigits (√2 * 4)) := by
  obtain ⟨h', h1, h2⟩ := C40_accepted t0 { standardLbmWith := some 4, orderFe := some 2 } [] (by intro v hv; simp at hv)
    (by constructor <;> simp)
    (by constructor <;> simp [IntegerIn, NumberIn, Named, IntParam.Range]) (by simp [Named]) (by simp [IdDocumented])
  exact ⟨h', h1, h2.orderFe 2 rfl, by simpa using (h2.standardLbmWith 4 rfl).1⟩

/-! ## C41 -/

/-- **C41** After `importOptions` was called, at any time and with any outcome, declaring an option is an error and changes nothing. -/
theorem C41_declare_after_import (parse : Parse) (ops : List Op) (h : .importOptions ∈ ops) (n : List Char) (k : Kind) :
    step parse (.declare n k) (history parse ops) = (.error .commandLine, history parse ops) ∧
    step parse (.declarePositional n k) (history parse ops) = (.error .commandLine, history parse ops) ∧
    step parse (.makePositional n) (history parse ops) = (.error .commandLine, history parse ops) := by
  simp [step, declare, declarePositional, makePositional, imported_history ops h]

/-- **C41** Before `importOptions` was called, options can be declared, and reading one is an error and changes nothing. -/
theorem C41_read_before_import (parse : Parse) (ops : List Op) (h : .importOptions ∉ ops) (n : List Char) (k : Kind) :
    (step parse (.declare n k) (history parse ops)).1 = .ok .unit ∧
    step parse (.has n) (history parse ops) = (.error .commandLine, history parse ops) ∧
    step parse (.get n k) (history parse ops) = (.error .commandLine, history parse ops) := by
  have := (clean_fold (parse := parse) ops h construct rfl rfl).1
  rw [← history] at this
  simp [step, declare, hasArgument, getArgument, this]

/-- **C41** A value that can be read belongs to an option that was declared, with the type under which it is read, by the constructor or before
the import. -/
theorem C41_read_declared (parse : Parse) (hb : Boost parse) (ops : List Op) (n : List Char) (k : Kind) (v : Value)
    (h : (step parse (.get n k) (history parse ops)).1 = .ok (.value v)) :
    v.kind = k ∧ (n, k) ∈ reserved ++ declarations (beforeImport ops) := by
  by_cases hi : .importOptions ∈ ops
  · obtain ⟨pos, -, hm⟩ := after_import (parse := parse) ops hi
    simp only [step, getArgument, imported_history ops hi, if_true] at h
    split at h
    · rename_i w hw
      split_ifs at h with hk
      cases h
      refine ⟨hk, ?_⟩
      split at hm
      · rename_i m hp
        rw [hm] at hw
        have := hb _ _ _ hp n v hw
        rwa [hk] at this
      · rw [hm] at hw
        cases hw
    · cases h
  · rw [(C41_read_before_import parse ops hi n k).2.2] at h
    cases h

/-- **C41** The same for the question whether an option is set. -/
theorem C41_has_declared (parse : Parse) (hb : Boost parse) (ops : List Op) (n : List Char)
    (h : (step parse (.has n) (history parse ops)).1 = .ok (.bool true)) : ∃ k, (n, k) ∈ reserved ++ declarations (beforeImport ops) := by
  by_cases hi : .importOptions ∈ ops
  · obtain ⟨pos, -, hm⟩ := after_import (parse := parse) ops hi
    simp only [step, hasArgument, imported_history ops hi, if_true, Except.ok.injEq, Answer.bool.injEq] at h
    obtain ⟨v, hv⟩ := Option.isSome_iff_exists.1 h
    split at hm
    · rename_i m hp
      rw [hm] at hv
      exact ⟨v.kind, hb _ _ _ hp n v hv⟩
    · rw [hm] at hv
      cases hv
  · rw [(C41_read_before_import parse ops hi n .flag).2.1] at h
    cases h

/-- **C41** What is read is what the command line gives for the options declared before the first import, however often options are imported, and
nothing can be read after a failed import. -/
theorem C41_read_value (parse : Parse) (ops : List Op) (hi : .importOptions ∈ ops) : ∃ pos, ∀ n k v,
    (step parse (.get n k) (history parse ops)).1 = .ok (.value v) ↔
      ∃ m, parse (reserved ++ declarations (beforeImport ops)) pos = .ok m ∧ m n = some v ∧ v.kind = k := by
  obtain ⟨pos, -, hm⟩ := after_import (parse := parse) ops hi
  refine ⟨pos, fun n k v => ?_⟩
  simp only [step, getArgument, imported_history ops hi, if_true]
  split at hm
  · rename_i m hp
    rw [hm]
    constructor
    · intro h
      split at h
      · rename_i w hw
        split_ifs at h with hk
        cases h
        exact ⟨m, hp, hw, hk⟩
      · cases h
    · rintro ⟨m', h1, h2, h3⟩
      rw [hp] at h1
      cases h1
      simp [h2, h3]
  · rename_i e hp
    rw [hm]
    simp [hp]

/-- A command line `--level 3`, read by a parser that finds the option only if it is declared. -/
def levelParse : Parse := fun d _ =>
  if ("level".toList, Kind.int) ∈ d then .ok fun n => if n = "level".toList then some (.int 3) else none else .error ()

/-- Non-vacuity: declare, import, read. -/
example : Boost levelParse ∧
    (step levelParse (.get "level".toList .int) (history levelParse [.declare "level,l".toList .int, .importOptions])).1 =
      .ok (.value (.int 3)) := by
  constructor
  · intro d pos m h n v hv
    unfold levelParse at h
    split_ifs at h with hd
    cases h
    dsimp only at hv
    split_ifs at hv with hn
    cases hv
    rw [hn]
    exact hd
  · obtain ⟨pos, h⟩ := C41_read_value levelParse [.declare "level,l".toList .int, .importOptions] (by simp)
    refine (h _ _ _).2 ⟨fun n => if n = "level".toList then some (.int 3) else none, ?_, by simp, rfl⟩
    unfold levelParse
    rw [if_pos]
    exact List.mem_append_right _ (by decide +kernel)

/-- Non-vacuity: declaring after the import, reading before it. -/
example : (step levelParse (.declare "n".toList .int) (history levelParse [.importOptions])).1 = .error .commandLine ∧
    (step levelParse (.get "level".toList .int) (history levelParse [.declare "level".toList .int])).1 = .error .commandLine :=
  ⟨by rw [(C41_declare_after_import levelParse _ (by simp) _ _).1], by rw [(C41_read_before_import levelParse _ (by simp) _ _).2.2]⟩

end CommandLine
end NATriuM
