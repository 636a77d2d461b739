import Verif.Lemmas.Checkpoint
import Verif.Props.Collision
import Verif.Props.SolverLoop
import Mathlib.Tactic.IntervalCases

/-!
# Properties C30 – C35, C65: checkpoints and restart

A checkpoint directory is any list of files.  `save` is what a run does in iteration `i`, `find … 1` is the search for the latest
checkpoint, `find … i` the choice of a particular one.
-/

namespace NATriuM
namespace Checkpoint

open Finset NATriuM.Spec

variable {β φ : Type*}

/-! ## C31 -/

/-- `n` is the highest iteration number of a status file of one kind. -/
def Newest (isG : Bool) (dir : List (Entry β)) (n : ℕ) : Prop := IsGreatest {k | ∃ t, Entry.stat isG k t ∈ dir} n

/-- **C31** (partial: the directory contains no status file of the other kind, and the newest status file has its data file) Asking for
the latest checkpoint loads the one with the highest iteration number. -/
theorem C31_newest_partial {isG : Bool} {dir : List (Entry β)} (hk : OnlyKind isG dir) {n : ℕ} (hn : Newest isG dir n) (h0 : 1 ≤ n)
    {b : β} (hb : readData isG n dir = some b) : ∃ t, readStat isG n dir = some t ∧ find isG 1 dir = .ok (t, b) := by
  obtain ⟨m, h1, h2, h3, h4⟩ := scan_ok hk 1
  have hm : m = n := by
    refine le_antisymm ?_ ?_
    · rcases h4 with rfl | h4
      · exact h0
      · exact hn.2 h4
    · obtain ⟨t, ht⟩ := hn.1
      exact h3 n t ht
  subst hm
  obtain ⟨t, ht⟩ := Option.isSome_iff_exists.1 ((readStat_isSome isG m dir).2 hn.1)
  refine ⟨t, ht, ?_⟩
  simp [find, fileNumber, h1, ht, hb]

/-- **C31** A particular iteration (other than 1) is looked up under its own number, whatever else the directory contains. -/
theorem C31_particular {isG : Bool} {i : ℕ} (hi : i ≠ 1) (dir : List (Entry β)) (t : Status) (b : β) :
    find isG i dir = .ok (t, b) ↔ readStat isG i dir = some t ∧ readData isG i dir = some b := by
  simp only [find, fileNumber, if_neg hi]
  cases hs : readStat isG i dir <;> cases hd : readData isG i dir <;> simp

/-- **C31** (partial: iterations other than 1) Writing the checkpoint of iteration `i` creates the two files of `i` and leaves every other
file as it was. -/
theorem C31_save_partial {isG : Bool} {i : ℕ} (hi : i ≠ 1) (s : Status) (b : β) (dir : List (Entry β)) :
    ∃ dir', save isG i s b dir = .ok dir' ∧ readStat isG i dir' = some (statusText s) ∧ readData isG i dir' = some b ∧
      ∀ g k, (g, k) ≠ (isG, i) → readStat g k dir' = readStat g k dir ∧ readData g k dir' = readData g k dir := by
  refine ⟨write isG i s b dir, by simp only [save, fileNumber, if_neg hi], ?_, ?_, ?_⟩
  · simp [write, writeStatus, readStat_putData, readStat_putStat]
  · simp [write, readData_putData]
  · intro g k h
    have h' : ¬ (isG = g ∧ i = k) := fun ⟨e1, e2⟩ => h (by rw [e1, e2])
    simp [write, writeStatus, readStat_putData, readStat_putStat, readData_putData, readData_putStat, h']

/-- **C31 fails** The checkpoint of iteration 1 is written over the newest one: its own files are not created, and status and data of the
newest checkpoint (iteration `n`) are replaced. -/
theorem C31_first_iteration_fails {isG : Bool} {dir : List (Entry β)} (hk : OnlyKind isG dir) {n : ℕ} (hn : Newest isG dir n) (h0 : 1 < n)
    (s : Status) (b : β) :
    ∃ dir', save isG 1 s b dir = .ok dir' ∧ readStat isG n dir' = some (statusText s) ∧ readData isG n dir' = some b ∧
      readStat isG 1 dir' = readStat isG 1 dir ∧ readData isG 1 dir' = readData isG 1 dir := by
  obtain ⟨m, h1, h2, h3, h4⟩ := scan_ok hk 1
  have hm : m = n := by
    refine le_antisymm ?_ ?_
    · rcases h4 with rfl | h4
      · exact h0.le
      · exact hn.2 h4
    · obtain ⟨t, ht⟩ := hn.1
      exact h3 n t ht
  subst hm
  refine ⟨write isG m s b dir, by simp only [save, fileNumber, if_true, h1], ?_⟩
  have : m ≠ 1 := by omega
  simp [write, writeStatus, readStat_putData, readStat_putStat, readData_putData, readData_putStat, this]

/-- **C31 fails** Once the directory contains a status file of the other kind – after every checkpoint of a compressible run – the latest
checkpoint can no longer be asked for: the search ends with an uncaught exception. -/
theorem C31_both_kinds_fails {isG : Bool} {dir : List (Entry β)} {n : ℕ} {t : Status} (h : Entry.stat (!isG) n t ∈ dir) :
    ∃ err, find isG 1 dir = .error err := by
  obtain ⟨err, he⟩ := scan_error (isG := isG) h (err := .invalidArgument) (by cases isG <;> rfl) 1
  exact ⟨err, by simp [find, fileNumber, he]⟩

/-- **C31 fails** at a crash: if the run is killed after the status file and before the data file of iteration `n` is written, the latest
checkpoint cannot be loaded although the complete checkpoint of an earlier iteration is still there. -/
theorem C31_crash_fails {isG : Bool} {dir : List (Entry β)} (hk : OnlyKind isG dir) {m n : ℕ} (hm : Newest isG dir m) (hmn : m < n)
    (h31 : n < 2 ^ 31) (hm1 : 1 < m) (hd : readData isG n dir = none) {b : β} (hb : readData isG m dir = some b) (s : Status) :
    find isG 1 (writeStatus isG n s dir) = .error .missing ∧ ∃ t, find isG m (writeStatus isG n s dir) = .ok (t, b) := by
  have hmem : ∀ g k t, Entry.stat g k t ∈ putStat isG n (statusText s) dir → (g = isG ∧ k = n) ∨ Entry.stat g k t ∈ dir := by
    clear hk hm hd hb
    induction dir with
    | nil => intro g k t h; simp [putStat] at h; exact .inl ⟨h.1, h.2.1⟩
    | cons e rest ih =>
      intro g k t h
      cases e with
      | stat g' k' t' =>
        simp only [putStat] at h
        split_ifs at h with hc
        · rcases List.mem_cons.1 h with h | h
          · cases h; exact .inl ⟨rfl, rfl⟩
          · exact .inr (List.mem_cons_of_mem _ h)
        · rcases List.mem_cons.1 h with h | h
          · exact .inr (h ▸ List.mem_cons_self ..)
          · exact (ih g k t h).imp id (List.mem_cons_of_mem _)
      | data => simp only [putStat] at h; exact (ih g k t (by simpa using h)).imp id (List.mem_cons_of_mem _)
      | otherStat => simp only [putStat] at h; exact (ih g k t (by simpa using h)).imp id (List.mem_cons_of_mem _)
      | other => simp only [putStat] at h; exact (ih g k t (by simpa using h)).imp id (List.mem_cons_of_mem _)
  have hos : ∀ o, Entry.otherStat o ∈ putStat isG n (statusText s) dir → Entry.otherStat o ∈ dir := by
    clear hk hm hd hb hmem
    induction dir with
    | nil => intro o h; simp [putStat] at h
    | cons e rest ih =>
      intro o h
      cases e with
      | stat g' k' t' =>
        simp only [putStat] at h
        split_ifs at h with hc
        · exact List.mem_cons_of_mem _ (by simpa using h)
        · exact List.mem_cons_of_mem _ (ih o (by simpa using h))
      | otherStat o' =>
        simp only [putStat] at h
        rcases List.mem_cons.1 h with h | h
        · exact h ▸ List.mem_cons_self ..
        · exact List.mem_cons_of_mem _ (ih o h)
      | data => simp only [putStat] at h; exact List.mem_cons_of_mem _ (ih o (by simpa using h))
      | other => simp only [putStat] at h; exact List.mem_cons_of_mem _ (ih o (by simpa using h))
  have hk' : OnlyKind isG (writeStatus isG n s dir) := by
    intro e he
    cases e with
    | stat g k t =>
      rcases hmem g k t he with ⟨h1, h2⟩ | h
      · exact ⟨h1, h2 ▸ h31⟩
      · exact hk _ h
    | otherStat o => exact hk _ (hos o he)
    | data => trivial
    | other => trivial
  have hsn : readStat isG n (writeStatus isG n s dir) = some (statusText s) := by simp [writeStatus, readStat_putStat]
  obtain ⟨i, h1, h2, h3, h4⟩ := scan_ok hk' 1
  have hin : i = n := by
    refine le_antisymm ?_ ?_
    · rcases h4 with rfl | ⟨t, h4⟩
      · omega
      · rcases hmem isG i t h4 with ⟨-, h⟩ | h
        · exact h.le
        · exact (hm.2 ⟨t, h⟩).trans hmn.le
    · obtain ⟨t, ht⟩ := (readStat_isSome isG n _).1 (by rw [hsn]; rfl)
      exact h3 n t ht
  subst hin
  constructor
  · have hdn : readData isG i (writeStatus isG i s dir) = none := by rw [writeStatus, readData_putStat, hd]
    simp [find, fileNumber, h1, hsn, hdn]
  · obtain ⟨t, ht⟩ := Option.isSome_iff_exists.1 ((readStat_isSome isG m dir).2 hm.1)
    refine ⟨t, (C31_particular (by omega) _ _ _).2 ⟨?_, ?_⟩⟩
    · rw [writeStatus, readStat_putStat, if_neg (fun h => by omega), ht]
    · rw [writeStatus, readData_putStat, hb]

/-- A directory with two checkpoints of one kind. -/
noncomputable def sampleDir : List (Entry ℕ) :=
  [.other, .stat false 20 ⟨2, 20, 1, 2⟩, .data false 20 7, .data false 10 5, .stat false 10 ⟨1, 10, 1, 2⟩]

theorem sampleDir_kind : OnlyKind false sampleDir := by
  intro e he
  simp only [sampleDir, List.mem_cons, List.not_mem_nil, or_false] at he
  rcases he with rfl | rfl | rfl | rfl | rfl <;> simp

theorem sampleDir_newest : Newest false sampleDir 20 := by
  refine ⟨⟨_, by simp only [sampleDir]; exact .tail _ (.head _)⟩, ?_⟩
  rintro k ⟨t, ht⟩
  simp only [sampleDir, List.mem_cons, List.not_mem_nil, or_false, reduceCtorEq, false_or, Entry.stat.injEq, true_and] at ht
  rcases ht with ⟨rfl, -⟩ | ⟨rfl, -⟩ <;> norm_num

example : find false 1 sampleDir = .ok (⟨2, 20, 1, 2⟩, 7) := by
  obtain ⟨t, ht, h⟩ := C31_newest_partial sampleDir_kind sampleDir_newest (by norm_num) (b := 7) (by simp [sampleDir, readData])
  rw [h]
  simp [sampleDir, readStat] at ht
  rw [ht]

example (s : Status) : ∃ dir', save false 1 s 99 sampleDir = .ok dir' ∧ readData false 20 dir' = some 99 := by
  obtain ⟨d, h1, -, h2, -⟩ := C31_first_iteration_fails sampleDir_kind sampleDir_newest (by norm_num) s 99
  exact ⟨d, h1, h2⟩

example (s : Status) : find false 1 (writeStatus false 30 s sampleDir) = .error .missing :=
  (C31_crash_fails sampleDir_kind sampleDir_newest (n := 30) (by norm_num) (by norm_num) (by norm_num) (by simp [sampleDir, readData])
    (b := 7) (by simp [sampleDir, readData]) s).1

/-! ## C32 -/

/-- **C32** (partial) A checkpoint written and then looked up gives back iteration number and order unchanged; time and stencil scaling come
back with a relative error of at most `5e-6`, and unchanged exactly if they are decimal numbers with at most six significant digits. -/
theorem C32_status_partial {isG : Bool} {i : ℕ} (hi : i ≠ 1) (s : Status) (b : β) (dir : List (Entry β)) :
    ∃ dir' t, save isG i s b dir = .ok dir' ∧ find isG i dir' = .ok (t, b) ∧
      t.iterationNumber = s.iterationNumber ∧ t.feOrder = s.feOrder ∧
      |t.time - s.time| ≤ 5 / 10 ^ 6 * |s.time| ∧ |t.stencilScaling - s.stencilScaling| ≤ 5 / 10 ^ 6 * |s.stencilScaling| ∧
      (t.time = s.time ↔ ∃ m e : ℤ, |m| < 10 ^ 6 ∧ s.time = m * 10 ^ e) ∧
      (t.stencilScaling = s.stencilScaling ↔ ∃ m e : ℤ, |m| < 10 ^ 6 ∧ s.stencilScaling = m * 10 ^ e) := by
  obtain ⟨dir', h1, h2, h3, -⟩ := C31_save_partial (isG := isG) hi s b dir
  exact ⟨dir', statusText s, h1, (C31_particular hi _ _ _).2 ⟨h2, h3⟩, rfl, rfl, sixDigits_error _, sixDigits_error _,
    sixDigits_eq_iff _, sixDigits_eq_iff _⟩

/-- **C32 fails** The time 1234.5678 is not read back. -/
theorem C32_time_fails (i n p : ℕ) (hi : i ≠ 1) (c : ℝ) (b : β) (dir : List (Entry β)) :
    ∃ dir' t, save false i ⟨12345678 / 10 ^ 4, n, c, p⟩ b dir = .ok dir' ∧ find false i dir' = .ok (t, b) ∧
      t.time ≠ 12345678 / 10 ^ 4 := by
  obtain ⟨dir', t, h1, h2, -, -, -, -, h3, -⟩ := C32_status_partial (isG := false) hi ⟨12345678 / 10 ^ 4, n, c, p⟩ b dir
  refine ⟨dir', t, h1, h2, fun h => ?_⟩
  obtain ⟨m, e, hm, h4⟩ := h3.1 h
  change (12345678 / 10 ^ 4 : ℝ) = m * 10 ^ e at h4
  rw [abs_lt] at hm
  -- the equation in integers: 12345678 * 10^k = m or 12345678 = m * 10^k
  have h5 : (12345678 : ℝ) = m * 10 ^ (e + 4) := by
    rw [zpow_add₀ (by norm_num), ← mul_assoc, ← h4]; norm_num
  rcases le_or_gt 0 (e + 4) with he | he
  · obtain ⟨k, hk⟩ := Int.eq_ofNat_of_zero_le he
    rw [hk, zpow_natCast] at h5
    have h6 : (12345678 : ℤ) = m * 10 ^ k := by exact_mod_cast h5
    cases k with
    | zero => omega
    | succ k =>
      have : (10 : ℤ) ∣ 12345678 := ⟨m * 10 ^ k, by rw [h6]; ring⟩
      omega
  · obtain ⟨k, hk⟩ := Int.eq_ofNat_of_zero_le (show 0 ≤ -(e + 4) by omega)
    have h6 : (12345678 : ℝ) * 10 ^ k = m := by
      rw [h5, ← zpow_natCast, ← hk, mul_assoc, ← zpow_add₀ (by norm_num)]; simp
    have h7 : (12345678 : ℤ) * 10 ^ k = m := by exact_mod_cast h6
    have : (1 : ℤ) ≤ 10 ^ k := one_le_pow₀ (by norm_num)
    nlinarith

example : sixDigits (1 / 8) = 1 / 8 := (sixDigits_eq_iff _).2 ⟨125, -3, by norm_num, by norm_num⟩

/-! ## C33 -/

/-- The stencil classes that `make_stencil` knows. -/
def loadable : List StencilType := [.D2Q9, .D2Q25H, .D3Q15, .D3Q19, .D3Q27, .D3Q45, .D3Q13, .D3Q21]

theorem makeStencil_isSome (t : StencilType) (c : ℝ) :
    (makeStencil t.D t.Q c).isSome ↔ t ∈ loadable ∨ t = .D3V27 ∨ t = .RD3Q27 := by
  cases t <;> simp [makeStencil, loadable, StencilType.D, StencilType.Q]

/-- **C33** (partial: stencils that `make_stencil` knows by their size) A restart succeeds exactly if the order is that of the checkpoint and
the new mesh has at least as many levels; the distributions are those of the checkpoint, interpolated once per additional level – not at
all on the same level. -/
theorem C33_restart_partial (env : LoadEnv φ) (static : ℤ) (st : Status) (file : Data φ) (f : φ)
    (hs : (makeStencil env.stencil.D env.stencil.Q st.stencilScaling).isSome) :
    (∀ f' st' n, load env false static st file f = .ok (f', st', n) ↔
      st.feOrder = env.order ∧ file.levels ≤ env.levelsNew ∧ f' = env.refine^[env.levelsNew - file.levels] file.f ∧ st' = st ∧
        n = ((env.levelsNew - file.levels : ℕ) : ℤ)) ∧
    (load env false static st file f = .error .feOrder ↔ st.feOrder ≠ env.order) ∧
    (load env false static st file f = .error .coarser ↔ st.feOrder = env.order ∧ env.levelsNew < file.levels) := by
  obtain ⟨x, hx⟩ := Option.isSome_iff_exists.1 hs
  unfold load
  simp only [Bool.false_eq_true, if_false, hx]
  by_cases ho : st.feOrder = env.order
  · simp only [ho, ne_eq, not_true_eq_false, if_false, true_and]
    rcases lt_or_ge env.levelsNew file.levels with hl | hl
    · have : ((env.levelsNew : ℤ) - file.levels < 0) := by omega
      simp only [this, if_true, reduceCtorEq, hl, false_iff]
      refine ⟨fun f' st' n h => ?_, by simp⟩
      omega
    · have h1 : ¬ ((env.levelsNew : ℤ) - file.levels < 0) := by omega
      have h2 : (env.levelsNew : ℤ) - file.levels = ((env.levelsNew - file.levels : ℕ) : ℤ) := by omega
      simp only [h1, if_false]
      refine ⟨fun f' st' n => ?_, by simp, by simp; omega⟩
      rw [h2, Except.ok.injEq, Prod.mk.injEq, Prod.mk.injEq, Int.toNat_natCast]
      have h3 : (if ((env.levelsNew - file.levels : ℕ) : ℤ) = 0 then file.f else env.refine^[env.levelsNew - file.levels] file.f)
          = env.refine^[env.levelsNew - file.levels] file.f := by
        split_ifs with h0
        · have : env.levelsNew - file.levels = 0 := by omega
          rw [this]; rfl
        · rfl
      rw [h3]
      constructor
      · rintro ⟨rfl, rfl, rfl⟩; exact ⟨hl, rfl, rfl, rfl⟩
      · rintro ⟨-, rfl, rfl, rfl⟩; exact ⟨rfl, rfl, rfl⟩
  · simp [ho]

/-- **C33 fails** for stencils that can be run and checkpointed but whose size `make_stencil` does not know: no restart succeeds, not even
on the same mesh with the same order. -/
theorem C33_unknown_stencil_fails (env : LoadEnv φ) (static : ℤ) (st : Status) (file : Data φ) (f : φ)
    (hs : env.stencil = .D2Q19H ∨ env.stencil = .D2Q19V ∨ env.stencil = .D3Q77 ∨ env.stencil = .D2Q777) (r : φ × Status × ℤ) :
    load env false static st file f ≠ .ok r := by
  have : makeStencil env.stencil.D env.stencil.Q st.stencilScaling = none := by
    rw [← Option.not_isSome_iff_eq_none, makeStencil_isSome]
    rcases hs with h | h | h | h <;> rw [h] <;> decide
  unfold load
  simp only [this]
  split_ifs <;> simp

example : load (φ := ℕ) ⟨.D2Q9, 2, 5, (· * 2)⟩ false 0 ⟨1, 10, 1, 2⟩ ⟨3, 1⟩ 0 = .ok (4, ⟨1, 10, 1, 2⟩, 2) := by
  rw [(C33_restart_partial _ _ _ _ _ (by simp [makeStencil, StencilType.D, StencilType.Q])).1]
  exact ⟨rfl, by norm_num, rfl, rfl, rfl⟩

/-! ## C34 -/

/-- **C34** The stencil recreated from a checkpoint (class and scaling) is the one that wrote it exactly if its class is one of the eight
that `make_stencil` knows and its scaling is a natural number. -/
theorem C34_exact_partial (t : StencilType) {c : ℝ} :
    (∃ n : ℕ, makeStencil t.D t.Q c = some (t, n) ∧ (n : ℝ) = c) ↔ t ∈ loadable ∧ ∃ n : ℕ, (n : ℝ) = c := by
  constructor
  · rintro ⟨n, h, rfl⟩
    refine ⟨?_, n, rfl⟩
    revert h
    cases t <;> simp [makeStencil, loadable, StencilType.D, StencilType.Q]
  · rintro ⟨h, n, rfl⟩
    refine ⟨n, ?_, rfl⟩
    revert h
    cases t <;> simp [makeStencil, loadable, StencilType.D, StencilType.Q]

/-- **C34 fails** What happens to the other classes: the two 27-velocity classes come back as D3Q27, the remaining four are refused. -/
theorem C34_class_fails (c : ℝ) :
    makeStencil StencilType.D3V27.D StencilType.D3V27.Q c = some (.D3Q27, ⌊c⌋₊) ∧
    makeStencil StencilType.RD3Q27.D StencilType.RD3Q27.Q c = some (.D3Q27, ⌊c⌋₊) ∧
    makeStencil StencilType.D2Q19H.D StencilType.D2Q19H.Q c = none ∧ makeStencil StencilType.D2Q19V.D StencilType.D2Q19V.Q c = none ∧
    makeStencil StencilType.D3Q77.D StencilType.D3Q77.Q c = none ∧ makeStencil StencilType.D2Q777.D StencilType.D2Q777.Q c = none := by
  simp [makeStencil, StencilType.D, StencilType.Q]

/-- **C34 fails** The scaling 5/2 comes back as 2. -/
theorem C34_scaling_fails : makeStencil 2 9 (5 / 2) = some (.D2Q9, 2) := by
  have : ⌊(5 / 2 : ℝ)⌋₊ = 2 := by rw [Nat.floor_eq_iff (by norm_num)]; norm_num
  simp [makeStencil, this]

/-! ## C35 -/

variable {ι : Type*} {D Q : ℕ}

/-- **C35** (partial: density only) After a restart the density is the sum of the distributions. -/
theorem C35_density_partial (f : Fin Q → ι → ℝ) (n : ι) : (restartFields (D := D) f).1 n = mass fun i => f i n := rfl

/-- **C35 fails** After a restart the velocity is zero at every node, whatever the distributions are. -/
theorem C35_velocity_zero (f : Fin Q → ι → ℝ) (j : Fin D) (n : ι) : (restartFields f).2 j n = 0 := by
  simp [restartFields, calculateDensitiesAndVelocities]

/-- **C35 fails** Hence it is wrong wherever the fluid moves. -/
theorem C35_velocity_fails (e : Fin Q → Fin D → ℝ) (f : Fin Q → ι → ℝ) (j : Fin D) (n : ι) (hd : 0 < mass fun i => f i n)
    (hm : momentum e (fun i => f i n) j ≠ 0) :
    (restartFields f).2 j n ≠ momentum e (fun i => f i n) j / mass fun i => f i n := by
  rw [C35_velocity_zero]
  exact (div_ne_zero hm hd.ne').symm

example : (0 : ℝ) < mass (![1, 2] : Fin 2 → ℝ) ∧ momentum (fun i (_ : Fin 1) => (![1, -1] : Fin 2 → ℝ) i) ![1, 2] 0 ≠ 0 := by
  simp [mass, momentum]; norm_num

/-! ## C65 -/

/-- **C65 fails** The restored energy distributions depend on `f` only: of two states with the same `f` and different `g`, at most one is
restored. -/
theorem C65_g_fails (e : Fin Q → Fin D → ℝ) (cs2 gamma : ℝ) (f g₁ g₂ : Fin Q → ℝ) (h : g₁ ≠ g₂) :
    restoreG e cs2 gamma f ≠ g₁ ∨ restoreG e cs2 gamma f ≠ g₂ := by
  by_contra hcon
  push Not at hcon
  exact h (hcon.1.symm.trans hcon.2)

/-- **C65** (partial: monatomic gas, whose energy distributions vanish) They are restored. -/
theorem C65_monatomic_partial (hD : D ≠ 0) (e : Fin Q → Fin D → ℝ) (cs2 : ℝ) (f : Fin Q → ℝ) :
    restoreG e cs2 (((D : ℝ) + 2) / D) f = 0 := by
  have hD' : (D : ℝ) ≠ 0 := by exact_mod_cast hD
  funext i
  have : 2 * (1 / (((D : ℝ) + 2) / D - 1)) - D = 0 := by
    have : ((D : ℝ) + 2) / D - 1 = 2 / D := by field_simp; ring
    rw [this]; field_simp; ring
  simp only [restoreG, this, mul_zero, Pi.zero_apply]

/-- **C65 fails** in the other case too: with two degrees of freedom more than a monatomic gas (`γ = (D+4)/(D+2)`) a node at rest with
populations of positive temperature and vanishing energy distributions gets nonzero energy distributions. -/
theorem C65_diatomic_fails : restoreG (D := 1) (fun (i : Fin 2) _ => ![1, -1] i) 1 (5 / 3) (fun _ => (1 : ℝ)) ≠ 0 := by
  intro h
  have := congrFun h 0
  simp [restoreG, Fin.sum_univ_two] at this
  norm_num at this

/-- **C65 fails** The temperature after a restart exceeds that of the populations by `(γ-1) |u|² / (2 cs²)`: it is right exactly where the
fluid is at rest. -/
theorem C65_temperature_fails (e : Fin Q → Fin D → ℝ) {cs2 gamma : ℝ} (f g : Fin Q → ℝ) (hcs : 0 < cs2) (hg : 1 < gamma)
    (hd : 0 < mass f) :
    restartTemperature e cs2 gamma f g
      = (∑ i, ((∑ a, (e i a - momentum e f a / mass f) ^ 2) * f i / cs2 + g i)) * (1 / 2) / (mass f * (1 / (gamma - 1)))
        + (gamma - 1) * (∑ a, (momentum e f a / mass f) ^ 2) / (2 * cs2) := by
  have hd' := hd.ne'
  have hg' : gamma - 1 ≠ 0 := by linarith
  set u : Fin D → ℝ := fun a => momentum e f a / mass f with hu
  have hm : ∀ a, ∑ i, e i a * f i = mass f * u a := fun a => by
    rw [hu]; field_simp; simp only [momentum]; exact sum_congr rfl fun i _ => mul_comm _ _
  have key : ∑ i, (∑ a, (e i a - u a) ^ 2) * f i = ∑ i, (∑ a, e i a ^ 2) * f i - mass f * ∑ a, u a ^ 2 := by
    have h1 : ∀ i, (∑ a, (e i a - u a) ^ 2) * f i = (∑ a, e i a ^ 2) * f i - ∑ a, (2 * u a * (e i a * f i) - u a ^ 2 * f i) := fun i => by
      rw [sum_mul, sum_mul, ← sum_sub_distrib]; exact sum_congr rfl fun a _ => by ring
    rw [sum_congr rfl fun i _ => h1 i, sum_sub_distrib, sum_comm]
    congr 1
    rw [mul_sum]
    refine sum_congr rfl fun a _ => ?_
    rw [sum_sub_distrib, ← mul_sum, ← mul_sum, hm]
    simp only [mass]
    ring
  unfold restartTemperature
  simp only [sum_add_distrib, ← sum_div, sub_zero]
  rw [key]
  have h2 : ∑ i, (∑ a, e i a * e i a) * f i = ∑ i, (∑ a, e i a ^ 2) * f i :=
    sum_congr rfl fun i _ => by simp only [pow_two]
  rw [h2]
  change _ / (mass f * _) = _
  rw [show ∑ a, (momentum e f a / mass f) ^ 2 = ∑ a, u a ^ 2 from rfl]
  generalize ∑ a, u a ^ 2 = U
  field_simp
  ring

/-! ## C30 -/

section C30

open Solver

variable {σ ε : Type*} (cfg : RunConfig) (p : Parts σ ε ι D)

/-- Streaming does not depend on the number of steps since the start (true for single-step collisions). -/
def NoCounter (p : Parts σ ε ι D) : Prop := ∀ j k, p.advect j = p.advect k ∧ p.integrate j = p.integrate k

theorem advance_start {p : Parts σ ε ι D} (h : NoCounter p) (start start' i : ℕ) (s : Snapshot σ) :
    advance cfg p start i s = advance cfg p start' i s := by
  unfold advance stream
  rw [(h (i - start) (i - start')).1, (h (i - start) (i - start')).2]

theorem trajectory_congr {E S : Type*} {init init' : Except E S} {upd upd' : ℕ → S → Except E S} {start : ℕ} (h : init = init')
    (hu : ∀ i s, upd i s = upd' i s) (m : ℕ) : trajectory init upd start m = trajectory init' upd' start m := by
  have : upd = upd' := funext fun i => funext fun s => hu i s
  rw [h, this]

theorem trajectory_add {E S : Type*} {init : Except E S} {upd : ℕ → S → Except E S} {start k : ℕ} {s : S}
    (h : trajectory init upd start k = .ok s) (m : ℕ) :
    trajectory init upd start (k + m) = trajectory (.ok s) upd (start + k) m := by
  induction m with
  | zero => exact h
  | succ m ih =>
    rw [← Nat.add_assoc, trajectory, ih, trajectory, show start + (k + m + 1) = start + k + (m + 1) by omega]

/-- The data of a solver restarted from the checkpoint of the data `s`: `dist` are the distributions, which are all that is stored apart from
the status; `fresh` are the data of a newly constructed solver with these distributions. -/
def restarted {φ : Type*} (dist : σ → φ) (fresh : φ → σ) (s : Snapshot σ) : Snapshot σ := { s with x := fresh (dist s.x) }

/-- **C30** What a restart does: with exactly stored time, it continues the run *after one additional collision* of the checkpointed state. -/
theorem C30_restart_collides_again {p : Parts σ ε ι D} {φ : Type*} (dist : σ → φ) (fresh : φ → σ) (hc : NoCounter p)
    (start k : ℕ) {s0 s : Snapshot σ} (hf : p.collide (fresh (dist s.x)) = p.collide s.x)
    (hs : runTrajectory cfg p start s0 k = .ok s) (m : ℕ) :
    runTrajectory cfg p (start + k) (restarted dist fresh s) m = trajectory (collide p s) (advance cfg p start) (start + k) m ∧
    runTrajectory cfg p start s0 (k + m) = trajectory (.ok s) (advance cfg p start) (start + k) m := by
  refine ⟨?_, trajectory_add hs m⟩
  refine trajectory_congr ?_ (fun i s => advance_start cfg hc _ _ i s) m
  simp only [collide, restarted, hf]

/-- **C30** (partial: checkpointed states that the collision leaves fixed, time stored exactly) The restarted run continues the uninterrupted
one. -/
theorem C30_restart_partial {p : Parts σ ε ι D} {φ : Type*} (dist : σ → φ) (fresh : φ → σ) (hc : NoCounter p)
    (start k : ℕ) {s0 s : Snapshot σ} (hf : p.collide (fresh (dist s.x)) = p.collide s.x)
    (hs : runTrajectory cfg p start s0 k = .ok s) (hfix : p.collide s.x = .ok s.x) (m : ℕ) :
    runTrajectory cfg p (start + k) (restarted dist fresh s) m = runTrajectory cfg p start s0 (k + m) := by
  obtain ⟨h1, h2⟩ := C30_restart_collides_again cfg dist fresh hc start k hf hs m
  rw [h1, h2]
  congr 1
  simp only [collide, hfix]

/-! A concrete solver: D2Q9, BGK collision, a spatially uniform state of a periodic box (streaming leaves it unchanged), `τ = 8`. -/

/-- Fluid at rest of density 9; `a` measures the distance from equilibrium. -/
noncomputable def restNode (a : ℝ) : Node ℝ 2 9 :=
  { f := ![4 - 3 * a, 1, 1, 1, 1, 1 / 4 + 3 / 4 * a, 1 / 4 + 3 / 4 * a, 1 / 4 + 3 / 4 * a, 1 / 4 + 3 / 4 * a], rho := 9, u := fun _ => 0 }

theorem restNode_mass (a : ℝ) : mass (restNode a).f = 9 := by
  simp only [mass, restNode, Fin.sum_univ_succ, Fin.sum_univ_zero]
  simp
  ring

theorem restNode_velocity (a rho : ℝ) : calculateVelocityD2Q9 (restNode a).f rho = 0 := by
  funext j
  fin_cases j <;> simp [calculateVelocityD2Q9, restNode] <;> exact .inr (by ring)

theorem rest_relax (d : CollData ℝ 2 9) (h : d.tau = 8) (a : ℝ) :
    bgkRelax d (bgkEquilibriumD2Q9 d { rho := 9, u := 0, T := 1 }) (restNode a).f = (restNode (7 / 8 * a)).f := by
  funext i
  simp only [bgkRelax, h]
  fin_cases i <;> simp [bgkEquilibriumD2Q9, restNode] <;> ring

/-- One collision of all nodes. -/
noncomputable def boxCollide : (Unit → Node ℝ 2 9) → Except CollError (Unit → Node ℝ 2 9) :=
  isothermalCollide .D2Q9 2 (1 / 10) (1 / 100) (sampleConfig 2 .bgkStandard .bgk .dellarD2Q9) false [()]

theorem boxCollide_rest (a : ℝ) (x : Unit → Node ℝ 2 9) (hx : (x ()).f = (restNode a).f) :
    boxCollide x = .ok fun _ => restNode (7 / 8 * a) := by
  refine (isothermalCollide_ok .D2Q9 _ false [()] (by decide) _ _).mpr
    ⟨⟨2, 9, .D2Q9, .bgkStandard, .bgk, .bgk, .bgk⟩, bgkRelax, by decide, rfl, ?_, fun j hj => (hj (by simp)).elim, (), rfl, ?_⟩
  swap
  · exact (show (1 : ℝ) / 10 ^ 10 < 9 by norm_num).trans_eq ((restNode_mass a).symm.trans (congrArg mass hx.symm))
  rintro ⟨⟩ -
  have htau : (collisionData .D2Q9 2 (1 / 10) (1 / 100) (sampleConfig 2 .bgkStandard .bgk .dellarD2Q9)).tau = 8 := by
    refine (step_tau .D2Q9 (sampleConfig 2 .bgkStandard .bgk .dellarD2Q9) (.inl rfl)).trans ?_
    change (1 / 10 : ℝ) / (1 / 100 * (2 * 2 / 3)) + 1 / 2 = 8
    norm_num
  have hm : mass (x ()).f = 9 := by rw [hx]; exact restNode_mass a
  have hd : ¬ mass (x ()).f < 1 / 10 ^ 10 := by rw [hm]; norm_num
  refine (collideNode_free _ _ _ hd).trans ?_
  congr 1
  generalize hdd : collisionData .D2Q9 2 (1 / 10) (1 / 100) (sampleConfig 2 .bgkStandard .bgk .dellarD2Q9) = d at htau ⊢
  have hv : calculateVelocityD2Q9 (x ()).f 9 = 0 := by rw [hx]; exact restNode_velocity a 9
  refine Node.ext ?_ hm ?_
  · change bgkRelax d (bgkEquilibriumD2Q9 d { rho := mass (x ()).f, u := calculateVelocityD2Q9 (x ()).f (mass (x ()).f), T := 1 }) (x ()).f = _
    rw [hm, hv, hx]
    exact rest_relax d htau a
  · change (fun j => calculateVelocityD2Q9 (x ()).f (mass (x ()).f) j * d.scaling) = _
    rw [hm, hv]
    funext j
    simp [restNode]

/-- The solver on the box. -/
noncomputable def box : Parts (Unit → Node ℝ 2 9) CollError Unit 2 where
  scheme := .semiLagrangian
  advect _ _ x := .ok x
  integrate _ dt x := .ok (x, dt)
  applyFilter := id
  collide := boxCollide
  processors := []
  rho x n := (x n).rho
  u x j n := (x n).u j

/-- A newly constructed solver with given distributions. -/
noncomputable def boxFresh (f : Unit → Fin 9 → ℝ) : Unit → Node ℝ 2 9 := fun n => { f := f n, rho := mass (f n), u := fun _ => 0 }

theorem boxFresh_collide (a : ℝ) : boxCollide (boxFresh fun _ => (restNode a).f) = boxCollide fun _ => restNode a := by
  rw [boxCollide_rest a _ rfl, boxCollide_rest a _ rfl]

theorem box_trajectory (hfil : cfg.isFiltering = false) (start : ℕ) (a : ℝ) (x : Unit → Node ℝ 2 9) (hx : (x ()).f = (restNode a).f)
    (time dt : ℝ) (k : ℕ) :
    runTrajectory cfg box start ⟨x, time, dt⟩ k = .ok ⟨fun _ => restNode ((7 / 8) ^ (k + 1) * a), time + k * dt, dt⟩ := by
  induction k with
  | zero =>
    simp only [runTrajectory, trajectory, collide, box]
    rw [boxCollide_rest a x hx]
    simp
  | succ k ih =>
    simp only [runTrajectory, trajectory] at ih ⊢
    rw [ih]
    simp only [advance, stream, Solver.filter, hfil, box, collide, applyProcessors, Bool.false_and, Bool.false_eq_true, if_false, List.foldl_nil]
    rw [boxCollide_rest ((7 / 8) ^ (k + 1) * a) _ rfl]
    simp only [Except.ok.injEq, Snapshot.mk.injEq]
    refine ⟨?_, ?_, trivial⟩
    · funext n; congr 1; ring
    · push_cast; ring

/-- **C30 fails** for the concrete solver: a run of `k + m` steps, and a run of `k` steps continued after a restart by `m` steps, end with
different distributions, because the restarted run collides once more. -/
theorem C30_fails (hfil : cfg.isFiltering = false) (time dt : ℝ) (k m : ℕ) :
    ∃ s s₁ s₂, runTrajectory cfg box 0 ⟨fun _ => restNode 1, time, dt⟩ k = .ok s ∧
      runTrajectory cfg box 0 ⟨fun _ => restNode 1, time, dt⟩ (k + m) = .ok s₁ ∧
      runTrajectory cfg box k (restarted (fun x n => (x n).f) boxFresh s) m = .ok s₂ ∧ (s₁.x ()).f ≠ (s₂.x ()).f := by
  refine ⟨_, _, _, box_trajectory cfg hfil 0 1 _ rfl time dt k, box_trajectory cfg hfil 0 1 _ rfl time dt (k + m),
    box_trajectory cfg hfil k ((7 / 8) ^ (k + 1) * 1) _ rfl (time + k * dt) dt m, fun h => ?_⟩
  have h0 := congrFun h 0
  change 4 - 3 * ((7 / 8 : ℝ) ^ (k + m + 1) * 1) = 4 - 3 * ((7 / 8) ^ (m + 1) * ((7 / 8) ^ (k + 1) * 1)) at h0
  have hpos : (0 : ℝ) < (7 / 8) ^ (k + m + 1) := by positivity
  have : (7 / 8 : ℝ) ^ (m + 1) * ((7 / 8) ^ (k + 1) * 1) = 7 / 8 * (7 / 8) ^ (k + m + 1) := by
    rw [mul_one, ← pow_add, ← pow_succ']; congr 1; omega
  rw [this] at h0
  linarith

/-- The hypotheses of the partial theorem are met by the box at equilibrium. -/
example (hfil : cfg.isFiltering = false) (k : ℕ) :
    ∃ s, runTrajectory cfg box 0 ⟨fun _ => restNode 0, 0, 1⟩ k = .ok s ∧ NoCounter box ∧ box.collide s.x = .ok s.x ∧
      box.collide (boxFresh fun n => (s.x n).f) = box.collide s.x := by
  refine ⟨_, box_trajectory cfg hfil 0 0 _ rfl 0 1 k, fun _ _ => ⟨rfl, rfl⟩, ?_, ?_⟩
  · change boxCollide _ = _
    rw [boxCollide_rest ((7 / 8) ^ (k + 1) * 0) _ rfl]
    simp
  · exact boxFresh_collide _

end C30

end Checkpoint
end NATriuM
