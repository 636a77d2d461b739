import Verif.Lemmas.OldCheckpoint
import Verif.Props.Checkpoint

/-!
# Conversion of checkpoints of the deprecated format: C138
-/

namespace NATriuM
namespace Checkpoint

variable {V : Type*}

/-- **C138** (partial: see `C138_scaling_fails`) The status file is accepted exactly if it is complete and its entries are those of the
running solver – the two components of the stencil to one per cent, unless the stored component is negative.  In particular a file that
is cut short or has other words in the place of numbers is refused, whatever the uninitialised variables hold. -/
theorem C138_accepted_partial (env : OldEnv) (file : List Word) (tmp : ℕ) (dtmp : ℝ) :
    checkOld env (some file) tmp dtmp = .ok () ↔ ∃ r : OldRecord, r.WrittenIn file ∧ r.SameDiscretisation env ∧ |r.magic| ≤ 1 / 10 ∧
      (r.first < 0 ∨ CloseScaling r.first env.first) ∧ (r.second < 0 ∨ CloseScaling r.second env.second) := by
  constructor
  · intro h
    unfold checkOld at h
    obtain ⟨h1, h⟩ := ite_ok (c := (readNat (openFile (some file)) tmp).1 ≠ env.cells) h
    generalize ha : readNat (openFile (some file)) tmp = a' at h h1
    obtain ⟨h2, h⟩ := ite_ok (c := (readNat a'.2 a'.1).1 ≠ env.degree) h
    generalize hb : readNat a'.2 a'.1 = b' at h h2
    obtain ⟨h3, h⟩ := ite_ok (c := (readNat b'.2 b'.1).1 ≠ env.dofs) h
    generalize hc : readNat b'.2 b'.1 = c' at h h3
    obtain ⟨h4, h⟩ := ite_ok (c := (readNat c'.2 c'.1).1 ≠ env.stencil.D) h
    generalize hd : readNat c'.2 c'.1 = d' at h h4
    obtain ⟨h5, h⟩ := ite_ok (c := (readNat d'.2 d'.1).1 ≠ env.stencil.Q) h
    generalize he : readNat d'.2 d'.1 = e' at h h5
    obtain ⟨h6, h⟩ := ite_ok (c := 1 / 10 < |(readReal e'.2 dtmp).1 - 0|) h
    generalize hm : readReal e'.2 dtmp = m' at h h6
    obtain ⟨h7, h⟩ := ite_ok (c := scalingDiffers (readReal m'.2 m'.1).1 env.first = true) h
    generalize hx : readReal m'.2 m'.1 = x' at h h7
    obtain ⟨h8, h⟩ := ite_ok (c := scalingDiffers (readReal x'.2 x'.1).1 env.second = true) h
    generalize hy : readReal x'.2 x'.1 = y' at h h8
    obtain ⟨h9, h⟩ := ite_ok (c := (readNat y'.2 e'.1).1 ≠ 0) h
    generalize hg : readNat y'.2 e'.1 = g' at h h9
    obtain ⟨h10, -⟩ := ite_ok h
    symm at ha hb hc hd he hm hx hy hg
    rw [not_ne_iff] at h1 h2 h3 h4 h5 h9 h10
    rw [sub_zero, not_lt] at h6
    obtain ⟨g10, o, rest, e10, w10⟩ := readText_ne (by decide) h10
    obtain ⟨g9, g, r9, n9, e9, w9, q9⟩ := readNat_good (hg ▸ g10)
    rw [← hg] at q9; subst q9; simp only at h9 e10
    obtain ⟨g8, y, r8, n8, e8, w8, q8⟩ := readReal_good (hy ▸ g9)
    rw [← hy] at q8; subst q8; simp only at h8 e9
    obtain ⟨g7, x, r7, n7, e7, w7, q7⟩ := readReal_good (hx ▸ g8)
    rw [← hx] at q7; subst q7; simp only at h7 e8
    obtain ⟨g6, m, r6, n6, e6, w6, q6⟩ := readReal_good (hm ▸ g7)
    rw [← hm] at q6; subst q6; simp only at h6 e7
    obtain ⟨g5, e, r5, n5, e5, w5, q5⟩ := readNat_good (he ▸ g6)
    rw [← he] at q5; subst q5; simp only at h5 e6
    obtain ⟨g4, d, r4, n4, e4, w4, q4⟩ := readNat_good (hd ▸ g5)
    rw [← hd] at q4; subst q4; simp only at h4 e5
    obtain ⟨g3, c, r3, n3, e3, w3, q3⟩ := readNat_good (hc ▸ g4)
    rw [← hc] at q3; subst q3; simp only at h3 e4
    obtain ⟨g2, b, r2, n2, e2, w2, q2⟩ := readNat_good (hb ▸ g3)
    rw [← hb] at q2; subst q2; simp only at h2 e3
    obtain ⟨g1, a, r1, n1, e1, w1, q1⟩ := readNat_good (ha ▸ g2)
    rw [← ha] at q1; subst q1; simp only at h1 e1 e2
    refine ⟨⟨n1, n2, n3, n4, n5, n6, n7, n8, n9, "SEDGMinLee"⟩, ⟨a, b, c, d, e, m, x, y, g, o, rest, ?_, w1, w2, w3, w4, w5, w6, w7, w8,
      w9, w10⟩, ⟨h1, h2, h3, h4, h5, h9, rfl⟩, h6, (scalingDiffers_false _ _).1 (Bool.eq_false_iff.2 h7),
      (scalingDiffers_false _ _).1 (Bool.eq_false_iff.2 h8)⟩
    exact (show file = _ from e1).trans (by rw [e2, e3, e4, e5, e6, e7, e8, e9, e10])
  · rintro ⟨r, ⟨a, b, c, d, e, m, x, y, g, o, rest, rfl, w1, w2, w3, w4, w5, w6, w7, w8, w9, w10⟩, ⟨h1, h2, h3, h4, h5, h9, h10⟩, h6, h7, h8⟩
    rw [← scalingDiffers_false] at h7 h8
    unfold checkOld
    change (if (readNat (openFile (some (a :: b :: c :: d :: e :: m :: x :: y :: g :: o :: rest))) tmp).1 ≠ env.cells then _ else _) = _
    rw [show readNat (openFile (some (a :: b :: c :: d :: e :: m :: x :: y :: g :: o :: rest))) tmp = _ from readNat_cons w1, if_neg (not_ne_iff.2 h1)]
    change (if (readNat ⟨b :: c :: d :: e :: m :: x :: y :: g :: o :: rest, true⟩ r.cells).1 ≠ env.degree then _ else _) = _
    rw [readNat_cons w2, if_neg (not_ne_iff.2 h2)]
    change (if (readNat ⟨c :: d :: e :: m :: x :: y :: g :: o :: rest, true⟩ r.degree).1 ≠ env.dofs then _ else _) = _
    rw [readNat_cons w3, if_neg (not_ne_iff.2 h3)]
    change (if (readNat ⟨d :: e :: m :: x :: y :: g :: o :: rest, true⟩ r.dofs).1 ≠ env.stencil.D then _ else _) = _
    rw [readNat_cons w4, if_neg (not_ne_iff.2 h4)]
    change (if (readNat ⟨e :: m :: x :: y :: g :: o :: rest, true⟩ r.D).1 ≠ env.stencil.Q then _ else _) = _
    rw [readNat_cons w5, if_neg (not_ne_iff.2 h5)]
    change (if 1 / 10 < |(readReal ⟨m :: x :: y :: g :: o :: rest, true⟩ dtmp).1 - 0| then _ else _) = _
    rw [readReal_cons w6, if_neg (by rw [sub_zero, not_lt]; exact h6)]
    change (if scalingDiffers (readReal ⟨x :: y :: g :: o :: rest, true⟩ r.magic).1 env.first = true then _ else _) = _
    rw [readReal_cons w7, if_neg (Bool.eq_false_iff.1 h7)]
    change (if scalingDiffers (readReal ⟨y :: g :: o :: rest, true⟩ r.first).1 env.second = true then _ else _) = _
    rw [readReal_cons w8, if_neg (Bool.eq_false_iff.1 h8)]
    change (if (readNat ⟨g :: o :: rest, true⟩ r.Q).1 ≠ 0 then _ else _) = _
    rw [readNat_cons w9, if_neg (not_ne_iff.2 h9)]
    exact if_neg (not_ne_iff.2 (w10.trans h10))

/-- **C138** Without a status file nothing is converted. -/
theorem C138_absent (env : OldEnv) (files : OldFiles env.stencil.Q V) (h : files.status = none) (tmp : ℕ) (dtmp : ℝ) (levels : ℕ)
    (dir : List (Entry (Data (Fin env.stencil.Q → V)))) : convertOld env files tmp dtmp levels dir = .error .noCheckpoint := by
  simp [convertOld, loadOld, checkOld, h]

theorem loadOld_ok (env : OldEnv) (files : OldFiles env.stencil.Q V) (tmp : ℕ) (dtmp : ℝ)
    (hc : checkOld env files.status tmp dtmp = .ok ()) (g : Fin env.stencil.Q → V) (hg : ∀ i, files.f i = some (g i)) :
    loadOld env files tmp dtmp = .ok (oldStatus env files.dat, g) := by
  unfold loadOld
  rw [hc]
  have h : ∀ i, (files.f i).isSome := fun i => by rw [hg i]; rfl
  simp only
  rw [dif_pos h]
  congr 2
  funext i
  simp [hg i]

/-- **C138** (partial: old checkpoints of iteration 1 aside, see `C138_first_fails`; the file with iteration number and time must be there,
see `C138_counter_fails`) An accepted checkpoint is written in the new format under its own number: with its iteration number, its time
to six digits and its distributions unchanged.  Every other checkpoint in the directory stays as it was.  A solver with the same element
that restarts there on the same mesh continues with the old distributions. -/
theorem C138_converted_partial (env : OldEnv) (files : OldFiles env.stencil.Q V) (tmp : ℕ) (dtmp : ℝ)
    (hc : checkOld env files.status tmp dtmp = .ok ()) {w w' : Word} {rest : List Word} (hd : files.dat = some (w :: w' :: rest))
    {n : ℕ} {t : ℝ} (hn : w.asNat = some n) (ht : w'.asReal = some t) (h1 : n ≠ 1)
    (g : Fin env.stencil.Q → V) (hg : ∀ i, files.f i = some (g i)) (levels : ℕ)
    (dir : List (Entry (Data (Fin env.stencil.Q → V)))) :
    ∃ dir', convertOld env files tmp dtmp levels dir = .ok dir' ∧
      (∃ s, find false n dir' = .ok (s, ⟨levels, g⟩) ∧ s.iterationNumber = n ∧ s.feOrder = env.degree ∧ |s.time - t| ≤ 5 / 10 ^ 6 * |t| ∧
        |s.stencilScaling - env.scaling| ≤ 5 / 10 ^ 6 * |env.scaling| ∧
        ∀ (refine : (Fin env.stencil.Q → V) → Fin env.stencil.Q → V) (static : ℤ) (f : Fin env.stencil.Q → V),
          env.stencil ∈ loadable → restart ⟨env.stencil, env.degree, levels, refine⟩ static n dir' f = .ok (g, s, 0)) ∧
      ∀ G k, (G, k) ≠ (false, n) → readStat G k dir' = readStat G k dir ∧ readData G k dir' = readData G k dir := by
  have hs : oldStatus env files.dat = ⟨t, n, env.scaling, env.degree⟩ := by
    simp only [oldStatus, hd, openFile, readNat_cons hn, readReal_cons ht]
  obtain ⟨dir', e1, e2, e3, e4⟩ := C31_save_partial (isG := false) h1 ⟨t, n, env.scaling, env.degree⟩ (⟨levels, g⟩ : Data (Fin env.stencil.Q → V)) dir
  have hf : find false n dir' = .ok (statusText ⟨t, n, env.scaling, env.degree⟩, ⟨levels, g⟩) := (C31_particular h1 _ _ _).2 ⟨e2, e3⟩
  refine ⟨dir', ?_, ⟨_, hf, rfl, rfl, sixDigits_error _, sixDigits_error _, fun refine static f hl => ?_⟩, e4⟩
  · unfold convertOld
    rw [loadOld_ok env files tmp dtmp hc g hg, hs]
    simp only [e1]
  · unfold restart
    rw [hf]
    have hm : (makeStencil env.stencil.D env.stencil.Q (statusText ⟨t, n, env.scaling, env.degree⟩).stencilScaling).isSome :=
      (makeStencil_isSome _ _).2 (.inl hl)
    refine ((C33_restart_partial ⟨env.stencil, env.degree, levels, refine⟩ static _ ⟨levels, g⟩ f hm).1 g _ 0).2
      ⟨rfl, le_refl _, ?_, rfl, ?_⟩
    · simp
    · simp

/-- **C138** If a file of distributions cannot be read, nothing is converted. -/
theorem C138_unreadable (env : OldEnv) (files : OldFiles env.stencil.Q V) (i : Fin env.stencil.Q) (h : files.f i = none) (tmp : ℕ) (dtmp : ℝ)
    (levels : ℕ) (dir dir' : List (Entry (Data (Fin env.stencil.Q → V)))) : convertOld env files tmp dtmp levels dir ≠ .ok dir' := by
  unfold convertOld loadOld
  cases checkOld env files.status tmp dtmp with
  | error e => simp
  | ok u =>
    have : ¬ ∀ i, (files.f i).isSome := fun hh => by have := hh i; rw [h] at this; simp at this
    simp only
    rw [dif_neg this]
    simp

section Sample

/-- A word that is a natural number. -/
noncomputable def natWord (n : ℕ) : Word := ⟨toString n, some n, some n⟩

/-- A solver with D2Q9, 16 cells of order 2. -/
noncomputable def sampleEnv : OldEnv := ⟨16, 2, 1089, .D2Q9, 1, 0, 1⟩

/-- A status file; the first component of the stencil is `s`. -/
noncomputable def sampleStatus (s : ℝ) : List Word :=
  [natWord 16, natWord 2, natWord 1089, natWord 2, natWord 9, ⟨"0", some 0, some 0⟩, ⟨"s", none, some s⟩, ⟨"0", some 0, some 0⟩,
    natWord 0, ⟨"SEDGMinLee", none, none⟩]

theorem sampleStatus_record (s : ℝ) : OldRecord.WrittenIn ⟨16, 2, 1089, 2, 9, 0, s, 0, 0, "SEDGMinLee"⟩ (sampleStatus s) :=
  ⟨_, _, _, _, _, _, _, _, _, _, [], rfl, rfl, rfl, rfl, rfl, rfl, rfl, rfl, rfl, rfl, rfl⟩

/-- **C138 fails** for stored scalings that are negative: the difference is divided by the stored value, not by its size, so a file with any
negative component is accepted. -/
theorem C138_scaling_fails {s : ℝ} (hs : s < 0) (tmp : ℕ) (dtmp : ℝ) :
    checkOld sampleEnv (some (sampleStatus s)) tmp dtmp = .ok () ∧ ¬ CloseScaling s sampleEnv.first := by
  refine ⟨(C138_accepted_partial _ _ _ _).2 ⟨_, sampleStatus_record s, ⟨rfl, rfl, rfl, rfl, rfl, rfl, rfl⟩, by norm_num, .inl hs, .inr ?_⟩, ?_⟩
  · simp [CloseScaling, sampleEnv]
  · simp only [CloseScaling, sampleEnv, not_le]
    rw [abs_of_neg hs, abs_of_neg (by linarith)]
    linarith

theorem sample_accepted (tmp : ℕ) (dtmp : ℝ) : checkOld sampleEnv (some (sampleStatus 1)) tmp dtmp = .ok () :=
  (C138_accepted_partial _ _ _ _).2 ⟨_, sampleStatus_record 1, ⟨rfl, rfl, rfl, rfl, rfl, rfl, rfl⟩, by norm_num,
    .inr (by simp [CloseScaling, sampleEnv]), .inr (by simp [CloseScaling, sampleEnv])⟩

/-- A scaling of 2 is refused. -/
example (tmp : ℕ) (dtmp : ℝ) : checkOld sampleEnv (some (sampleStatus 2)) tmp dtmp ≠ .ok () := by
  rw [Ne, C138_accepted_partial]
  rintro ⟨r, ⟨a, b, c, d, e, m, x, y, g, o, rest, h, -, -, -, -, -, -, h7, -⟩, -, -, h', -⟩
  simp only [sampleStatus, List.cons.injEq] at h
  obtain ⟨-, -, -, -, -, -, rfl, -⟩ := h
  simp only [Option.some.injEq] at h7
  rw [← h7] at h'
  rcases h' with h' | h'
  · norm_num at h'
  · simp only [CloseScaling, sampleEnv] at h'
    norm_num at h'

/-- A file that is cut short is refused. -/
example (tmp : ℕ) (dtmp : ℝ) : checkOld sampleEnv (some ((sampleStatus 1).take 9)) tmp dtmp ≠ .ok () := by
  rw [Ne, C138_accepted_partial]
  rintro ⟨r, ⟨a, b, c, d, e, m, x, y, g, o, rest, h, -⟩, -⟩
  have := congrArg List.length h
  simp [sampleStatus] at this

end Sample

/-- **C138 fails** without the file `checkpoint.dat`: an accepted checkpoint is converted nevertheless, as iteration 0 at time 0, whatever its
iteration was; a checkpoint 0 in the directory is lost. -/
theorem C138_counter_fails (env : OldEnv) (files : OldFiles env.stencil.Q V) (tmp : ℕ) (dtmp : ℝ)
    (hc : checkOld env files.status tmp dtmp = .ok ()) (hd : files.dat = none)
    (g : Fin env.stencil.Q → V) (hg : ∀ i, files.f i = some (g i)) (levels : ℕ)
    (dir : List (Entry (Data (Fin env.stencil.Q → V)))) :
    ∃ dir' s, convertOld env files tmp dtmp levels dir = .ok dir' ∧ find false 0 dir' = .ok (s, ⟨levels, g⟩) ∧ s.iterationNumber = 0 ∧ s.time = 0 := by
  have hs : oldStatus env files.dat = ⟨0, 0, env.scaling, env.degree⟩ := by
    simp [oldStatus, hd, openFile, readNat, readReal]
  obtain ⟨dir', e1, e2, e3, -⟩ := C31_save_partial (isG := false) (i := 0) (by norm_num) ⟨0, 0, env.scaling, env.degree⟩
    (⟨levels, g⟩ : Data (Fin env.stencil.Q → V)) dir
  refine ⟨dir', _, ?_, (C31_particular (by norm_num) _ _ _).2 ⟨e2, e3⟩, rfl, by simp [statusText, sixDigits]⟩
  unfold convertOld
  rw [loadOld_ok env files tmp dtmp hc g hg, hs]
  simp only [e1]

/-- **C138 fails** for the old checkpoint of iteration 1: it replaces the newest checkpoint `m` in the directory, and no checkpoint 1 is
written. -/
theorem C138_first_fails (env : OldEnv) (files : OldFiles env.stencil.Q V) (tmp : ℕ) (dtmp : ℝ)
    (hc : checkOld env files.status tmp dtmp = .ok ()) {w w' : Word} {rest : List Word} (hd : files.dat = some (w :: w' :: rest))
    {t : ℝ} (hn : w.asNat = some 1) (ht : w'.asReal = some t)
    (g : Fin env.stencil.Q → V) (hg : ∀ i, files.f i = some (g i)) (levels : ℕ)
    {dir : List (Entry (Data (Fin env.stencil.Q → V)))} (hk : OnlyKind false dir) {m : ℕ} (hm : Newest false dir m) (h1 : 1 < m) :
    ∃ dir' s, convertOld env files tmp dtmp levels dir = .ok dir' ∧ readStat false m dir' = some s ∧ s.iterationNumber = 1 ∧
      readData false m dir' = some ⟨levels, g⟩ ∧ readStat false 1 dir' = readStat false 1 dir := by
  have hs : oldStatus env files.dat = ⟨t, 1, env.scaling, env.degree⟩ := by
    simp only [oldStatus, hd, openFile, readNat_cons hn, readReal_cons ht]
  obtain ⟨dir', e1, e2, e3, e4, -⟩ := C31_first_iteration_fails hk hm h1 ⟨t, 1, env.scaling, env.degree⟩
    (⟨levels, g⟩ : Data (Fin env.stencil.Q → V))
  refine ⟨dir', _, ?_, e2, rfl, e3, e4⟩
  unfold convertOld
  rw [loadOld_ok env files tmp dtmp hc g hg, hs]
  simp only [e1]

/-- The sample checkpoint of iteration 40 at time 2 is converted and found. -/
example (g : Fin 9 → ℝ) : ∃ dir' s, convertOld sampleEnv
    (⟨some (sampleStatus 1), some [natWord 40, natWord 2], fun i => some (g i)⟩ : OldFiles sampleEnv.stencil.Q ℝ) 0 0 3 [] = .ok dir' ∧
    find false 40 dir' = .ok (s, ⟨3, g⟩) := by
  obtain ⟨dir', h, ⟨s, hs, -⟩, -⟩ := C138_converted_partial sampleEnv
    (⟨some (sampleStatus 1), some [natWord 40, natWord 2], fun i => some (g i)⟩ : OldFiles sampleEnv.stencil.Q ℝ) 0 0
    (sample_accepted 0 0) rfl (n := 40) rfl rfl (by norm_num) g (fun _ => rfl) 3 []
  exact ⟨dir', s, h, hs⟩

/-- Without its counter it becomes iteration 0. -/
example (g : Fin 9 → ℝ) : ∃ dir' s, convertOld sampleEnv
    (⟨some (sampleStatus 1), none, fun i => some (g i)⟩ : OldFiles sampleEnv.stencil.Q ℝ) 0 0 3 [] = .ok dir' ∧
    find false 0 dir' = .ok (s, ⟨3, g⟩) := by
  obtain ⟨dir', s, h, hs, -⟩ := C138_counter_fails sampleEnv
    (⟨some (sampleStatus 1), none, fun i => some (g i)⟩ : OldFiles sampleEnv.stencil.Q ℝ) 0 0 (sample_accepted 0 0) rfl g (fun _ => rfl) 3 []
  exact ⟨dir', s, h, hs⟩

/-- As iteration 1 it replaces checkpoint 20. -/
example (g : Fin 9 → ℝ) (b : Data (Fin 9 → ℝ)) (t : Status) : ∃ dir', convertOld sampleEnv
    (⟨some (sampleStatus 1), some [natWord 1, natWord 2], fun i => some (g i)⟩ : OldFiles sampleEnv.stencil.Q ℝ) 0 0 3
      [.stat false 20 t, .data false 20 b] = .ok dir' ∧ readData false 20 dir' = some ⟨3, g⟩ := by
  obtain ⟨dir', s, h, -, -, h', -⟩ := C138_first_fails sampleEnv
    (⟨some (sampleStatus 1), some [natWord 1, natWord 2], fun i => some (g i)⟩ : OldFiles sampleEnv.stencil.Q ℝ) 0 0 (sample_accepted 0 0)
    rfl rfl rfl g (fun _ => rfl) 3 (dir := [.stat false 20 t, .data false 20 b]) (m := 20)
    (by intro e he; simp only [List.mem_cons, List.not_mem_nil, or_false] at he; rcases he with rfl | rfl <;> simp)
    ⟨⟨t, .head _⟩, by
      rintro k ⟨t', ht⟩
      simp only [List.mem_cons, List.not_mem_nil, or_false, reduceCtorEq, Entry.stat.injEq, true_and] at ht
      exact ht.1.le⟩ (by norm_num)
  exact ⟨dir', h, h'⟩

end Checkpoint
end NATriuM
