import Verif.Model.OutputDirectory

/-!
# Property C39: preparing the output directory
-/

namespace NATriuM
namespace OutputDirectory

/-- The user agrees: `y` is entered within the first seven lines, and no `n` before it. -/
def Consent (input : List String) : Prop := ∃ k ≤ 6, input[k]? = some "y" ∧ ∀ j < k, input[j]? ≠ some "n"

/-- The output directory as found: nothing if it does not exist. -/
def FileSystem.listing (fs : FileSystem) : Listing := match fs.out with
  | .dir _ l => l
  | _ => fun _ => none

theorem consent_of_dialogue (late : ℕ → Bool) (i : ℕ) (input : List String) (h : dialogue late i input = .yes) (hi : i ≤ 6) :
    ∃ k ≤ 6 - i, input[k]? = some "y" ∧ ∀ j < k, input[j]? ≠ some "n" := by
  induction i, input using dialogue.induct late with
  | case1 i input hy => exact ⟨0, by omega, by rw [← List.head?_eq_getElem?, hy], fun j hj => by omega⟩
  | case2 i input hy hn => rw [dialogue, if_neg hy, if_pos hn] at h; cases h
  | case3 i input hy hn h5 => rw [dialogue, if_neg hy, if_neg hn, dif_pos h5] at h; cases h
  | case4 i input hy hn h5 hl => rw [dialogue, if_neg hy, if_neg hn, dif_neg h5, if_pos hl] at h; cases h
  | case5 i input hy hn h5 hl ih =>
    rw [dialogue, if_neg hy, if_neg hn, dif_neg h5, if_neg hl] at h
    obtain ⟨k, hk, h1, h2⟩ := ih h (by omega)
    refine ⟨k + 1, by omega, by rwa [List.getElem?_tail] at h1, fun j hj => ?_⟩
    cases j with
    | zero => rwa [← List.head?_eq_getElem?]
    | succ j => rw [← List.getElem?_tail]; exact h2 j (by omega)

theorem finish_keeps (w : Bool) (l : Listing) (name : String) (h1 : name ≠ testFile) (h2 : name = "checkpoint" → l name ≠ none) :
    (finish w l).2 name = l name := by
  have e1 : writeTestFile w l name = l name := by
    unfold writeTestFile
    rcases l testFile with _ | ⟨c, b⟩ | e
    · cases w
      · rfl
      · exact Function.update_of_ne h1 _ _
    · cases b
      · rfl
      · exact Function.update_of_ne h1 _ _
    · rfl
  have e2 : ∀ l', removeTestFile w (writeTestFile w l) = some l' → l' name = l name := by
    intro l' h
    unfold removeTestFile at h
    split at h <;> (try split_ifs at h) <;> simp_all
    all_goals rw [← h]; simp [Function.update_of_ne h1, e1]
  unfold finish
  split
  · exact e1
  · rename_i l' h'
    split
    · exact e2 l' h'
    · rename_i l'' h''
      unfold makeCheckpointDirectory at h''
      rw [← e2 l' h']
      split at h''
      · simp only [Option.some.injEq] at h''; rw [h'']
      · cases h''
      · rename_i hc
        split_ifs at h''
        simp only [Option.some.injEq] at h''
        rw [← h'']
        refine Function.update_of_ne ?_ _ _
        rintro rfl
        exact h2 rfl (by rw [← e2 l' h', hc])

theorem prepareExisting_keeps (s : Settings) (late : ℕ → Bool) (input : List String) (w : Bool) (l : Listing) (name : String)
    (h1 : name ≠ testFile) (h2 : name = "checkpoint" → l name ≠ none) : (prepareExisting s late input w l).2 name = l name := by
  unfold prepareExisting
  split_ifs
  · rfl
  · split
    · rfl
    · rfl
    · exact finish_keeps w l name h1 h2
  · exact finish_keeps w l name h1 h2

/-- **C39** (partial: except for a file or directory named `testfile_process.0.txt`) Whatever the settings and the answers: no file in the output
directory is removed or changed. -/
theorem C39_files_remain_partial (s : Settings) (late : ℕ → Bool) (input : List String) (fs : FileSystem) (name : String) (item : Item)
    (hname : name ≠ "testfile_process.0.txt") (h : fs.listing name = some item) : (prepare s late input fs).2.listing name = some item := by
  by_cases hp : fs.parentIsDir = false
  · simpa only [prepare, if_pos hp] using h
  · unfold FileSystem.listing at h
    cases hout : fs.out with
    | file => simp [hout] at h
    | absent => simp [hout] at h
    | dir w l =>
      simp only [hout] at h
      simp only [prepare, if_neg hp, hout, FileSystem.listing]
      rw [prepareExisting_keeps s late input w l name hname (fun _ => by simp [h]), h]

/-- **C39** If there are results in the output directory and no restart is requested, then the function returns normally only if the interactive
check is switched off or the user agreed; otherwise it throws and the directory is exactly as it was. -/
theorem C39_consent (s : Settings) (late : ℕ → Bool) (input : List String) (fs : FileSystem) (hs : s.restartAtIteration = 0)
    (name : String) (hname : fs.listing name ≠ none) (hi : s.userInteraction = true) (hc : ¬ Consent input) :
    ∃ e, prepare s late input fs = (.error e, fs) := by
  by_cases hp : fs.parentIsDir = false
  · exact ⟨.noParent, by simp only [prepare, if_pos hp]⟩
  · unfold FileSystem.listing at hname
    cases hout : fs.out with
    | file => simp [hout] at hname
    | absent => simp [hout] at hname
    | dir w l =>
      simp only [hout] at hname
      have hfs : ({ fs with out := .dir w l } : FileSystem) = fs := by rw [← hout]
      have hne : ¬ IsEmpty l := fun h => hname (h name)
      simp only [prepare, if_neg hp, hout, prepareExisting]
      by_cases hu : HasUnwritable l
      · simp only [if_pos hu, hfs]; exact ⟨_, rfl⟩
      · simp only [if_neg hu, if_pos (show s.restartAtIteration = 0 ∧ ¬ IsEmpty l ∧ s.userInteraction = true from ⟨hs, hne, hi⟩)]
        cases hd : dialogue late 0 input with
        | none => exact ⟨.noAnswer, by simp only [hfs]⟩
        | no => exact ⟨.userStopped, by simp only [hfs]⟩
        | yes => exact absurd (consent_of_dialogue late 0 input hd (by omega)) hc

/-- **C39** After a normal return the output directory exists with a directory `checkpoint`; nothing else was added. -/
theorem C39_result (s : Settings) (late : ℕ → Bool) (input : List String) (fs : FileSystem) (h : (prepare s late input fs).1 = .ok ()) :
    (∃ e, (prepare s late input fs).2.listing "checkpoint" = some (.dir e)) ∧
    ∀ name ≠ "checkpoint", fs.listing name = none → (prepare s late input fs).2.listing name = none := by
  have fin : ∀ w l, (finish w l).1 = .ok () → (∃ e, (finish w l).2 "checkpoint" = some (.dir e)) ∧
      ∀ name ≠ "checkpoint", l name = none → (finish w l).2 name = none := by
    intro w l hl
    constructor
    · unfold finish at hl ⊢
      split at hl
      · cases hl
      · rename_i l' h'
        split at hl
        · cases hl
        · rename_i l'' h''
          simp only
          unfold makeCheckpointDirectory at h''
          split at h''
          · rename_i e he
            simp only [Option.some.injEq] at h''
            exact ⟨e, by rw [← h'', he]⟩
          · cases h''
          · split_ifs at h''
            simp only [Option.some.injEq] at h''
            exact ⟨true, by rw [← h'']; simp⟩
    · intro name hn hln
      by_cases ht : name = testFile
      · subst ht
        unfold finish at hl ⊢
        split at hl
        · cases hl
        · rename_i l' h'
          have e2 : l' testFile = none := by
            unfold removeTestFile at h'
            split at h'
            · rename_i h0
              simp only [Option.some.injEq] at h'
              rw [← h', h0]
            · cases h'
            · split_ifs at h'
              simp only [Option.some.injEq] at h'
              rw [← h']; simp
          split at hl
          · cases hl
          · rename_i l'' h''
            simp only
            unfold makeCheckpointDirectory at h''
            split at h''
            · simp only [Option.some.injEq] at h''
              rw [← h'', e2]
            · cases h''
            · split_ifs at h''
              simp only [Option.some.injEq] at h''
              rw [← h'', Function.update_of_ne hn, e2]
      · rw [finish_keeps w l name ht fun h => absurd h hn, hln]
  have pre : ∀ w l, (prepareExisting s late input w l).1 = .ok () → prepareExisting s late input w l = finish w l := by
    intro w l hl
    unfold prepareExisting at hl ⊢
    split_ifs at hl ⊢
    · split at hl
      · cases hl
      · cases hl
      · rfl
    · rfl
  by_cases hp : fs.parentIsDir = false
  · simp [prepare, if_pos hp] at h
  · cases hout : fs.out with
    | file => simp [prepare, if_neg hp, hout] at h
    | absent =>
      by_cases hw : fs.parentWritable = false
      · simp [prepare, if_neg hp, hout, if_pos hw] at h
      · simp only [prepare, if_neg hp, hout, if_neg hw] at h
        simp only [prepare, if_neg hp, hout, if_neg hw, FileSystem.listing]
        have := pre _ _ h
        rw [this] at h ⊢
        exact ⟨(fin _ _ h).1, fun name hn _ => (fin _ _ h).2 name hn rfl⟩
    | dir w l =>
      simp only [prepare, if_neg hp, hout] at h
      simp only [prepare, if_neg hp, hout, FileSystem.listing]
      have := pre _ _ h
      rw [this] at h ⊢
      exact fin _ _ h

/-- Results of an earlier run. -/
def earlier : FileSystem :=
  ⟨true, true, .dir true fun n => if n = "results_table.txt" then some (.file "1 0.5" true) else none⟩

/-- Non-vacuity: eight times `yes` is not an agreement; the results are kept and the run is stopped. -/
example : ∃ e, prepare ⟨0, true⟩ (fun _ => false) (List.replicate 8 "yes" ++ ["y"]) earlier = (.error e, earlier) :=
  C39_consent _ _ _ _ rfl "results_table.txt" (by simp [earlier, FileSystem.listing]) rfl (by
    rintro ⟨k, hk, h, -⟩
    rw [List.getElem?_append_left (by simp; omega), List.getElem?_replicate] at h
    split_ifs at h
    simp at h)

/-- Non-vacuity of `C39_files_remain_partial` and `C39_result`: with the answer `y` the function returns normally. -/
theorem earlier_ok : (prepare ⟨0, true⟩ (fun _ => false) ["y"] earlier).1 = .ok () := by
  have hu : ¬ HasUnwritable fun n => if n = "results_table.txt" then some (Item.file "1 0.5" true) else none := by
    rintro ⟨n, c, h⟩
    dsimp only at h
    split_ifs at h
    simp at h
  have hd : dialogue (fun _ => false) 0 ["y"] = .yes := by rw [dialogue]; simp
  simp only [prepare, earlier, prepareExisting, if_neg hu, hd]
  have h1 : ("testfile_process.0.txt" : String) ≠ "results_table.txt" := by decide
  have h2 : ("checkpoint" : String) ≠ "results_table.txt" := by decide
  have h3 : ("checkpoint" : String) ≠ "testfile_process.0.txt" := by decide
  have hf : (finish true fun n => if n = "results_table.txt" then some (Item.file "1 0.5" true) else none).1 = .ok () := by
    simp [finish, removeTestFile, writeTestFile, makeCheckpointDirectory, testFile, h1, h2]
  simp [hf]

/-- **C39** fails: a file named `testfile_process.0.txt` is deleted, also when a restart is requested and the user was never asked. -/
theorem C39_testFile_fails : ∃ fs : FileSystem, fs.listing "testfile_process.0.txt" = some (.file "my results" true) ∧
    (prepare ⟨1000, true⟩ (fun _ => false) [] fs).1 = .ok () ∧
    (prepare ⟨1000, true⟩ (fun _ => false) [] fs).2.listing "testfile_process.0.txt" = none := by
  refine ⟨⟨true, true, .dir true fun n => if n = "testfile_process.0.txt" then some (.file "my results" true) else none⟩, ?_, ?_⟩
  · simp [FileSystem.listing]
  · have hu : ¬ HasUnwritable fun n => if n = "testfile_process.0.txt" then some (Item.file "my results" true) else none := by
      rintro ⟨n, c, h⟩
      dsimp only at h
      split_ifs at h
      simp at h
    have h3 : ("checkpoint" : String) ≠ "testfile_process.0.txt" := by decide
    simp [prepare, prepareExisting, if_neg hu, finish, removeTestFile, writeTestFile, makeCheckpointDirectory, testFile,
      FileSystem.listing, h3]

/-- A remark on the documented exception "if it was not possible": a directory in which no file can be created is accepted, if it has a
subdirectory `checkpoint`. -/
theorem C39_permission_fails : ∃ l, (prepare ⟨0, false⟩ (fun _ => false) [] ⟨true, true, .dir false l⟩).1 = .ok () := by
  refine ⟨fun n => if n = "checkpoint" then some (.dir true) else none, ?_⟩
  have hu : ¬ HasUnwritable fun n => if n = "checkpoint" then some (Item.dir true) else none := by
    rintro ⟨n, c, h⟩
    dsimp only at h
    split_ifs at h
    simp at h
  have h3 : ("testfile_process.0.txt" : String) ≠ "checkpoint" := by decide
  simp [prepare, prepareExisting, if_neg hu, finish, removeTestFile, writeTestFile, makeCheckpointDirectory, testFile, h3]

end OutputDirectory
end NATriuM
