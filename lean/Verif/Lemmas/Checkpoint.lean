import Verif.Model.Checkpoint
import Mathlib.Order.Bounds.Basic
import Mathlib.Tactic.Linarith
import Mathlib.Tactic.Positivity
import Mathlib.Tactic.FieldSimp
import Mathlib.Tactic.Ring

/-! # Helper lemmas: checkpoint files -/

namespace NATriuM
namespace Checkpoint

variable {β : Type*}

/-! ## Reading and writing files -/

theorem readStat_putStat (isG : Bool) (n : ℕ) (t : Status) (dir : List (Entry β)) (g : Bool) (k : ℕ) :
    readStat g k (putStat isG n t dir) = if isG = g ∧ n = k then some t else readStat g k dir := by
  induction dir with
  | nil => simp [putStat, readStat]
  | cons e rest ih =>
    cases e with
    | stat isG' n' t' =>
      by_cases h : isG' = isG ∧ n' = n
      · obtain ⟨rfl, rfl⟩ := h
        simp only [putStat, and_self, if_true, readStat]
        split_ifs <;> rfl
      · simp only [putStat, if_neg h, readStat, ih]
        by_cases h1 : isG' = g ∧ n' = k
        · obtain ⟨rfl, rfl⟩ := h1
          rw [if_pos ⟨rfl, rfl⟩, if_neg (fun h' => h ⟨h'.1.symm, h'.2.symm⟩), if_pos ⟨rfl, rfl⟩]
        · rw [if_neg h1, if_neg h1]
    | data => simpa [putStat, readStat] using ih
    | otherStat => simpa [putStat, readStat] using ih
    | other => simpa [putStat, readStat] using ih

theorem readData_putStat (isG : Bool) (n : ℕ) (t : Status) (dir : List (Entry β)) (g : Bool) (k : ℕ) :
    readData g k (putStat isG n t dir) = readData g k dir := by
  induction dir with
  | nil => simp [putStat, readData]
  | cons e rest ih =>
    cases e with
    | stat isG' n' t' => simp only [putStat]; split_ifs <;> simp [readData, ih]
    | data => simp [putStat, readData, ih]
    | otherStat => simpa [putStat, readData] using ih
    | other => simpa [putStat, readData] using ih

theorem readData_putData (isG : Bool) (n : ℕ) (b : β) (dir : List (Entry β)) (g : Bool) (k : ℕ) :
    readData g k (putData isG n b dir) = if isG = g ∧ n = k then some b else readData g k dir := by
  induction dir with
  | nil => simp [putData, readData]
  | cons e rest ih =>
    cases e with
    | data isG' n' t' =>
      by_cases h : isG' = isG ∧ n' = n
      · obtain ⟨rfl, rfl⟩ := h
        simp only [putData, and_self, if_true, readData]
        split_ifs <;> rfl
      · simp only [putData, if_neg h, readData, ih]
        by_cases h1 : isG' = g ∧ n' = k
        · obtain ⟨rfl, rfl⟩ := h1
          rw [if_pos ⟨rfl, rfl⟩, if_neg (fun h' => h ⟨h'.1.symm, h'.2.symm⟩), if_pos ⟨rfl, rfl⟩]
        · rw [if_neg h1, if_neg h1]
    | stat => simpa [putData, readData] using ih
    | otherStat => simpa [putData, readData] using ih
    | other => simpa [putData, readData] using ih

theorem readStat_putData (isG : Bool) (n : ℕ) (b : β) (dir : List (Entry β)) (g : Bool) (k : ℕ) :
    readStat g k (putData isG n b dir) = readStat g k dir := by
  induction dir with
  | nil => simp [putData, readStat]
  | cons e rest ih =>
    cases e with
    | data isG' n' t' => simp only [putData]; split_ifs <;> simp [readStat, ih]
    | stat => simp [putData, readStat, ih]
    | otherStat => simpa [putData, readStat] using ih
    | other => simpa [putData, readStat] using ih

theorem readStat_isSome (g : Bool) (k : ℕ) (dir : List (Entry β)) : (readStat g k dir).isSome ↔ ∃ t, Entry.stat g k t ∈ dir := by
  induction dir with
  | nil => simp [readStat]
  | cons e rest ih =>
    cases e with
    | stat isG' n' t' =>
      by_cases h : isG' = g ∧ n' = k
      · obtain ⟨rfl, rfl⟩ := h
        simp [readStat]
      · simp only [readStat, if_neg h, ih, List.mem_cons, Entry.stat.injEq]
        constructor
        · rintro ⟨t, ht⟩; exact ⟨t, .inr ht⟩
        · rintro ⟨t, ⟨rfl, rfl, -⟩ | ht⟩
          · exact absurd ⟨rfl, rfl⟩ h
          · exact ⟨t, ht⟩
    | data => simp [readStat, ih]
    | otherStat => simp [readStat, ih]
    | other => simp [readStat, ih]

/-! ## The scan of the directory -/

/-- Only files of one kind. -/
def OnlyKind (isG : Bool) (dir : List (Entry β)) : Prop :=
  ∀ e ∈ dir, match e with
    | .stat g n _ => g = isG ∧ n < 2 ^ 31
    | .otherStat _ => False
    | _ => True

theorem scan_ok {isG : Bool} {dir : List (Entry β)} (h : OnlyKind isG dir) (it : ℕ) :
    ∃ n, scan isG dir it = .ok n ∧ it ≤ n ∧ (∀ k t, Entry.stat isG k t ∈ dir → k ≤ n) ∧
      (n = it ∨ ∃ t, Entry.stat isG n t ∈ dir) := by
  induction dir generalizing it with
  | nil => exact ⟨it, rfl, le_rfl, by simp, .inl rfl⟩
  | cons e rest ih =>
    have hr : OnlyKind isG rest := fun e he => h e (List.mem_cons_of_mem _ he)
    have he := h e (List.mem_cons_self ..)
    cases e with
    | stat g k t =>
      obtain ⟨rfl, hk⟩ := he
      obtain ⟨n, h1, h2, h3, h4⟩ := ih hr (if it < k then k else it)
      refine ⟨n, by simp only [scan, entryNumber, if_true, if_pos hk, h1], ?_, ?_, ?_⟩
      · split_ifs at h2 <;> omega
      · rintro k' t' hm
        rcases List.mem_cons.1 hm with hm | hm
        · cases hm; split_ifs at h2 <;> omega
        · exact h3 _ _ hm
      · rcases h4 with h4 | ⟨t', h4⟩
        · split_ifs at h4
          · exact .inr ⟨t, by rw [h4]; exact List.mem_cons_self ..⟩
          · exact .inl h4
        · exact .inr ⟨t', List.mem_cons_of_mem _ h4⟩
    | otherStat => exact he.elim
    | data g k b =>
      obtain ⟨n, h1, h2, h3, h4⟩ := ih hr it
      exact ⟨n, by simp [scan, entryNumber, h1], h2, fun k' t' hm => h3 k' t' (by simpa using hm),
        h4.imp id fun ⟨t, ht⟩ => ⟨t, List.mem_cons_of_mem _ ht⟩⟩
    | other =>
      obtain ⟨n, h1, h2, h3, h4⟩ := ih hr it
      exact ⟨n, by simp [scan, entryNumber, h1], h2, fun k' t' hm => h3 k' t' (by simpa using hm),
        h4.imp id fun ⟨t, ht⟩ => ⟨t, List.mem_cons_of_mem _ ht⟩⟩

theorem scan_error {isG : Bool} {dir : List (Entry β)} {e : Entry β} (he : e ∈ dir) {err : Error}
    (h : entryNumber isG e = .error err) (it : ℕ) : ∃ err', scan isG dir it = .error err' := by
  induction dir generalizing it with
  | nil => cases he
  | cons a rest ih =>
    rcases List.mem_cons.1 he with rfl | hm
    · exact ⟨err, by simp [scan, h]⟩
    · simp only [scan]
      cases entryNumber isG a with
      | error err' => exact ⟨err', rfl⟩
      | ok o =>
        cases o with
        | none => exact ih hm it
        | some i => exact ih hm _

/-! ## Six significant digits -/

theorem pow_pos10 (e : ℤ) : (0 : ℝ) < 10 ^ e := zpow_pos (by norm_num) e

theorem log_bounds {x : ℝ} (hx : x ≠ 0) : (10 : ℝ) ^ Int.log 10 |x| ≤ |x| ∧ |x| < 10 ^ (Int.log 10 |x| + 1) := by
  have h := abs_pos.2 hx
  exact ⟨by exact_mod_cast Int.zpow_log_le_self (b := 10) (by norm_num) h,
    by exact_mod_cast Int.lt_zpow_succ_log_self (b := 10) (by norm_num) |x|⟩

theorem sixDigits_error (x : ℝ) : |sixDigits x - x| ≤ 5 / 10 ^ 6 * |x| := by
  unfold sixDigits
  split_ifs with hx
  · simp [hx]
  obtain ⟨h1, -⟩ := log_bounds hx
  set e := Int.log 10 |x| - 5 with he
  have hp := pow_pos10 e
  have hr := abs_sub_round (x / 10 ^ e)
  have : (round (x / 10 ^ e) : ℝ) * 10 ^ e - x = -((x / 10 ^ e - round (x / 10 ^ e)) * 10 ^ e) := by field_simp; ring
  rw [this, abs_neg, abs_mul, abs_of_pos hp]
  have h2 : (10 : ℝ) ^ Int.log 10 |x| = 10 ^ 5 * 10 ^ e := by
    rw [show Int.log 10 |x| = 5 + e by rw [he]; ring, zpow_add₀ (by norm_num)]; norm_num
  have h3 := mul_le_mul_of_nonneg_right hr hp.le
  nlinarith

theorem sixDigits_eq_iff (x : ℝ) : sixDigits x = x ↔ ∃ m e : ℤ, |m| < 10 ^ 6 ∧ x = m * 10 ^ e := by
  unfold sixDigits
  split_ifs with hx
  · refine ⟨fun _ => ⟨0, 0, by norm_num, by simp [hx]⟩, fun _ => hx.symm⟩
  obtain ⟨h1, h2⟩ := log_bounds hx
  set L := Int.log 10 |x| with hL
  have hp := pow_pos10 (L - 5)
  constructor
  · intro h
    refine ⟨round (x / 10 ^ (L - 5)), L - 5, ?_, h.symm⟩
    have h3 : |x| = |(round (x / 10 ^ (L - 5)) : ℝ)| * 10 ^ (L - 5) := by
      conv_lhs => rw [← h]
      rw [abs_mul, abs_of_pos hp]
    have h4 : (10 : ℝ) ^ (L + 1) = 10 ^ 6 * 10 ^ (L - 5) := by
      rw [show L + 1 = 6 + (L - 5) by ring, zpow_add₀ (by norm_num)]; norm_num
    rw [h3, h4] at h2
    have h5 := lt_of_mul_lt_mul_right h2 hp.le
    exact_mod_cast h5
  · rintro ⟨m, e, hm, rfl⟩
    have hle : L - 5 ≤ e := by
      by_contra hcon
      have hcon : e + 6 ≤ L := by omega
      have hm' : |(m : ℝ)| < 10 ^ 6 := by exact_mod_cast hm
      have h3 : (10 : ℝ) ^ (e + 6) ≤ 10 ^ L := zpow_le_zpow_right₀ (by norm_num) hcon
      rw [abs_mul, abs_of_pos (pow_pos10 e)] at h1
      have h4 : (10 : ℝ) ^ (e + 6) = 10 ^ 6 * 10 ^ e := by rw [add_comm, zpow_add₀ (by norm_num)]; norm_num
      nlinarith [pow_pos10 e]
    obtain ⟨k, hk⟩ := Int.eq_ofNat_of_zero_le (sub_nonneg.2 hle)
    have h3 : (m : ℝ) * 10 ^ e / 10 ^ (L - 5) = ((m * 10 ^ k : ℤ) : ℝ) := by
      rw [show e = k + (L - 5) by rw [← hk]; ring, zpow_add₀ (by norm_num)]
      push_cast
      field_simp
      rw [zpow_natCast]
    rw [h3, round_intCast, ← h3]
    field_simp

end Checkpoint
end NATriuM
