import Verif.Spec.OldCheckpoint
import Mathlib.Tactic.Linarith
import Mathlib.Tactic.NormNum
import Mathlib.Tactic.FieldSimp
import Mathlib.Tactic.Positivity

/-!
# Lemmas about reading the old format
-/

namespace NATriuM
namespace Checkpoint

theorem ite_ok {c : Prop} {_ : Decidable c} {α : Type*} {e : OldError} {x : Except OldError α} {u : α}
    (h : (if c then .error e else x) = .ok u) : ¬ c ∧ x = .ok u := by
  by_cases hc : c
  · rw [if_pos hc] at h; exact nomatch h
  · rw [if_neg hc] at h; exact ⟨hc, h⟩

theorem readNat_good {s : Stream} {old : ℕ} (h : (readNat s old).2.good = true) :
    s.good = true ∧ ∃ w r n, s.rest = w :: r ∧ w.asNat = some n ∧ readNat s old = (n, ⟨r, true⟩) := by
  unfold readNat at h ⊢
  by_cases hg : s.good = true
  · rw [if_pos hg] at h ⊢
    refine ⟨hg, ?_⟩
    cases hr : s.rest with
    | nil => rw [hr] at h; simp at h
    | cons w r =>
      rw [hr] at h
      cases hw : w.asNat with
      | none => simp [hw] at h
      | some n => exact ⟨w, r, n, rfl, hw, by simp [hw]⟩
  · rw [if_neg hg] at h
    exact absurd h hg

theorem readReal_good {s : Stream} {old : ℝ} (h : (readReal s old).2.good = true) :
    s.good = true ∧ ∃ w r n, s.rest = w :: r ∧ w.asReal = some n ∧ readReal s old = (n, ⟨r, true⟩) := by
  unfold readReal at h ⊢
  by_cases hg : s.good = true
  · rw [if_pos hg] at h ⊢
    refine ⟨hg, ?_⟩
    cases hr : s.rest with
    | nil => rw [hr] at h; simp at h
    | cons w r =>
      rw [hr] at h
      cases hw : w.asReal with
      | none => simp [hw] at h
      | some n => exact ⟨w, r, n, rfl, hw, by simp [hw]⟩
  · rw [if_neg hg] at h
    exact absurd h hg

theorem readNat_cons {w : Word} {r : List Word} {n old : ℕ} (h : w.asNat = some n) : readNat ⟨w :: r, true⟩ old = (n, ⟨r, true⟩) := by
  simp [readNat, h]

theorem readReal_cons {w : Word} {r : List Word} {n old : ℝ} (h : w.asReal = some n) : readReal ⟨w :: r, true⟩ old = (n, ⟨r, true⟩) := by
  simp [readReal, h]

theorem readText_ne {s : Stream} {t : String} (ht : t ≠ "") (h : readText s = t) : s.good = true ∧ ∃ w r, s.rest = w :: r ∧ w.text = t := by
  unfold readText at h
  by_cases hg : s.good = true
  · rw [if_pos hg] at h
    refine ⟨hg, ?_⟩
    cases hr : s.rest with
    | nil => rw [hr] at h; exact absurd h.symm ht
    | cons w r => rw [hr] at h; exact ⟨w, r, rfl, h⟩
  · rw [if_neg hg] at h
    exact absurd h.symm ht

theorem scalingDiffers_false (s d : ℝ) : scalingDiffers s d = false ↔ (s < 0 ∨ CloseScaling s d) := by
  unfold scalingDiffers CloseScaling
  by_cases h : s = 0
  · simp [h]
  · rw [if_neg h, decide_eq_false_iff_not, not_lt]
    rcases lt_or_gt_of_ne h with hs | hs
    · refine ⟨fun _ => .inl hs, fun _ => ?_⟩
      have : |s - d| / s ≤ 0 := div_nonpos_of_nonneg_of_nonpos (abs_nonneg _) hs.le
      linarith
    · rw [div_le_iff₀ hs, abs_of_pos hs]
      constructor
      · intro h1
        exact .inr (by linarith)
      · rintro (h1 | h1)
        · exact absurd h1 (not_lt.2 hs.le)
        · linarith

end Checkpoint
end NATriuM
