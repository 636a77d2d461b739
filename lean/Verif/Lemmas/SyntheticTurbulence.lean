import Verif.Model.SyntheticTurbulence
import Verif.Spec.SyntheticTurbulence
import Mathlib.Tactic.Ring
import Mathlib.Tactic.Linarith
import Mathlib.Tactic.NormNum
import Mathlib.Tactic.LinearCombination
import Mathlib.Tactic.IntervalCases
import Mathlib.Tactic.FieldSimp
import Mathlib.Tactic.Positivity

/-!
# Lemmas for the synthetic turbulence
-/

namespace NATriuM.Channel

open NATriuM.Spec

theorem int32_ok {z : ℤ} (h1 : -2147483648 ≤ z) (h2 : z ≤ 2147483647) : int32 z = .ok z := by
  unfold int32; rw [if_pos ⟨h1, h2⟩]

theorem parkMiller_range {seed : ℤ} (h1 : 1 ≤ seed) (h2 : seed < 2147483647) (n : ℕ) :
    1 ≤ parkMiller seed n ∧ parkMiller seed n < 2147483647 := by
  induction n with
  | zero => exact ⟨h1, h2⟩
  | succ n ih =>
    obtain ⟨a, b⟩ := ih
    show 1 ≤ 16807 * parkMiller seed n % (2 ^ 31 - 1) ∧ 16807 * parkMiller seed n % (2 ^ 31 - 1) < 2147483647
    have hp : ((2 : ℤ) ^ 31 - 1) = 2147483647 := by norm_num
    rw [hp]
    have hlt := Int.emod_lt_of_pos (16807 * parkMiller seed n) (by norm_num : (0 : ℤ) < 2147483647)
    have hnn := Int.emod_nonneg (16807 * parkMiller seed n) (by norm_num : (2147483647 : ℤ) ≠ 0)
    refine ⟨?_, hlt⟩
    rcases hnn.lt_or_eq with h | h
    · omega
    · exfalso
      have hd : (2147483647 : ℤ) ∣ 16807 * parkMiller seed n := Int.dvd_of_emod_eq_zero h.symm
      have hc : IsCoprime (2147483647 : ℤ) 16807 := by
        rw [Int.isCoprime_iff_gcd_eq_one]; decide +kernel
      have hd' := hc.dvd_of_dvd_mul_left hd
      have := Int.le_of_dvd (by omega) hd'
      omega

/-- Schrage's method: no intermediate result leaves the range of `int`. -/
theorem schrage_eq {z : ℤ} (h1 : 1 ≤ z) (h2 : z < 2147483647) :
    schrage z = .ok (16807 * z - z / 127773 * 2147483647) ∧
    -2147483647 < 16807 * z - z / 127773 * 2147483647 ∧ 16807 * z - z / 127773 * 2147483647 < 2147483647 := by
  have ht : z.tdiv 127773 = z / 127773 := Int.tdiv_eq_ediv_of_nonneg (by omega)
  have e : 16807 * z - z / 127773 * 2147483647 = 16807 * (z - z / 127773 * 127773) - 2836 * (z / 127773) := by ring
  refine ⟨?_, by omega, by omega⟩
  unfold schrage
  simp only [ht]
  rw [int32_ok (z := z / 127773 * 127773) (by omega) (by omega)]
  show (do let r ← int32 (z - z / 127773 * 127773); let a ← int32 (16807 * r); let b ← int32 (2836 * (z / 127773)); int32 (a - b)) = _
  rw [int32_ok (z := z - z / 127773 * 127773) (by omega) (by omega)]
  show (do let a ← int32 (16807 * (z - z / 127773 * 127773)); let b ← int32 (2836 * (z / 127773)); int32 (a - b)) = _
  rw [int32_ok (z := 16807 * (z - z / 127773 * 127773)) (by omega) (by omega)]
  show (do let b ← int32 (2836 * (z / 127773)); int32 (16807 * (z - z / 127773 * 127773) - b)) = _
  rw [int32_ok (z := 2836 * (z / 127773)) (by omega) (by omega)]
  show int32 (16807 * (z - z / 127773 * 127773) - 2836 * (z / 127773)) = _
  rw [← e]
  exact int32_ok (by omega) (by omega)

/-- the seed after one step of the generator, with either of the two tests on the sign -/
theorem step_eq {seed : ℤ} (h1 : 1 ≤ seed) (h2 : seed < 2147483647) (n : ℕ) :
    ∃ w, schrage (parkMiller seed n) = .ok w ∧
      wrapNegative w = .ok (parkMiller seed (n + 1)) ∧
      wrapNonpositive w = .ok (parkMiller seed (n + 1)) := by
  obtain ⟨a, b⟩ := parkMiller_range h1 h2 n
  obtain ⟨e, l, u⟩ := schrage_eq a b
  obtain ⟨a', b'⟩ := parkMiller_range h1 h2 (n + 1)
  refine ⟨_, e, ?_⟩
  have hp : parkMiller seed (n + 1) = 16807 * parkMiller seed n % 2147483647 := by
    show 16807 * parkMiller seed n % (2 ^ 31 - 1) = _
    norm_num
  set w := 16807 * parkMiller seed n - parkMiller seed n / 127773 * 2147483647 with hw
  have hmod : 16807 * parkMiller seed n % 2147483647 = w % 2147483647 := by
    rw [hw]; omega
  rw [hmod] at hp
  have key : parkMiller seed (n + 1) = if w < 0 then w + 2147483647 else w := by
    split <;> omega
  have hne : w ≠ 0 := by rintro h0; rw [h0] at hp; simp at hp; omega
  unfold wrapNegative wrapNonpositive
  constructor
  · split
    · rw [if_pos ‹_›] at key; rw [int32_ok (by omega) (by omega), key]
    · rw [if_neg ‹_›] at key; rw [key]
  · split
    · rw [if_pos (by omega)] at key; rw [int32_ok (by omega) (by omega), key]
    · rw [if_neg (by omega)] at key; rw [key]

/-- A number of the sequence, before its `k`th -/
def Drawn (seed : ℤ) (k : ℕ) (v : ℤ) : Prop := ∃ m, m ≤ k ∧ v = parkMiller seed m

theorem Drawn.mono {seed : ℤ} {k l : ℕ} {v : ℤ} (h : Drawn seed k v) (hkl : k ≤ l) : Drawn seed l v := by
  obtain ⟨m, a, b⟩ := h; exact ⟨m, a.trans hkl, b⟩

theorem fillTable_spec {seed : ℤ} (h1 : 1 ≤ seed) (h2 : seed < 2147483647) (j : ℕ) (hj : j ≤ 40) (iv : List ℤ) (hl : iv.length = 32)
    (hv : ∀ (i : ℕ) (v : ℤ), j ≤ i → iv[i]? = some v → Drawn seed 40 v) :
    ∃ iv', fillTable j (parkMiller seed (40 - j)) iv = .ok (parkMiller seed 40, iv') ∧ iv'.length = 32 ∧
      ∀ (i : ℕ) (v : ℤ), iv'[i]? = some v → Drawn seed 40 v := by
  induction j generalizing iv with
  | zero => exact ⟨iv, rfl, hl, fun i v h => hv i v (Nat.zero_le i) h⟩
  | succ j ih =>
    obtain ⟨w, e1, e2, -⟩ := step_eq h1 h2 (40 - (j + 1))
    have hn : 40 - (j + 1) + 1 = 40 - j := by omega
    rw [hn] at e2
    unfold fillTable
    rw [e1]
    show ∃ iv', (do
      let z ← wrapNegative w
      let iv ← storeLast iv j z
      fillTable j z iv) = _ ∧ _
    rw [e2]
    show ∃ iv', (do
      let iv ← storeLast iv j (parkMiller seed (40 - j))
      fillTable j (parkMiller seed (40 - j)) iv) = _ ∧ _
    unfold storeLast
    by_cases h32 : j + 1 ≤ 32
    · rw [if_pos h32]
      unfold store
      rw [if_pos (by omega)]
      refine ih (by omega) _ (by simpa using hl) fun i v hi hs => ?_
      rw [List.getElem?_set] at hs
      split at hs
      · split at hs
        · cases hs; exact ⟨40 - j, by omega, rfl⟩
        · cases hs
      · exact hv i v (by omega) hs
    · rw [if_neg h32]
      refine ih (by omega) iv hl fun i v hi hs => ?_
      have : i < iv.length := by
        by_contra hge
        rw [List.getElem?_eq_none (by omega)] at hs; cases hs
      omega

/-- state of the generator between calls -/
structure Running (seed : ℤ) (k : ℕ) (idum : ℤ) (s : Rng) : Prop where
  idum_eq : idum = parkMiller seed k
  iy : Drawn seed k s.iy
  length : s.iv.length = 32
  iv : ∀ (i : ℕ) (v : ℤ), s.iv[i]? = some v → Drawn seed k v

theorem begin_spec {seed : ℤ} (h1 : 1 ≤ seed) (h2 : seed < 2147483647) :
    ∃ z s, begin (-seed) .initial = .ok (z, s) ∧ Running seed 40 z s := by
  obtain ⟨iv, e, l, hv⟩ := fillTable_spec h1 h2 40 le_rfl (List.replicate 32 0) (by simp) (by
    intro i v hi hs
    rw [List.getElem?_eq_none (by simp; omega)] at hs; cases hs)
  obtain ⟨v, hv0⟩ : ∃ v, iv[0]? = some v := ⟨iv[0]'(by omega), List.getElem?_eq_getElem (by omega)⟩
  refine ⟨parkMiller seed 40, ⟨v, iv⟩, ?_, rfl, hv 0 v hv0, l, hv⟩
  unfold begin
  rw [if_pos (.inl (by omega)), int32_ok (by omega) (by omega)]
  show (do let (z, iv) ← fillTable 40 (max (- -seed) 1) (List.replicate 32 0); let iy ← fetch iv 0; .ok (z, (⟨iy, iv⟩ : Rng))) = _
  rw [show max (- -seed) 1 = parkMiller seed (40 - 40) from by show _ = seed; omega, e]
  show (do let iy ← fetch iv 0; .ok (parkMiller seed 40, (⟨iy, iv⟩ : Rng))) = _
  have hf : fetch iv 0 = .ok v := by
    unfold fetch; rw [if_pos le_rfl]
    show (match iv[0]? with | some z => Except.ok z | none => .error Undefined.bounds) = _
    rw [hv0]
  rw [hf]
  rfl

/-- what `randf2` does after `begin` -/
def draw (idum : ℤ) (s : Rng) : Except Undefined (ℚ × ℤ × Rng) := do
  let z ← schrage idum
  let z ← wrapNonpositive z
  let j := ⌊(s.iy : ℚ) / (1 + (2147483647 - 1) / 32)⌋
  let iy ← fetch s.iv j
  let iv ← store s.iv j.toNat z
  .ok (min (1 / 2147483647 * (iy : ℚ)) (1 - 12 / 10 ^ 8), z, ⟨iy, iv⟩)

/-- a number that the generator returns -/
def Number (seed : ℤ) (k : ℕ) (r : ℚ) : Prop :=
  0 < r ∧ r < 1 ∧ ∃ m, m ≤ k ∧ r = min ((parkMiller seed m : ℚ) / (2 ^ 31 - 1)) (1 - 12 / 10 ^ 8)

theorem draw_spec {seed : ℤ} (h1 : 1 ≤ seed) (h2 : seed < 2147483647) {k : ℕ} {idum : ℤ} {s : Rng} (h : Running seed k idum s) :
    ∃ r z s', draw idum s = .ok (r, z, s') ∧ Running seed (k + 1) z s' ∧ Number seed k r := by
  obtain ⟨w, e1, -, e2⟩ := step_eq h1 h2 k
  obtain ⟨m, hm, hy⟩ := h.iy
  obtain ⟨y1, y2⟩ := parkMiller_range h1 h2 m
  rw [← hy] at y1 y2
  have q1 : (1 : ℚ) ≤ s.iy := by exact_mod_cast y1
  have q2 : (s.iy : ℚ) ≤ 2147483646 := by
    have : s.iy ≤ 2147483646 := by omega
    exact_mod_cast this
  set j := ⌊(s.iy : ℚ) / (1 + (2147483647 - 1) / 32)⌋ with hj
  have j0 : 0 ≤ j := Int.floor_nonneg.mpr (by positivity)
  have j1 : j < 32 := by
    rw [hj, Int.floor_lt, div_lt_iff₀ (by norm_num)]
    push_cast
    linarith
  have hlt : j.toNat < s.iv.length := by rw [h.length]; omega
  have hget : s.iv[j.toNat]? = some (s.iv[j.toNat]'hlt) := List.getElem?_eq_getElem hlt
  set v := s.iv[j.toNat]'hlt with hvdef
  have hf : fetch s.iv j = .ok v := by
    unfold fetch; rw [if_pos j0, hget]
  obtain ⟨m', hm', hv⟩ := h.iv _ _ hget
  obtain ⟨v1, v2⟩ := parkMiller_range h1 h2 m'
  rw [← hv] at v1 v2
  refine ⟨min (1 / 2147483647 * (v : ℚ)) (1 - 12 / 10 ^ 8), parkMiller seed (k + 1), ⟨v, s.iv.set j.toNat (parkMiller seed (k + 1))⟩, ?_, ?_, ?_⟩
  · unfold draw
    rw [h.idum_eq, e1]
    show (do
      let z ← wrapNonpositive w
      let iy ← fetch s.iv j
      let iv ← store s.iv j.toNat z
      .ok (min (1 / 2147483647 * (iy : ℚ)) (1 - 12 / 10 ^ 8), z, (⟨iy, iv⟩ : Rng))) = _
    rw [e2, hf]
    show (do
      let iv ← store s.iv j.toNat (parkMiller seed (k + 1))
      .ok (min (1 / 2147483647 * (v : ℚ)) (1 - 12 / 10 ^ 8), parkMiller seed (k + 1), (⟨v, iv⟩ : Rng))) = _
    unfold store
    rw [if_pos hlt]
    rfl
  · refine ⟨rfl, ⟨m', by omega, hv⟩, by simpa using h.length, fun i u hs => ?_⟩
    rw [List.getElem?_set] at hs
    by_cases hji : j.toNat = i
    · subst hji
      simp only [if_true, if_pos hlt, Option.some.injEq] at hs
      exact ⟨k + 1, le_rfl, hs.symm⟩
    · rw [if_neg hji] at hs
      exact (h.iv i u hs).mono (by omega)
  · have w1 : (1 : ℚ) ≤ v := by exact_mod_cast v1
    refine ⟨lt_min (by positivity) (by norm_num), lt_of_le_of_lt (min_le_right _ _) (by norm_num), m', hm', ?_⟩
    rw [← hv]
    congr 1
    norm_num
    ring

theorem randf2_running {seed : ℤ} (h1 : 1 ≤ seed) (h2 : seed < 2147483647) {k : ℕ} {idum : ℤ} {s : Rng} (h : Running seed k idum s) :
    randf2 idum s = draw idum s := by
  obtain ⟨a, -⟩ := parkMiller_range h1 h2 k
  obtain ⟨m, -, hy⟩ := h.iy
  obtain ⟨b, -⟩ := parkMiller_range h1 h2 m
  have hb : begin idum s = .ok (idum, s) := by
    unfold begin
    rw [if_neg]
    rw [h.idum_eq, hy]
    omega
  unfold randf2
  rw [hb]
  rfl

theorem randf2_start {seed : ℤ} (h1 : 1 ≤ seed) (h2 : seed < 2147483647) :
    ∃ z s, Running seed 40 z s ∧ randf2 (-seed) .initial = draw z s := by
  obtain ⟨z, s, e, h⟩ := begin_spec h1 h2
  refine ⟨z, s, h, ?_⟩
  unfold randf2
  rw [e]
  rfl

theorem randf1_running {seed : ℤ} (h1 : 1 ≤ seed) (h2 : seed < 2147483647) (n : ℕ) {k : ℕ} {idum : ℤ} {s : Rng} (h : Running seed k idum s) :
    ∃ out z s', randf1 n idum s = .ok (out, z, s') ∧ Running seed (k + n) z s' ∧ out.length = n ∧ ∀ r ∈ out, Number seed (k + n - 1) r := by
  induction n generalizing k idum s with
  | zero => exact ⟨[], idum, s, rfl, h, rfl, by simp⟩
  | succ n ih =>
    obtain ⟨r, z, s1, e, hr, hn⟩ := draw_spec h1 h2 h
    obtain ⟨out, z2, s2, e2, hr2, hl, ho⟩ := ih hr
    refine ⟨r :: out, z2, s2, ?_, ?_, by simp [hl], ?_⟩
    · unfold randf1
      rw [randf2_running h1 h2 h, e]
      show (do let (rs, z, s) ← randf1 n z s1; .ok (r :: rs, z, s)) = _
      rw [e2]
      rfl
    · rw [show k + (n + 1) = k + 1 + n from by omega]; exact hr2
    · intro q hq
      rw [show k + (n + 1) - 1 = k + n from by omega]
      rcases List.mem_cons.mp hq with rfl | hq
      · obtain ⟨a, b, m, c, d⟩ := hn; exact ⟨a, b, m, by omega, d⟩
      · obtain ⟨a, b, m, c, d⟩ := ho q hq; exact ⟨a, b, m, by omega, d⟩

theorem randf1_start {seed : ℤ} (h1 : 1 ≤ seed) (h2 : seed < 2147483647) (n : ℕ) :
    ∃ out z s', randf1 (n + 1) (-seed) .initial = .ok (out, z, s') ∧ Running seed (40 + (n + 1)) z s' ∧ out.length = n + 1 ∧
      ∀ r ∈ out, Number seed (40 + n) r := by
  obtain ⟨z0, s0, h, e0⟩ := randf2_start h1 h2
  obtain ⟨r, z, s1, e, hr, hn⟩ := draw_spec h1 h2 h
  obtain ⟨out, z2, s2, e2, hr2, hl, ho⟩ := randf1_running h1 h2 n hr
  refine ⟨r :: out, z2, s2, ?_, ?_, by simp [hl], ?_⟩
  · unfold randf1
    rw [e0, e]
    show (do let (rs, z, s) ← randf1 n z s1; .ok (r :: rs, z, s)) = _
    rw [e2]
    rfl
  · rw [show 40 + (n + 1) = 40 + 1 + n from by omega]; exact hr2
  · intro q hq
    rcases List.mem_cons.mp hq with rfl | hq
    · obtain ⟨a, b, m, c, d⟩ := hn; exact ⟨a, b, m, by omega, d⟩
    · obtain ⟨a, b, m, c, d⟩ := ho q hq; exact ⟨a, b, m, by omega, d⟩

end NATriuM.Channel
