import Verif.Lemmas.SyntheticTurbulence
import Mathlib.Analysis.SpecialFunctions.Trigonometric.Deriv
import Mathlib.Analysis.Real.Pi.Bounds
import Mathlib.Tactic.FinCases
import Mathlib.Algebra.BigOperators.Group.List.Lemmas

/-!
# Properties C120–C122: initial velocities of the turbulent channel
-/

namespace NATriuM.Channel

open NATriuM.Spec Real

/-! ## C120 -/

/-- **C120** (numbers) With a negative seed, as described, the generator runs through the sequence of Park and Miller; no `int` overflows and the table is
not left, all numbers are strictly between 0 and 1 and are, up to the bound `1 - 1.2e-7`, numbers of that sequence divided by the modulus. -/
theorem C120_random (seed : ℤ) (h1 : 1 ≤ seed) (h2 : seed < 2 ^ 31 - 1) (n : ℕ) :
    ∃ out s, randf1 (n + 1) (-seed) .initial = .ok (out, parkMiller seed (40 + (n + 1)), s) ∧ out.length = n + 1 ∧
      ∀ r ∈ out, 0 < r ∧ r < 1 ∧ ∃ m ≤ 40 + n, r = min ((parkMiller seed m : ℚ) / (2 ^ 31 - 1)) (1 - 12 / 10 ^ 8) := by
  obtain ⟨out, z, s, e, hr, hl, ho⟩ := randf1_start h1 (by norm_num at h2; exact h2) n
  exact ⟨out, s, by rw [e, hr.idum_eq], hl, ho⟩

/-- a seed that is met: the one of the program -/
example : ∃ out s, randf1 12 (-50) .initial = .ok (out, parkMiller 50 52, s) ∧ out.length = 12 := by
  obtain ⟨out, s, e, l, -⟩ := C120_random 50 (by norm_num) (by norm_num) 11
  exact ⟨out, s, e, l⟩

/-- and the first number lies between 0 and 1 -/
example : (randf2 (-50) .initial).toOption.map (fun p => decide (0 < p.1 ∧ p.1 < 1)) = some true := by decide +kernel

/-- **C120** (intervals) A number strictly between 0 and 1 is mapped to one strictly inside of the interval, and only such numbers; 0 and 1 would give its ends. -/
theorem C120_interval {low high : ℝ} (h : low < high) (r : ℚ) :
    (0 < r ∧ r < 1 ↔ low < scaled low high r ∧ scaled low high r < high) ∧ scaled low high 0 = low ∧ scaled low high 1 = high := by
  have h' : 0 < high - low := sub_pos.2 h
  refine ⟨?_, by simp [scaled], by simp [scaled]⟩
  unfold scaled
  refine and_congr ?_ ?_
  · rw [lt_add_iff_pos_left, mul_pos_iff_of_pos_right h', Rat.cast_pos]
  · rw [← lt_sub_iff_add_lt, mul_lt_iff_lt_one_left h']
    exact_mod_cast Iff.rfl

example : 1 < scaled 1 3 (1 / 2) ∧ scaled 1 3 (1 / 2) < 3 := (C120_interval (by norm_num) _).1.1 (by norm_num)

theorem scaled_circle {r : ℚ} (h0 : 0 < r) (h1 : r < 1) : 0 < scaled 0 (2 * π) r ∧ scaled 0 (2 * π) r < 2 * π := by
  have a : (0 : ℝ) < r := by exact_mod_cast h0
  have b : (r : ℝ) < 1 := by exact_mod_cast h1
  unfold scaled
  constructor
  · nlinarith [pi_pos]
  · nlinarith [pi_pos]

theorem arccos_open {r : ℚ} (h0 : 0 < r) (h1 : r < 1) :
    0 < arccos (1 - scaled 0 1 r / (1 / 2)) ∧ arccos (1 - scaled 0 1 r / (1 / 2)) < π := by
  have a : (0 : ℝ) < r := by exact_mod_cast h0
  have b : (r : ℝ) < 1 := by exact_mod_cast h1
  unfold scaled
  constructor
  · rw [arccos_pos]; linarith
  · refine lt_of_le_of_ne (arccos_le_pi _) fun h => ?_
    rw [arccos_eq_pi] at h
    linarith

/-- **C120** (angles) The random angles are computed without overflow, their number is that of the modes, and they lie inside of their intervals. -/
theorem C120_angles (seed : ℤ) (h1 : 1 ≤ seed) (h2 : seed < 2 ^ 31 - 1) (nmodes : ℕ) :
    ∃ A, angles nmodes (-seed) .initial = .ok A ∧
      A.fi.length = nmodes ∧ A.psi.length = nmodes ∧ A.alfa.length = nmodes ∧ A.teta.length = nmodes ∧
      (∀ t, t ∈ A.fi ∨ t ∈ A.psi ∨ t ∈ A.alfa → 0 < t ∧ t < 2 * π) ∧ ∀ t ∈ A.teta, 0 < t ∧ t < π := by
  have h2' : seed < 2147483647 := by norm_num at h2; exact h2
  cases nmodes with
  | zero => exact ⟨⟨[], [], [], []⟩, rfl, rfl, rfl, rfl, rfl, by simp, by simp⟩
  | succ n =>
    obtain ⟨o1, z1, s1, e1, r1, l1, n1⟩ := randf1_start h1 h2' n
    obtain ⟨o2, z2, s2, e2, r2, l2, n2⟩ := randf1_running h1 h2' (n + 1) r1
    obtain ⟨o3, z3, s3, e3, r3, l3, n3⟩ := randf1_running h1 h2' (n + 1) r2
    obtain ⟨o4, z4, s4, e4, r4, l4, n4⟩ := randf1_running h1 h2' (n + 1) r3
    refine ⟨⟨o1.map (scaled 0 (2 * π)), o2.map (scaled 0 (2 * π)), o3.map (scaled 0 (2 * π)),
      o4.map fun r => arccos (1 - scaled 0 1 r / (1 / 2))⟩, ?_, by simp [l1], by simp [l2], by simp [l3], by simp [l4], ?_, ?_⟩
    · unfold angles
      rw [e1]
      show (do
        let (psi, z, s) ← randf1 (n + 1) z1 s1
        let (alfa, z, s) ← randf1 (n + 1) z s
        let (ang, _, _) ← randf1 (n + 1) z s
        .ok (⟨o1.map (scaled 0 (2 * π)), psi.map (scaled 0 (2 * π)), alfa.map (scaled 0 (2 * π)), ang.map fun r => arccos (1 - scaled 0 1 r / (1 / 2))⟩ : Angles)) = _
      rw [e2]
      show (do
        let (alfa, z, s) ← randf1 (n + 1) z2 s2
        let (ang, _, _) ← randf1 (n + 1) z s
        .ok (⟨o1.map (scaled 0 (2 * π)), o2.map (scaled 0 (2 * π)), alfa.map (scaled 0 (2 * π)), ang.map fun r => arccos (1 - scaled 0 1 r / (1 / 2))⟩ : Angles)) = _
      rw [e3]
      show (do
        let (ang, _, _) ← randf1 (n + 1) z3 s3
        .ok (⟨o1.map (scaled 0 (2 * π)), o2.map (scaled 0 (2 * π)), o3.map (scaled 0 (2 * π)), ang.map fun r => arccos (1 - scaled 0 1 r / (1 / 2))⟩ : Angles)) = _
      rw [e4]
      rfl
    · rintro t (h | h | h) <;> obtain ⟨r, hr, rfl⟩ := List.mem_map.mp h
      · exact scaled_circle (n1 r hr).1 (n1 r hr).2.1
      · exact scaled_circle (n2 r hr).1 (n2 r hr).2.1
      · exact scaled_circle (n3 r hr).1 (n3 r hr).2.1
    · intro t h
      obtain ⟨r, hr, rfl⟩ := List.mem_map.mp h
      exact arccos_open (n4 r hr).1 (n4 r hr).2.1

/-! ## C121 -/

namespace Flow

/-- directions of modes are orthogonal to the wave vectors -/
theorem mode_orthogonal (faces : ℕ → ℝ) (m : ℕ) (fi psi alfa teta : ℝ) :
    let M := mode faces m fi psi alfa teta
    M.k 0 * M.s 0 + M.k 1 * M.s 1 + M.k 2 * M.s 2 = 0 := by
  show sin teta * cos fi * (cos fi * cos teta * cos alfa - sin fi * sin alfa) +
    sin teta * sin fi * (sin fi * cos teta * cos alfa + cos fi * sin alfa) + cos teta * (-sin teta * cos alfa) = 0
  linear_combination sin teta * cos teta * cos alfa * sin_sq_add_cos_sq fi

theorem mode_unit (faces : ℕ → ℝ) (m : ℕ) (fi psi alfa teta : ℝ) :
    let M := mode faces m fi psi alfa teta
    M.k 0 ^ 2 + M.k 1 ^ 2 + M.k 2 ^ 2 = 1 ∧ M.s 0 ^ 2 + M.s 1 ^ 2 + M.s 2 ^ 2 = 1 := by
  constructor
  · show (sin teta * cos fi) ^ 2 + (sin teta * sin fi) ^ 2 + cos teta ^ 2 = 1
    linear_combination sin teta ^ 2 * sin_sq_add_cos_sq fi + sin_sq_add_cos_sq teta
  · show (cos fi * cos teta * cos alfa - sin fi * sin alfa) ^ 2 + (sin fi * cos teta * cos alfa + cos fi * sin alfa) ^ 2 +
      (-sin teta * cos alfa) ^ 2 = 1
    linear_combination (cos teta ^ 2 * cos alfa ^ 2 + sin alfa ^ 2) * sin_sq_add_cos_sq fi + cos alfa ^ 2 * sin_sq_add_cos_sq teta +
      sin_sq_add_cos_sq alfa

/-- derivative of the contribution of a mode along an axis -/
theorem contribution_deriv (F : Flow) (M : Mode) (x : Fin 3 → ℝ) :
    ∃ c : ℝ, ∀ a, HasDerivAt (fun t => F.contribution M (Function.update x a t) a) (c * (M.k a * M.s a)) (x a) := by
  classical
  by_cases hn : M.norm < F.wnrn
  · refine ⟨-(2 * (F.urms * sqrt (F.spectrum M.wnr * M.dkn)) *
      sin (M.k 0 * M.wnr * x 0 + M.k 1 * M.wnr * x 1 + M.k 2 * M.wnr * x 2 + M.psi) * M.wnr), fun a => ?_⟩
    have hfun : (fun t => F.contribution M (Function.update x a t) a) = fun t =>
        2 * (F.urms * sqrt (F.spectrum M.wnr * M.dkn)) *
        cos (M.k a * M.wnr * t + (M.k 0 * M.wnr * x 0 + M.k 1 * M.wnr * x 1 + M.k 2 * M.wnr * x 2 + M.psi - M.k a * M.wnr * x a)) * M.s a := by
      funext t
      unfold contribution
      rw [if_pos hn]
      congr 3
      fin_cases a <;> simp [Function.update] <;> ring
    rw [hfun]
    have hlin : HasDerivAt (fun t : ℝ => M.k a * M.wnr * t +
        (M.k 0 * M.wnr * x 0 + M.k 1 * M.wnr * x 1 + M.k 2 * M.wnr * x 2 + M.psi - M.k a * M.wnr * x a)) (M.k a * M.wnr) (x a) := by
      simpa using ((hasDerivAt_id (x a)).const_mul (M.k a * M.wnr)).add_const
        (M.k 0 * M.wnr * x 0 + M.k 1 * M.wnr * x 1 + M.k 2 * M.wnr * x 2 + M.psi - M.k a * M.wnr * x a)
    have := ((hlin.cos).const_mul (2 * (F.urms * sqrt (F.spectrum M.wnr * M.dkn)))).mul_const (M.s a)
    refine this.congr_deriv ?_
    rw [show M.k a * M.wnr * x a + (M.k 0 * M.wnr * x 0 + M.k 1 * M.wnr * x 1 + M.k 2 * M.wnr * x 2 + M.psi - M.k a * M.wnr * x a) =
      M.k 0 * M.wnr * x 0 + M.k 1 * M.wnr * x 1 + M.k 2 * M.wnr * x 2 + M.psi from by ring]
    ring
  · refine ⟨0, fun a => ?_⟩
    have hfun : (fun t => F.contribution M (Function.update x a t) a) = fun _ => 0 := by
      funext t; unfold contribution; rw [if_neg hn]
    rw [hfun, zero_mul]
    exact hasDerivAt_const _ _

theorem sum_divergenceFree (F : Flow) (Ms : List Mode) (h : ∀ M ∈ Ms, M.k 0 * M.s 0 + M.k 1 * M.s 1 + M.k 2 * M.s 2 = 0) (x : Fin 3 → ℝ) :
    DivergenceFree (fun x a => (Ms.map fun M => F.contribution M x a).sum) x := by
  induction Ms with
  | nil => exact ⟨fun _ => 0, fun a => by simpa using hasDerivAt_const (x a) (0 : ℝ), by simp⟩
  | cons M Ms ih =>
    obtain ⟨d, hd, hs⟩ := ih fun M' hM => h M' (List.mem_cons_of_mem _ hM)
    obtain ⟨c, hc⟩ := F.contribution_deriv M x
    refine ⟨fun a => c * (M.k a * M.s a) + d a, fun a => ?_, ?_⟩
    · simp only [List.map_cons, List.sum_cons]
      exact (hc a).add (hd a)
    · have hM := h M List.mem_cons_self
      rw [Fin.sum_univ_three] at hs ⊢
      linear_combination hs + c * hM

/-- the wave numbers increase, whatever the mesh -/
theorem dkl_pos (F : Flow) (hl : 0 < F.length) (hr : 1 ≤ F.repetitionsY) {n : ℕ} (hn : 1 ≤ n) : 0 < F.wnre ∧ F.wnre < F.wnrn ∧ 0 < F.dkl n := by
  have hs : 0 < F.sli := by unfold sli; positivity
  have h0 : 0 < F.wnre := by unfold wnre amp; positivity
  have h1 : F.wnre < F.wnrn := by
    have e1 : F.wnre = π / F.length * (9 * amp * 32 / 275) := by
      unfold wnre sli; field_simp; ring
    have e2 : F.wnrn = π / F.length * (6 * 2 ^ F.refinementLevel * F.repetitionsY) := by
      unfold wnrn; field_simp; ring
    rw [e1, e2]
    have hp : 0 < π / F.length := by positivity
    refine mul_lt_mul_of_pos_left ?_ hp
    have ha : (1 : ℝ) ≤ 2 ^ F.refinementLevel := one_le_pow₀ (by norm_num)
    have hb : (1 : ℝ) ≤ F.repetitionsY := by exact_mod_cast hr
    have : (6 : ℝ) ≤ 6 * 2 ^ F.refinementLevel * F.repetitionsY := by nlinarith
    unfold amp
    norm_num
    linarith
  refine ⟨h0, h1, ?_⟩
  unfold dkl
  have : (0 : ℝ) < n := by exact_mod_cast hn
  rw [div_one]
  exact div_pos (by linarith) this

/-- **C121** (modes) If there is room for the wave numbers, each mode takes part (its wave number is below the largest one of the mesh), the square roots
are taken of numbers that are not negative, and wave vector and direction are orthogonal vectors of length one. -/
theorem C121_modes_partial (F : Flow) (hl : 0 < F.length) (hr : 1 ≤ F.repetitionsY) (capacity nmodes : ℕ) (hc : nmodes < capacity) (A : Angles) :
    ∃ faces, F.wavenumberFaces capacity nmodes = .ok faces ∧ (modes faces A nmodes).length = nmodes ∧ ∀ M ∈ modes faces A nmodes,
      M.norm < F.wnrn ∧ 0 ≤ F.spectrum M.wnr * M.dkn ∧ M.k 0 * M.s 0 + M.k 1 * M.s 1 + M.k 2 * M.s 2 = 0 ∧
      M.k 0 ^ 2 + M.k 1 ^ 2 + M.k 2 ^ 2 = 1 ∧ M.s 0 ^ 2 + M.s 1 ^ 2 + M.s 2 ^ 2 = 1 := by
  refine ⟨fun m => F.wnre / 1 + F.dkl nmodes * m, by unfold wavenumberFaces; rw [if_pos hc], by simp [modes], fun M hM => ?_⟩
  obtain ⟨m, hm, rfl⟩ := List.mem_map.mp hM
  rw [List.mem_range] at hm
  have hn : 1 ≤ nmodes := by omega
  obtain ⟨p0, p1, p2⟩ := F.dkl_pos hl hr hn
  have hu := mode_unit (fun m => F.wnre / 1 + F.dkl nmodes * m) m (A.fi.getD m 0) (A.psi.getD m 0) (A.alfa.getD m 0) (A.teta.getD m 0)
  have ho := mode_orthogonal (fun m => F.wnre / 1 + F.dkl nmodes * m) m (A.fi.getD m 0) (A.psi.getD m 0) (A.alfa.getD m 0) (A.teta.getD m 0)
  set M := mode (fun m => F.wnre / 1 + F.dkl nmodes * m) m (A.fi.getD m 0) (A.psi.getD m 0) (A.alfa.getD m 0) (A.teta.getD m 0) with hMdef
  have hw : M.wnr = F.wnre + F.dkl nmodes * (m + 1 / 2) := by
    show 1 / 2 * ((F.wnre / 1 + F.dkl nmodes * ((m + 1 : ℕ) : ℝ)) + (F.wnre / 1 + F.dkl nmodes * (m : ℝ))) = _
    push_cast; ring
  have hd : M.dkn = F.dkl nmodes := by
    show (F.wnre / 1 + F.dkl nmodes * ((m + 1 : ℕ) : ℝ)) - (F.wnre / 1 + F.dkl nmodes * (m : ℝ)) = _
    push_cast; ring
  have hw0 : 0 < M.wnr := by rw [hw]; positivity
  refine ⟨?_, ?_, ho, hu.1, hu.2⟩
  · have hnorm : M.norm = M.wnr := by
      unfold Mode.norm
      rw [show (M.k 0 * M.wnr) ^ 2 + (M.k 1 * M.wnr) ^ 2 + (M.k 2 * M.wnr) ^ 2 = M.wnr ^ 2 from by linear_combination M.wnr ^ 2 * hu.1]
      exact sqrt_sq hw0.le
    rw [hnorm, hw]
    have hmn : (m : ℝ) + 1 / 2 < nmodes := by
      have : (m : ℝ) + 1 ≤ nmodes := by exact_mod_cast hm
      linarith
    have hk : F.dkl nmodes * nmodes = F.wnrn - F.wnre := by
      unfold dkl
      have : (nmodes : ℝ) ≠ 0 := by positivity
      field_simp
    nlinarith
  · rw [hd]
    refine mul_nonneg ?_ p2.le
    unfold spectrum
    have ha : (0 : ℝ) < amp := by unfold amp; norm_num
    positivity

/-- **C121** (perturbation) If there is room for the wave numbers, the synthetic velocity field is free of divergence, in every point. -/
theorem C121_divergence_partial (F : Flow) (capacity nmodes : ℕ) (hc : nmodes < capacity) :
    ∃ u, F.initialVelocityIn capacity nmodes = .ok u ∧ ∀ x, DivergenceFree u x := by
  obtain ⟨A, hA, -⟩ := C120_angles 50 (by norm_num) (by norm_num) nmodes
  refine ⟨fun x a => ((modes (fun m => F.wnre / 1 + F.dkl nmodes * m) A nmodes).map fun M => F.contribution M x a).sum, ?_, fun x => ?_⟩
  · unfold initialVelocityIn wavenumberFaces
    rw [hA, if_pos hc]
    rfl
  · refine F.sum_divergenceFree _ (fun M hM => ?_) x
    obtain ⟨m, -, rfl⟩ := List.mem_map.mp hM
    exact mode_orthogonal _ _ _ _ _ _

/-- **C121 fails** (memory): with the vectors as they are, each evaluation writes behind the end of the vector of wave numbers. -/
theorem C121_bounds_fails (F : Flow) : F.initialVelocity = .error .bounds := by
  obtain ⟨A, hA, -⟩ := C120_angles 50 (by norm_num) (by norm_num) 12
  unfold initialVelocity initialVelocityIn wavenumberFaces
  rw [hA, if_neg (by norm_num)]
  rfl

end Flow

section Curl

variable {K : Type*} [Field K]

/-- **C121** (curl) Whatever velocity field it is applied to, the field made from difference quotients is free of divergence, if this is measured with
differences of the same width. -/
theorem C121_curl (h : K) (u : (Fin 3 → K) → Fin 3 → K) (x : Fin 3 → K) : forwardDivergence h (incompressible h u) x = 0 := by
  have c01 : ∀ s t : K, Function.update (Function.update x 0 s) 1 t = Function.update (Function.update x 1 t) 0 s := fun s t =>
    Function.update_comm (by decide) _ _ _
  have c02 : ∀ s t : K, Function.update (Function.update x 0 s) 2 t = Function.update (Function.update x 2 t) 0 s := fun s t =>
    Function.update_comm (by decide) _ _ _
  have c12 : ∀ s t : K, Function.update (Function.update x 1 s) 2 t = Function.update (Function.update x 2 t) 1 s := fun s t =>
    Function.update_comm (by decide) _ _ _
  have e0 : ∀ y, incompressible h u y 0 = quotient h (fun z => u z 2) 1 y - quotient h (fun z => u z 1) 2 y := fun _ => rfl
  have e1 : ∀ y, incompressible h u y 1 = quotient h (fun z => u z 0) 2 y - quotient h (fun z => u z 2) 0 y := fun _ => rfl
  have e2 : ∀ y, incompressible h u y 2 = quotient h (fun z => u z 1) 0 y - quotient h (fun z => u z 0) 1 y := fun _ => rfl
  unfold forwardDivergence
  rw [Fin.sum_univ_three, e0, e0, e1, e1, e2, e2]
  unfold quotient
  have n : ∀ (a b : Fin 3) (s : K), a ≠ b → Function.update x a s b = x b := fun a b s hab => Function.update_of_ne hab.symm _ _
  rw [n 0 1 _ (by decide), n 0 2 _ (by decide), n 1 0 _ (by decide), n 1 2 _ (by decide), n 2 0 _ (by decide), n 2 1 _ (by decide), c01, c02, c12]
  ring

variable [LinearOrder K] [IsStrictOrderedRing K]

omit [LinearOrder K] [IsStrictOrderedRing K] in
/-- **C121** (curl) The field made from difference quotients is the curl: it is exactly the curl of a velocity field that depends linearly on the point. -/
theorem C121_curl_linear (h : K) (hh : h ≠ 0) (A : Fin 3 → Fin 3 → K) (u₀ : Fin 3 → K) (x : Fin 3 → K) :
    incompressible h (fun y c => ∑ b, A c b * y b + u₀ c) x = ![A 2 1 - A 1 2, A 0 2 - A 2 0, A 1 0 - A 0 1] := by
  have key : ∀ c b, quotient h (fun y => ∑ b, A c b * y b + u₀ c) b x = A c b := by
    intro c b
    unfold quotient
    rw [div_eq_iff hh]
    fin_cases b <;> simp [Fin.sum_univ_three, Function.update_apply] <;> ring
  simp only [incompressible, key]

example : incompressible (1 / 100 : ℚ) (fun y c => ∑ b, (![![0, -1, 0], ![1, 0, 0], ![0, 0, 0]] : Fin 3 → Fin 3 → ℚ) c b * y b + 0) ![1, 2, 3] = ![0, 0, 2] :=
  (C121_curl_linear (1 / 100 : ℚ) (by norm_num) ![![0, -1, 0], ![1, 0, 0], ![0, 0, 0]] (fun _ => 0) ![1, 2, 3]).trans (by decide +kernel)

omit [IsStrictOrderedRing K] in
theorem foldl_max (values : List K) (m : K) : values.foldl (fun m v => if m < v then v else m) m = values.foldl max m := by
  congr 1
  funext a b
  split
  · rw [max_eq_right (le_of_lt ‹_›)]
  · rw [max_eq_left (not_lt.mp ‹_›)]

theorem noteMaximum_scale (c : K) (hc : 0 ≤ c) (values : List K) : noteMaximum (values.map (c * ·)) = c * noteMaximum values := by
  unfold noteMaximum
  rw [foldl_max, foldl_max]
  suffices ∀ m, (values.map (c * ·)).foldl max (c * m) = c * values.foldl max m by simpa using this 0
  induction values with
  | nil => intro m; rfl
  | cons v vs ih => intro m; simp only [List.map_cons, List.foldl_cons]; rw [← mul_max_of_nonneg _ _ hc]; exact ih _

omit [IsStrictOrderedRing K] in
theorem noteMaximum_nonneg (values : List K) : 0 ≤ noteMaximum values := by
  unfold noteMaximum
  rw [foldl_max]
  suffices ∀ m : K, m ≤ values.foldl max m from this 0
  induction values with
  | nil => intro m; exact le_rfl
  | cons v vs ih => intro m; exact (le_max_left m v).trans (ih _)

/-- **C121** (scaling) On one process, the scaled field has the largest streamwise velocity of the synthetic one. -/
theorem C121_scaling_partial (seen inc : List K) (c : K) (h : scalingFactor seen inc = some c) : noteMaximum (inc.map (c * ·)) = noteMaximum seen := by
  unfold scalingFactor at h
  split at h
  · cases h
  · rename_i h0
    cases h
    rw [noteMaximum_scale _ (div_nonneg (noteMaximum_nonneg _) (noteMaximum_nonneg _)), div_mul_cancel₀ _ h0]

/-- **C121 fails** (processes): each process scales its part of the field with a factor of its own. -/
theorem C121_processes_fails : ∃ seen₁ seen₂ inc₁ inc₂ : List ℚ,
    scalingFactor (seen₁ ++ seen₂) (inc₁ ++ inc₂) = some 1 ∧ scalingFactor seen₁ inc₁ = some (1 / 2) ∧ scalingFactor seen₂ inc₂ = some 2 :=
  ⟨[1, -1], [2], [2], [1, 0], by decide +kernel, by decide +kernel, by decide +kernel⟩

end Curl

/-! ## C122 -/

namespace Flow

/-- **C122** (profile) If the characteristic length is the height of the channel, the profile of the mean velocity is symmetric and zero at both walls, and
the centre line velocity is reached wherever `y⁺` is at least 30. -/
theorem C122_profile_partial (F : Flow) (hl : 0 < F.length) (hr : 0 < F.reTau) (hv : 0 < F.viscosity) :
    (∀ y, F.meanU (F.length - y) = F.meanU y) ∧ F.meanU 0 = 0 ∧ F.meanU F.length = 0 ∧
    ∀ y, 30 ≤ F.reTau * (min y (F.length - y) / (F.length / 2)) → F.meanU y = F.uCl := by
  have sym : ∀ y, F.meanU (F.length - y) = F.meanU y := by
    intro y
    unfold meanU uPlus
    rw [show F.length - (F.length - y) = y from by ring, min_comm]
  have zero : F.meanU 0 = 0 := by
    unfold meanU uPlus
    rw [show F.reTau * (min 0 (F.length - 0) / (F.length / 2)) = 0 from by rw [min_eq_left (by linarith)]; ring]
    norm_num
  refine ⟨sym, zero, by rw [← zero, ← sym 0, sub_zero], fun y hy => ?_⟩
  unfold meanU uPlus
  simp only
  rw [if_neg (by linarith), if_neg (by rintro ⟨-, h⟩; linarith)]
  exact div_mul_cancel₀ _ (by positivity)

/-- a flow for which `y⁺` is at least 30 somewhere -/
example : (30 : ℝ) ≤ 180 * (min (1 / 2) (1 - 1 / 2) / (1 / 2)) := by norm_num

/-- **C122 fails**: the driver sets the characteristic length to 1, for a channel of height `2 delta`.  With the default values of all options
(`Re_tau = 180`, `U_cl = 10`, `delta = 1`, `Re_cl = 3300`) the initial mean velocity at the upper wall is below `-39` times the centre line velocity. -/
theorem C122_profile_fails (ref rep : ℕ) (z : ℝ) :
    (driver 180 10 1 3300 ref rep).meanVelocity ![0, 2 * 1, z] 0 < -39 * 10 := by
  have hU : (driver 180 10 1 3300 ref rep).meanU (2 * 1) = -(4320 / 11) := by
    unfold meanU uPlus driver
    norm_num
  show (driver 180 10 1 3300 ref rep).meanU (2 * 1) + 6 / 100 * 10 * sin (4 * 0) + 5 / 100 * cos 0 * cos (2 * 1) < -39 * 10
  rw [hU, mul_zero, sin_zero, cos_zero]
  have := cos_le_one (2 * 1)
  generalize cos (2 * 1) = c at this ⊢
  linarith

/-- **C122** (force) The body force balances the wall shear stress `u_tau ^ 2` with `u_tau = Re_tau nu / delta` on both walls. -/
theorem C122_force {K : Type*} [Field K] [CharZero K] (reTau viscosity height : K) (hh : height ≠ 0) :
    bodyForce reTau viscosity height * height = 2 * (reTau * viscosity / (height / 2)) ^ 2 := by
  unfold bodyForce
  field_simp

end Flow

end NATriuM.Channel
