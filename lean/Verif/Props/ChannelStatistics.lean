import Verif.Model.ChannelStatistics
import Verif.Props.Distributions
import Verif.Props.ThermalStep
import Mathlib.Algebra.BigOperators.Group.List.Lemmas
import Mathlib.Tactic.Positivity
import Mathlib.Tactic.FieldSimp

/-!
# Properties C123–C126: statistics over planes, averages over time and adaptive forcing of the turbulent channel
-/

namespace NATriuM.Channel

open NATriuM.Spec

variable {K : Type*} [Field K] [LinearOrder K] [IsStrictOrderedRing K]

/-! ## C123 -/

/-- Coordinates of different planes differ by more than the tolerance, those of the same plane are equal. -/
def Separated (ys : List K) : Prop := ∀ a ∈ ys, ∀ b ∈ ys, a ≠ b → 1 / 10 ^ 6 < |a - b|

/-- arithmetic mean -/
def mean (values : List K) : K := values.sum / values.length

theorem sameKey_self (a : K) : sameKey a a = true := by simp [sameKey, less]

theorem sameKey_iff {a b : K} (h : a ≠ b → 1 / 10 ^ 6 < |a - b|) : sameKey a b = true ↔ a = b := by
  constructor
  · intro hs
    by_contra hne
    have h1 := h hne
    have h2 : 1 / 10 ^ 6 < |b - a| := by rwa [abs_sub_comm]
    unfold sameKey less at hs
    rw [Bool.and_eq_true, Bool.not_eq_true', Bool.not_eq_true', Bool.and_eq_false_iff, Bool.and_eq_false_iff, decide_eq_false_iff_not,
      decide_eq_false_iff_not, decide_eq_false_iff_not, decide_eq_false_iff_not] at hs
    rcases lt_or_gt_of_ne hne with hlt | hlt
    · exact hs.1.elim (fun h => h h1) fun h => h hlt
    · exact hs.2.elim (fun h => h h2) fun h => h hlt
  · rintro rfl; exact sameKey_self a

theorem insertKeys_spec (ys keys : List K) (hs : Separated (ys ++ keys)) :
    (∀ y, y ∈ ys.foldl insertKey keys ↔ y ∈ ys ∨ y ∈ keys) := by
  induction ys generalizing keys with
  | nil => intro y; simp
  | cons x xs ih =>
    intro y
    have hmem : ∀ z, z ∈ insertKey keys x ↔ z = x ∨ z ∈ keys := by
      intro z
      unfold insertKey
      split
      · rename_i hany
        obtain ⟨k, hk, hsk⟩ := List.any_eq_true.mp hany
        have hxk : x = k := (sameKey_iff (hs x (by simp) k (by simp [hk]))).mp hsk
        subst hxk
        constructor
        · intro h; exact .inr h
        · rintro (rfl | h)
          · exact hk
          · exact h
      · simp only [List.mem_append, List.mem_singleton]; tauto
    rw [List.foldl_cons, ih (insertKey keys x) (fun a ha b hb => hs a ?_ b ?_)]
    · rw [hmem]; simp only [List.mem_cons]; tauto
    · rcases List.mem_append.mp ha with ha | ha
      · simp [ha]
      · rcases (hmem a).mp ha with rfl | ha <;> simp [*]
    · rcases List.mem_append.mp hb with hb | hb
      · simp [hb]
      · rcases (hmem b).mp hb with rfl | hb <;> simp [*]

theorem localCoordinates_mem (ys : List K) (hs : Separated ys) (y : K) : y ∈ localCoordinates ys ↔ y ∈ ys := by
  unfold localCoordinates
  rw [insertKeys_spec ys [] (by simpa using hs)]
  simp

omit [IsStrictOrderedRing K] in
theorem indexMap_foldl (l acc : List (K × ℕ)) (h : ((acc ++ l).map Prod.fst).Pairwise fun a b => sameKey b a = false) :
    l.foldl (fun m p => if m.any fun q => sameKey p.1 q.1 then m else m ++ [p]) acc = acc ++ l := by
  induction l generalizing acc with
  | nil => simp
  | cons p l ih =>
    have hnot : ¬ (acc.any fun q => sameKey p.1 q.1) = true := by
      intro hany
      obtain ⟨q, hq, hs⟩ := List.any_eq_true.mp hany
      rw [List.map_append, List.pairwise_append] at h
      have := h.2.2 q.1 (List.mem_map_of_mem hq) p.1 (List.mem_map_of_mem List.mem_cons_self)
      rw [hs] at this; cases this
    rw [List.foldl_cons, if_neg hnot, ih (acc ++ [p]) (by simpa using h)]
    simp

theorem indexOf_spec (coords : List K) (hsorted : coords.Pairwise (· < ·)) (hs : Separated coords) (y : K) (hy : y ∈ coords) (i : ℕ) :
    indexOf coords y = some i ↔ coords[i]? = some y := by
  have hmap : indexMap coords = coords.zipIdx := by
    unfold indexMap
    have := indexMap_foldl coords.zipIdx [] (by
      simp only [List.nil_append, List.zipIdx_map_fst]
      refine hsorted.imp_of_mem fun {a b} ha hb hab => ?_
      rw [Bool.eq_false_iff]
      intro h
      exact hab.ne' ((sameKey_iff (hs b hb a ha)).mp h))
    simpa using this
  have hnd : coords.Nodup := hsorted.imp fun h => h.ne
  unfold indexOf
  rw [hmap]
  obtain ⟨j, hj, rfl⟩ := List.mem_iff_getElem.mp hy
  have hfind : (coords.zipIdx.find? fun q => sameKey coords[j] q.1) = some (coords[j], j) := by
    rw [List.find?_eq_some_iff_getElem]
    refine ⟨sameKey_self _, j, by simpa using hj, by simp, fun k hk => ?_⟩
    simp only [List.getElem_zipIdx, Bool.not_eq_true']
    rw [Bool.eq_false_iff]
    intro h
    have := (sameKey_iff (hs coords[j] hy _ (List.getElem_mem _))).mp h
    exact absurd ((List.Nodup.getElem_inj_iff hnd).mp this) (by omega)
  rw [hfind]
  simp only [Option.map_some, Option.some.injEq]
  constructor
  · rintro rfl; exact List.getElem?_eq_getElem hj
  · intro h
    have hi : i < coords.length := by
      by_contra hge; rw [List.getElem?_eq_none (by omega)] at h; cases h
    rw [List.getElem?_eq_getElem hi, Option.some.injEq] at h
    exact ((List.Nodup.getElem_inj_iff hnd).mp h).symm

omit [IsStrictOrderedRing K] in
theorem planeAverage_flatten (coords : List K) (processes : List (List (K × K))) (i : ℕ) :
    planeAverage coords processes i =
      let vs := (processes.flatten.filter fun v => indexOf coords v.1 = some i).map Prod.snd
      if vs.length = 0 then none else some (mean vs) := by
  unfold planeAverage mean
  have h1 : ((processes.map fun visits => visits.filter fun v => decide (indexOf coords v.1 = some i)).map List.length).sum =
      ((processes.flatten.filter fun v => decide (indexOf coords v.1 = some i)).map Prod.snd).length := by
    rw [List.length_map, ← List.length_flatten, List.filter_flatten]
  have h2 : ((processes.map fun visits => visits.filter fun v => decide (indexOf coords v.1 = some i)).map fun visits => (visits.map Prod.snd).sum).sum =
      ((processes.flatten.filter fun v => decide (indexOf coords v.1 = some i)).map Prod.snd).sum := by
    rw [List.filter_flatten, List.map_flatten, List.sum_flatten, List.map_map, List.map_map, List.map_map]
    rfl
  simp only [h1, h2]

/-- **C123** (planes) If coordinates of the same plane are equal as numbers, and each process has a cell, the planes are listed in ascending order and in each
of them the average is the arithmetic mean of what all processes have in this plane, however the cells are distributed. -/
theorem C123_planes_partial (processes : List (List (K × K))) (hne : ∀ p ∈ processes, p ≠ []) (hs : Separated (processes.flatten.map Prod.fst)) :
    ∃ coords avgs, planeAverages processes = .ok (coords, avgs) ∧ coords.Pairwise (· < ·) ∧
      (∀ y, y ∈ coords ↔ ∃ v ∈ processes.flatten, v.1 = y) ∧ avgs.length = coords.length ∧
      ∀ (i : ℕ) (y : K), coords[i]? = some y → avgs[i]? = some (some (mean ((processes.flatten.filter fun v => v.1 = y).map Prod.snd))) := by
  set ls := (processes.map fun visits => visits.map Prod.fst).map localCoordinates with hls
  have hsub : ∀ p ∈ processes, Separated (p.map Prod.fst) := by
    intro p hp a ha b hb
    have up : ∀ c, c ∈ p.map Prod.fst → c ∈ processes.flatten.map Prod.fst := by
      intro c hc
      obtain ⟨v, hv, rfl⟩ := List.mem_map.mp hc
      exact List.mem_map_of_mem (List.mem_flatten.mpr ⟨p, hp, hv⟩)
    exact hs a (up a ha) b (up b hb)
  have hmem : ∀ y, y ∈ ls.flatten ↔ ∃ v ∈ processes.flatten, v.1 = y := by
    intro y
    rw [hls, List.map_map]
    simp only [List.mem_flatten, List.mem_map, Function.comp]
    constructor
    · rintro ⟨l, ⟨p, hp, rfl⟩, hy⟩
      rw [localCoordinates_mem _ (hsub p hp)] at hy
      obtain ⟨v, hv, rfl⟩ := List.mem_map.mp hy
      exact ⟨v, ⟨p, hp, hv⟩, rfl⟩
    · rintro ⟨v, ⟨p, hp, hv⟩, rfl⟩
      exact ⟨_, ⟨p, hp, rfl⟩, (localCoordinates_mem _ (hsub p hp) _).mpr (List.mem_map_of_mem hv)⟩
  have hempty : ls.any List.isEmpty = false := by
    rw [List.any_eq_false]
    intro l hl he
    rw [hls, List.map_map] at hl
    obtain ⟨p, hp, rfl⟩ := List.mem_map.mp hl
    obtain ⟨v, hv⟩ := List.exists_mem_of_ne_nil p (hne p hp)
    have := (localCoordinates_mem _ (hsub p hp) v.1).mpr (List.mem_map_of_mem hv)
    rw [List.isEmpty_iff] at he
    simp only [Function.comp] at he
    rw [he] at this
    cases this
  set coords := ls.flatten.dedup.insertionSort (· ≤ ·) with hc
  have hcoord : coordinates (processes.map fun visits => visits.map Prod.fst) = .ok coords := by
    unfold coordinates
    simp only
    rw [← hls, hempty]
    rfl
  have hcm : ∀ y, y ∈ coords ↔ ∃ v ∈ processes.flatten, v.1 = y := by
    intro y
    rw [hc, List.mem_insertionSort, List.mem_dedup, hmem]
  have hsorted : coords.Pairwise (· < ·) := by
    have h1 : coords.Pairwise (· ≤ ·) := List.pairwise_insertionSort _ _
    have h2 : coords.Nodup := (List.perm_insertionSort (· ≤ ·) _).nodup_iff.mpr (List.nodup_dedup _)
    exact (h1.and h2).imp fun h => lt_of_le_of_ne h.1 h.2
  have hsc : Separated coords := by
    intro a ha b hb
    obtain ⟨v, hv, rfl⟩ := (hcm a).mp ha
    obtain ⟨w, hw, rfl⟩ := (hcm b).mp hb
    exact hs _ (List.mem_map_of_mem hv) _ (List.mem_map_of_mem hw)
  refine ⟨coords, (List.range coords.length).map (planeAverage coords processes), ?_, hsorted, hcm, by simp, fun i y hi => ?_⟩
  · unfold planeAverages; rw [hcoord]
  have hil : i < coords.length := by
    by_contra hge; rw [List.getElem?_eq_none (by omega)] at hi; cases hi
  rw [List.getElem?_map, List.getElem?_range hil, Option.map_some, planeAverage_flatten]
  have hfilter : (processes.flatten.filter fun v => decide (indexOf coords v.1 = some i)) = processes.flatten.filter fun v => decide (v.1 = y) := by
    refine List.filter_congr fun v hv => ?_
    rw [decide_eq_decide, indexOf_spec coords hsorted hsc v.1 ((hcm _).mpr ⟨v, hv, rfl⟩) i, hi, Option.some.injEq]
    exact eq_comm
  simp only [hfilter]
  rw [if_neg]
  have hy : y ∈ coords := List.mem_of_getElem? hi
  obtain ⟨v, hv, hvy⟩ := (hcm y).mp hy
  intro h0
  rw [List.length_map, List.length_eq_zero_iff] at h0
  have : v ∈ processes.flatten.filter fun v => decide (v.1 = y) := List.mem_filter.mpr ⟨hv, by simpa using hvy⟩
  rw [h0] at this
  cases this

/-- two processes with three planes -/
example : ∃ processes : List (List (ℚ × ℚ)), processes = [[(0, 1), (1, 3)], [(1, 5), (2, 7)]] ∧ (∀ p ∈ processes, p ≠ []) ∧
    planeAverages processes = .ok ([0, 1, 2], [some 1, some 4, some 7]) := ⟨_, rfl, by decide, by decide +kernel⟩

example : Separated ([0, 1, 1, 2] : List ℚ) := by unfold Separated; decide +kernel

/-- **C123 fails** If coordinates of a plane differ by rounding, one process gives an average for the plane, two processes give two planes, and the average
in one of them is `0/0`. -/
theorem C123_planes_fails :
    planeAverages [[((0 : ℚ), 1), (1 / 10 ^ 15, 3)]] = .ok ([0], [some 2]) ∧
    planeAverages [[((0 : ℚ), 1)], [(1 / 10 ^ 15, 3)]] = .ok ([0, 1 / 10 ^ 15], [some 2, none]) := by
  constructor <;> decide +kernel

omit [IsStrictOrderedRing K] in
/-- **C123 fails** A process without cells has no first coordinate to fill up with. -/
theorem C123_empty_process_fails (visits : List (K × K)) (h : visits ≠ []) : planeAverages [visits, []] = .error .bounds := by
  have hl : (localCoordinates (visits.map Prod.fst)).isEmpty = false := by
    rw [List.isEmpty_eq_false_iff]
    obtain ⟨v, vs, rfl⟩ := List.exists_cons_of_ne_nil h
    unfold localCoordinates
    rw [List.map_cons, List.foldl_cons]
    have hk : ∀ (ys keys : List K), keys ≠ [] → ys.foldl insertKey keys ≠ [] := by
      intro ys
      induction ys with
      | nil => intro keys hk; exact hk
      | cons y ys ih =>
        intro keys hk
        rw [List.foldl_cons]
        refine ih _ ?_
        unfold insertKey
        split
        · exact hk
        · simp
    refine hk _ _ ?_
    simp [insertKey]
  unfold planeAverages coordinates
  simp only [List.map_cons, List.map_nil, List.any_cons, List.any_nil, hl]
  rfl

/-! ## C124 -/

theorem temporal_foldl (samples : List K) (a : K) (n : ℕ) :
    let r := samples.foldl addToTemporalAverage (a, n)
    r.2 = n + samples.length ∧ r.1 * r.2 = a * n + samples.sum := by
  induction samples generalizing a n with
  | nil => simp
  | cons x xs ih =>
    obtain ⟨h1, h2⟩ := ih ((a * n + x) / (n + 1)) (n + 1)
    refine ⟨?_, ?_⟩
    · rw [List.foldl_cons]; show (xs.foldl addToTemporalAverage ((a * n + x) / (n + 1), n + 1)).2 = _; rw [h1, List.length_cons]; omega
    · rw [List.foldl_cons, List.sum_cons]
      have hn : ((n : K) + 1) ≠ 0 := by positivity
      have e : (a * n + x) / ((n : K) + 1) * ((n + 1 : ℕ) : K) = a * n + x := by push_cast; exact div_mul_cancel₀ _ hn
      calc _ = (a * n + x) / (n + 1) * ((n + 1 : ℕ) : K) + xs.sum := h2
        _ = _ := by rw [e]; ring

/-- **C124** The averages over time are the arithmetic means of all samples taken so far, and `n_steps` is their number. -/
theorem C124_temporal (samples : List K) (h : samples ≠ []) : temporalAverage samples = (mean samples, samples.length) := by
  obtain ⟨h1, h2⟩ := temporal_foldl samples 0 0
  have hl : (samples.length : K) ≠ 0 := by
    have := List.length_pos_of_ne_nil h
    positivity
  refine Prod.ext ?_ (by rw [temporalAverage, h1]; simp)
  show (samples.foldl addToTemporalAverage (0, 0)).1 = samples.sum / samples.length
  rw [eq_div_iff hl]
  rw [h1] at h2
  simpa using h2

example : temporalAverage [(1 : ℚ), 2, 6] = (3, 3) := by decide +kernel

/-! ## C125 -/

/-- **C125** (bounds) With a force of the problem that is not negative, the controlled force always lies between `-2` and `5` times that force. -/
theorem C125_bounds_partial (start target : K) (h0 : 0 ≤ start) (measured : List K) :
    -2 * start ≤ (control start target measured).force ∧ (control start target measured).force ≤ 5 * start := by
  unfold control
  suffices ∀ s : Control K, (-2 * start ≤ s.force ∧ s.force ≤ 5 * start) →
      -2 * start ≤ (measured.foldl (calculateForce start target) s).force ∧ (measured.foldl (calculateForce start target) s).force ≤ 5 * start from
    this _ ⟨by show -2 * start ≤ start; linarith, by show start ≤ 5 * start; linarith⟩
  induction measured with
  | nil => intro s hs; exact hs
  | cons m ms ih =>
    intro s _
    rw [List.foldl_cons]
    refine ih _ ?_
    unfold calculateForce limitForce
    simp only
    split <;> split <;> constructor <;> linarith

omit [IsStrictOrderedRing K] in
/-- **C125** (law) The controller is proportional and integral: after any history the integral is the sum of all deviations, and the force is
`50 e + 0.05 Σ e`, within the bounds. -/
theorem C125_law (start target : K) (measured : List K) (m : K) :
    (control start target (measured ++ [m])).integral = ((measured ++ [m]).map (target - ·)).sum ∧
    (control start target (measured ++ [m])).force =
      limitForce start (50 * (target - m) + 5 / 100 * ((measured ++ [m]).map (target - ·)).sum) := by
  have hint : ∀ (l : List K) (s : Control K), (l.foldl (calculateForce start target) s).integral = s.integral + (l.map (target - ·)).sum := by
    intro l
    induction l with
    | nil => intro s; simp
    | cons x xs ih =>
      intro s
      rw [List.foldl_cons, ih, List.map_cons, List.sum_cons]
      show s.integral + (target - x) + _ = _
      ring
  have h1 : (control start target (measured ++ [m])).integral = ((measured ++ [m]).map (target - ·)).sum := by
    unfold control; rw [hint]; simp
  refine ⟨h1, ?_⟩
  rw [← h1]
  unfold control
  rw [List.foldl_append, List.foldl_cons, List.foldl_nil]
  unfold calculateForce
  simp only [add_zero]

/-- **C125 fails** (balance): a flow that is driven by the force of the problem and has the desired momentum loses its force. -/
theorem C125_balance_fails (start target : K) (h0 : 0 < start) (n : ℕ) :
    (control start target (List.replicate (n + 1) target)).force = 0 := by
  have h := (C125_law start target (List.replicate n target) target).2
  rw [← List.replicate_succ' ] at h
  rw [h]
  simp only [List.map_replicate, sub_self, List.sum_replicate, smul_zero, mul_zero, add_zero]
  unfold limitForce
  simp only
  rw [if_neg (by linarith : ¬ (0 : K) > 5 * start), if_neg (by linarith)]

/-- **C125 fails** (direction): for a force of the problem against the first axis the two bounds exclude each other, and the force is always
directed along the axis, whatever is measured. -/
theorem C125_negative_fails (start target : K) (h0 : start < 0) (measured : List K) (m : K) :
    (control start target (measured ++ [m])).force = -2 * start := by
  rw [(C125_law start target measured m).2]
  generalize 50 * (target - m) + 5 / 100 * ((measured ++ [m]).map (target - ·)).sum = x
  unfold limitForce
  simp only
  split
  · rw [if_pos (by linarith)]
  · rw [if_pos (by linarith)]

/-! ## C126 -/

theorem heightMean_scale (c : K) (ps : List (K × K)) : heightMean (ps.map fun p => (p.1, c * p.2)) = c * heightMean ps := by
  induction ps with
  | nil => simp [heightMean]
  | cons p ps ih =>
    cases ps with
    | nil => simp [heightMean]
    | cons q qs =>
      have e : heightMean ((p :: q :: qs).map fun p => (p.1, c * p.2)) =
          |q.1 - p.1| * (1 / 2) * (c * p.2 + c * q.2) / 2 + heightMean ((q :: qs).map fun p => (p.1, c * p.2)) := rfl
      rw [e, ih]
      show _ = c * (|q.1 - p.1| * (1 / 2) * (p.2 + q.2) / 2 + heightMean (q :: qs))
      ring

/-- **C126** (density) After rescaling, the mean density over the height is one, if the planes have the averages of before, scaled by the same factor; and all
populations `f` of owned nodes are scaled by it, so that velocities stay. -/
theorem C126_density_partial {N : Type*} [DecidableEq N] (planes : List (K × K)) (h : heightMean planes ≠ 0) (f g : Distributions (N → K)) (owned : List N)
    (hn : owned.Nodup) :
    ∃ f', rescaleDensity (heightMean planes) f g owned = some (f', g) ∧
      (∀ j, f'.at? j = (f.at? j).map fun v k => if k ∈ owned then 1 / heightMean planes * v k else v k) ∧
      heightMean (planes.map fun p => (p.1, 1 / heightMean planes * p.2)) = 1 := by
  refine ⟨f.scaleF (1 / heightMean planes) owned, by unfold rescaleDensity; rw [if_neg h], fun j => Distributions.C42_scaleF f _ owned hn j, ?_⟩
  rw [heightMean_scale]
  field_simp

/-- **C126** (height) For a uniform density the mean is that density times half of the height, so it is the density for channels of height 2 only. -/
theorem C126_height (rho y0 : K) (ys : List K) (hs : (y0 :: ys).Pairwise (· < ·)) :
    heightMean ((y0 :: ys).map fun y => (y, rho)) = rho * ((y0 :: ys).getLast (by simp) - y0) / 2 := by
  induction ys generalizing y0 with
  | nil => simp [heightMean]
  | cons y1 ys ih =>
    have h01 : y0 < y1 := (List.pairwise_cons.mp hs).1 y1 (by simp)
    have e : heightMean ((y0 :: y1 :: ys).map fun y => (y, rho)) =
        |y1 - y0| * (1 / 2) * (rho + rho) / 2 + heightMean ((y1 :: ys).map fun y => (y, rho)) := rfl
    rw [e, ih y1 (List.pairwise_cons.mp hs).2, abs_of_pos (by linarith), List.getLast_cons (by simp : y1 :: ys ≠ [])]
    ring

/-- three planes between 0 and 2 -/
example : heightMean [((0 : ℚ), 3), (1 / 2, 3), (2, 3)] = 3 := by decide +kernel

omit [LinearOrder K] [IsStrictOrderedRing K] in
/-- **C126 fails** (temperature): as `g` is not scaled, the temperature of a node changes whenever the density is rescaled. -/
theorem C126_temperature_fails [CharZero K] {Q : ℕ} (S : Stencil K 3 Q) (hc : S.cs2 ≠ 0) (f g : Fin Q → K) (hm : mass f ≠ 0) (hg : mass g ≠ 0) (c : K)
    (h0 : c ≠ 0) (h1 : c ≠ 1) :
    temperature S.dir S.cs2 (14 / 10) (fun i => c * f i) g =
      temperature S.dir S.cs2 (14 / 10) f g + (1 / c - 1) * (mass g / mass f) / 5 ∧
    temperature S.dir S.cs2 (14 / 10) (fun i => c * f i) g ≠ temperature S.dir S.cs2 (14 / 10) f g := by
  have hmass : mass (fun i => c * f i) = c * mass f := by unfold mass; rw [Finset.mul_sum]
  have hth : translationalTemperature S.dir S.cs2 (fun i => c * f i) = translationalTemperature S.dir S.cs2 f := by
    have h2 : ∀ a b, momentumFlux S.dir (fun i => c * f i) a b = c * momentumFlux S.dir f a b := by
      intro a b; unfold momentumFlux; rw [Finset.mul_sum]; exact Finset.sum_congr rfl fun i _ => by ring
    have h3 : ∀ a, momentum S.dir (fun i => c * f i) a = c * momentum S.dir f a := by
      intro a; unfold momentum; rw [Finset.mul_sum]; exact Finset.sum_congr rfl fun i _ => by ring
    unfold translationalTemperature
    simp only [h2, h3, hmass]
    rw [← Finset.mul_sum, show (∑ a, c * momentum S.dir f a * (c * momentum S.dir f a)) = c * (c * ∑ a, momentum S.dir f a * momentum S.dir f a) from by
      rw [← mul_assoc, Finset.mul_sum]; exact Finset.sum_congr rfl fun i _ => by ring]
    field_simp
  have e : temperature S.dir S.cs2 (14 / 10) (fun i => c * f i) g =
      temperature S.dir S.cs2 (14 / 10) f g + (1 / c - 1) * (mass g / mass f) / 5 := by
    rw [Walls.temperature_split S hc _ g (by rw [hmass]; exact mul_ne_zero h0 hm), Walls.temperature_split S hc f g hm, hth, hmass]
    field_simp
    ring
  refine ⟨e, ?_⟩
  rw [e]
  intro h
  have hz : (1 / c - 1) * (mass g / mass f) / 5 = 0 := by linear_combination h
  have h5 : (5 : K) ≠ 0 := by norm_num
  rcases mul_eq_zero.mp ((div_eq_zero_iff.mp hz).resolve_right h5) with h6 | h6
  · exact h1 (by field_simp at h6; linear_combination -h6)
  · exact (div_ne_zero hg hm) h6

/-! ## C122: monitored planes -/

/-- **C122** (monitors) In a channel of height 1, the planes that are monitored are the images of the middle, of 1/8 and of 1/32 of the height under the
transformation of the mesh; the first is the middle of the channel. -/
theorem C122_monitors_partial : monitoredPlanes 1 = [1 / 2, 1 / 8, 1 / 32].map (MeshTransform.channelTrans 1 (8 / 10)) ∧ (monitoredPlanes 1).head? = some (1 / 2) := by
  refine ⟨rfl, ?_⟩
  show some (MeshTransform.channelTrans 1 (8 / 10) (1 / 2)) = _
  unfold MeshTransform.channelTrans
  rw [show 2 * (1 / 2 : ℝ) * Real.pi = Real.pi from by ring, Real.sin_pi]
  norm_num

/-- **C122 fails** (monitors): the transformation expects coordinates of the unit cube.  With the default half width `delta = 1` the plane that should be
the middle of the channel, at height 1, is the upper wall. -/
theorem C122_monitors_fails : (monitoredPlanes (2 * 1)).head? = some (2 * 1) ∧ MeshTransform.channelTrans (2 * 1) (8 / 10) (1 / 2) = 1 := by
  constructor
  · show some (MeshTransform.channelTrans (2 * 1) (8 / 10) (2 * 1 / 2)) = _
    unfold MeshTransform.channelTrans
    rw [show 2 * (2 * 1 / 2 : ℝ) * Real.pi = 2 * Real.pi from by ring, Real.sin_two_pi]
    norm_num
  · unfold MeshTransform.channelTrans
    rw [show 2 * (1 / 2 : ℝ) * Real.pi = Real.pi from by ring, Real.sin_pi]
    norm_num

end NATriuM.Channel
