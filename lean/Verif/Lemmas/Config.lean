import Verif.Spec.Config
import Verif.Lemmas.Checkpoint
import Mathlib.Tactic.NormNum

/-!
# Lemmas on the solver configuration
-/

namespace NATriuM
namespace Config

open Checkpoint (pow_pos10 log_bounds)

/-! ## Sixteen significant digits -/

theorem sixteenDigits_eq_iff (x : ℝ) : sixteenDigits x = x ↔ ∃ m e : ℤ, |m| < 10 ^ 16 ∧ x = m * 10 ^ e := by
  unfold sixteenDigits
  split_ifs with hx
  · refine ⟨fun _ => ⟨0, 0, by norm_num, by simp [hx]⟩, fun _ => hx.symm⟩
  obtain ⟨h1, h2⟩ := log_bounds hx
  set L := Int.log 10 |x| with hL
  have hp := pow_pos10 (L - 15)
  constructor
  · intro h
    refine ⟨round (x / 10 ^ (L - 15)), L - 15, ?_, h.symm⟩
    have h3 : |x| = |(round (x / 10 ^ (L - 15)) : ℝ)| * 10 ^ (L - 15) := by
      conv_lhs => rw [← h]
      rw [abs_mul, abs_of_pos hp]
    have h4 : (10 : ℝ) ^ (L + 1) = 10 ^ 16 * 10 ^ (L - 15) := by
      rw [show L + 1 = 16 + (L - 15) by ring, zpow_add₀ (by norm_num)]; norm_num
    rw [h3, h4] at h2
    have h5 := lt_of_mul_lt_mul_right h2 hp.le
    exact_mod_cast h5
  · rintro ⟨m, e, hm, rfl⟩
    have hle : L - 15 ≤ e := by
      by_contra hcon
      have hcon : e + 16 ≤ L := by omega
      have hm' : |(m : ℝ)| < 10 ^ 16 := by exact_mod_cast hm
      have h3 : (10 : ℝ) ^ (e + 16) ≤ 10 ^ L := zpow_le_zpow_right₀ (by norm_num) hcon
      rw [abs_mul, abs_of_pos (pow_pos10 e)] at h1
      have h4 : (10 : ℝ) ^ (e + 16) = 10 ^ 16 * 10 ^ e := by rw [add_comm, zpow_add₀ (by norm_num)]; norm_num
      nlinarith [pow_pos10 e]
    obtain ⟨k, hk⟩ := Int.eq_ofNat_of_zero_le (sub_nonneg.2 hle)
    have h3 : (m : ℝ) * 10 ^ e / 10 ^ (L - 15) = ((m * 10 ^ k : ℤ) : ℝ) := by
      rw [show e = k + (L - 15) by rw [← hk]; ring, zpow_add₀ (by norm_num)]
      push_cast
      field_simp
      rw [zpow_natCast]
    rw [h3, round_intCast, ← h3]
    field_simp

/-! ## Subsections -/

theorem leave_append (h : Handler) (p subs : List String) :
    ({ h with path := p ++ subs } : Handler).leave subs.length = { h with path := p } := by
  induction subs using List.reverseRecOn with
  | nil => simp [Handler.leave]
  | append_singleton l a ih =>
    rw [List.length_append, List.length_singleton]
    simp only [Handler.leave, ← List.append_assoc, List.dropLast_concat]
    exact ih

theorem leave_enter (h : Handler) (subs : List String) : (h.enter subs).leave subs.length = h := leave_append h h.path subs

/-- The object with the value of the entry at `k` replaced. -/
def Handler.put (h : Handler) (k : List String) (v : Val) : Handler :=
  { h with entries := Function.update h.entries k ((h.entries k).map fun e => { e with value := v }) }

/-- The declared pattern of an entry. -/
def Handler.pattern (h : Handler) (k : List String) : Option Pattern := (h.entries k).map (·.pattern)

/-- The value of an entry. -/
def Handler.value (h : Handler) (k : List String) : Option Val := (h.entries k).map (·.value)

theorem set_ok {h : Handler} {name : String} {v : Val} {pt : Pattern} (hp : h.pattern (h.path ++ [name]) = some pt) (hm : pt.Match v) :
    h.set name v = .ok (h.put (h.path ++ [name]) v) := by
  unfold Handler.pattern at hp
  obtain ⟨e, he, rfl⟩ := Option.map_eq_some_iff.1 hp
  simp [Handler.set, Handler.put, he, hm]

theorem set_error {h : Handler} {name : String} {v : Val} {pt : Pattern} (hp : h.pattern (h.path ++ [name]) = some pt)
    (hm : ¬ pt.Match v) : h.set name v = .error .dealii := by
  unfold Handler.pattern at hp
  obtain ⟨e, he, rfl⟩ := Option.map_eq_some_iff.1 hp
  simp [Handler.set, he, hm]

theorem put_leave_enter (h : Handler) (subs : List String) (k : List String) (v : Val) :
    ((h.enter subs).put k v).leave subs.length = h.put k v := leave_append (h.put k v) h.path subs

/-- The full path of an entry for an object at the top level. -/
def full (k : List String × String) : List String := k.1 ++ [k.2]

variable {h : Handler} {subs : List String} {name : String} {v : Val} {pt : Pattern}

theorem enter_pattern (h0 : h.path = []) (hp : h.pattern (subs ++ [name]) = some pt) :
    (h.enter subs).pattern ((h.enter subs).path ++ [name]) = some pt := by
  simpa [Handler.enter, Handler.pattern, h0] using hp

theorem enter_path (h0 : h.path = []) : (h.enter subs).path ++ [name] = subs ++ [name] := by simp [Handler.enter, h0]

theorem guardedSet_ok (h0 : h.path = []) (hp : h.pattern (subs ++ [name]) = some pt) (hm : pt.Match v) :
    guardedSet subs name v h = (.ok (), h.put (subs ++ [name]) v) := by
  simp only [guardedSet, set_ok (enter_pattern h0 hp) hm, put_leave_enter, enter_path h0]

theorem guardedSet_error (h0 : h.path = []) (hp : h.pattern (subs ++ [name]) = some pt) (hm : ¬ pt.Match v) :
    guardedSet subs name v h = (.error .configuration, h) := by
  simp only [guardedSet, set_error (enter_pattern h0 hp) hm, leave_enter]

theorem plainSet_ok (h0 : h.path = []) (hp : h.pattern (subs ++ [name]) = some pt) (hm : pt.Match v) :
    plainSet subs name v h = (.ok (), h.put (subs ++ [name]) v) := by
  simp only [plainSet, set_ok (enter_pattern h0 hp) hm, put_leave_enter, enter_path h0]

/-! ## Invariant -/

/-- What holds between calls: no subsection is entered, the declarations are those of the constructor, values match them. -/
structure Good (h : Handler) : Prop where
  path : h.path = []
  pattern : ∀ k, h.pattern k = initial.pattern k
  value : ∀ k e, h.entries k = some e → e.pattern.Match e.value

theorem put_pattern (h : Handler) (k : List String) (v : Val) (k' : List String) : (h.put k v).pattern k' = h.pattern k' := by
  unfold Handler.put Handler.pattern
  rcases eq_or_ne k' k with rfl | hk
  · simp only [Function.update_self, Option.map_map]; rfl
  · simp [Function.update_of_ne hk]

theorem put_value (h : Handler) (k : List String) (v : Val) {pt : Pattern} (hp : h.pattern k = some pt) :
    (h.put k v).value k = some v := by
  unfold Handler.pattern at hp
  obtain ⟨e, he, -⟩ := Option.map_eq_some_iff.1 hp
  simp [Handler.put, Handler.value, he]

theorem put_entries_ne (h : Handler) (v : Val) {k k' : List String} (hk : k' ≠ k) : (h.put k v).entries k' = h.entries k' := by
  simp [Handler.put, Function.update_of_ne hk]

theorem put_path (h : Handler) (k : List String) (v : Val) : (h.put k v).path = h.path := rfl

theorem Good.put {h : Handler} (hg : Good h) {k : List String} {v : Val} {pt : Pattern} (hp : initial.pattern k = some pt)
    (hm : pt.Match v) : Good (h.put k v) where
  path := hg.path
  pattern k' := by rw [put_pattern, hg.pattern]
  value k' e he := by
    rcases eq_or_ne k' k with rfl | hk
    · rw [← hg.pattern] at hp
      unfold Handler.pattern at hp
      obtain ⟨e', he', rfl⟩ := Option.map_eq_some_iff.1 hp
      simp only [Handler.put, Function.update_self, he', Option.map_some, Option.some.injEq] at he
      subst he
      exact hm
    · rw [put_entries_ne _ _ hk] at he
      exact hg.value _ _ he

theorem initial_pattern (k : List String) : initial.pattern k = (position k).map fun i => declarations[i].pattern := by
  simp only [Handler.pattern, initial, Option.map_map]
  rfl

theorem defaults_match : ∀ i : Fin declarations.length, (declarations[i].pattern).Match (defaults.getD i (.bool false)) := by
  intro i
  fin_cases i <;> simp [declarations, defaults, Pattern.Match, Within] <;> norm_num

theorem good_initial : Good initial where
  path := rfl
  pattern _ := rfl
  value k e he := by
    simp only [initial, Option.map_eq_some_iff] at he
    obtain ⟨i, -, rfl⟩ := he
    exact defaults_match i

/-! ## Patterns of the parameters -/

/-- The pattern declared for a full path. -/
def declared (k : List String × String) : Option Pattern := (position (k.1 ++ [k.2])).map fun i => declarations[i].pattern

/-- The declared selection of an enumeration parameter. -/
def EnumParam.allowed (p : EnumParam) : List String := match declared p.key with
  | some (.selection l) => l
  | _ => []

theorem EnumParam.declared_eq (p : EnumParam) : initial.pattern (p.key.1 ++ [p.key.2]) = some (.selection p.allowed) := by
  rw [initial_pattern]
  cases p <;> decide +kernel

theorem EnumParam.set_allowed (p : EnumParam) {n : ℕ} {s : String} (hn : p.setTable.lookup n = some s) : s ∈ p.allowed := by
  have key : ∀ q ∈ p.setTable, q.2 ∈ p.allowed := by cases p <;> decide +kernel
  obtain ⟨l₁, l₂, hl, -⟩ := List.lookup_eq_some_iff.1 hn
  exact key (n, s) (by rw [hl]; simp)

theorem EnumParam.get_allowed (p : EnumParam) {s : String} (hs : s ∈ p.allowed) : ∃ n, decodeEnum p (.text s) = .ok n := by
  have key : ∀ s ∈ p.allowed, (decodeEnum p (.text s)).toOption.isSome := by cases p <;> decide +kernel
  have := key s hs
  cases hd : decodeEnum p (.text s) with
  | ok n => exact ⟨n, rfl⟩
  | error e => simp [hd, Except.toOption] at this

theorem EnumParam.roundtrip (p : EnumParam) {n : ℕ} {s : String} (hn : p.setTable.lookup n = some s) : decodeEnum p (.text s) = .ok n := by
  have key : ∀ q ∈ p.setTable, (decodeEnum p (.text q.2)).toOption = some q.1 := by cases p <;> decide +kernel
  obtain ⟨l₁, l₂, hl, -⟩ := List.lookup_eq_some_iff.1 hn
  have := key (n, s) (by rw [hl]; simp)
  cases hd : decodeEnum p (.text s) with
  | ok m => simpa [hd, Except.toOption] using this
  | error e => simp [hd, Except.toOption] at this

/-! ## Getters -/

theorem enter_get (h0 : h.path = []) (hv : h.value (subs ++ [name]) = some v) : (h.enter subs).get name = .ok v := by
  unfold Handler.value at hv
  obtain ⟨e, he, rfl⟩ := Option.map_eq_some_iff.1 hv
  simp [Handler.get, Handler.enter, h0, he]

theorem getEnum_eq (p : EnumParam) (h0 : h.path = []) (hv : h.value (p.key.1 ++ [p.key.2]) = some v) :
    getEnum p h = (decodeEnum p v, h) := by
  simp only [getEnum, enter_get h0 hv, leave_enter]

theorem guardedGet_eq {α : Type} {conv : Val → Option α} {x : α} (h0 : h.path = []) (hv : h.value (subs ++ [name]) = some v)
    (hc : conv v = some x) : guardedGet subs name conv h = (.ok x, h) := by
  simp only [guardedGet, enter_get h0 hv, hc, leave_enter]

theorem Good.entry (hg : Good h) {k : List String} (hp : initial.pattern k = some pt) : ∃ v, h.value k = some v ∧ pt.Match v := by
  rw [← hg.pattern] at hp
  unfold Handler.pattern at hp
  obtain ⟨e, he, rfl⟩ := Option.map_eq_some_iff.1 hp
  exact ⟨e.value, by simp [Handler.value, he], hg.value _ _ he⟩

theorem Good.getEnum (hg : Good h) (p : EnumParam) : ∃ n, Config.getEnum p h = (.ok n, h) := by
  obtain ⟨v, hv, hm⟩ := hg.entry p.declared_eq
  rw [getEnum_eq p hg.path hv]
  cases v with
  | text s =>
    obtain ⟨n, hn⟩ := p.get_allowed hm
    exact ⟨n, by rw [hn]⟩
  | _ => exact hm.elim

/-! ## Calls -/

theorem DblParam.declared_iff (p : DblParam) : ∃ lo hi, initial.pattern (p.key.1 ++ [p.key.2]) = some (.double lo hi) ∧
    ∀ x, Within lo hi x ↔ p.Range x := by
  cases p
  case cfl => exact ⟨some (1 / 10 ^ 10), none, by rw [initial_pattern]; decide +kernel, fun x => by simp [Within, DblParam.Range]⟩
  case heatCapacityRatioGamma =>
    exact ⟨some (1 / 10 ^ 10), none, by rw [initial_pattern]; decide +kernel, fun x => by simp [Within, DblParam.Range]⟩
  case referenceTemperature =>
    exact ⟨some (1 / 10 ^ 10), none, by rw [initial_pattern]; decide +kernel, fun x => by simp [Within, DblParam.Range]⟩
  case stencilScaling =>
    exact ⟨some (1 / 10 ^ 10), none, by rw [initial_pattern]; decide +kernel, fun x => by simp [Within, DblParam.Range]⟩
  case thetaMethodTheta => exact ⟨some 0, some 1, by rw [initial_pattern]; decide +kernel, fun x => by simp [Within, DblParam.Range]⟩
  case bgkSteadyStateGamma => exact ⟨some 0, some 1, by rw [initial_pattern]; decide +kernel, fun x => by simp [Within, DblParam.Range]⟩
  case bgkPseudopotentialG =>
    exact ⟨some (-10 ^ 10), some (10 ^ 10), by rw [initial_pattern]; decide +kernel, fun x => by simp [Within, DblParam.Range, abs_le]⟩
  case bgkPseudopotentialT =>
    exact ⟨some (-10 ^ 10), some (10 ^ 10), by rw [initial_pattern]; decide +kernel, fun x => by simp [Within, DblParam.Range, abs_le]⟩
  case exponentialFilterAlpha =>
    exact ⟨some 0, some (10 ^ 10), by rw [initial_pattern]; decide +kernel, fun x => by simp [Within, DblParam.Range]⟩
  case exponentialFilterS =>
    exact ⟨some 0, some (10 ^ 10), by rw [initial_pattern]; decide +kernel, fun x => by simp [Within, DblParam.Range]⟩
  case exponentialFilterNc =>
    exact ⟨some 0, some 50, by rw [initial_pattern]; decide +kernel, fun x => by simp [Within, DblParam.Range]⟩
  case iterativeInitializationResidual =>
    exact ⟨some (1 / 10 ^ 25), none, by rw [initial_pattern]; decide +kernel, fun x => by simp [Within, DblParam.Range]⟩
  case simulationEndTime => exact ⟨some 0, none, by rw [initial_pattern]; decide +kernel, fun x => by simp [Within, DblParam.Range]⟩
  case convergenceThreshold => exact ⟨none, none, by rw [initial_pattern]; decide +kernel, fun x => by simp [Within, DblParam.Range]⟩

theorem IntParam.declared_iff (p : IntParam) : ∃ lo hi, initial.pattern (p.key.1 ++ [p.key.2]) = some (.integer lo hi) ∧
    ∀ i, (lo ≤ i ∧ i ≤ hi) ↔ p.Range i := by
  cases p
  case commandLineVerbosity => exact ⟨0, 8, by rw [initial_pattern]; decide +kernel, fun i => Iff.rfl⟩
  case filterInterval => exact ⟨1, 10000000, by rw [initial_pattern]; decide +kernel, fun i => Iff.rfl⟩
  case restartAtIteration =>
    exact ⟨0, intMax, by rw [initial_pattern]; decide +kernel, fun i => by simp only [IntParam.Range, intMax]; omega⟩
  case wallNormalDirection => exact ⟨0, 3, by rw [initial_pattern]; decide +kernel, fun i => Iff.rfl⟩
  all_goals exact ⟨1, intMax, by rw [initial_pattern]; decide +kernel, fun i => by simp only [IntParam.Range, intMax]; omega⟩

theorem BoolParam.declared_eq (p : BoolParam) : initial.pattern (p.key.1 ++ [p.key.2]) = some .bool := by
  rw [initial_pattern]
  cases p <;> decide +kernel

theorem EnumParam.lookup_iff (p : EnumParam) (n : ℕ) : (∃ s, p.setTable.lookup n = some s) ↔ n < p.count := by
  have key : (∀ q ∈ p.setTable, q.1 < p.count) ∧ ∀ m < p.count, (p.setTable.lookup m).isSome := by cases p <;> decide +kernel
  constructor
  · rintro ⟨s, hs⟩
    obtain ⟨l₁, l₂, hl, -⟩ := List.lookup_eq_some_iff.1 hs
    exact key.1 (n, s) (by rw [hl]; simp)
  · intro hn
    exact Option.isSome_iff_exists.1 (key.2 n hn)

theorem toVal_match (lo hi : Option ℚ) (v : Num) :
    (Pattern.double lo hi).Match v.toVal ↔ ∃ x, v = .fin x ∧ Within lo hi (sixteenDigits x) := by
  cases v <;> simp [Num.toVal, Pattern.Match]

theorem put_put_ne (h : Handler) {k k' : List String} (v v' : Val) {pt : Pattern} (hp : h.pattern k' = some pt) :
    ((h.put k v).put k' v').value k' = some v' := put_value _ _ _ (by rw [put_pattern, hp])

/-- The result of an accepted call: the entries the call touches have new values, the rest is the same. -/
structure Accepted (h : Handler) (c : Call) (h' : Handler) : Prop where
  good : Good h'
  frame : ∀ k ∉ c.touches, h'.entries k = h.entries k

theorem setAll_ok : ∀ (l : List (String × Num)) (h : Handler),
    (∀ q ∈ l, ∃ lo hi, h.pattern (h.path ++ [q.1]) = some (.double lo hi) ∧ (Pattern.double lo hi).Match q.2.toVal) →
    setAll l h = (.ok (), l.foldl (fun h q => h.put (h.path ++ [q.1]) q.2.toVal) h)
  | [], _, _ => rfl
  | (n, v) :: l, h, hl => by
    obtain ⟨lo, hi, hp, hm⟩ := hl (n, v) (by simp)
    simp only [setAll, set_ok hp hm, List.foldl_cons]
    exact setAll_ok l _ fun q hq => by
      obtain ⟨lo, hi, hp, hm⟩ := hl q (List.mem_cons_of_mem _ hq)
      exact ⟨lo, hi, by rw [put_pattern]; exact hp, hm⟩

theorem foldl_put_path (l : List (String × Num)) (h : Handler) :
    (l.foldl (fun h q => h.put (h.path ++ [q.1]) q.2.toVal) h).path = h.path := by
  induction l generalizing h with
  | nil => rfl
  | cons q l ih => rw [List.foldl_cons, ih]; rfl

theorem foldl_put_pattern (l : List (String × Num)) (h : Handler) (k : List String) :
    (l.foldl (fun h q => h.put (h.path ++ [q.1]) q.2.toVal) h).pattern k = h.pattern k := by
  induction l generalizing h with
  | nil => rfl
  | cons q l ih => rw [List.foldl_cons, ih, put_pattern]

theorem foldl_put_entries (l : List (String × Num)) (h : Handler) (k : List String) (hk : ∀ q ∈ l, k ≠ h.path ++ [q.1]) :
    (l.foldl (fun h q => h.put (h.path ++ [q.1]) q.2.toVal) h).entries k = h.entries k := by
  induction l generalizing h with
  | nil => rfl
  | cons q l ih =>
    rw [List.foldl_cons, ih (h.put (h.path ++ [q.1]) q.2.toVal) fun r hr => hk r (List.mem_cons_of_mem _ hr), put_entries_ne _ _ (hk q (by simp))]

theorem foldl_put_value (l : List (String × Num)) (h : Handler)
    (hl : ∀ q ∈ l, ∀ pt, h.pattern (h.path ++ [q.1]) = some pt → pt.Match q.2.toVal)
    (hv : ∀ k e, h.entries k = some e → e.pattern.Match e.value) (k : List String) (e : Entry)
    (he : (l.foldl (fun h q => h.put (h.path ++ [q.1]) q.2.toVal) h).entries k = some e) : e.pattern.Match e.value := by
  induction l generalizing h with
  | nil => exact hv k e he
  | cons q l ih =>
    rw [List.foldl_cons] at he
    refine ih _ (fun r hr pt hp => ?_) (fun k' e' he' => ?_) he
    · rw [put_pattern] at hp
      exact hl r (List.mem_cons_of_mem _ hr) pt hp
    · rcases eq_or_ne k' (h.path ++ [q.1]) with rfl | hk
      · simp only [Handler.put, Function.update_self, Option.map_eq_some_iff] at he'
        obtain ⟨e'', h1, rfl⟩ := he'
        exact hl q (by simp) _ (by simp [Handler.pattern, h1])
      · rw [put_entries_ne _ _ hk] at he'
        exact hv k' e' he'

theorem embedded_declared : ∀ n ∈ embeddedNames, ∃ lo hi, initial.pattern (["Advection", "Embedded Parameters"] ++ [n]) = some (.double lo hi) := by
  intro n hn
  simp only [embeddedNames, List.mem_cons, List.not_mem_nil, or_false] at hn
  simp only [initial_pattern]
  rcases hn with rfl | rfl | rfl | rfl | rfl | rfl
  · exact ⟨some 1, some 1000, by decide +kernel⟩
  · exact ⟨some 0, some 1, by decide +kernel⟩
  all_goals exact ⟨none, none, by decide +kernel⟩

theorem exec_ok (hg : Good h) (c : Call) (hc : c.InRange) : ∃ h', exec c h = (.ok (), h') ∧ Accepted h c h' := by
  have one : ∀ {k : List String} {v : Val} {pt : Pattern}, initial.pattern k = some pt → pt.Match v → c.touches = [k] →
      Accepted h c (h.put k v) := fun hp hm ht =>
    ⟨hg.put hp hm, fun k' hk' => put_entries_ne _ _ (by simpa [ht] using hk')⟩
  cases c with
  | enum p n =>
    obtain ⟨s, hs⟩ := (p.lookup_iff n).2 hc
    have hp := p.declared_eq
    have hm : (Pattern.selection p.allowed).Match (.text s) := p.set_allowed hs
    exact ⟨_, by simp only [exec, setEnum, hs]; exact plainSet_ok hg.path (by rw [hg.pattern, hp]) hm, one hp hm rfl⟩
  | dbl p v =>
    obtain ⟨lo, hi, hp, hw⟩ := p.declared_iff
    obtain ⟨x, rfl, hx⟩ := hc
    have hm : (Pattern.double lo hi).Match (Num.fin x).toVal := (hw _).2 hx
    exact ⟨_, guardedSet_ok hg.path (by rw [hg.pattern, hp]) hm, one hp hm rfl⟩
  | int p i =>
    obtain ⟨lo, hi, hp, hw⟩ := p.declared_iff
    have hm : (Pattern.integer lo hi).Match (.int i) := (hw _).2 hc
    exact ⟨_, guardedSet_ok hg.path (by rw [hg.pattern, hp]) hm, one hp hm rfl⟩
  | bool p b =>
    have hp := p.declared_eq
    exact ⟨_, plainSet_ok (pt := .bool) hg.path (by rw [hg.pattern, hp]) (v := .bool b) trivial, one (v := .bool b) hp trivial rfl⟩
  | outputDirectory s =>
    have hp : initial.pattern (["Output"] ++ ["Output directory"]) = some .directoryName := by rw [initial_pattern]; decide +kernel
    exact ⟨_, guardedSet_ok (pt := .directoryName) hg.path (by rw [hg.pattern, hp]) (v := .text s) trivial, one (v := .text s) hp trivial rfl⟩
  | sutherlandLaw =>
    have hp : initial.pattern (["General"] ++ ["Sutherland law set"]) = some .bool := by rw [initial_pattern]; decide +kernel
    exact ⟨_, guardedSet_ok (pt := .bool) hg.path (by rw [hg.pattern, hp]) (v := .bool true) trivial, one (v := .bool true) hp trivial rfl⟩
  | prandtlNumber v =>
    obtain ⟨x, rfl, hx⟩ := hc
    have hp : initial.pattern (["General"] ++ ["Prandtl"]) = some (.double (some (1 / 10 ^ 10)) none) := by rw [initial_pattern]; decide +kernel
    have hp' : initial.pattern (["General"] ++ ["Prandtl number set"]) = some .bool := by rw [initial_pattern]; decide +kernel
    have hm : (Pattern.double (some (1 / 10 ^ 10)) none).Match (Num.fin x).toVal := by
      simpa [Pattern.Match, Num.toVal, Within] using hx
    have h1 := hg.put hp hm
    refine ⟨(h.put (["General"] ++ ["Prandtl"]) (Num.fin x).toVal).put (["General"] ++ ["Prandtl number set"]) (.bool true), ?_, ?_⟩
    · have e1 := set_ok (enter_pattern hg.path (by rw [hg.pattern, hp])) hm
      have e2 : ((h.enter ["General"]).put ((h.enter ["General"]).path ++ ["Prandtl"]) (Num.fin x).toVal).set "Prandtl number set" (.bool true)
          = .ok _ := set_ok (pt := .bool) (by
            rw [put_pattern, put_path]; exact enter_pattern hg.path (by rw [hg.pattern, hp'])) trivial
      have e3 := leave_append (((h.put (["General"] ++ ["Prandtl"]) (Num.fin x).toVal)).put (["General"] ++ ["Prandtl number set"]) (.bool true))
        h.path ["General"]
      simp only [exec, setPrandtlNumber, e1, e2]
      simp only [put_path, enter_path hg.path]
      exact congrArg _ e3
    · exact ⟨h1.put hp' trivial, fun k hk => by
        simp only [Call.touches, List.mem_cons, List.not_mem_nil, or_false, not_or] at hk
        exact (put_entries_ne _ _ hk.2).trans (put_entries_ne _ _ hk.1)⟩
  | wallNormalCoordinates l =>
    obtain ⟨hl, hx⟩ := hc
    have hp : initial.pattern (["Output", "Turbulence Statistics"] ++ ["Wall normal coordinates"]) =
        some (.doubleList (-10 ^ 10) (10 ^ 10)) := by rw [initial_pattern]; decide +kernel
    have hmap : ∃ xs, l.mapM Num.sixDigits? = some xs ∧ (Pattern.doubleList (-10 ^ 10) (10 ^ 10)).Match (.list xs) := by
      clear hl one
      induction l with
      | nil => exact ⟨[], rfl, by simp [Pattern.Match]⟩
      | cons v l ih =>
        obtain ⟨xs, h1, h2⟩ := ih fun w hw => hx w (List.mem_cons_of_mem _ hw)
        obtain ⟨x, rfl, hx'⟩ := hx v (by simp)
        refine ⟨Checkpoint.sixDigits x :: xs, by simp [List.mapM_cons, h1, Num.sixDigits?], ?_⟩
        intro y hy
        rcases List.mem_cons.1 hy with rfl | hy
        · simpa [Within, abs_le] using hx'
        · exact h2 y hy
    obtain ⟨xs, h1, hm⟩ := hmap
    refine ⟨_, ?_, one hp hm rfl⟩
    simp only [exec, setWallNormalCoordinates, if_neg hl, h1]
    exact guardedSet_ok hg.path (by rw [hg.pattern, hp]) hm
  | embedded v =>
    obtain ⟨hf, ⟨x0, h0, a0, b0⟩, x1, h1, a1, b1⟩ := hc
    set l := embeddedNames.zip (List.ofFn v) with hl
    have hl' : l = [("Coarsen parameter", v 0), ("Refinement parameter", v 1), ("Minimum CFL", v 2), ("Maximum CFL", v 3),
        ("Refinement tolerance", v 4), ("Coarsen tolerance", v 5)] := by simp [hl, embeddedNames, List.ofFn_succ]
    have hpath : (h.enter ["Advection", "Embedded Parameters"]).path = ["Advection", "Embedded Parameters"] := by simp [Handler.enter, hg.path]
    have hpat : ∀ k, (h.enter ["Advection", "Embedded Parameters"]).pattern k = initial.pattern k := hg.pattern
    have hall : ∀ q ∈ l, ∃ lo hi, (h.enter ["Advection", "Embedded Parameters"]).pattern
        ((h.enter ["Advection", "Embedded Parameters"]).path ++ [q.1]) = some (.double lo hi) ∧ (Pattern.double lo hi).Match q.2.toVal := by
      intro q hq
      rw [hpath, hpat, initial_pattern]
      rw [hl'] at hq
      simp only [List.mem_cons, List.not_mem_nil, or_false] at hq
      have free : ∀ i, (Pattern.double none none).Match (v i).toVal := fun i => by
        obtain ⟨x, hx⟩ := hf i
        simp [hx, Num.toVal, Pattern.Match, Within]
      rcases hq with rfl | rfl | rfl | rfl | rfl | rfl <;> dsimp only
      · exact ⟨some 1, some 1000, by decide +kernel, by rw [h0]; exact ⟨by simpa using a0, by simpa using b0⟩⟩
      · exact ⟨some 0, some 1, by decide +kernel, by rw [h1]; exact ⟨by simpa using a1, by simpa using b1⟩⟩
      · exact ⟨none, none, by decide +kernel, free 2⟩
      · exact ⟨none, none, by decide +kernel, free 3⟩
      · exact ⟨none, none, by decide +kernel, free 4⟩
      · exact ⟨none, none, by decide +kernel, free 5⟩
    have hrun := setAll_ok l _ hall
    set f := l.foldl (fun h q => h.put (h.path ++ [q.1]) q.2.toVal) (h.enter ["Advection", "Embedded Parameters"]) with hfdef
    have hfp : f.path = [] ++ ["Advection", "Embedded Parameters"] := by rw [hfdef, foldl_put_path, hpath]; rfl
    have hleave : f.leave 2 = { f with path := [] } := by
      have := leave_append f [] ["Advection", "Embedded Parameters"]
      rw [← hfp] at this
      exact this
    refine ⟨{ f with path := [] }, ?_, ⟨⟨rfl, fun k => ?_, fun k e he => ?_⟩, fun k hk => ?_⟩⟩
    · simp only [exec, setEmbedded, ← hl, hrun, hleave]
    · have := foldl_put_pattern l (h.enter ["Advection", "Embedded Parameters"]) k
      exact this.trans (hpat k)
    · refine foldl_put_value l (h.enter ["Advection", "Embedded Parameters"]) (fun q hq pt hp => ?_) (fun k e he => hg.value k e he) k e he
      obtain ⟨lo, hi, h2, h3⟩ := hall q hq
      rw [h2, Option.some.injEq] at hp
      exact hp ▸ h3
    · refine foldl_put_entries l (h.enter ["Advection", "Embedded Parameters"]) k fun q hq hk' => hk ?_
      rw [hpath] at hk'
      simp only [Call.touches, List.mem_map]
      refine ⟨q.1, ?_, hk'.symm⟩
      exact (List.of_mem_zip hq).1

theorem exec_error (hg : Good h) (c : Call) (hc : ¬ c.InRange) (he : ∀ v, c ≠ .embedded v) : exec c h = (.error .configuration, h) := by
  cases c with
  | enum p n =>
    have : p.setTable.lookup n = none := by
      cases hl : p.setTable.lookup n with
      | none => rfl
      | some s => exact absurd ((p.lookup_iff n).1 ⟨s, hl⟩) hc
    simp only [exec, setEnum, this, leave_enter]
  | dbl p v =>
    obtain ⟨lo, hi, hp, hw⟩ := p.declared_iff
    refine guardedSet_error hg.path (by rw [hg.pattern, hp]) fun hm => hc ?_
    obtain ⟨x, rfl, hx⟩ := (toVal_match lo hi v).1 hm
    exact ⟨x, rfl, (hw _).1 hx⟩
  | int p i =>
    obtain ⟨lo, hi, hp, hw⟩ := p.declared_iff
    exact guardedSet_error (pt := .integer lo hi) hg.path (by rw [hg.pattern, hp]) fun hm => hc ((hw _).1 hm)
  | bool p b => exact absurd trivial hc
  | outputDirectory s => exact absurd trivial hc
  | sutherlandLaw => exact absurd trivial hc
  | prandtlNumber v =>
    have hp : initial.pattern (["General"] ++ ["Prandtl"]) = some (.double (some (1 / 10 ^ 10)) none) := by rw [initial_pattern]; decide +kernel
    have hm : ¬ (Pattern.double (some (1 / 10 ^ 10)) none).Match v.toVal := fun hm => hc (by
      obtain ⟨x, rfl, hx⟩ := (toVal_match _ _ v).1 hm
      exact ⟨x, rfl, by simpa [Within] using hx⟩)
    have e1 := set_error (enter_pattern hg.path (by rw [hg.pattern, hp])) hm
    simp only [exec, setPrandtlNumber, e1]
    exact congrArg _ (leave_enter h ["General"])
  | wallNormalCoordinates l =>
    have hp : initial.pattern (["Output", "Turbulence Statistics"] ++ ["Wall normal coordinates"]) =
        some (.doubleList (-10 ^ 10) (10 ^ 10)) := by rw [initial_pattern]; decide +kernel
    simp only [exec, setWallNormalCoordinates]
    split_ifs with hl
    · exact congrArg _ (leave_enter h ["Output", "Turbulence Statistics"])
    · refine guardedSet_error hg.path (by rw [hg.pattern, hp]) fun hm => hc ⟨hl, ?_⟩
      cases hmap : l.mapM Num.sixDigits? with
      | none => simp [hmap, Pattern.Match] at hm
      | some xs =>
        rw [hmap] at hm
        clear hl hc he
        induction l generalizing xs with
        | nil => simp
        | cons w l ih =>
          simp only [List.mapM_cons] at hmap
          cases w with
          | fin x =>
            cases hrest : l.mapM Num.sixDigits? with
            | none => simp [hrest, Num.sixDigits?] at hmap
            | some ys =>
              simp only [hrest, Num.sixDigits?, Option.pure_def, Option.bind_eq_bind, Option.bind_some, Option.some.injEq] at hmap
              subst hmap
              intro u hu
              rcases List.mem_cons.1 hu with rfl | hu
              · refine ⟨x, rfl, ?_⟩
                have := hm (Checkpoint.sixDigits x) (by simp)
                simpa [Within, abs_le] using this
              · exact ih ys (fun y hy => hm y (List.mem_cons_of_mem _ hy)) hrest u hu
          | nan => simp [Num.sixDigits?] at hmap
          | posInf => simp [Num.sixDigits?] at hmap
          | negInf => simp [Num.sixDigits?] at hmap
  | embedded v => exact absurd rfl (he v)

theorem good_exec (hg : Good h) (c : Call) (hc : ∀ v, c = .embedded v → embeddedRange v) : Good (exec c h).2 := by
  by_cases hr : c.InRange
  · obtain ⟨h', h1, h2⟩ := exec_ok hg c hr
    rw [h1]; exact h2.good
  · rw [exec_error hg c hr fun v hv => hr (by subst hv; exact hc v rfl)]
    exact hg

theorem good_history {cs : List Call} (hs : Safe cs) : Good (history cs) := by
  unfold history
  suffices ∀ h, Good h → Good (cs.foldl (fun h c => (exec c h).2) h) from this _ good_initial
  induction cs with
  | nil => exact fun h hg => hg
  | cons c cs ih =>
    intro h hg
    rw [List.foldl_cons]
    exact ih (fun v hv => hs v (List.mem_cons_of_mem _ hv)) _ (good_exec hg c fun v hv => hs v (hv ▸ by simp))

end Config
end NATriuM
