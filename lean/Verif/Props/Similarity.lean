import Verif.Lemmas.SimilarityAdvection
import Verif.Lemmas.SimilarityMrt
import Verif.Props.SedgSolver

/-!
# Property C129: the same simulation in other units and along other axes

`Solver.run cfg (parts s) start s0` is a complete run of the discontinuous Galerkin solver `s`; `transform y L V s` is the same solver with
axes exchanged and reflected by `y`, in units in which lengths are `L` times and velocities `V` times as large.
-/

namespace NATriuM

open Solver

/-! ## Symmetries of the lattices and of the relaxation -/

namespace StencilType.Symmetry

/-- **C129** Five of the lattices have all symmetries: every exchange of axes together with every choice of reflections. -/
theorem C129_lattices (t : StencilType) (ht : t ∈ [StencilType.D2Q9, .D3Q15, .D3Q19, .D3Q27, .RD3Q27]) (axes : Equiv.Perm (Fin t.D))
    (flip : Fin t.D → Bool) : ∃ y : t.Symmetry, y.axes = axes ∧ y.sign = fun a => if flip a then -1 else 1 := by
  simp only [List.mem_cons, List.not_mem_nil, or_false] at ht
  rcases ht with rfl | rfl | rfl | rfl | rfl
  · exact exists_of_table .D2Q9 (fun c i a => NATriuM.D2Q9.dir_eq c i a) (fun c i => NATriuM.D2Q9.weight_eq i) D2Q9_injective D2Q9_rest axes flip
      (D2Q9_table axes flip)
  · exact exists_of_table .D3Q15 (fun c i a => NATriuM.D3Q15.dir_eq c i a) (fun c i => NATriuM.D3Q15.weight_eq i) D3Q15_injective D3Q15_rest axes flip
      (D3Q15_table axes flip)
  · exact exists_of_table .D3Q19 (fun c i a => NATriuM.D3Q19.dir_eq c i a) (fun c i => NATriuM.D3Q19.weight_eq i) D3Q19_injective D3Q19_rest axes flip
      (D3Q19_table axes flip)
  · exact exists_of_table .D3Q27 (fun c i a => NATriuM.D3Q27.dir_eq c i a) (fun c i => NATriuM.D3Q27.weight_eq i) D3Q27_injective D3Q27_rest axes flip
      (D3Q27_table axes flip)
  · exact exists_of_table .RD3Q27 (fun c i a => NATriuM.RD3Q27.dir_eq c i a) (fun c i => NATriuM.RD3Q27.weight_eq i) RD3Q27_injective RD3Q27_rest axes flip
      (RD3Q27_table axes flip)

/-- … for instance the exchange of x and y with a reflection of x. -/
example : ∃ y : StencilType.D2Q9.Symmetry, y.axes = Equiv.swap (0 : Fin 2) (1 : Fin 2) ∧ y.sign = fun a => if (![true, false] : Fin 2 → Bool) a then -1 else 1 :=
  C129_lattices .D2Q9 (by decide) (Equiv.swap (0 : Fin 2) (1 : Fin 2)) ![true, false]

/-- **C129** The relaxation with multiple relaxation times has every symmetry of the lattice, for all bases and all relaxation times but those of
`dellarRelaxOnlyN`. -/
theorem C129_mrt {t : StencilType} (y : t.Symmetry) (basis : MRTBasis) {mode : RelaxMode} (hm : mode ≠ .dellarRelaxOnlyN) : y.MrtSymmetric basis mode := by
  intro tau relax h d d' feq f
  cases t
  case D2Q9 =>
    have he : ∀ (i : Fin 9) (a : Fin 2), (StencilType.D2Q9.stencil 1).dir i a = ((NATriuM.D2Q9.dir 1 i a : ℚ) : ℝ) := fun i a => D2Q9_dir_one i a
    cases basis <;> cases mode <;> first | exact absurd rfl hm | cases h
    · exact y.mrtRelax_symmetric he MRT.dellar_isotropic ![1 / tau, 1 / tau, 1 / tau, 1 / tau, 1, 1] _ (fun k => by fin_cases k <;> rfl) d d' feq f
    · exact y.mrtRelax_symmetric he MRT.lallemand_isotropic ![1 / tau, 1 / tau, 1 / tau, 1 / tau, 1 / tau, 1, 1] _ (fun k => by fin_cases k <;> rfl)
        d d' feq f
  case D3Q19 =>
    have he : ∀ (i : Fin 19) (a : Fin 3), (StencilType.D3Q19.stencil 1).dir i a = ((NATriuM.D3Q19.dir 1 i a : ℚ) : ℝ) := fun i a => D3Q19_dir_one i a
    obtain ⟨hb, htau, omega, ho, rfl, -⟩ := mrt19_cases h
    unfold MRT.makeDiag19 at ho
    rw [if_neg (not_not.mpr htau)] at ho
    subst hb
    cases mode <;> first | exact absurd rfl hm | cases ho
    · exact y.mrtRelax_symmetric he MRT.dHumieres_isotropic ![1 / tau, 1 / tau, 1, 1 / tau, 1, 1 / tau, 1, 1 / tau, 1] _
        (fun k => by fin_cases k <;> rfl) d d' feq f
    · exact y.mrtRelax_symmetric he MRT.dHumieres_isotropic ![0, 119 / 100, 14 / 10, 0, 12 / 10, 1 / tau, 14 / 10, 1 / tau, 198 / 100] _
        (fun k => by fin_cases k <;> rfl) d d' feq f
  all_goals cases h

/-- … it exists for instance for D3Q19 and the relaxation times of the paper. -/
example : ∃ relax, StencilType.D3Q19.mrtRelaxation .dHumieresD3Q19 .relaxDHumieresPaper 2 = .ok relax := by
  have h : MRT.makeDiag19 (2 : ℝ) .dHumieresD3Q19 .relaxDHumieresPaper = .ok _ := if_neg (not_not.mpr (by norm_num))
  unfold mrtRelaxation
  simp only [h]
  exact ⟨_, rfl⟩

/-- **C129 is false** for the relaxation times `dellarRelaxOnlyN`: no symmetry that exchanges x and y is one of the relaxation (finding 6: entry 8 is
changed instead of entry 6). -/
theorem C129_onlyN_fails (y : StencilType.D2Q9.Symmetry) (hy : y.axes (0 : Fin 2) = (1 : Fin 2)) : ¬ y.MrtSymmetric .dellarD2Q9 .dellarRelaxOnlyN := by
  intro h
  let d : CollData ℝ 2 9 := collisionData .D2Q9 1 1 1 (sampleConfig 2 .mrtStandard .bgk .dellarD2Q9)
  let omega : Fin 9 → ℝ := Function.update (fun _ => 1 / 2) 8 1
  have hx := h 2 (mrtRelax (MRT.ofTable MRT.dellarM) (MRT.ofTable MRT.dellarT) omega) rfl d d 0 (Pi.single (2 : Fin 9) 1)
  have hinv := inversePair_of_table (K := ℝ) _ _ MRT.dellar_inverse
  -- the relaxation towards zero
  have key : ∀ f i, mrtRelax (MRT.ofTable MRT.dellarM) (MRT.ofTable MRT.dellarT) omega d 0 f i =
      1 / 2 * (f i - (MRT.dellarT i 8 : ℝ) * ∑ j, (MRT.dellarM 8 j : ℝ) * f j) := by
    intro f i
    exact onlyN_zero hinv f i
  have h2 := congrFun hx (y.perm (2 : Fin 9))
  have hp : ∀ f : Fin 9 → ℝ, y.populations f (y.perm (2 : Fin 9)) = f 2 := fun f => congrArg f (y.perm.symm_apply_apply (2 : Fin 9))
  have h3 := (key (y.populations (Pi.single (2 : Fin 9) 1)) (y.perm (2 : Fin 9))).symm.trans
    (h2.trans ((hp _).trans (key (Pi.single (2 : Fin 9) 1) 2)))
  have hone : y.populations (Pi.single (2 : Fin 9) (1 : ℝ) : Fin 9 → ℝ) (y.perm (2 : Fin 9)) = 1 := by
    have := hp (Pi.single (2 : Fin 9) (1 : ℝ) : Fin 9 → ℝ)
    rwa [Pi.single_eq_same] at this
  -- direction 2 becomes one along x
  have h1 : y.axes (1 : Fin 2) = (0 : Fin 2) := by
    have hne : y.axes (1 : Fin 2) ≠ y.axes (0 : Fin 2) := fun h => absurd (y.axes.injective h) (by decide : ¬(1 : Fin 2) = 0)
    rw [hy] at hne
    revert hne
    generalize y.axes (1 : Fin 2) = b
    revert b
    exact (by decide : ∀ b : Fin 2, b ≠ 1 → b = 0)
  have hd0 := y.dir 1 (2 : Fin 9) (0 : Fin 2)
  have hd1 := y.dir 1 (2 : Fin 9) (1 : Fin 2)
  rw [hy] at hd0
  rw [h1] at hd1
  have e0 : (StencilType.D2Q9.stencil 1).dir (2 : Fin 9) (1 : Fin 2) = 1 := rfl
  have e1 : (StencilType.D2Q9.stencil 1).dir (2 : Fin 9) (0 : Fin 2) = 0 := rfl
  rw [e0, mul_one] at hd0
  rw [e1, mul_zero] at hd1
  have hT : MRT.dellarT (y.perm (2 : Fin 9)) 8 = 0 := by
    have tab : ∀ j : Fin 9, NATriuM.D2Q9.dir (1 : ℚ) j 1 = 0 → MRT.dellarT j 8 = 0 := by decide +kernel
    refine tab _ ?_
    have : ((NATriuM.D2Q9.dir 1 (y.perm (2 : Fin 9)) 1 : ℚ) : ℝ) = 0 := (D2Q9_dir_one _ _).symm.trans hd1
    exact_mod_cast this
  erw [hT, hone] at h3
  have hsum : ∑ j, (MRT.dellarM 8 j : ℝ) * (Pi.single (2 : Fin 9) (1 : ℝ) : Fin 9 → ℝ) j = -2 := by
    rw [Finset.sum_eq_single (2 : Fin 9)]
    · have : MRT.dellarM 8 2 = -2 := by decide +kernel
      rw [this, Pi.single_eq_same]; norm_num
    · intro b _ hb
      rw [Pi.single_eq_of_ne hb, mul_zero]
    · intro hn; exact absurd (Finset.mem_univ _) hn
  have hT2 : MRT.dellarT 2 8 = -1 / 12 := by decide +kernel
  rw [hsum, Pi.single_eq_same, hT2] at h3
  norm_num at h3

/-- … such symmetries exist. -/
example : ∃ y : StencilType.D2Q9.Symmetry, y.axes (0 : Fin 2) = (1 : Fin 2) := by
  obtain ⟨y, hy, -⟩ := C129_lattices .D2Q9 (by decide) (Equiv.swap (0 : Fin 2) (1 : Fin 2)) fun _ => false
  exact ⟨y, by rw [hy]; rfl⟩

theorem relaxation_identity {t : StencilType} (basis : MRTBasis) (mode : RelaxMode) : (identity t).MrtSymmetric basis mode := by
  intro tau relax h d d' feq f
  cases t
  case D2Q9 => cases basis <;> cases mode <;> cases h <;> rfl
  case D3Q19 =>
    obtain ⟨-, -, omega, -, rfl, -⟩ := mrt19_cases h
    rfl
  all_goals cases h

end StencilType.Symmetry

/-! ## Whole runs -/

namespace SedgSolver

variable {t : StencilType} {n nQ nf nq : ℕ} {C : Type*} [DecidableEq C] [Fintype C] {s : Setup t n nQ nf nq C} {cfg : RunConfig} {start : ℕ}
  {s0 : Snapshot (C × Fin n → Node ℝ t.D t.Q)} {y : t.Symmetry} {L V : ℝ}

/-- **C129** A simulation that is set up with respect to other axes and in other units gives the same result: it performs the same number of steps,
writes the same output, and ends in the same state or with the same error – with respect to the other axes and in the other units. -/
theorem C129_similar (hL : 0 < L) (hV : 0 < V) (hc : s.c ≠ 0) (hr : y.RelaxationSymmetric s.collision) (h1 : cfg.convergenceThreshold ≤ 1)
    (h2 : V * cfg.convergenceThreshold ≤ 1) :
    (run (transformConfig L V cfg) (parts (transform y L V s)) start (transformSnapshot y L V s0)).map outcome =
      (run cfg (parts s) start s0).map fun st => (st.i, transformSnapshot y L V st.snap, st.log.map (transformEvent y L V)) := by
  have hk : 0 < L / V := div_pos hL hV
  have key := (parts_correspond s hL hV hc hr).run hk hV (cfg := cfg) (cfg' := transformConfig L V cfg)
    ⟨rfl, rfl, rfl, h1, h2, rfl, rfl, rfl, rfl, rfl, rfl⟩ start s0
  have e0 : mapSnapshot (transformNodes y V) (L / V) s0 = transformSnapshot y L V s0 := rfl
  rw [e0] at key
  revert key
  cases run cfg (parts s) start s0 with
  | error e =>
    cases run (transformConfig L V cfg) (parts (transform y L V s)) start (transformSnapshot y L V s0) with
    | error e' => intro h; exact congrArg Except.error h
    | ok st => intro h; exact h.elim
  | ok st =>
    cases run (transformConfig L V cfg) (parts (transform y L V s)) start (transformSnapshot y L V s0) with
    | error e' => intro h; exact h.elim
    | ok st' =>
      intro h
      refine congrArg Except.ok (Prod.ext h.i (Prod.ext h.snap (h.log.trans ?_)))
      refine List.map_congr_left fun e _ => ?_
      cases e <;> rfl

/-- **C129** In particular in other units, on every lattice and with every collision. -/
theorem C129_units (hL : 0 < L) (hV : 0 < V) (hc : s.c ≠ 0) (h1 : cfg.convergenceThreshold ≤ 1) (h2 : V * cfg.convergenceThreshold ≤ 1) :
    (run (transformConfig L V cfg) (parts (transform (.identity t) L V s)) start (transformSnapshot (.identity t) L V s0)).map outcome =
      (run cfg (parts s) start s0).map fun st =>
        (st.i, transformSnapshot (.identity t) L V st.snap, st.log.map (transformEvent (.identity t) L V)) :=
  C129_similar hL hV hc (fun _ => StencilType.Symmetry.relaxation_identity _ _) h1 h2

/-- **C129** In particular along other axes, with the relaxation times that have all symmetries. -/
theorem C129_axes (hc : s.c ≠ 0) (hm : s.collision.relaxMode ≠ .dellarRelaxOnlyN) (h1 : cfg.convergenceThreshold ≤ 1) :
    (run (transformConfig 1 1 cfg) (parts (transform y 1 1 s)) start (transformSnapshot y 1 1 s0)).map outcome =
      (run cfg (parts s) start s0).map fun st => (st.i, transformSnapshot y 1 1 st.snap, st.log.map (transformEvent y 1 1)) :=
  C129_similar one_pos one_pos hc (fun _ => y.C129_mrt _ hm) h1 (by rw [one_mul]; exact h1)

/-- **C129 is false** for thresholds above one: the residual starts at the number one in all units, so that a run ends before the first step, and the same
run in other units does not. -/
theorem C129_threshold_fails (h1 : 1 < cfg.convergenceThreshold) (h2 : V * cfg.convergenceThreshold ≤ 1) (hL : 0 < L) (hV : 0 < V)
    (hstart : start % 100 = 0) (hn : start < cfg.numberOfTimeSteps) (ht : s0.time < cfg.simulationEndTime) :
    (∀ st, run cfg (parts s) start s0 = .ok st → st.i = start) ∧
    ∀ st, run (transformConfig L V cfg) (parts (transform y L V s)) start (transformSnapshot y L V s0) = .ok st → start < st.i := by
  have hk : 0 < L / V := div_pos hL hV
  constructor
  · intro st h
    unfold run at h
    cases hcol : Solver.collide (parts s) s0 with
    | error e => rw [hcol] at h; cases h
    | ok s1 =>
      rw [hcol] at h
      have htime : s1.time = s0.time := collide_time hcol
      have hstop : (stopConditionMet cfg (parts s) start start s1 Residuals.init).1 = true := by
        unfold stopConditionMet
        rw [if_neg (not_le.mpr hn), if_neg (by rw [htime]; exact not_le.mpr ht), if_pos hstart]
        simp only [calculateResiduals, Nat.sub_self, Residuals.init]
        rw [if_neg (by norm_num)]
        exact decide_eq_true h1
      simp only at h
      unfold Solver.loop at h
      rw [dif_pos hstop] at h
      simp only at h
      cases h
      rfl
  · intro st h
    unfold run at h
    cases hcol : Solver.collide (parts (transform y L V s)) (transformSnapshot y L V s0) with
    | error e => rw [hcol] at h; cases h
    | ok s1 =>
      rw [hcol] at h
      have htime : s1.time = L / V * s0.time := collide_time hcol
      have hstop : ¬(stopConditionMet (transformConfig L V cfg) (parts (transform y L V s)) start start s1 Residuals.init).1 = true := by
        have hn' : ¬(transformConfig L V cfg).numberOfTimeSteps ≤ start := not_le.mpr hn
        have ht' : ¬(transformConfig L V cfg).simulationEndTime ≤ s1.time := by
          rw [htime]; exact not_le.mpr (mul_lt_mul_of_pos_left ht hk)
        unfold stopConditionMet
        rw [if_neg hn', if_neg ht', if_pos hstart]
        simp only [calculateResiduals, Nat.sub_self, Residuals.init]
        rw [if_neg (by norm_num)]
        exact fun h => absurd (of_decide_eq_true h) (not_lt.mpr h2)
      simp only at h
      unfold Solver.loop at h
      rw [dif_neg hstop] at h
      simp only at h
      cases hadv : Solver.advance (transformConfig L V cfg) (parts (transform y L V s)) start (start + 1) s1 with
      | error e => rw [hadv] at h; cases h
      | ok s2 =>
        rw [hadv] at h
        simp only at h
        revert h
        generalize hst : ({ i := start + 1, snap := s2, res := _, log := _ } : RunState _ _ _) = st1
        intro h
        cases hl : Solver.loop (transformConfig L V cfg) (parts (transform y L V s)) start (output (transformConfig L V cfg) start)
          (advance (transformConfig L V cfg) (parts (transform y L V s)) start) st1 with
        | error e => rw [hl] at h; cases h
        | ok st2 =>
          rw [hl] at h
          cases h
          have := loop_le hl
          rw [← hst] at this
          exact this

/-! ## The channel of C109 in other units and along other axes -/

namespace Sample

/-- the run of 250 steps in centimetres and with x and y exchanged: completed as well, with the same number of steps -/
example (y : StencilType.D2Q9.Symmetry) :
    ∃ st st', run config (parts (plain true none)) 0 flow = .ok st ∧
      run (transformConfig 100 100 config) (parts (transform y 100 100 (plain true none))) 0 (transformSnapshot y 100 100 flow) = .ok st' ∧
      st'.i = st.i ∧ ∀ k, st'.snap.x k = y.node 100 (st.snap.x k) := by
  obtain ⟨st, h, -⟩ := completed
  have key := C129_similar (s := plain true none) (cfg := config) (start := 0) (s0 := flow) (y := y) (L := 100) (V := 100) (by norm_num) (by norm_num)
    (by simp [plain]) (fun _ => y.C129_mrt _ (by simp [plain, sampleConfig])) (by simp [config]) (by simp [config])
  rw [h] at key
  cases h' : run (transformConfig 100 100 config) (parts (transform y 100 100 (plain true none))) 0 (transformSnapshot y 100 100 flow) with
  | error e => rw [h'] at key; cases key
  | ok st' =>
    rw [h'] at key
    have e := Except.ok.inj key
    refine ⟨st, st', h, rfl, congrArg Prod.fst e, fun k => ?_⟩
    exact congrFun (congrArg (fun z => z.2.1.x) e) k

end Sample

end SedgSolver
end NATriuM
