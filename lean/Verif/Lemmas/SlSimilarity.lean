import Verif.Spec.SlSimilarity
import Mathlib.Tactic.FieldSimp
import Mathlib.Tactic.Ring

/-!
# Lemmas: following paths in other units and with another origin
-/

namespace NATriuM
namespace Paths

variable {K : Type*} [Field K] {d m : ℕ} {C : Type*} {L V : K}

theorem movePointBack_movePoint (hL : L ≠ 0) (b x : Fin d → K) : movePointBack L b (movePoint L b x) = x := by
  funext a
  simp only [movePointBack, movePoint, add_sub_cancel_right]
  exact mul_div_cancel_left₀ _ hL

theorem moveTrackerBack_moveTracker (hL : L ≠ 0) (b : Fin d → K) (p : Tracker K d C) : moveTrackerBack L b (moveTracker L b p) = p := by
  simp only [moveTrackerBack, moveTracker, movePointBack_movePoint hL]

theorem moveMapping_toUnit (hL : L ≠ 0) (b : Fin d → K) (c : CellMapping K d) (x : Fin d → K) :
    (moveMapping L b c).toUnit (movePoint L b x) = c.toUnit x := by
  show c.toUnit (movePointBack L b (movePoint L b x)) = _
  rw [movePointBack_movePoint hL]

theorem moveSub (b x y : Fin d → K) : movePoint L b x - movePoint L b y = fun a => L * (x - y) a := by
  funext a
  simp only [movePoint, Pi.sub_apply]
  ring

variable [LinearOrder K]

theorem faceCrossedFirst_move (hL : L ≠ 0) (b : Fin (m + 2) → K) (c : CellMapping K (m + 2)) (x y : Fin (m + 2) → K) :
    faceCrossedFirst (moveMapping L b c) (movePoint L b x) (movePoint L b y) =
      (faceCrossedFirst c x y).map (Option.map fun z => { z with boundary := movePoint L b z.boundary }) := by
  unfold faceCrossedFirst
  rw [moveMapping_toUnit hL, moveMapping_toUnit hL]
  cases c.toUnit x with
  | none => rfl
  | some pi =>
    cases c.toUnit y with
    | none => rfl
    | some po =>
      simp only
      cases crossedFace (fun a => snap (pi a)) (fun a => snap (po a)) with
      | error e => rfl
      | ok r =>
        cases r with
        | none => rfl
        | some r =>
          simp only
          split_ifs <;> rfl

theorem planeStep_move (hL : L ≠ 0) (b : Fin (m + 2) → K) (x y : Fin (m + 2) → K) (best : ℕ × K) (f : FacePlane K (m + 2)) (i : ℕ) :
    planeStep (movePoint L b x) (movePoint L b y) best (movePlane L b f, i) = planeStep x y best (f, i) := by
  have hk : L * L ^ (m + 1) ≠ 0 := mul_ne_zero hL (pow_ne_zero _ hL)
  have key : ∀ v : Fin (m + 2) → K, inner (fun a => L * v a) (fun a => L ^ (m + 1) * f.normal a) = L * L ^ (m + 1) * inner v f.normal := by
    intro v
    unfold inner
    rw [Finset.mul_sum]
    exact Finset.sum_congr rfl fun a _ => by ring
  have h1 : inner (movePoint L b x - movePoint L b y) (movePlane L b f).normal = L * L ^ (m + 1) * inner (x - y) f.normal := by
    rw [moveSub]; exact key _
  have h2 : inner (movePoint L b x - (movePlane L b f).point) (movePlane L b f).normal = L * L ^ (m + 1) * inner (x - f.point) f.normal := by
    rw [show (movePlane L b f).point = movePoint L b f.point from rfl, moveSub]; exact key _
  unfold planeStep
  simp only [h1, h2, mul_div_mul_left _ _ hk]
  by_cases h0 : inner (x - y) f.normal = 0
  · rw [if_pos h0, if_pos (by rw [h0, mul_zero])]
  · rw [if_neg h0, if_neg (mul_ne_zero hk h0)]

theorem withoutMapping_move (hL : L ≠ 0) (b : Fin (m + 2) → K) (faces : List (FacePlane K (m + 2))) (x y : Fin (m + 2) → K) :
    faceCrossedFirstWithoutMapping (faces.map (movePlane L b)) (movePoint L b x) (movePoint L b y) =
      (faceCrossedFirstWithoutMapping faces x y).map fun z => (z.1, z.2.1, movePoint L b z.2.2) := by
  have key : ∀ (l : List (FacePlane K (m + 2) × ℕ)) (best : ℕ × K),
      (l.map fun z => (movePlane L b z.1, z.2)).foldl (planeStep (movePoint L b x) (movePoint L b y)) best = l.foldl (planeStep x y) best := by
    intro l
    induction l with
    | nil => intro _; rfl
    | cons z l ih =>
      intro best
      rw [List.map_cons, List.foldl_cons, List.foldl_cons, planeStep_move hL, ih]
  have hz : (faces.map (movePlane L b)).zipIdx = faces.zipIdx.map fun z => (movePlane L b z.1, z.2) := by
    rw [List.zipIdx_map]
    rfl
  unfold faceCrossedFirstWithoutMapping
  rw [hz, key]
  simp only
  split_ifs
  · rfl
  · simp only [Option.map_some, Option.some.injEq, Prod.mk.injEq, true_and]
    funext a
    simp only [movePoint]
    ring

theorem findFace_move (hL : L ≠ 0) (b : Fin (m + 2) → K) (mesh : Mesh K m C) (cell : C) (x y : Fin (m + 2) → K) :
    (moveMesh L b mesh).findFace cell (movePoint L b x) (movePoint L b y) =
      (mesh.findFace cell x y).map (Option.map fun z => (z.1, movePoint L b z.2)) := by
  unfold Mesh.findFace
  rw [show (moveMesh L b mesh).mapping cell = moveMapping L b (mesh.mapping cell) from rfl,
    show (moveMesh L b mesh).planes cell = (mesh.planes cell).map (movePlane L b) from rfl, faceCrossedFirst_move hL, withoutMapping_move hL]
  cases faceCrossedFirst (mesh.mapping cell) x y with
  | error e =>
    cases e
    · rfl
    · simp only [Except.map]
      cases faceCrossedFirstWithoutMapping (mesh.planes cell) x y with
      | none => rfl
      | some z =>
        simp only [Option.map_some]
        rw [moveMapping_toUnit hL]
        cases (mesh.mapping cell).toUnit z.2.2 <;> rfl
    · rfl
  | ok r => cases r <;> rfl

/-- what a pass does, in the new coordinates -/
def moveResult (L : K) (b : Fin d → K) : PassResult K d C → PassResult K d C
  | .goOn path hit => .goOn (moveTracker L b path) hit
  | .found path => .found (moveTracker L b path)
  | .dropped path id => .dropped (moveTracker L b path) id
  | .expired path => .expired (moveTracker L b path)

theorem norm_move (s : Setup K d) (hs : s.RootHomogeneous) {k : K} (hk : 0 < k) (v : Fin d → K) : norm s (fun a => k * v a) = k * norm s v := by
  unfold norm
  rw [← hs k _ hk, Finset.mul_sum]
  congr 1
  exact Finset.sum_congr rfl fun a _ => by ring

theorem bounce_move (hL : 0 < L) (hV : 0 < V) (b : Fin d → K) (s : Setup K d) (hs : s.RootHomogeneous) (path : Tracker K d C) (p : Fin d → K) :
    bounce (moveSetup L V s) (moveTracker L b path) (movePoint L b p) = moveTracker L b (bounce s path p) := by
  have hn : norm (moveSetup L V s) = norm s := rfl
  have h1 : norm s (movePoint L b path.departurePoint - movePoint L b p) = L * norm s (path.departurePoint - p) := by
    rw [moveSub, norm_move s hs hL]
  have h2 : norm s ((moveSetup L V s).e (s.opp path.currentDirection)) = V * norm s (s.e (s.opp path.currentDirection)) :=
    norm_move s hs hV _
  unfold bounce
  simp only [hn, moveTracker, show (moveSetup L V s).opp = s.opp from rfl]
  rw [h1, h2]
  simp only [Tracker.mk.injEq, true_and, and_true]
  funext a
  simp only [movePoint, moveSetup]
  rw [mul_assoc V, mul_div_mul_left _ _ hV.ne']
  ring

omit [LinearOrder K] in
theorem step_move (hV : V ≠ 0) (s : Setup K d) (i : ℕ) (a : Fin d) :
    (moveSetup L V s).e i a * -(moveSetup L V s).dt = L * (s.e i a * -s.dt) := by
  simp only [moveSetup]
  field_simp

theorem turnBack_move (hV : V ≠ 0) (b : Fin d → K) (s : Setup K d) (path : Tracker K d C) :
    turnBack (moveSetup L V s) (moveTracker L b path) = moveTracker L b (turnBack s path) := by
  have key : ∀ a, (moveSetup L V s).e path.currentDirection a * -(moveSetup L V s).dt = L * (s.e path.currentDirection a * -s.dt) :=
    step_move hV s _
  unfold turnBack
  simp only [moveTracker, show (moveSetup L V s).opp = s.opp from rfl, key]
  simp only [Tracker.mk.injEq, true_and, and_true]
  constructor <;>
  · funext a
    simp only [movePoint, Pi.sub_apply]
    ring

theorem crossFace_move (hL : 0 < L) (hV : 0 < V) (b : Fin (m + 2) → K) (mesh : Mesh K m C) (s : Setup K (m + 2))
    (hs : s.RootHomogeneous ∨ mesh.NoBounceBack) (path : Tracker K (m + 2) C) :
    crossFace (moveMesh L b mesh) (moveSetup L V s) (moveTracker L b path) = (crossFace mesh s path).map (moveResult L b) := by
  unfold crossFace
  rw [show (moveTracker L b path).currentCell = path.currentCell from rfl, show (moveTracker L b path).currentPoint = movePoint L b path.currentPoint from rfl,
    show (moveTracker L b path).departurePoint = movePoint L b path.departurePoint from rfl, findFace_move hL.ne']
  cases mesh.findFace path.currentCell path.currentPoint path.departurePoint with
  | error e => rfl
  | ok r =>
    cases r with
    | none =>
      simp only [Except.map, Option.map_none, moveResult]
      congr 2
      unfold arrive
      rw [show (moveTracker L b path).hitDoNothing = path.hitDoNothing from rfl]
      split_ifs <;> rfl
    | some z =>
      obtain ⟨face, p⟩ := z
      simp only [Except.map, Option.map_some]
      rw [show (moveMesh L b mesh).face path.currentCell face = moveFace L b (mesh.face path.currentCell face) from rfl]
      cases hf : mesh.face path.currentCell face with
      | boundary id kind =>
        cases kind with
        | periodic across opposite =>
          simp only [moveFace, moveKind, moveResult]
          rw [movePointBack_movePoint hL.ne', movePointBack_movePoint hL.ne']
          rfl
        | bounceBack =>
          simp only [moveFace, moveKind, moveResult]
          rcases hs with hs | hs
          · rw [bounce_move hL hV b s hs]
          · exact absurd hf (hs _ _ _)
        | doNothing =>
          simp only [moveFace, moveKind, moveResult]
          rw [turnBack_move hV.ne' b s]
        | other => rfl
      | interior neighbor available => cases available <;> rfl
      | refined => rfl

theorem pass_move (hL : 0 < L) (hV : 0 < V) (b : Fin (m + 2) → K) (mesh : Mesh K m C) (s : Setup K (m + 2))
    (hs : s.RootHomogeneous ∨ mesh.NoBounceBack) (path : Tracker K (m + 2) C) :
    pass (moveMesh L b mesh) (moveSetup L V s) (moveTracker L b path) = (pass mesh s path).map (moveResult L b) := by
  unfold pass
  rw [show older (moveTracker L b path) = moveTracker L b (older path) from rfl, crossFace_move hL hV b mesh s hs]
  rw [show (moveTracker L b (older path)).lifeTimeCounter = (older path).lifeTimeCounter from rfl]
  split_ifs <;> rfl

/-- what the loop works on, in the new coordinates -/
def moveState (L : K) (b : Fin d → K) (st : State K d C) : State K d C where
  queue := st.queue.map (moveTracker L b)
  found := st.found.map (moveTracker L b)
  expired := st.expired.map (moveTracker L b)
  dropped := st.dropped.map (moveTracker L b)
  hits := st.hits.map fun h => (moveTracker L b h.1, h.2)

theorem passFront_move (hL : 0 < L) (hV : 0 < V) (b : Fin (m + 2) → K) (mesh : Mesh K m C) (s : Setup K (m + 2))
    (hs : s.RootHomogeneous ∨ mesh.NoBounceBack) (path : Tracker K (m + 2) C) (rest : List (Tracker K (m + 2) C)) (st : State K (m + 2) C) :
    passFront (moveMesh L b mesh) (moveSetup L V s) (moveTracker L b path) (rest.map (moveTracker L b)) (moveState L b st) =
      (passFront mesh s path rest st).map (moveState L b) := by
  unfold passFront
  rw [pass_move hL hV b mesh s hs]
  cases pass mesh s path with
  | error e => rfl
  | ok r =>
    cases r with
    | goOn p hit => cases hit <;> simp [Except.map, moveResult, moveState]
    | found p => simp [Except.map, moveResult, moveState]
    | dropped p id => simp [Except.map, moveResult, moveState]
    | expired p => simp [Except.map, moveResult, moveState]

theorem passes_move (hL : 0 < L) (hV : 0 < V) (b : Fin (m + 2) → K) (mesh : Mesh K m C) (s : Setup K (m + 2))
    (hs : s.RootHomogeneous ∨ mesh.NoBounceBack) (n : ℕ) (st : State K (m + 2) C) :
    passes (moveMesh L b mesh) (moveSetup L V s) n (moveState L b st) = (passes mesh s n st).map (moveState L b) := by
  induction n generalizing st with
  | zero => rfl
  | succ n ih =>
    unfold passes
    rw [show (moveState L b st).queue = st.queue.map (moveTracker L b) from rfl]
    cases st.queue with
    | nil => rfl
    | cons path rest =>
      simp only [List.map_cons]
      rw [passFront_move hL hV b mesh s hs]
      cases passFront mesh s path rest st with
      | error e => rfl
      | ok st' => exact ih st'

theorem followAll_move (hL : 0 < L) (hV : 0 < V) (b : Fin (m + 2) → K) (mesh : Mesh K m C) (s : Setup K (m + 2))
    (hs : s.RootHomogeneous ∨ mesh.NoBounceBack) (queue : List (Tracker K (m + 2) C)) :
    followAll (moveMesh L b mesh) (moveSetup L V s) (queue.map (moveTracker L b)) = (followAll mesh s queue).map (moveState L b) := by
  unfold followAll
  rw [List.length_map]
  exact passes_move hL hV b mesh s hs _ ⟨queue, [], [], [], []⟩

theorem newPaths_move (hV : V ≠ 0) (b : Fin (m + 2) → K) (mesh : Mesh K m C) (s : Setup K (m + 2)) (row : Option ℕ) (cell : C) (tracked : List ℕ) :
    newPaths (moveMesh L b mesh) (moveSetup L V s) row cell tracked =
      ((newPaths mesh s row cell tracked).1, (newPaths mesh s row cell tracked).2.map (moveTracker L b)) := by
  unfold newPaths
  have hd : directions (moveSetup L V s) row = directions s row := rfl
  have hn : ∀ x index alpha, newPath (moveSetup L V s) cell (movePoint L b x) index alpha = moveTracker L b (newPath s cell x index alpha) := by
    intro x index alpha
    simp only [newPath, moveTracker, Tracker.mk.injEq, true_and, and_true]
    funext a
    rw [step_move hV s]
    simp only [movePoint]
    ring
  have hdofs : (moveMesh L b mesh).dofs cell = mesh.dofs cell := rfl
  rw [hdofs, hd]
  have key : ∀ (l : List (ℕ × ℕ)) (acc : List ℕ × List (Tracker K (m + 2) C)),
      l.foldl (fun acc dof => if dof.1 ∈ acc.1 then acc else if (moveMesh L b mesh).owned dof.1 then
        (acc.1 ++ [dof.1], acc.2 ++ (directions s row).map (newPath (moveSetup L V s) cell ((moveMesh L b mesh).supportPoint cell dof.2) dof.1)) else acc)
        (acc.1, acc.2.map (moveTracker L b)) =
      (fun r : List ℕ × List (Tracker K (m + 2) C) => (r.1, r.2.map (moveTracker L b)))
        (l.foldl (fun acc dof => if dof.1 ∈ acc.1 then acc else if mesh.owned dof.1 then
        (acc.1 ++ [dof.1], acc.2 ++ (directions s row).map (newPath s cell (mesh.supportPoint cell dof.2) dof.1)) else acc) acc) := by
    intro l
    induction l with
    | nil => intro _; rfl
    | cons z l ih =>
      intro acc
      rw [List.foldl_cons, List.foldl_cons, ← ih]
      congr 1
      rw [show (moveMesh L b mesh).owned z.1 = mesh.owned z.1 from rfl]
      by_cases h1 : z.1 ∈ acc.1
      · simp only [if_pos h1]
      · simp only [if_neg h1]
        by_cases h2 : mesh.owned z.1 = true
        · simp only [if_pos h2]
          rw [List.map_append, List.map_map]
          congr 2
          refine List.map_congr_left fun alpha _ => ?_
          exact hn _ _ _
        · simp only [if_neg h2]
  exact key _ (tracked, [])

theorem foundEntries_move (hL : L ≠ 0) (b : Fin (m + 2) → K) (mesh : Mesh K m C) (path : Tracker K (m + 2) C) :
    foundEntries (moveMesh L b mesh) (moveTracker L b path) = foundEntries mesh path := by
  unfold foundEntries unitDeparture
  rw [show ((moveMesh L b mesh).mapping (moveTracker L b path).currentCell).toUnit (moveTracker L b path).departurePoint =
    (mesh.mapping path.currentCell).toUnit path.departurePoint from moveMapping_toUnit hL b _ _]
  rfl

theorem allFoundEntries_move (hL : L ≠ 0) (b : Fin (m + 2) → K) (mesh : Mesh K m C) (l : List (Tracker K (m + 2) C)) :
    allFoundEntries (moveMesh L b mesh) (l.map (moveTracker L b)) = allFoundEntries mesh l := by
  induction l with
  | nil => rfl
  | cons p l ih =>
    rw [List.map_cons]
    unfold allFoundEntries
    rw [foundEntries_move hL, ih]

theorem fillCell_move (hL : 0 < L) (hV : 0 < V) (b : Fin (m + 2) → K) (mesh : Mesh K m C) (s : Setup K (m + 2))
    (hs : s.RootHomogeneous ∨ mesh.NoBounceBack) (row : Option ℕ) (as : Assembly K (m + 2) C) (cell : C) :
    fillCell (moveMesh L b mesh) (moveSetup L V s) row (moveAssembly L b as) cell = (fillCell mesh s row as cell).map (moveAssembly L b) := by
  unfold fillCell
  rw [show (moveAssembly L b as).tracked = as.tracked from rfl, newPaths_move hV.ne' b]
  simp only
  rw [followAll_move hL hV b mesh s hs]
  cases followAll mesh s (newPaths mesh s row cell as.tracked).2 with
  | error e => rfl
  | ok st =>
    simp only [Except.map]
    rw [show (moveState L b st).found = st.found.map (moveTracker L b) from rfl, allFoundEntries_move hL.ne']
    cases allFoundEntries mesh st.found with
    | error e => rfl
    | ok es =>
      have : (expiredEntry ∘ moveTracker L b : Tracker K (m + 2) C → Entry K) = expiredEntry := rfl
      simp [moveAssembly, moveState, this]

theorem fillCells_move (hL : 0 < L) (hV : 0 < V) (b : Fin (m + 2) → K) (mesh : Mesh K m C) (s : Setup K (m + 2))
    (hs : s.RootHomogeneous ∨ mesh.NoBounceBack) (row : Option ℕ) (cells : List C) (as : Assembly K (m + 2) C) :
    fillCells (moveMesh L b mesh) (moveSetup L V s) row cells (moveAssembly L b as) = (fillCells mesh s row cells as).map (moveAssembly L b) := by
  induction cells generalizing as with
  | nil => rfl
  | cons cell cells ih =>
    unfold fillCells
    rw [fillCell_move hL hV b mesh s hs]
    cases fillCell mesh s row as cell with
    | error e => rfl
    | ok as' => exact ih as'

theorem fillSparseObject_move (hL : 0 < L) (hV : 0 < V) (b : Fin (m + 2) → K) (mesh : Mesh K m C) (s : Setup K (m + 2))
    (hs : s.RootHomogeneous ∨ mesh.NoBounceBack) (row : Option ℕ) :
    fillSparseObject (moveMesh L b mesh) (moveSetup L V s) row = (fillSparseObject mesh s row).map (moveAssembly L b) :=
  fillCells_move hL hV b mesh s hs row mesh.cells ⟨[], [], []⟩

end Paths
end NATriuM
