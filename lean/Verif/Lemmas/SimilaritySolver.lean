import Verif.Lemmas.SimilaritySweep
import Verif.Lemmas.SimilarityLoop

/-!
# Lemmas: the parts of the discontinuous Galerkin solver in other units and along other axes
-/

namespace NATriuM
namespace StencilType

open Finset

variable {t : StencilType}

theorem cs2_ne_zero (t : StencilType) {c : ℝ} (hc : c ≠ 0) : (t.stencil c).cs2 ≠ 0 := by
  cases t <;>
    simp only [stencil, D2Q9.stencil, D3Q19.stencil, D3Q15.stencil, D3Q27.stencil, D2Q25H.stencil, D3Q13.stencil, RD3Q27.stencil, D3Q21.stencil,
      D3Q45.stencil, D3V27.stencil, D2Q19H.stencil, D2Q19V.stencil, D2Q777.stencil, D3Q77.stencil] <;>
    positivity

namespace Symmetry

variable {y : t.Symmetry} {L V c ν dt : ℝ}

/-- the configuration of the collision with the force in the new units -/
noncomputable def collisionConfig (y : t.Symmetry) (L V : ℝ) (cfg : CollisionConfig t.D) : CollisionConfig t.D :=
  { cfg with force := cfg.force.map fun F a => V * V / L * y.vector F a }

theorem collisionData_corresponds (y : t.Symmetry) (hL : L ≠ 0) (hV : V ≠ 0) (cfg : CollisionConfig t.D) :
    y.Data V (collisionData t c ν dt cfg) (collisionData t (V * c) (L * V * ν) (L / V * dt) (y.collisionConfig L V cfg)) where
  e i a := by
    simp only [collisionData, CollData.mk', scaling_eq]
    rw [t.dir_scale, mul_div_mul_left _ _ hV, y.dir, mul_div_assoc]
  weight i := by
    simp only [collisionData, CollData.mk']
    rw [t.weight_scale (V * c) c, y.weight]
  cs2 := by
    simp only [collisionData, CollData.mk', scaling_eq]
    rw [t.cs2_scale, show V * c * (V * c) = V * V * (c * c) by ring, mul_div_mul_left _ _ (mul_ne_zero hV hV)]
  tau := by
    simp only [collisionData, CollData.mk', collisionConfig, t.cs2_scale, calculateTauFromNuAndGamma, calculateTauFromNu]
    have h0 : L * V ≠ 0 := mul_ne_zero hL hV
    have h1 : cfg.gamma * (L / V * dt) * (V * V * (t.stencil c).cs2) = L * V * (cfg.gamma * dt * (t.stencil c).cs2) := by field_simp
    have h2 : L / V * dt * (V * V * (t.stencil c).cs2) = L * V * (dt * (t.stencil c).cs2) := by field_simp
    rw [h1, h2, mul_div_mul_left _ _ h0, mul_div_mul_left _ _ h0]
  forceType := rfl
  scaling := by simp only [collisionData, CollData.mk', scaling_eq]
  force a := by
    simp only [collisionData, CollData.mk']
    rw [show (y.collisionConfig L V cfg).force = cfg.force.map fun F a => V * V / L * y.vector F a from rfl]
    cases cfg.force with
    | none => simp
    | some F =>
      simp only [Option.map_some]
      by_cases h1 : cfg.forceType = .noForcing
      · have h1' : (y.collisionConfig L V cfg).forceType = .noForcing := h1
        rw [if_pos h1, if_pos h1']
        simp only [mul_zero]
      · have h1' : (y.collisionConfig L V cfg).forceType ≠ .noForcing := h1
        rw [if_neg h1, if_neg h1']
        by_cases h2 : cfg.eq = .steadyState
        · have h2' : (y.collisionConfig L V cfg).eq = .steadyState := h2
          rw [if_pos h2, if_pos h2', vector, show (y.collisionConfig L V cfg).gamma = cfg.gamma from rfl]
          field_simp
        · have h2' : (y.collisionConfig L V cfg).eq ≠ .steadyState := h2
          rw [if_neg h2, if_neg h2', vector]
          field_simp

variable {ι : Type*} [DecidableEq ι]

theorem row_mrt (cfg : SelectionConfig) (D : ℕ) (r : Row) (h : (isoSelection D).1.find? (·.applies cfg) = some r) (hm : r.collisionType = .mrt) :
    cfg.scheme = .mrtStandard := by
  have h1 := List.find?_some h
  have h2 := List.mem_of_find?_eq_some h
  rw [applies_iff] at h1
  rw [h1.2.1]
  have key : ∀ r ∈ (isoSelection D).1, r.collisionType = .mrt → r.scheme = .mrtStandard := by
    unfold isoSelection
    split <;> decide
  exact key r h2 hm

theorem isothermalCollide_corresponds (y : t.Symmetry) (hL : L ≠ 0) (hV : V ≠ 0) (hc : c ≠ 0) (cfg : CollisionConfig t.D)
    (hr : y.RelaxationSymmetric cfg) (ini : Bool) (owned : List ι) (x : ι → Node ℝ t.D t.Q) :
    isothermalCollide t (V * c) (L * V * ν) (L / V * dt) (y.collisionConfig L V cfg) ini owned (fun k => y.node V (x k)) =
      (isothermalCollide t c ν dt cfg ini owned x).map fun x k => y.node V (x k) := by
  have hd := collisionData_corresponds (c := c) (ν := ν) (dt := dt) y hL hV cfg
  have hc' : V * c ≠ 0 := mul_ne_zero hV hc
  unfold isothermalCollide
  simp only
  rw [selectCollision_eq _ _ (isoSelection_exclusive _), selectCollision_eq _ _ (isoSelection_exclusive _)]
  rw [show ({ stencil := t, scheme := (y.collisionConfig L V cfg).scheme, eq := (y.collisionConfig L V cfg).eq } : SelectionConfig) =
    { stencil := t, scheme := cfg.scheme, eq := cfg.eq } from rfl]
  cases hrow : (isoSelection t.D).1.find? (·.applies { stencil := t, scheme := cfg.scheme, eq := cfg.eq }) with
  | none => rfl
  | some r =>
    simp only
    rw [hd.tau, show (y.collisionConfig L V cfg).mrtBasis = cfg.mrtBasis from rfl, show (y.collisionConfig L V cfg).relaxMode = cfg.relaxMode from rfl]
    have hf : (y.collisionConfig L V cfg).force.isSome = cfg.force.isSome := by
      unfold collisionConfig
      cases cfg.force <;> rfl
    rw [hf]
    cases hrel : t.relaxation cfg.mrtBasis cfg.relaxMode (collisionData t c ν dt cfg).tau r.collisionType with
    | error e => rfl
    | ok relax =>
      simp only
      refine sweep_all (g := y.node V) (fun x => rfl) (fun x => hd.node hV _ ?_ ?_ ?_ _ _ x) owned x
      · intro f rho
        show t.velocity _ _ _ = y.vector (t.velocity _ _ _)
        rw [t.velocity_eq _ hc', t.velocity_eq _ hc, hd.velocity]
      · intro m
        show t.equilibrium _ _ _ = y.populations (t.equilibrium _ _ _)
        cases r.equilibriumType
        · rw [t.bgk_eq _ hc', t.bgk_eq _ hc]
          exact y.eq_populations fun i => hd.bgk m i
        · have h1 : (collisionData t c ν dt cfg).cs2 ≠ 0 := by
            simp only [collisionData, CollData.mk', scaling_eq]
            exact div_ne_zero (t.cs2_ne_zero hc) (mul_ne_zero hc hc)
          rw [quartic_eq _ _ _ h1, quartic_eq _ _ _ (by rw [hd.cs2]; exact h1)]
          exact y.eq_populations fun i => hd.calcQuartic m i
      · intro feq f
        show relax _ _ _ = y.populations (relax _ _ _)
        cases hct : r.collisionType with
        | bgk => rw [hct] at hrel; cases hrel; exact hd.bgkRelax feq f
        | regularized => rw [hct] at hrel; cases hrel; exact hd.regularizedRelax feq f
        | mrt =>
          rw [hct] at hrel
          exact hr (row_mrt _ _ r hrow hct) _ relax hrel _ _ feq f

end Symmetry
end StencilType
end NATriuM
