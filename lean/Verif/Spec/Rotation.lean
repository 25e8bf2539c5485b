import Verif.Kinematics.Pipeline
import Verif.Detector.Solver
import Mathlib.Analysis.SpecialFunctions.Trigonometric.Basic

/-! # Rotations about the beam axis -/

namespace Verif.Spec

open Verif.Detector Verif.Kinematics

/-- A point turned by `α` about the z axis. -/
noncomputable def turnPoint (α : ℝ) (v : ℝ × ℝ × ℝ) : ℝ × ℝ × ℝ :=
  (Real.cos α * v.1 - Real.sin α * v.2.1, Real.sin α * v.1 + Real.cos α * v.2.1, v.2.2)

/-- A four-momentum turned by `α` about the z axis. -/
noncomputable def turnVec (α : ℝ) (p : Vec4) : Vec4 :=
  ⟨Real.cos α * p.px - Real.sin α * p.py, Real.sin α * p.px + Real.cos α * p.py, p.pz, p.E⟩

/-- A state of the equation of motion turned by `α` about the z axis. -/
noncomputable def turnRow (α : ℝ) (r : Row) : Row :=
  ⟨Real.cos α * r.x - Real.sin α * r.y, Real.sin α * r.x + Real.cos α * r.y, r.z,
    Real.cos α * r.gvx - Real.sin α * r.gvy, Real.sin α * r.gvx + Real.cos α * r.gvy, r.gvz⟩

/-- `φ'` is the direction of `φ` turned by `α`; angles that differ by full turns are the same direction. -/
def TurnedAngle (α φ φ' : ℝ) : Prop := Real.cos φ' = Real.cos (φ + α) ∧ Real.sin φ' = Real.sin (φ + α)

/-- `x'` is the sample `x` with the vertex and all azimuthal directions turned by `α`. -/
structure TurnedSample (α : ℝ) (x x' : Sample) : Prop where
  beam_energy : x'.beam_energy = x.beam_energy
  reaction_excitation : x'.reaction_excitation = x.reaction_excitation
  reaction_theta : x'.reaction_theta = x.reaction_theta
  reaction_phi : TurnedAngle α x.reaction_phi x'.reaction_phi
  vertex : x'.vertex = turnPoint α x.vertex
  decay_excitations : x'.decay_excitations = x.decay_excitations
  decay_thetas : x'.decay_thetas = x.decay_thetas
  decay_phis : List.Forall₂ (TurnedAngle α) x.decay_phis x'.decay_phis

/-- An angle turned by `α`, reduced to `[0, 2π)`. -/
noncomputable def turnAngle (α φ : ℝ) : ℝ := 2 * Real.pi * Int.fract (φ / (2 * Real.pi) + α / (2 * Real.pi))

/-- A sample with the vertex and all azimuthal angles turned by `α`, the angles reduced to `[0, 2π)`. -/
noncomputable def turnSample (α : ℝ) (x : Sample) : Sample :=
  { x with reaction_phi := turnAngle α x.reaction_phi, vertex := turnPoint α x.vertex
           decay_phis := x.decay_phis.map (turnAngle α) }

end Verif.Spec
