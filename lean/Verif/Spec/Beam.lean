import Verif.Kinematics.Pipeline
import Mathlib.Analysis.Calculus.Deriv.Basic

/-! # Specification of the beam in an extended target -/

namespace Verif.Spec

open Verif.Kinematics

variable {σ : Type}

/-- The same pipeline with a beam of energy `E` and no extended target. -/
def withoutTarget (p : Pipeline σ) (E : ℝ) : Pipeline σ :=
  { p with beam_energy := E, target_material := none }

/-- The energy that remains to the beam at `z`. -/
noncomputable def remaining (p : Pipeline σ) (t : TargetMaterial) (z : ℝ) : ℝ :=
  p.beam_energy - t.material.get_energy_loss p.reaction.projectile p.beam_energy z

/-- The energy losses that the gas reports for the beam come from the stopping power `S`: along the z range
the remaining energy decreases by `S` per length. -/
structure StopsBy (p : Pipeline σ) (t : TargetMaterial) (S : ℝ → ℝ) : Prop where
  range : t.z_range.1 < t.z_range.2
  pos : ∀ z ∈ Set.Icc t.z_range.1 t.z_range.2, 0 < S (remaining p t z)
  deriv : ∀ z ∈ Set.Icc t.z_range.1 t.z_range.2,
    HasDerivWithinAt (remaining p t) (-S (remaining p t z)) (Set.Icc t.z_range.1 t.z_range.2) z

end Verif.Spec
