import Verif.Spec.Chain
import Verif.Spec.Species

/-! # Specification of the energy that a reaction chain releases -/

namespace Verif.Spec

open Verif.Kinematics

/-- The nucleus that is left after the decays `ds` of `n`. -/
def lastNucleus : Nucleus → List Decay → Nucleus
  | n, [] => n
  | _, d :: ds => lastNucleus d.residual_2 ds

/-- The excitation energy of the nucleus that is left after the decays `ds` of a nucleus with excitation `ex`. -/
def lastExcitation : ℝ → List Decay → List ℝ → ℝ
  | ex, [], _ => ex
  | ex, _ :: _, [] => ex
  | _, _ :: ds, e :: exs => lastExcitation e ds exs

/-- The nuclei of the final products of a chain. -/
def finalNuclei {σ : Type} (p : Pipeline σ) : List Nucleus :=
  finals ([p.reaction.ejectile, p.reaction.residual] ++ p.decays.flatMap fun d => [d.residual_1, d.residual_2])

/-- The Q value of a chain to the ground state of the last nucleus: the masses of target and projectile less those
of the final products. -/
noncomputable def groundQ {σ : Type} (p : Pipeline σ) : ℝ :=
  p.reaction.target.mass + p.reaction.projectile.mass - ((finalNuclei p).map (·.mass)).sum

/-- The kinetic energy of the neutral final products, listed with their nuclei. -/
noncomputable def neutralEnergy (final : List (Nucleus × Vec4)) : ℝ :=
  ((final.filter fun nq => decide (nq.1.Z = 0)).map fun nq => nq.2.E - nq.2.M).sum

end Verif.Spec
