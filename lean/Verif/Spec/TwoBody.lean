import Mathlib.Analysis.SpecialFunctions.Trigonometric.Basic
import Mathlib.Analysis.Real.Sqrt

/-! # Specification of two-body kinematics in the laboratory -/

namespace Verif.Spec

/-- A reaction `target(projectile, ejectile)residual` with beam kinetic energy `T`; masses and energies
in MeV, the residual mass includes the excitation. -/
structure TwoBody where
  target : ℝ
  projectile : ℝ
  ejectile : ℝ
  residual : ℝ
  T : ℝ

namespace TwoBody

/-- Square of the total energy in the centre-of-mass frame. -/
noncomputable def s (k : TwoBody) : ℝ := (k.target + k.projectile) ^ 2 + 2 * k.target * k.T

/-- Momentum of both products in the centre-of-mass frame, from the Källén function. -/
noncomputable def pStar (k : TwoBody) : ℝ :=
  Real.sqrt ((k.s - (k.ejectile + k.residual) ^ 2) * (k.s - (k.ejectile - k.residual) ^ 2))
    / (2 * Real.sqrt k.s)

/-- Energy of the ejectile in the centre-of-mass frame. -/
noncomputable def eStar (k : TwoBody) : ℝ := Real.sqrt (k.ejectile ^ 2 + k.pStar ^ 2)

/-- Lorentz factor of the centre-of-mass frame. -/
noncomputable def gamma (k : TwoBody) : ℝ := (k.target + k.projectile + k.T) / Real.sqrt k.s

/-- Velocity of the centre-of-mass frame times its Lorentz factor. -/
noncomputable def gammaBeta (k : TwoBody) : ℝ :=
  Real.sqrt (k.T * (k.T + 2 * k.projectile)) / Real.sqrt k.s

end TwoBody

end Verif.Spec
