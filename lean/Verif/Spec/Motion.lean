import Verif.Detector.Transporter
import Verif.Nuclear

/-! # Relativistic kinematics of a track point -/

namespace Verif.Spec

open Verif.Detector (Row)

/-- The squared norm of `γβ`. -/
def gammaBetaSq (r : Row) : ℝ := r.gvx ^ 2 + r.gvy ^ 2 + r.gvz ^ 2

/-- The Lorentz factor. -/
noncomputable def lorentz (r : Row) : ℝ := Real.sqrt (1 + gammaBetaSq r)

/-- The kinetic energy in MeV. -/
noncomputable def kinetic (nucleus : Nucleus) (r : Row) : ℝ := nucleus.mass * (lorentz r - 1)

end Verif.Spec
