import Verif.Spec.Motion

/-! # The force on a charged particle in fields and matter -/

namespace Verif.Spec

open Verif.Detector (Row)

/-- Vector product. -/
def cross (a b : ℝ × ℝ × ℝ) : ℝ × ℝ × ℝ :=
  (a.2.1 * b.2.2 - a.2.2 * b.2.1, a.2.2 * b.1 - a.1 * b.2.2, a.1 * b.2.1 - a.2.1 * b.1)

/-- The direction of motion. -/
noncomputable def direction (r : Row) : ℝ × ℝ × ℝ :=
  (r.gvx / Real.sqrt (gammaBetaSq r), r.gvy / Real.sqrt (gammaBetaSq r),
    r.gvz / Real.sqrt (gammaBetaSq r))

/-- Velocity in m/s. -/
noncomputable def velocity (r : Row) : ℝ × ℝ × ℝ :=
  (r.gvx / lorentz r * 299792458, r.gvy / lorentz r * 299792458, r.gvz / lorentz r * 299792458)

/-- The Lorentz force `q (E + v × B)` minus a drag of magnitude `S` against the motion. -/
noncomputable def force (q : ℝ) (E B : ℝ × ℝ × ℝ) (S : ℝ) (r : Row) : ℝ × ℝ × ℝ :=
  (q * (E.1 + (cross (velocity r) B).1) - S * (direction r).1,
   q * (E.2.1 + (cross (velocity r) B).2.1) - S * (direction r).2.1,
   q * (E.2.2 + (cross (velocity r) B).2.2) - S * (direction r).2.2)

end Verif.Spec
