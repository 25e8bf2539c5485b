import Verif.Spec.ExactIvp

/-! # An ODE solver with discretisation errors -/

namespace Verif.Spec

open Verif.Detector

/-- The positions of two states differ by at most `δ` metres, their momenta per mass by at most `ε`. -/
structure Near (δ ε : ℝ) (r r' : Row) : Prop where
  position : Real.sqrt ((r.x - r'.x) ^ 2 + (r.y - r'.y) ^ 2 + (r.z - r'.z) ^ 2) ≤ δ
  momentum : Real.sqrt ((r.gvx - r'.gvx) ^ 2 + (r.gvy - r'.gvy) ^ 2 + (r.gvz - r'.gvz) ^ 2) ≤ ε

/-- States at the requested times up to some time that differs by at most `η` from the end of the complete
solution, each near the solution at that time; those after its end near its last state. -/
def IsTrackWithin (δ ε η : ℝ) (P : IvpProblem) (sol : List (ℝ × Row)) : Prop :=
  ∃ (traj : ℝ → Row) (T T' : ℝ) (state : ℝ → Row), SolvesCompletely P traj T ∧
    P.t_span.1 ≤ T' ∧ |T' - T| ≤ η ∧
    (∀ t ∈ Set.Icc P.t_span.1 T', Near δ ε (state t) (traj (min t T))) ∧
    sol = (P.t_eval.takeWhile fun t => decide (P.t_span.1 ≤ t ∧ t ≤ T')).map fun t => (t, state t)

end Verif.Spec
