import Verif.Spec.Ivp
import Mathlib.Analysis.Calculus.Deriv.Basic

/-! # An idealised ODE solver without discretisation error -/

namespace Verif.Spec

open Verif.Detector

/-- `traj` solves the differential equation of `P` from its start until `T`, and no terminal event is
passed before `T`. -/
structure Solves (P : IvpProblem) (traj : ℝ → Row) (T : ℝ) : Prop where
  start : traj P.t_span.1 = P.y0
  span : P.t_span.1 ≤ T
  deriv : ∀ t ∈ Set.Icc P.t_span.1 T, ∃ d, P.rhs t (traj t) = .ok d ∧
    HasDerivAt (fun t => (traj t).x) d.x t ∧ HasDerivAt (fun t => (traj t).y) d.y t ∧
    HasDerivAt (fun t => (traj t).z) d.z t ∧ HasDerivAt (fun t => (traj t).gvx) d.gvx t ∧
    HasDerivAt (fun t => (traj t).gvy) d.gvy t ∧ HasDerivAt (fun t => (traj t).gvz) d.gvz t
  events : ∀ t ∈ Set.Icc P.t_span.1 T, SolutionRespects P [(t, traj t)]

/-- The solver is exact: what it returns are the values, at increasing times, of a solution of the
differential equation that is stopped by the terminal events. -/
def SolvesExactly (ivp : IvpSolver) : Prop :=
  ∀ (P : IvpProblem) (sol : List (ℝ × Row)), ivp P = .ok sol → ∃ (traj : ℝ → Row) (T : ℝ) (times : List ℝ),
    Solves P traj T ∧ (∀ t ∈ times, t ∈ Set.Icc P.t_span.1 T) ∧ times.Pairwise (· ≤ ·) ∧
    sol = times.map fun t => (t, traj t)

/-- `traj` solves the problem until `T`, and no solution within the time span reaches further: the
integration ends at a terminal event or at the end of the time span, not before. -/
structure SolvesCompletely (P : IvpProblem) (traj : ℝ → Row) (T : ℝ) : Prop where
  within : T ≤ P.t_span.2
  solves : Solves P traj T
  last : ∀ (traj' : ℝ → Row) (T' : ℝ), T' ≤ P.t_span.2 → Solves P traj' T' → T' ≤ T

/-- The values of a complete solution at the requested times that it reaches. -/
def IsTrackOf (P : IvpProblem) (sol : List (ℝ × Row)) : Prop :=
  ∃ (traj : ℝ → Row) (T : ℝ), SolvesCompletely P traj T ∧
    sol = (P.t_eval.takeWhile fun t => decide (P.t_span.1 ≤ t ∧ t ≤ T)).map fun t => (t, traj t)

/-- The solver integrates without error until a terminal event or the end of the time span. -/
def SolvesToTheEnd (ivp : IvpSolver) : Prop :=
  ∀ (P : IvpProblem) (sol : List (ℝ × Row)), ivp P = .ok sol → IsTrackOf P sol

end Verif.Spec
