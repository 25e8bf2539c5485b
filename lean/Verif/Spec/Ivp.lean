import Verif.Detector.Solver

/-! # Contracts of the ODE solver -/

namespace Verif.Spec

open Verif.Detector

/-- What terminal events guarantee about the evaluated states: if an event function with direction
`+1` is not positive at the start, it is not positive at any evaluated point (the integration stops
when it would become positive), and correspondingly for direction `-1`. A state that starts on the
far side of a bound is not stopped by it. -/
def SolutionRespects (P : IvpProblem) (sol : List (ℝ × Row)) : Prop :=
  ∀ ev ∈ P.events, ev.terminal = true → ∀ v₀, ev.fn P.t_span.1 P.y0 = .ok v₀ → ∀ ty ∈ sol,
    (0 < ev.direction → v₀ ≤ 0 → ∃ v, ev.fn ty.1 ty.2 = .ok v ∧ v ≤ 0) ∧
    (ev.direction < 0 → 0 ≤ v₀ → ∃ v, ev.fn ty.1 ty.2 = .ok v ∧ 0 ≤ v)

/-- The solver stops at terminal events. -/
def RespectsEvents (ivp : IvpSolver) : Prop :=
  ∀ (P : IvpProblem) (sol : List (ℝ × Row)), ivp P = .ok sol → SolutionRespects P sol

/-- The solver evaluates the right-hand side at the initial time and state (all methods of
`scipy.integrate.solve_ivp` do), so that an exception there propagates. -/
def EvaluatesInitial (ivp : IvpSolver) : Prop :=
  ∀ (P : IvpProblem) (err : PyErr), P.rhs P.t_span.1 P.y0 = .error err → ivp P = .error err

/-- If the right-hand side is defined at the initial state, the solver returns a solution. -/
def Succeeds (ivp : IvpSolver) : Prop :=
  ∀ P : IvpProblem, (∃ d, P.rhs P.t_span.1 P.y0 = .ok d) → ∃ sol, ivp P = .ok sol

/-- The states are evaluated at the first of the requested times. -/
def EvaluatesAt (ivp : IvpSolver) : Prop :=
  ∀ (P : IvpProblem) (sol : List (ℝ × Row)), ivp P = .ok sol → sol.map Prod.fst <+: P.t_eval

/-- The start of a trajectory lies in the volume bounded by the terminal events of the program: one
metre long, radius 292 mm. -/
structure InVolume (vertex : ℝ × ℝ × ℝ) : Prop where
  back : 0 ≤ vertex.2.2
  front : vertex.2.2 ≤ 1
  rho : vertex.1 ^ 2 + vertex.2.1 ^ 2 ≤ 0.292 ^ 2

end Verif.Spec
