import Verif.Machine.Electrons

/-! # Float arithmetic of the equation of motion and of the other arguments of `solve_ivp` -/

namespace Verif.Machine

open Verif.Detector

/-- `MEV_2_JOULE`, detector/constants.py:25-27, in float64: the product of two literals. -/
noncomputable def MEV_2_JOULE64 (rn : ℝ → ℝ) : ℝ := rn (rn 1.602176634e-19 * 1.0e6)

/-- `MEV_2_KG`, detector/constants.py:29-31, in float64. -/
noncomputable def MEV_2_KG64 (rn : ℝ → ℝ) : ℝ := rn (rn 1.782661921e-36 * 1.0e6)

/-- `equation_of_motion(t, state, bfield, efield, target, ejectile)`, detector/solver.py:19-76, in float64. The value of
`get_dedx` is taken as it is; it belongs to `spyral_utils`. Multiplying by `-1.0` is exact, and so is `C`. -/
noncomputable def equation_of_motion64 (rn : ℝ → ℝ) (_t : ℝ) (state : Row) (bfield efield : ℝ)
    (target : GasTarget) (ejectile : Nucleus) : Except PyErr Row :=
  let gv := gv64 rn state
  let beta := beta64 rn gv
  if beta = 0 then .error .zeroDivision
  else
    let ux := rn (state.gvx / gv)
    let uy := rn (state.gvy / gv)
    let uz := rn (state.gvz / gv)
    let vx := rn (rn (ux * beta) * C)
    let vy := rn (rn (uy * beta) * C)
    let vz := rn (rn (uz * beta) * C)
    let kinetic_energy := kinetic64 rn ejectile.mass gv
    let charge_c := rn ((ejectile.Z : ℝ) * rn E_CHARGE)
    let mass_kg := rn (ejectile.mass * MEV_2_KG64 rn)
    let q_m := rn (charge_c / mass_kg)
    let deceleration :=
      rn (rn (rn (rn (target.get_dedx ejectile kinetic_energy * MEV_2_JOULE64 rn) * target.density) * 100) / mass_kg)
    .ok { x := vx, y := vy, z := vz
          gvx := rn (rn (rn (rn (q_m * vy) * bfield) - rn (deceleration * ux)) / C)
          gvy := rn (rn (rn (q_m * rn (-1 * vx * bfield)) - rn (deceleration * uy)) / C)
          gvz := rn (rn (rn (q_m * efield) - rn (deceleration * uz)) / C) }

/-- `forward_z_bound_condition(...)`, detector/solver.py:124-160, in float64. -/
def forward_z_bound_condition64 (rn : ℝ → ℝ) (state : Row) : ℝ := rn (state.z - 1)

/-- `rho_bound_condition(...)`, detector/solver.py:204-240, in float64. `np.linalg.norm` adds the two squares. -/
noncomputable def rho_bound_condition64 (rn : ℝ → ℝ) (state : Row) : ℝ :=
  rn (rn (Real.sqrt (rn (rn (state.x ^ 2) + rn (state.y ^ 2)))) - rn 0.292)

/-- `TIME_STEPS`, detector/solver.py:16, in float64: `np.linspace` multiplies the indices by the rounded step and puts
the end point in last place. -/
noncomputable def TIME_STEPS64 (rn : ℝ → ℝ) : List ℝ :=
  ((List.range 10000).map fun (k : ℕ) => rn ((k : ℝ) * rn (rn 10e-7 / 10000))) ++ [rn 10e-7]

/-- The initial value problem posed by `generate_trajectory`, detector/solver.py:269-303, in float64. -/
noncomputable def trajectory_problem64 (rn : ℝ → ℝ) (vertex momentum : ℝ × ℝ × ℝ) (nucleus : Nucleus)
    (params : DetectorParams) : IvpProblem where
  rhs := fun t s => equation_of_motion64 rn t s (params.bfield * -1) (params.efield * -1) params.gas_target nucleus
  t_span := (0, 1)
  y0 :=
    { x := vertex.1, y := vertex.2.1, z := vertex.2.2
      gvx := rn (momentum.1 / nucleus.mass)
      gvy := rn (momentum.2.1 / nucleus.mass)
      gvz := rn (momentum.2.2 / nucleus.mass) }
  method := "Radau"
  events :=
    [{ fn := fun _ s => stop_condition64 rn s nucleus, terminal := true, direction := -1 },
     { fn := fun _ s => .ok (forward_z_bound_condition64 rn s), terminal := true, direction := 1 },
     { fn := fun _ s => .ok (backward_z_bound_condition s), terminal := true, direction := -1 },
     { fn := fun _ s => .ok (rho_bound_condition64 rn s), terminal := true, direction := 1 }]
  t_eval := TIME_STEPS64 rn

end Verif.Machine
