import Verif.Detector.Response

/-! # Model of `src/attpc_engine/detector/solver.py` -/

namespace Verif.Detector

/-- `KE_LIMIT`, detector/solver.py:14. -/
noncomputable def KE_LIMIT : ℝ := 1e-6

/-- Norm of the `γβ` part of a state: `gv`, detector/solver.py:52, 116, 332. -/
noncomputable def Row.gv (s : Row) : ℝ := Real.sqrt (s.gvx ^ 2 + s.gvy ^ 2 + s.gvz ^ 2)

/-- `beta`, detector/solver.py:53, 117, 333. -/
noncomputable def betaOf (gv : ℝ) : ℝ := Real.sqrt (gv ^ 2 / (1 + gv ^ 2))

/-- `equation_of_motion(t, state, bfield, efield, target, ejectile)`, detector/solver.py:19-76.
`gamma = gv / beta` (line 54) divides Python floats: ZeroDivisionError at zero momentum. -/
noncomputable def equation_of_motion (_t : ℝ) (state : Row) (bfield efield : ℝ)
    (target : GasTarget) (ejectile : Nucleus) : Except PyErr Row :=
  let gv := state.gv
  let beta := betaOf gv
  if beta = 0 then .error .zeroDivision
  else
    let gamma := gv / beta
    let ux := state.gvx / gv
    let uy := state.gvy / gv
    let uz := state.gvz / gv
    let vx := ux * beta * C
    let vy := uy * beta * C
    let vz := uz * beta * C
    let kinetic_energy := ejectile.mass * (gamma - 1)
    let charge_c := (ejectile.Z : ℝ) * E_CHARGE
    let mass_kg := ejectile.mass * MEV_2_KG
    let q_m := charge_c / mass_kg
    let deceleration :=
      (target.get_dedx ejectile kinetic_energy * MEV_2_JOULE * target.density * 100) / mass_kg
    .ok { x := vx, y := vy, z := vz
          gvx := (q_m * vy * bfield - deceleration * ux) / C
          gvy := (q_m * (-1 * vx * bfield) - deceleration * uy) / C
          gvz := (q_m * efield - deceleration * uz) / C }

/-- `stop_condition(...)`, detector/solver.py:80-121. -/
noncomputable def stop_condition (state : Row) (ejectile : Nucleus) : Except PyErr ℝ :=
  let gv := state.gv
  let beta := betaOf gv
  if beta = 0 then .error .zeroDivision
  else .ok (ejectile.mass * (gv / beta - 1) - KE_LIMIT)

/-- `forward_z_bound_condition(...)`, detector/solver.py:124-160. -/
def forward_z_bound_condition (state : Row) : ℝ := state.z - 1

/-- `backward_z_bound_condition(...)`, detector/solver.py:164-200. -/
def backward_z_bound_condition (state : Row) : ℝ := state.z

/-- `rho_bound_condition(...)`, detector/solver.py:204-240. -/
noncomputable def rho_bound_condition (state : Row) : ℝ :=
  Real.sqrt (state.x ^ 2 + state.y ^ 2) - 0.292

/-- An event function of `solve_ivp` with its `terminal` and `direction` attributes. -/
structure IvpEvent where
  fn : ℝ → Row → Except PyErr ℝ
  terminal : Bool
  direction : ℝ

/-- The arguments of a call of `scipy.integrate.solve_ivp`. The extra arguments `args` are already
applied to the right-hand side and the events. -/
structure IvpProblem where
  rhs : ℝ → Row → Except PyErr Row
  t_span : ℝ × ℝ
  y0 : Row
  method : String
  events : List IvpEvent
  t_eval : List ℝ

/-- `scipy.integrate.solve_ivp`: returns the evaluated times and states, or raises. Arbitrary; the
contracts are stated in `Verif/Spec/Ivp.lean` and assumed where they are used. -/
abbrev IvpSolver := IvpProblem → Except PyErr (List (ℝ × Row))

/-- `np.linspace(0, stop, n + 1)`. -/
noncomputable def linspace0 (stop : ℝ) (n : ℕ) : List ℝ :=
  (List.range (n + 1)).map fun (k : ℕ) => (k : ℝ) * (stop / (n : ℝ))

/-- `TIME_STEPS`, detector/solver.py:16. -/
noncomputable def TIME_STEPS : List ℝ := linspace0 10e-7 10000

/-- The initial value problem posed by `generate_trajectory`, detector/solver.py:269-303: initial
state, terminal events with their directions, time span, evaluation times, arguments. `momentum` is
the first three entries of the 4-momentum. -/
noncomputable def trajectory_problem (vertex momentum : ℝ × ℝ × ℝ) (nucleus : Nucleus)
    (params : DetectorParams) : IvpProblem where
  rhs := fun t s => equation_of_motion t s (params.bfield * -1) (params.efield * -1)
    params.gas_target nucleus
  t_span := (0, 1)
  y0 :=
    { x := vertex.1, y := vertex.2.1, z := vertex.2.2
      gvx := momentum.1 / nucleus.mass
      gvy := momentum.2.1 / nucleus.mass
      gvz := momentum.2.2 / nucleus.mass }
  method := "Radau"
  events :=
    [{ fn := fun _ s => stop_condition s nucleus, terminal := true, direction := -1 },
     { fn := fun _ s => .ok (forward_z_bound_condition s), terminal := true, direction := 1 },
     { fn := fun _ s => .ok (backward_z_bound_condition s), terminal := true, direction := -1 },
     { fn := fun _ s => .ok (rho_bound_condition s), terminal := true, direction := 1 }]
  t_eval := TIME_STEPS

/-- `generate_trajectory(vertex, momentum, nucleus, params)`, detector/solver.py:243-305: the rows of
`track.y.T`. -/
noncomputable def generate_trajectory (solve_ivp : IvpSolver) (vertex momentum : ℝ × ℝ × ℝ)
    (nucleus : Nucleus) (params : DetectorParams) : Except PyErr (List Row) :=
  match solve_ivp (trajectory_problem vertex momentum nucleus params) with
  | .error e => .error e
  | .ok solution => .ok (solution.map Prod.snd)

/-- Kinetic energy at one track point, detector/solver.py:332-335.  numpy gives NaN for
`gv = 0` (`0/0`). -/
noncomputable def track_energy (nucleus : Nucleus) (s : Row) : Option ℝ :=
  if s.gv = 0 then none else some (nucleus.mass * (s.gv / betaOf s.gv - 1))

/-- `abs(np.diff(energy))` from the second point on, preceded by 0 for the first point,
detector/solver.py:338-339.  NaN propagates. -/
noncomputable def energy_lost : List (Option ℝ) → List (Option ℝ)
  | [] => []
  | e :: es => some 0 :: go e es
where
  /-- successive differences -/
  go : Option ℝ → List (Option ℝ) → List (Option ℝ)
    | _, [] => []
    | a, b :: rest => (do let x ← a; let y ← b; pure |y - x|) :: go b rest

/-- One element of the Fano adjustment, detector/solver.py:343-346:
`int64(rng.normal(point, sqrt(fano * point)))`.  A NaN mean or scale gives a NaN draw, which
`np.array(.., dtype=np.int64)` rejects with ValueError. -/
noncomputable def fano_draw {σ : Type} (rng : Gen σ) (fano : ℝ) (point : Option ℝ) (s : σ) :
    Except PyErr (ℤ × σ) :=
  match point with
  | none => .error .valueError
  | some m =>
    match npSqrt (fano * m) with
    | none => .error .valueError
    | some scale =>
      let (v, s) := rng.normal m scale s
      .ok (pyInt v, s)

/-- The list comprehension at detector/solver.py:343-346. -/
noncomputable def fano_draws {σ : Type} (rng : Gen σ) (fano : ℝ) :
    List (Option ℝ) → σ → Except PyErr (List ℤ × σ)
  | [], s => .ok ([], s)
  | m :: ms, s => do
    let (v, s) ← fano_draw rng fano m s
    let (vs, s) ← fano_draws rng fano ms s
    return (v :: vs, s)

/-- `generate_electrons(track, nucleus, params, rng)`, detector/solver.py:308-347. -/
noncomputable def generate_electrons {σ : Type} (track : List Row) (nucleus : Nucleus)
    (params : DetectorParams) (rng : Gen σ) (s : σ) : Except PyErr (List ℤ × σ) :=
  let energy := track.map (track_energy nucleus)
  if params.w_value = 0 then .error .zeroDivision
  else
    let electrons := (energy_lost energy).map (Option.map (· * (1.0e6 / params.w_value)))
    fano_draws rng params.fano_factor electrons s

/-- Conversion of z to the exact time bucket, detector/solver.py:395-398 (`dv ≠ 0`). -/
noncomputable def to_time_bucket (config : Config) (z : ℝ) : ℝ :=
  (config.det_params.length - z) / config.drift_velocity
    + (config.elec_params.micromegas_edge : ℝ)

/-- `generate_point_cloud(...)`, detector/solver.py:350-413.  Returns the updated dictionary and the
advanced generator state. -/
noncomputable def generate_point_cloud {σ : Type} (solve_ivp : IvpSolver)
    (momentum vertex : ℝ × ℝ × ℝ) (nucleus : Nucleus) (config : Config) (rng : Gen σ)
    (points : Points) (label : ℤ) (s : σ) : Except PyErr (Points × σ) := do
  let track ← generate_trajectory solve_ivp vertex momentum nucleus config.det_params
  let (electrons, s) ← generate_electrons track nucleus config.det_params rng s
  let mask := electrons.map fun e => decide (1 ≤ e)
  let track := maskSel mask track
  let electrons := maskSel mask electrons
  let electrons := electrons.map (· * config.det_params.mpgd_gain)
  let track := track.map fun r => { r with z := to_time_bucket config r.z }
  match config.pad_grid with
  | none => .error .valueError
  | some (pad_grid, pad_grid_edges) =>
    let points ← transport_track pad_grid pad_grid_edges config.det_params.diffusion
      config.det_params.efield config.drift_velocity track electrons points label
    return (points, s)

end Verif.Detector
