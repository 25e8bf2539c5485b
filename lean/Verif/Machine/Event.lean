import Verif.Machine.Drift
import Verif.Machine.Electrons
import Verif.Machine.Pairing
import Verif.Machine.Response
import Verif.Detector.Simulator

/-! # A whole event in machine arithmetic

Simplification: the initial state handed to `solve_ivp` is not rounded here. The solver is an arbitrary
function of the problem, so it may round it. -/

namespace Verif.Machine

open Verif.Detector Verif.Kinematics

/-- `dict_to_points(points)`, detector/simulator.py:19-49, in machine arithmetic: keys are unpaired in
float64 and the int64 charges become doubles. -/
noncomputable def dict_to_points64 (rn : ℝ → ℝ) (points : Points) : List CloudPoint × List ℤ :=
  (points.map fun kd =>
      let (tb, pad) := unpair64 rn kd.1
      { pad := pad, tb := tb, e := rn (kd.2.1 : ℝ) },
   points.map fun kd => kd.2.2)

/-- One iteration of the loop over nuclei, detector/simulator.py:96-101, with `generate_point_cloud`,
detector/solver.py:350-413, in machine arithmetic. `std` draws standard normal numbers. -/
noncomputable def simulate_nucleus64 {σ : Type} (m : Math64) (std : σ → ℝ × σ) (env : SimEnv)
    (momenta : List Vec4) (vertex : ℝ × ℝ × ℝ) (proton_numbers mass_numbers : List ℤ) (config : Config)
    (ps : Points × σ) (idx : ℤ) : Except PyErr (Points × σ) := do
  let z ← pyGet proton_numbers idx
  if z = 0 then return ps
  else
    let a ← pyGet mass_numbers idx
    let nucleus ← env.get_data z a
    let momentum ← pyGet momenta idx
    let track ← generate_trajectory env.solve_ivp vertex (momentum.px, momentum.py, momentum.pz) nucleus
      config.det_params
    let (electrons, s) ← generate_electrons64 m.rn std track nucleus config.det_params ps.2
    match config.pad_grid with
    | none => .error .valueError
    | some (pad_grid, pad_grid_edges) =>
      let points ← drift_track64 m config pad_grid pad_grid_edges track electrons ps.1 idx
      return (points, s)

/-- `simulate(...)`, detector/simulator.py:52-115, in machine arithmetic. -/
noncomputable def simulate64 {σ : Type} (m : Math64) (std : σ → ℝ × σ) (env : SimEnv)
    (momenta : List Vec4) (vertex : ℝ × ℝ × ℝ) (proton_numbers mass_numbers : List ℤ) (config : Config)
    (rng : Gen σ) (indices : List ℤ) (s : σ) : Except PyErr ((List CloudPoint × List ℤ) × σ) := do
  let (points, s) ← indices.foldlM
    (simulate_nucleus64 m std env momenta vertex proton_numbers mass_numbers config) (([] : Points), s)
  let (point_array, label_array) := dict_to_points64 m.rn points
  let (wiggle, s) := rng.uniformN 0 1 point_array.length s
  let point_array := (point_array.zip wiggle).map fun pw => { pw.1 with tb := m.rn (pw.1.tb + pw.2) }
  let mask := point_array.map fun p => decide (0 ≤ p.tb) && decide (p.tb < (NUM_TB : ℝ))
  return ((maskSel mask point_array, maskSel mask label_array), s)

/-- The in-memory part of `write`, detector/writer.py:220-238, in float64. -/
noncomputable def format_event64 (rn : ℝ → ℝ) (argsort : Argsort) (response : List ℝ)
    (data : List CloudPoint) (labels : List ℤ) (config : Config) :
    Except PyErr (List SpyralRow × List ℤ) :=
  match config.pad_centers with
  | none => .error .valueError
  | some pad_centers => do
    let spyral_format ← convert_to_spyral64 rn data config.elec_params.windows_edge
      config.elec_params.micromegas_edge config.det_params.length response pad_centers
      config.pad_sizes
    let mask := spyral_format.map fun r => decide (r.amp > (config.elec_params.adc_threshold : ℝ))
    let spyral_format := maskSel mask spyral_format
    let labels := maskSel mask labels
    let indicies := argsort (spyral_format.map (·.z))
    return (takeIdx indicies spyral_format, takeIdx indicies labels)

end Verif.Machine
