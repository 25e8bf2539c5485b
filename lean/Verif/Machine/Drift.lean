import Verif.Machine.Transport
import Verif.Detector.Solver

/-! # Float arithmetic of the drift and of the transport of a track -/

namespace Verif.Machine

open Verif.Detector

/-- `Config.calculate_drift_velocity`, detector/parameters.py:164-174, in float64: the difference of the
integer edges and its conversion to float are exact. -/
noncomputable def drift_velocity64 (rn : ℝ → ℝ) (length : ℝ) (micromegas_edge windows_edge : ℤ) : ℝ :=
  rn (length / ((windows_edge - micromegas_edge : ℤ) : ℝ))

/-- Conversion of z to the time bucket, detector/solver.py:395-398, in float64. -/
noncomputable def to_time_bucket64 (rn : ℝ → ℝ) (length : ℝ) (micromegas_edge : ℤ) (dv z : ℝ) : ℝ :=
  rn (rn (rn (length - z) / dv) + (micromegas_edge : ℝ))

/-- `sigma_t`, detector/transporter.py:301, in float64. A negative radicand gives NaN (`none`). -/
noncomputable def spread64 (rn : ℝ → ℝ) (diffusion efield dv time : ℝ) : Option ℝ :=
  (npSqrt (rn (rn (rn (rn (2 * diffusion) * dv) * time) / efield))).map rn

/-- `point_transport(...)`, detector/transporter.py:123-169, in machine arithmetic. -/
noncomputable def point_transport64 (rn : ℝ → ℝ) (pad_grid : PadGrid) (grid_edges : GridEdges) (time : ℝ)
    (center : ℝ × ℝ) (electrons : ℤ) (points : Points) (label : ℤ) : Points :=
  let (index_x, index_y) := position_to_index64 rn grid_edges center
  if index_x = -1 ∨ index_y = -1 then points
  else
    let pad := pad_grid.cell index_x index_y
    if pad ≠ -1 ∧ pad ∉ BEAM_PADS then
      let tb := pyInt time
      addCharge64 points tb pad electrons label
    else points

/-- One iteration of the loop of `transport_track`, detector/transporter.py:296-317, in machine
arithmetic; exceptions as in `Verif.Detector.transport_step`. -/
noncomputable def transport_step64 (m : Math64) (pad_grid : PadGrid) (grid_edges : GridEdges)
    (diffusion efield dv : ℝ) (label : ℤ) (points : Points) (re : Row × ℤ) : Except PyErr Points :=
  let row := re.1
  let time := row.z
  let center := (row.x, row.y)
  let point_electrons := re.2
  if efield = 0 then .error .zeroDivision
  else match spread64 m.rn diffusion efield dv time with
    | none => .error .undefinedRead
    | some sigma_t =>
      if sigma_t = 0 then
        .ok (point_transport64 m.rn pad_grid grid_edges time center point_electrons points label)
      else
        .ok (transverse_transport64 m pad_grid grid_edges time center point_electrons sigma_t points
          label)

/-- `transport_track(...)`, detector/transporter.py:252-317, in machine arithmetic. -/
noncomputable def transport_track64 (m : Math64) (pad_grid : PadGrid) (grid_edges : GridEdges)
    (diffusion efield dv : ℝ) (track : List Row) (electrons : List ℤ) (points : Points)
    (label : ℤ) : Except PyErr Points :=
  (track.zip electrons).foldlM (transport_step64 m pad_grid grid_edges diffusion efield dv label) points

/-- The part of `generate_point_cloud` after the track and the primary electrons are known,
detector/solver.py:386-413, in machine arithmetic: mask, gain (int64), time buckets, transport. The drift
velocity is the one computed by `Config`. -/
noncomputable def drift_track64 (m : Math64) (config : Config) (pad_grid : PadGrid)
    (grid_edges : GridEdges) (track : List Row) (electrons : List ℤ) (points : Points) (label : ℤ) :
    Except PyErr Points :=
  let mask := electrons.map fun e => decide (1 ≤ e)
  let track := maskSel mask track
  let electrons := maskSel mask electrons
  let electrons := electrons.map fun e => wrap64 (e * config.det_params.mpgd_gain)
  let dv := drift_velocity64 m.rn config.det_params.length config.elec_params.micromegas_edge
    config.elec_params.windows_edge
  let track := track.map fun r => { r with
    z := to_time_bucket64 m.rn config.det_params.length config.elec_params.micromegas_edge dv r.z }
  transport_track64 m pad_grid grid_edges config.det_params.diffusion config.det_params.efield dv
    track electrons points label

end Verif.Machine
