import Verif.Detector.Writer

/-! # The response and the writer with undefined electronics settings

`Detector/Response.lean` and `Detector/Writer.lean` assume that the gain, the shaping time and the clock frequency
do not vanish. Here are the same functions with the exceptions and the NaN values of the other settings (`none` is
NaN). -/

namespace Verif.Detector

/-- `get_response(config)`, detector/response.py:8-32. Line 25 divides Python floats: ZeroDivisionError. Line 27
divides an array by a Python float: for 0 it yields NaN or an infinity of either sign, `np.sin` of these is NaN
(line 28), and `NaN < 0` is false (line 30). -/
noncomputable def get_response_raw (config : Config) : Except PyErr (List (Option ℝ)) :=
  if config.elec_params.amp_gain = 0 then .error .zeroDivision
  else
    let tbs := linspace 0 (NUM_TB : ℝ) NUM_TB
    .ok (tbs.map fun tb =>
      if (config.elec_params.shaping_time : ℝ) * config.elec_params.clock_freq * 0.001 = 0 then none
      else
        let r := response_at config.elec_params tb
        some (if r < 0 then 0 else r))

/-- All values of an array, if none of them is NaN. -/
def noNaN {α : Type} : List (Option α) → Option (List α)
  | [] => some []
  | none :: _ => none
  | some x :: l => (noNaN l).map (x :: ·)

/-- `apply_response(response, electrons)`, detector/response.py:35-57. NaN times a number is NaN, `NaN > 4095` is
false, and maximum and sum of an array with NaN are NaN. -/
noncomputable def apply_response_raw (response : List (Option ℝ)) (electrons : ℝ) : Option (ℝ × ℝ) :=
  let resp_sig := response.map (Option.map fun r => r * electrons)
  let resp_sig := resp_sig.map (Option.map fun s => if s > 4095 then 4095 else s)
  (noNaN resp_sig).map fun l => (npMax l, l.sum)

/-- One iteration of the loop of `convert_to_spyral`, detector/writer.py:98-110. A row with NaN amplitude and
integral is `none`. -/
noncomputable def convert_point_raw (window_edge mm_edge : ℤ) (length : ℝ) (response : List (Option ℝ))
    (pad_centers : List (ℝ × ℝ)) (pad_sizes : List ℝ) (point : CloudPoint) :
    Except PyErr (Option SpyralRow) := do
  let pad ← numbaGet pad_centers (pyInt point.pad)
  let signal := apply_response_raw response point.e
  if window_edge - mm_edge = 0 then .error .zeroDivision
  else
    let size ← numbaGet pad_sizes (pyInt point.pad)
    return signal.map fun ai =>
      { x := pad.1
        y := pad.2
        z := ((window_edge : ℝ) - point.tb) / ((window_edge - mm_edge : ℤ) : ℝ) * length * 1000
        amp := ai.1
        integral := ai.2
        pad := point.pad
        tb := point.tb
        scale := size }

/-- Does the amplitude of a row exceed the threshold? `NaN > threshold` is false (detector/writer.py:232). -/
noncomputable def above (threshold : ℤ) : Option SpyralRow → Bool
  | none => false
  | some r => decide (r.amp > (threshold : ℝ))

/-- The in-memory part of `write`, detector/writer.py:220-238. No row with NaN passes the mask. -/
noncomputable def format_event_raw (argsort : Argsort) (response : List (Option ℝ)) (data : List CloudPoint)
    (labels : List ℤ) (config : Config) : Except PyErr (List SpyralRow × List ℤ) :=
  match config.pad_centers with
  | none => .error .valueError
  | some pad_centers => do
    let spyral_format ← data.mapM (convert_point_raw config.elec_params.windows_edge
      config.elec_params.micromegas_edge config.det_params.length response pad_centers config.pad_sizes)
    let mask := spyral_format.map (above config.elec_params.adc_threshold)
    let spyral_format := (maskSel mask spyral_format).filterMap id
    let labels := maskSel mask labels
    let indicies := argsort (spyral_format.map (·.z))
    return (takeIdx indicies spyral_format, takeIdx indicies labels)

/-- `SpyralWriter.__init__`, detector/writer.py:164-181: `get_response` is called before the first file is created.
Returns the response and the writer (whose field `response` is not used), and the directory. -/
noncomputable def create_writer (disk : Disk) (config : Config) (max_events_per_file first_run_number : ℤ) :
    Except PyErr (List (Option ℝ) × Writer) × Disk :=
  match get_response_raw config with
  | .error e => (.error e, disk)
  | .ok response =>
    match Writer.init disk config max_events_per_file first_run_number with
    | (.error e, w) => (.error e, w.disk)
    | (.ok _, w) => (.ok (response, w), w.disk)

/-- `write(data, labels, config, event_number)`, detector/writer.py:194-255. -/
noncomputable def write_raw (argsort : Argsort) (response : List (Option ℝ)) (data : List CloudPoint)
    (labels : List ℤ) (config : Config) (event_number : ℤ) (w : Writer) : Except PyErr Unit × Writer :=
  match w.rollover event_number with
  | (.error e, w) => (.error e, w)
  | (.ok _, w) =>
    match format_event_raw argsort response data labels config with
    | .error e => (.error e, w)
    | .ok (rows, labels) =>
      match w.ops (event_ops w.file w.run_number event_number rows labels) with
      | (.error e, w) => (.error e, w)
      | (.ok _, w) =>
        (.ok (), { w with last_event := event_number, events_written := w.events_written + 1 })

end Verif.Detector
