import Verif.Machine.Event
import Verif.Machine.Template
import Verif.Detector.Writer

/-! # A whole simulation run in machine arithmetic -/

namespace Verif.Machine

open Verif.Detector Verif.Kinematics

/-- `SpyralWriter.__init__`, detector/writer.py:164-181, in float64, on a directory with contents `disk`. -/
noncomputable def init64 (m : NumpyMath) (disk : Disk) (config : Config) (max_events_per_file : ℤ)
    (first_run_number : ℤ) : Except PyErr Unit × Writer :=
  let w : Writer :=
    { response := get_response64 m config
      max_events_per_file := max_events_per_file
      run_number := first_run_number
      starting_event := 0
      last_event := 0
      events_written := 0
      file := run_name first_run_number
      disk := disk
      trace := [disk] }
  w.ops [.createFile w.file, .createGroup w.file]

/-- `write(data, labels, config, event_number)`, detector/writer.py:194-255, in float64. -/
noncomputable def write64 (rn : ℝ → ℝ) (argsort : Argsort) (data : List CloudPoint) (labels : List ℤ)
    (config : Config) (event_number : ℤ) (w : Writer) : Except PyErr Unit × Writer :=
  match w.rollover event_number with
  | (.error e, w) => (.error e, w)
  | (.ok _, w) =>
    match format_event64 rn argsort w.response data labels config with
    | .error e => (.error e, w)
    | .ok (rows, labels) =>
      match w.ops (event_ops w.file w.run_number event_number rows labels) with
      | (.error e, w) => (.error e, w)
      | (.ok _, w) =>
        (.ok (), { w with last_event := event_number, events_written := w.events_written + 1 })

/-- A `SpyralWriter` as a `SimulationWriter` for `run_simulation`, in float64. -/
noncomputable def spyralWriter64 (rn : ℝ → ℝ) (argsort : Argsort) : SimWriter Writer where
  write := fun cloud labels config event => write64 rn argsort cloud labels config (event : ℤ)
  close := Writer.close

/-- The body of the event loop, detector/simulator.py:183-207, in machine arithmetic. -/
noncomputable def run_event64 {σ τ : Type} (m : Math64) (std : σ → ℝ × σ) (env : SimEnv) (config : Config)
    (file : KinFile (List Vec4)) (proton_numbers mass_numbers : List ℤ) (chunk_size : ℕ)
    (nuclei_to_sim : List ℤ) (rng : Gen σ) (writer : SimWriter τ) (event_number : ℕ)
    (st : RunState σ τ) : Except PyErr Unit × RunState σ τ :=
  match read_event file chunk_size event_number with
  | .error e => (.error e, st)
  | .ok (momenta, vertex) =>
    match simulate64 m std env momenta vertex proton_numbers mass_numbers config rng nuclei_to_sim st.gen with
    | .error e => (.error e, st)
    | .ok ((cloud, labels), s) =>
      if cloud.length = 0 then (.ok (), { st with gen := s })
      else
        let (r, w) := writer.write cloud labels config event_number st.writer
        (r, { gen := s, writer := w })

/-- The event loop, detector/simulator.py:183-207, in machine arithmetic: `n` events starting at `start`. -/
noncomputable def run_events64 {σ τ : Type} (m : Math64) (std : σ → ℝ × σ) (env : SimEnv) (config : Config)
    (file : KinFile (List Vec4)) (proton_numbers mass_numbers : List ℤ) (chunk_size : ℕ)
    (nuclei_to_sim : List ℤ) (rng : Gen σ) (writer : SimWriter τ) :
    ℕ → ℕ → RunState σ τ → Except PyErr Unit × RunState σ τ
  | 0, _, st => (.ok (), st)
  | n + 1, start, st =>
    match run_event64 m std env config file proton_numbers mass_numbers chunk_size nuclei_to_sim rng writer
        start st with
    | (.error e, st) => (.error e, st)
    | (.ok _, st) =>
      run_events64 m std env config file proton_numbers mass_numbers chunk_size nuclei_to_sim rng writer
        n (start + 1) st

/-- `run_simulation(config, input_path, writer, indices)`, detector/simulator.py:118-210, in machine arithmetic. The
numbers of the kinematics file are taken as they are: they are doubles already. -/
noncomputable def run_simulation64 {σ τ : Type} (m : Math64) (std : σ → ℝ × σ) (env : SimEnv) (config : Config)
    (file : KinFile (List Vec4)) (writer : SimWriter τ) (indices : Option (List ℤ)) (rng : Gen σ)
    (st : RunState σ τ) : Except PyErr Unit × RunState σ τ :=
  match (do
      let proton_numbers ← attr file.proton_numbers
      let mass_numbers ← attr file.mass_numbers
      let n_events ← attr file.n_events
      let _n_chunks ← attr file.n_chunks
      let chunk_size ← attr file.chunk_size
      return (proton_numbers, mass_numbers, n_events, chunk_size) : Except PyErr _) with
  | .error e => (.error e, st)
  | .ok (proton_numbers, mass_numbers, n_events, chunk_size) =>
    let nuclei_to_sim := match indices with
      | some l => l
      | none => default_indices proton_numbers.length
    match run_events64 m std env config file proton_numbers mass_numbers chunk_size nuclei_to_sim rng writer
        n_events.toNat 0 st with
    | (.error e, st) => (.error e, st)
    | (.ok _, st) =>
      let (r, w) := writer.close st.writer
      (r, { st with writer := w })

end Verif.Machine
