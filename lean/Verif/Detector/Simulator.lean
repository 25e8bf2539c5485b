import Verif.Detector.Solver
import Verif.Kinematics.KinFile

/-! # Model of `src/attpc_engine/detector/simulator.py` -/

namespace Verif.Detector

open Verif.Kinematics

/-- One row `[pad, tb, e]` of a point cloud. -/
structure CloudPoint where
  pad : ℝ
  tb : ℝ
  e : ℝ

/-- `dict_to_points(points)`, detector/simulator.py:19-49: rows and labels in dictionary order. -/
def dict_to_points (points : Points) : List CloudPoint × List ℤ :=
  (points.map fun kd =>
      let (tb, pad) := unpair kd.1
      { pad := (pad : ℝ), tb := (tb : ℝ), e := (kd.2.1 : ℝ) },
   points.map fun kd => kd.2.2)

/-- The external context of a simulation: the nuclear data map and the ODE solver. -/
structure SimEnv where
  /-- `nuclear_map.get_data(Z, A)` -/
  get_data : ℤ → ℤ → Except PyErr Nucleus
  solve_ivp : IvpSolver

/-- One iteration of the loop over nuclei, detector/simulator.py:96-101. -/
noncomputable def simulate_nucleus {σ : Type} (env : SimEnv) (momenta : List Vec4)
    (vertex : ℝ × ℝ × ℝ) (proton_numbers mass_numbers : List ℤ) (config : Config) (rng : Gen σ)
    (ps : Points × σ) (idx : ℤ) : Except PyErr (Points × σ) := do
  let z ← pyGet proton_numbers idx
  if z = 0 then return ps
  else
    let a ← pyGet mass_numbers idx
    let nucleus ← env.get_data z a
    let momentum ← pyGet momenta idx
    generate_point_cloud env.solve_ivp (momentum.px, momentum.py, momentum.pz) vertex nucleus
      config rng ps.1 idx ps.2

/-- `simulate(...)`, detector/simulator.py:52-115. Returns cloud, labels and generator state. -/
noncomputable def simulate {σ : Type} (env : SimEnv) (momenta : List Vec4) (vertex : ℝ × ℝ × ℝ)
    (proton_numbers mass_numbers : List ℤ) (config : Config) (rng : Gen σ) (indices : List ℤ)
    (s : σ) : Except PyErr ((List CloudPoint × List ℤ) × σ) := do
  let (points, s) ← indices.foldlM
    (simulate_nucleus env momenta vertex proton_numbers mass_numbers config rng) (([] : Points), s)
  let (point_array, label_array) := dict_to_points points
  let (wiggle, s) := rng.uniformN 0 1 point_array.length s
  let point_array := (point_array.zip wiggle).map fun pw => { pw.1 with tb := pw.1.tb + pw.2 }
  let mask := point_array.map fun p => decide (0 ≤ p.tb) && decide (p.tb < (NUM_TB : ℝ))
  return ((maskSel mask point_array, maskSel mask label_array), s)

/-- The `SimulationWriter` protocol, detector/writer.py:12-58: an object with mutable state `τ`
whose methods may raise (the state survives an exception). -/
structure SimWriter (τ : Type) where
  write : List CloudPoint → List ℤ → Config → ℕ → τ → Except PyErr Unit × τ
  close : τ → Except PyErr Unit × τ

/-- The default list of nuclei, detector/simulator.py:157-158:
`range(2, len, 2)` followed by `len - 1`. -/
def default_indices (len : ℕ) : List ℤ :=
  ((List.range' 2 ((len - 2 + 1) / 2) 2).map fun (i : ℕ) => (i : ℤ)) ++ [(len : ℤ) - 1]

/-- Reading an attribute; h5py raises KeyError when it is missing. -/
def attr {α : Type} (o : Option α) : Except PyErr α :=
  match o with
  | some a => .ok a
  | none => .error .keyError

/-- Looking a name up in an HDF5 group; h5py raises KeyError when it is missing. -/
def lookupName {α : Type} (l : List (String × α)) (name : String) : Except PyErr α :=
  match l.lookup name with
  | some a => .ok a
  | none => .error .keyError

/-- Reading one event, detector/simulator.py:184-195: `chunk_{event // chunk_size}` then
`event_{event}`, its data and the three vertex attributes. `chunk_size` is a numpy integer: division by 0
gives 0 (with a warning), as does division of natural numbers in Lean. -/
def read_event {ρ : Type} (file : KinFile ρ) (chunk_size event_number : ℕ) :
    Except PyErr (ρ × (ℝ × ℝ × ℝ)) := do
  let chunk := event_number / chunk_size
  let group ← lookupName file.chunks (chunk_name chunk)
  let dataset ← lookupName group.events (event_name event_number)
  let vx ← attr dataset.vertex_x
  let vy ← attr dataset.vertex_y
  let vz ← attr dataset.vertex_z
  return (dataset.data, (vx, vy, vz))

/-- State of a running simulation: the generator and the writer object. -/
structure RunState (σ τ : Type) where
  gen : σ
  writer : τ

/-- The body of the event loop, detector/simulator.py:183-207. -/
noncomputable def run_event {σ τ : Type} (env : SimEnv) (config : Config)
    (file : KinFile (List Vec4)) (proton_numbers mass_numbers : List ℤ) (chunk_size : ℕ)
    (nuclei_to_sim : List ℤ) (rng : Gen σ) (writer : SimWriter τ) (event_number : ℕ)
    (st : RunState σ τ) : Except PyErr Unit × RunState σ τ :=
  match read_event file chunk_size event_number with
  | .error e => (.error e, st)
  | .ok (momenta, vertex) =>
    match simulate env momenta vertex proton_numbers mass_numbers config rng nuclei_to_sim st.gen with
    | .error e => (.error e, st)
    | .ok ((cloud, labels), s) =>
      if cloud.length = 0 then (.ok (), { st with gen := s })
      else
        let (r, w) := writer.write cloud labels config event_number st.writer
        (r, { gen := s, writer := w })

/-- The event loop, detector/simulator.py:183-207: `n` events starting at `start`. -/
noncomputable def run_events {σ τ : Type} (env : SimEnv) (config : Config)
    (file : KinFile (List Vec4)) (proton_numbers mass_numbers : List ℤ) (chunk_size : ℕ)
    (nuclei_to_sim : List ℤ) (rng : Gen σ) (writer : SimWriter τ) :
    ℕ → ℕ → RunState σ τ → Except PyErr Unit × RunState σ τ
  | 0, _, st => (.ok (), st)
  | n + 1, start, st =>
    match run_event env config file proton_numbers mass_numbers chunk_size nuclei_to_sim rng writer
        start st with
    | (.error e, st) => (.error e, st)
    | (.ok _, st) =>
      run_events env config file proton_numbers mass_numbers chunk_size nuclei_to_sim rng writer
        n (start + 1) st

/-- `run_simulation(config, input_path, writer, indices)`, detector/simulator.py:118-210.
Printing and the progress bar are omitted; `default_rng()` is the generator passed in. -/
noncomputable def run_simulation {σ τ : Type} (env : SimEnv) (config : Config)
    (file : KinFile (List Vec4)) (writer : SimWriter τ) (indices : Option (List ℤ)) (rng : Gen σ)
    (st : RunState σ τ) : Except PyErr Unit × RunState σ τ :=
  match (do
      let proton_numbers ← attr file.proton_numbers
      let mass_numbers ← attr file.mass_numbers
      let n_events ← attr file.n_events
      let _n_chunks ← attr file.n_chunks
      let chunk_size ← attr file.chunk_size
      return (proton_numbers, mass_numbers, n_events, chunk_size) : Except PyErr _) with
  | .error e => (.error e, st)
  | .ok (proton_numbers, mass_numbers, n_events, chunk_size) =>
    let nuclei_to_sim := match indices with
      | some l => l
      | none => default_indices proton_numbers.length
    match run_events env config file proton_numbers mass_numbers chunk_size nuclei_to_sim rng writer
        n_events.toNat 0 st with
    | (.error e, st) => (.error e, st)
    | (.ok _, st) =>
      let (r, w) := writer.close st.writer
      (r, { st with writer := w })

end Verif.Detector
