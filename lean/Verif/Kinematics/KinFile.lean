import Verif.Py
import Verif.Kinematics.Vec4

/-! # Model of the kinematics HDF5 file and of `run_kinematics_pipeline`
(`src/attpc_engine/kinematics/pipeline.py:429-495`) -/

namespace Verif.Kinematics

/-- An event dataset: the array and its three vertex attributes (set one by one after creation). -/
structure EventDset (ρ : Type) where
  data : ρ
  vertex_x : Option ℝ := none
  vertex_y : Option ℝ := none
  vertex_z : Option ℝ := none

/-- A `chunk_<n>` group: datasets by name in creation order, and its attributes. -/
structure ChunkGroup (ρ : Type) where
  events : List (String × EventDset ρ) := []
  min_event : Option ℤ := none
  max_event : Option ℤ := none

/-- The kinematics file: attributes of the `data` group and its chunk groups by name.
The type `ρ` of the stored arrays is a parameter. -/
structure KinFile (ρ : Type) where
  n_events : Option ℤ := none
  proton_numbers : Option (List ℤ) := none
  mass_numbers : Option (List ℤ) := none
  chunk_size : Option ℕ := none
  n_chunks : Option ℕ := none
  chunks : List (String × ChunkGroup ρ) := []
  closed : Bool := false

/-- `f"chunk_{chunk}"`, kinematics/pipeline.py:475, 483; detector/simulator.py:185. -/
def chunk_name (c : ℕ) : String := "chunk_" ++ toString c

/-- `f"event_{event}"`, kinematics/pipeline.py:486; detector/simulator.py:186. -/
def event_name (e : ℕ) : String := "event_" ++ toString e

/-- `CHUNK_SIZE`, kinematics/pipeline.py:13. -/
def CHUNK_SIZE : ℕ := 1000000

/-- Mutating HDF5 operations of `run_kinematics_pipeline`, in the granularity in which a crash can
interrupt it. -/
inductive FileOp (ρ : Type) where
  | setNEvents (n : ℤ)
  | setProton (z : List ℤ)
  | setMass (a : List ℤ)
  | setChunkSize (n : ℕ)
  | createChunk (name : String)
  | setMin (chunk : String) (v : ℤ)
  | setMax (chunk : String) (v : ℤ)
  | createEvent (chunk event : String) (data : ρ)
  | setVx (chunk event : String) (v : ℝ)
  | setVy (chunk event : String) (v : ℝ)
  | setVz (chunk event : String) (v : ℝ)
  | setNChunks (n : ℕ)
  | close

/-- Apply `f` to the entry of the given name. -/
def modifyName {α : Type} (name : String) (f : α → α) (l : List (String × α)) : List (String × α) :=
  l.map fun na => if na.1 = name then (na.1, f na.2) else na

/-- Effect of one operation. Creating a group or dataset under an existing name raises in h5py. -/
def FileOp.apply {ρ : Type} (f : KinFile ρ) : FileOp ρ → Except PyErr (KinFile ρ)
  | .setNEvents n => .ok { f with n_events := some n }
  | .setProton z => .ok { f with proton_numbers := some z }
  | .setMass a => .ok { f with mass_numbers := some a }
  | .setChunkSize n => .ok { f with chunk_size := some n }
  | .createChunk name =>
    if (f.chunks.lookup name).isSome then .error .nameExists
    else .ok { f with chunks := f.chunks ++ [(name, {})] }
  | .setMin c v =>
    .ok { f with chunks := modifyName c (fun g => { g with min_event := some v }) f.chunks }
  | .setMax c v =>
    .ok { f with chunks := modifyName c (fun g => { g with max_event := some v }) f.chunks }
  | .createEvent c e d =>
    match f.chunks.lookup c with
    | none => .error .keyError
    | some g =>
      if (g.events.lookup e).isSome then .error .nameExists
      else .ok { f with chunks := modifyName c (fun g =>
        { g with events := g.events ++ [(e, { data := d })] }) f.chunks }
  | .setVx c e v => .ok { f with chunks := modifyName c (fun g =>
      { g with events := modifyName e (fun d => { d with vertex_x := some v }) g.events }) f.chunks }
  | .setVy c e v => .ok { f with chunks := modifyName c (fun g =>
      { g with events := modifyName e (fun d => { d with vertex_y := some v }) g.events }) f.chunks }
  | .setVz c e v => .ok { f with chunks := modifyName c (fun g =>
      { g with events := modifyName e (fun d => { d with vertex_z := some v }) g.events }) f.chunks }
  | .setNChunks n => .ok { f with n_chunks := some n }
  | .close => .ok { f with closed := true }

/-- State of a run: the pipeline object (opaque state `π`), the file, and — a ghost variable — the
file contents after every single operation so far, newest first (the possible crash states). -/
structure KinRun (ρ π : Type) where
  pipe : π
  file : KinFile ρ
  trace : List (KinFile ρ)

/-- Perform one file operation. -/
def KinRun.op {ρ π : Type} (o : FileOp ρ) (st : KinRun ρ π) : Except PyErr Unit × KinRun ρ π :=
  match FileOp.apply st.file o with
  | .ok f => (.ok (), { st with file := f, trace := f :: st.trace })
  | .error e => (.error e, st)

/-- Perform operations in sequence, stopping at the first exception. -/
def KinRun.ops {ρ π : Type} : List (FileOp ρ) → KinRun ρ π → Except PyErr Unit × KinRun ρ π
  | [], st => (.ok (), st)
  | o :: os, st =>
    match st.op o with
    | (.ok _, st) => KinRun.ops os st
    | (.error e, st) => (.error e, st)

/-- `pipeline.run()`: returns vertex and result array, or raises, and updates the pipeline object. -/
abbrev PipeRun (ρ π : Type) := π → Except PyErr ((ℝ × ℝ × ℝ) × ρ) × π

/-- Operations for starting the next chunk, kinematics/pipeline.py:479-484. -/
def nextChunkOps {ρ : Type} (chunk event : ℕ) : List (FileOp ρ) :=
  [.setMax (chunk_name chunk) ((event : ℤ) - 1),
   .createChunk (chunk_name (chunk + 1)),
   .setMin (chunk_name (chunk + 1)) (event : ℤ)]

/-- Operations for writing one event, kinematics/pipeline.py:486-489. -/
def eventOps {ρ : Type} (chunk event : ℕ) (vertex : ℝ × ℝ × ℝ) (result : ρ) : List (FileOp ρ) :=
  [.createEvent (chunk_name chunk) (event_name event) result,
   .setVx (chunk_name chunk) (event_name event) vertex.1,
   .setVy (chunk_name chunk) (event_name event) vertex.2.1,
   .setVz (chunk_name chunk) (event_name event) vertex.2.2]

/-- The event loop, kinematics/pipeline.py:478-490: `n` remaining events, the next one being
`event`; returns the final chunk number. -/
def kinLoop {ρ π : Type} (run : PipeRun ρ π) (chunk_size : ℕ) :
    ℕ → ℕ → ℕ → ℕ → KinRun ρ π → Except PyErr ℕ × KinRun ρ π
  | 0, _, chunk, _, st => (.ok chunk, st)
  | n + 1, event, chunk, chunk_event, st =>
    let roll : Bool := chunk_event == chunk_size
    match (if roll then st.ops (nextChunkOps chunk event) else (.ok (), st)) with
    | (.error e, st) => (.error e, st)
    | (.ok _, st) =>
      let chunk := if roll then chunk + 1 else chunk
      let chunk_event := if roll then 0 else chunk_event
      match run st.pipe with
      | (.error e, p) => (.error e, { st with pipe := p })
      | (.ok (vertex, result), p) =>
        match ({ st with pipe := p } : KinRun ρ π).ops (eventOps chunk event vertex result) with
        | (.error e, st) => (.error e, st)
        | (.ok _, st) => kinLoop run chunk_size n (event + 1) chunk (chunk_event + 1) st

/-- `run_kinematics_pipeline(pipeline, n_events, output_path)`, kinematics/pipeline.py:429-495, with
`chunk_size` in place of the module constant `CHUNK_SIZE`. Opening the file with mode "w" gives an
empty file. Printing and the progress bar are omitted. -/
def run_kinematics_pipeline {ρ π : Type} (run : PipeRun ρ π) (proton_numbers mass_numbers : List ℤ)
    (chunk_size : ℕ) (n_events : ℤ) (pipe : π) : Except PyErr Unit × KinRun ρ π :=
  let st : KinRun ρ π := { pipe := pipe, file := {}, trace := [{}] }
  match st.ops [.setNEvents n_events, .setProton proton_numbers, .setMass mass_numbers,
      .setChunkSize chunk_size, .createChunk (chunk_name 0), .setMin (chunk_name 0) 0] with
  | (.error e, st) => (.error e, st)
  | (.ok _, st) =>
    match kinLoop run chunk_size n_events.toNat 0 0 0 st with
    | (.error e, st) => (.error e, st)
    | (.ok chunk, st) =>
      st.ops [.setMax (chunk_name chunk) (n_events - 1), .setNChunks (chunk + 1), .close]

end Verif.Kinematics
