import Verif.Detector.Simulator

/-! # Model of `src/attpc_engine/detector/writer.py` -/

namespace Verif.Detector

/-- One row of a Spyral point cloud, detector/writer.py:97-110. -/
structure SpyralRow where
  x : ℝ
  y : ℝ
  z : ℝ
  amp : ℝ
  integral : ℝ
  pad : ℝ
  tb : ℝ
  scale : ℝ

/-- `arr[int(i)]` in numba: negative indices wrap around, there is no bounds check, so an index
outside the array reads foreign memory (`PyErr.undefinedRead`). -/
def numbaGet {α : Type} (l : List α) (i : ℤ) : Except PyErr α :=
  match pyGet l i with
  | .ok a => .ok a
  | .error _ => .error .undefinedRead

/-- One iteration of the loop of `convert_to_spyral`, detector/writer.py:98-110. -/
noncomputable def convert_point (window_edge mm_edge : ℤ) (length : ℝ) (response : List ℝ)
    (pad_centers : List (ℝ × ℝ)) (pad_sizes : List ℝ) (point : CloudPoint) :
    Except PyErr SpyralRow := do
  let pad ← numbaGet pad_centers (pyInt point.pad)
  let (amp, integral) := apply_response response point.e
  if window_edge - mm_edge = 0 then .error .zeroDivision
  else
    let size ← numbaGet pad_sizes (pyInt point.pad)
    return { x := pad.1
             y := pad.2
             z := ((window_edge : ℝ) - point.tb) / ((window_edge - mm_edge : ℤ) : ℝ) * length * 1000
             amp := amp
             integral := integral
             pad := point.pad
             tb := point.tb
             scale := size }

/-- `convert_to_spyral(...)`, detector/writer.py:61-112. -/
noncomputable def convert_to_spyral (points : List CloudPoint) (window_edge mm_edge : ℤ)
    (length : ℝ) (response : List ℝ) (pad_centers : List (ℝ × ℝ)) (pad_sizes : List ℝ) :
    Except PyErr (List SpyralRow) :=
  points.mapM (convert_point window_edge mm_edge length response pad_centers pad_sizes)

/-- A dataset in the "cloud" group: a point cloud with its attributes, or a label array.
Attributes are listed in the order in which they were set. -/
inductive Dset where
  | cloud (rows : List SpyralRow) (attrs : List (String × ℝ))
  | labels (l : List ℤ)

/-- An output HDF5 file: the "cloud" group (if created), its datasets in creation order and its
`min_event`/`max_event` attributes. -/
structure H5File where
  has_group : Bool := false
  dsets : List (String × Dset) := []
  min_event : Option ℤ := none
  max_event : Option ℤ := none
  closed : Bool := false

/-- The output directory: file contents by file name. -/
abbrev Disk := String → Option H5File

/-- Mutating HDF5 operations of the writer, in the granularity in which a crash can interrupt it. -/
inductive DiskOp where
  | createFile (file : String)
  | createGroup (file : String)
  | setMin (file : String) (v : ℤ)
  | setMax (file : String) (v : ℤ)
  | close (file : String)
  | createDset (file name : String) (d : Dset)
  | setAttr (file dset key : String) (v : ℝ)

/-- Operate on an open file; h5py raises ValueError when the file is closed. -/
def Disk.onOpen (d : Disk) (file : String) (f : H5File → Except PyErr H5File) :
    Except PyErr Disk :=
  match d file with
  | none => .error .closedFile
  | some h =>
    if h.closed then .error .closedFile
    else match f h with
      | .ok h => .ok (Function.update d file (some h))
      | .error e => .error e

/-- Set an attribute of a dataset. -/
def Dset.setAttr (key : String) (v : ℝ) : Dset → Dset
  | .cloud rows attrs => .cloud rows (attrs ++ [(key, v)])
  | .labels l => .labels l

/-- Effect of one operation.  `h5.File(path, "w")` truncates; creating an existing dataset raises;
closing a closed file is a no-op in h5py. -/
def DiskOp.apply (d : Disk) : DiskOp → Except PyErr Disk
  | .createFile file => .ok (Function.update d file (some {}))
  | .createGroup file => d.onOpen file fun h => .ok { h with has_group := true }
  | .setMin file v => d.onOpen file fun h => .ok { h with min_event := some v }
  | .setMax file v => d.onOpen file fun h => .ok { h with max_event := some v }
  | .close file => match d file with
    | none => .ok d
    | some h => .ok (Function.update d file (some { h with closed := true }))
  | .createDset file name ds => d.onOpen file fun h =>
      if (h.dsets.lookup name).isSome then .error .nameExists
      else .ok { h with dsets := h.dsets ++ [(name, ds)] }
  | .setAttr file name key v => d.onOpen file fun h =>
      .ok { h with dsets := h.dsets.map fun nd =>
        if nd.1 = name then (nd.1, nd.2.setAttr key v) else nd }

/-- Python's `f"{n:04d}"` for integers: zero padding to width 4, after the sign. -/
def fmt04 (n : ℤ) : String :=
  if 0 ≤ n then
    let s := Nat.toDigits 10 n.toNat
    String.ofList (List.replicate (4 - s.length) '0' ++ s)
  else
    let s := Nat.toDigits 10 n.natAbs
    String.ofList ('-' :: (List.replicate (3 - s.length) '0' ++ s))

/-- `f"run_{self.run_number:04d}.h5"`, detector/writer.py:179, 190. -/
def run_name (n : ℤ) : String := "run_" ++ fmt04 n ++ ".h5"

/-- `f"cloud_{event_number}"`, detector/writer.py:241. -/
def cloud_name (n : ℤ) : String := "cloud_" ++ toString n

/-- `f"labels_{event_number}"`, detector/writer.py:251. -/
def labels_name (n : ℤ) : String := "labels_" ++ toString n

/-- A `SpyralWriter` object (detector/writer.py:115-181) together with the output directory and — a
ghost variable — the directory contents after every single operation so far, newest first. -/
structure Writer where
  response : List ℝ
  max_events_per_file : ℤ
  run_number : ℤ
  starting_event : ℤ
  last_event : ℤ
  events_written : ℤ
  /-- name of the file that `self.file`/`self.cloud_group` refer to -/
  file : String
  disk : Disk
  trace : List Disk

/-- Perform one disk operation. -/
def Writer.op (o : DiskOp) (w : Writer) : Except PyErr Unit × Writer :=
  match DiskOp.apply w.disk o with
  | .ok d => (.ok (), { w with disk := d, trace := d :: w.trace })
  | .error e => (.error e, w)

/-- Perform operations in sequence, stopping at the first exception. -/
def Writer.ops : List DiskOp → Writer → Except PyErr Unit × Writer
  | [], w => (.ok (), w)
  | o :: os, w =>
    match w.op o with
    | (.ok _, w) => Writer.ops os w
    | (.error e, w) => (.error e, w)

/-- `SpyralWriter.__init__`, detector/writer.py:164-181, on a directory with contents `disk`. -/
noncomputable def Writer.init (disk : Disk) (config : Config) (max_events_per_file : ℤ := 5000)
    (first_run_number : ℤ := 0) : Except PyErr Unit × Writer :=
  let w : Writer :=
    { response := get_response config
      max_events_per_file := max_events_per_file
      run_number := first_run_number
      starting_event := 0
      last_event := 0
      events_written := 0
      file := run_name first_run_number
      disk := disk
      trace := [disk] }
  w.ops [.createFile w.file, .createGroup w.file]

/-- `close()` with `set_number_of_events()`, detector/writer.py:257-281. -/
def Writer.close (w : Writer) : Except PyErr Unit × Writer :=
  w.ops [.setMin w.file w.starting_event, .setMax w.file w.last_event, .close w.file]

/-- `create_next_file()`, detector/writer.py:183-192. -/
def Writer.create_next_file (w : Writer) : Except PyErr Unit × Writer :=
  let w := { w with run_number := w.run_number + 1 }
  let w := { w with file := run_name w.run_number }
  w.ops [.createFile w.file, .createGroup w.file]

/-- The rollover at the beginning of `write`, detector/writer.py:213-218. -/
def Writer.rollover (w : Writer) (event_number : ℤ) : Except PyErr Unit × Writer :=
  if w.events_written = w.max_events_per_file then
    match w.close with
    | (.error e, w) => (.error e, w)
    | (.ok _, w) =>
      match w.create_next_file with
      | (.error e, w) => (.error e, w)
      | (.ok _, w) => (.ok (), { w with starting_event := event_number, events_written := 0 })
  else (.ok (), w)

/-- `np.argsort`: any function from keys to index lists (its contract is `Spec.IsArgsort`). -/
abbrev Argsort := List ℝ → List ℕ

/-- `a[indices]`: selection by an index array. -/
def takeIdx {α : Type} (idx : List ℕ) (l : List α) : List α := idx.filterMap fun i => l[i]?

/-- The in-memory part of `write`, detector/writer.py:220-238: conversion, ADC threshold mask and
sorting by z, applied to cloud and labels alike. -/
noncomputable def format_event (argsort : Argsort) (response : List ℝ) (data : List CloudPoint)
    (labels : List ℤ) (config : Config) : Except PyErr (List SpyralRow × List ℤ) :=
  match config.pad_centers with
  | none => .error .valueError
  | some pad_centers => do
    let spyral_format ← convert_to_spyral data config.elec_params.windows_edge
      config.elec_params.micromegas_edge config.det_params.length response pad_centers
      config.pad_sizes
    let mask := spyral_format.map fun r => decide (r.amp > (config.elec_params.adc_threshold : ℝ))
    let spyral_format := maskSel mask spyral_format
    let labels := maskSel mask labels
    let indicies := argsort (spyral_format.map (·.z))
    return (takeIdx indicies spyral_format, takeIdx indicies labels)

/-- The HDF5 operations for one event, detector/writer.py:240-251. -/
noncomputable def event_ops (file : String) (run_number event_number : ℤ) (rows : List SpyralRow)
    (labels : List ℤ) : List DiskOp :=
  let c := cloud_name event_number
  [.createDset file c (.cloud rows []),
   .setAttr file c "orig_run" (run_number : ℝ),
   .setAttr file c "orig_event" (event_number : ℝ),
   .setAttr file c "ic_amplitude" (-1),
   .setAttr file c "ic_multiplicity" (-1),
   .setAttr file c "ic_integral" (-1),
   .setAttr file c "ic_centroid" (-1),
   .createDset file (labels_name event_number) (.labels labels)]

/-- `write(data, labels, config, event_number)`, detector/writer.py:194-255. -/
noncomputable def Writer.write (argsort : Argsort) (data : List CloudPoint) (labels : List ℤ)
    (config : Config) (event_number : ℤ) (w : Writer) : Except PyErr Unit × Writer :=
  match w.rollover event_number with
  | (.error e, w) => (.error e, w)
  | (.ok _, w) =>
    match format_event argsort w.response data labels config with
    | .error e => (.error e, w)
    | .ok (rows, labels) =>
      match w.ops (event_ops w.file w.run_number event_number rows labels) with
      | (.error e, w) => (.error e, w)
      | (.ok _, w) =>
        (.ok (), { w with last_event := event_number, events_written := w.events_written + 1 })

/-- A `SpyralWriter` as a `SimulationWriter` for `run_simulation`. -/
noncomputable def spyralWriter (argsort : Argsort) : SimWriter Writer where
  write := fun cloud labels config event => Writer.write argsort cloud labels config (event : ℤ)
  close := Writer.close

end Verif.Detector
