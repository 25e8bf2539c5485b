import Verif.Py
import Verif.Nuclear
import Verif.Detector.Transporter

/-! # Model of `src/attpc_engine/detector/parameters.py` -/

namespace Verif.Detector

/-- `DetectorParams`, detector/parameters.py:10-48. -/
structure DetectorParams where
  length : ℝ
  efield : ℝ
  bfield : ℝ
  mpgd_gain : ℤ
  gas_target : GasTarget
  diffusion : ℝ
  fano_factor : ℝ
  w_value : ℝ

/-- `ElectronicsParams`, detector/parameters.py:51-76. -/
structure ElectronicsParams where
  clock_freq : ℝ
  amp_gain : ℤ
  shaping_time : ℤ
  micromegas_edge : ℤ
  windows_edge : ℤ
  adc_threshold : ℤ

/-- `DEFAULT`, detector/parameters.py:7. -/
def DEFAULT : String := "Default"

/-- `PadParams`, detector/parameters.py:79-94 (paths as strings). -/
structure PadParams where
  grid_path : String := DEFAULT
  geometry_path : String := DEFAULT
  pad_size_path : String := DEFAULT

/-- What the file system holds: the packaged resources and the files reachable by `open`/`np.load`.
CSV text is represented by its data lines (header removed), each line by its comma separated
entries already parsed as floats; reading them from text is in `Detector/LoadText.lean` and agrees
(`C99_numbers`). -/
structure FileSystem where
  packaged_grid : PadGrid × GridEdges
  packaged_padxy : List (List ℝ)
  packaged_scale : List (List ℝ)
  npz : String → Option (PadGrid × GridEdges)
  csv : String → Option (List (List ℝ))

/-- `Config`, detector/parameters.py:97-162, after `__init__`. `pad_grid`/`pad_centers` are declared
as possibly `None` (lines 154-156). Arrays of pad data are lists indexed by pad number. -/
structure Config where
  det_params : DetectorParams
  elec_params : ElectronicsParams
  pad_params : PadParams
  pad_grid : Option (PadGrid × GridEdges)
  pad_centers : Option (List (ℝ × ℝ))
  pad_sizes : List ℝ
  drift_velocity : ℝ

/-- `NUM_PADS`: the literal 10240 at detector/parameters.py:212 and 241. -/
def NUM_PADS : ℕ := 10240

/-- `calculate_drift_velocity`, detector/parameters.py:164-174: Python float division raises. -/
noncomputable def calculate_drift_velocity (d : DetectorParams) (e : ElectronicsParams) :
    Except PyErr ℝ :=
  if ((e.windows_edge - e.micromegas_edge : ℤ) : ℝ) = 0 then .error .zeroDivision
  else .ok (d.length / ((e.windows_edge - e.micromegas_edge : ℤ) : ℝ))

/-- `load_pad_grid`, detector/parameters.py:176-205. -/
def load_pad_grid (fs : FileSystem) (p : PadParams) : Except PyErr (PadGrid × GridEdges) :=
  if p.grid_path = DEFAULT then .ok fs.packaged_grid
  else match fs.npz p.grid_path with
    | some g => .ok g
    | none => .error .fileNotFound

/-- `array[idx] = v` on a fixed-size numpy array. -/
def assignAt {α : Type} (arr : List α) (idx : ℕ) (v : α) : Except PyErr (List α) :=
  if idx < arr.length then .ok (arr.set idx v) else .error .indexError

/-- The loop `for pad_number, line in enumerate(lines)`, detector/parameters.py:221-224, 230-233,
250-252, 258-260; `parse` extracts the stored value of one line. -/
def loadLines {α : Type} (parse : List ℝ → Except PyErr α) :
    ℕ → List (List ℝ) → List α → Except PyErr (List α)
  | _, [], arr => .ok arr
  | pad_number, line :: lines, arr => do
    let v ← parse line
    let arr ← assignAt arr pad_number v
    loadLines parse (pad_number + 1) lines arr

/-- `float(entries[0])`. -/
def parseFirst : List ℝ → Except PyErr ℝ
  | x :: _ => .ok x
  | [] => .error .valueError

/-- `float(entries[0])`, `float(entries[1])`. -/
def parseXY : List ℝ → Except PyErr (ℝ × ℝ)
  | x :: y :: _ => .ok (x, y)
  | [_] => .error .indexError
  | [] => .error .valueError

/-- `open(path, "r")` and reading the lines. -/
def openCsv (fs : FileSystem) (path : String) : Except PyErr (List (List ℝ)) :=
  match fs.csv path with
  | some l => .ok l
  | none => .error .fileNotFound

/-- `load_pad_centers`, detector/parameters.py:207-234. -/
def load_pad_centers (fs : FileSystem) (p : PadParams) : Except PyErr (List (ℝ × ℝ)) :=
  let zeros := List.replicate NUM_PADS ((0 : ℝ), (0 : ℝ))
  if p.geometry_path = DEFAULT then loadLines parseXY 0 fs.packaged_padxy zeros
  else do
    let lines ← openCsv fs p.geometry_path
    loadLines parseXY 0 lines zeros

/-- `load_pad_sizes`, detector/parameters.py:236-261. Note line 255: the non-default branch opens
`self.pad_params.geometry_path`, not `pad_size_path`. -/
def load_pad_sizes (fs : FileSystem) (p : PadParams) : Except PyErr (List ℝ) :=
  let zeros := List.replicate NUM_PADS (0 : ℝ)
  if p.pad_size_path = DEFAULT then loadLines parseFirst 0 fs.packaged_scale zeros
  else do
    let lines ← openCsv fs p.geometry_path
    loadLines parseFirst 0 lines zeros

/-- `Config.__init__`, detector/parameters.py:145-162. -/
noncomputable def mkConfig (fs : FileSystem) (d : DetectorParams) (e : ElectronicsParams)
    (p : PadParams) : Except PyErr Config := do
  let drift_velocity ← calculate_drift_velocity d e
  let pad_grid ← load_pad_grid fs p
  let pad_centers ← load_pad_centers fs p
  let pad_sizes ← load_pad_sizes fs p
  return {
    det_params := d, elec_params := e, pad_params := p
    pad_grid := some pad_grid, pad_centers := some pad_centers
    pad_sizes := pad_sizes, drift_velocity := drift_velocity }

end Verif.Detector
