import Verif.Detector.Text
import Verif.Detector.Parameters

/-! # `Config.load_pad_centers` and `Config.load_pad_sizes` from text, detector/parameters.py:207-261 -/

namespace Verif.Detector

/-- `array[idx] = f(array[idx])` on a fixed-size numpy array. -/
def modifyAt {α : Type} (arr : List α) (idx : ℕ) (f : α → α) : Except PyErr (List α) :=
  if idx < arr.length then .ok (arr.modify idx f) else .error .indexError

/-- The loop over the lines of the geometry file, detector/parameters.py:221-224 and 230-233. -/
def loadCenters : ℕ → List Text → List (FloatLit × FloatLit) →
    Except PyErr (List (FloatLit × FloatLit))
  | _, [], arr => .ok arr
  | pad_number, line :: lines, arr => do
    let entries := splitComma line
    let x ← floatEntry entries 0
    let arr ← modifyAt arr pad_number fun c => (x, c.2)
    let y ← floatEntry entries 1
    let arr ← modifyAt arr pad_number fun c => (c.1, y)
    loadCenters (pad_number + 1) lines arr

/-- The loop over the lines of the pad size file, detector/parameters.py:250-252 and 258-260. -/
def loadSizes : ℕ → List Text → List FloatLit → Except PyErr (List FloatLit)
  | _, [], arr => .ok arr
  | pad_number, line :: lines, arr => do
    let entries := splitComma line
    let x ← floatEntry entries 0
    let arr ← modifyAt arr pad_number fun _ => x
    loadSizes (pad_number + 1) lines arr

/-- The text files: the packaged ones and those reachable by `open`. -/
structure TextFiles where
  padxy : Text
  pad_scale : Text
  csv : String → Option Text

/-- Zero. -/
def zeroLit : FloatLit := .num false 0 0

/-- `load_pad_centers`, detector/parameters.py:207-234, from text. -/
def load_pad_centers_text (fs : TextFiles) (p : PadParams) :
    Except PyErr (List (FloatLit × FloatLit)) :=
  let zeros := List.replicate NUM_PADS (zeroLit, zeroLit)
  if p.geometry_path = DEFAULT then loadCenters 0 (dataLines fs.padxy) zeros
  else match fs.csv p.geometry_path with
    | some t => loadCenters 0 (dataLines t) zeros
    | none => .error .fileNotFound

/-- `load_pad_sizes`, detector/parameters.py:236-261, from text. -/
def load_pad_sizes_text (fs : TextFiles) (p : PadParams) : Except PyErr (List FloatLit) :=
  let zeros := List.replicate NUM_PADS zeroLit
  if p.pad_size_path = DEFAULT then loadSizes 0 (dataLines fs.pad_scale) zeros
  else match fs.csv p.geometry_path with
    | some t => loadSizes 0 (dataLines t) zeros
    | none => .error .fileNotFound

end Verif.Detector
