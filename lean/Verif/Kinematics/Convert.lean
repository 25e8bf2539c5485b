import Verif.Kinematics.KinFile
import Verif.Kinematics.Reaction
import Verif.Detector.Simulator

/-! # Model of `src/attpc_engine/kinematics/convert_kinematics.py` -/

namespace Verif.Kinematics

open Verif.Detector (attr lookupName read_event)

/-- The dataframe: its columns, kinematics/convert_kinematics.py:29-41. -/
structure Frame where
  event : List ℕ := []
  Z : List ℤ := []
  A : List ℤ := []
  isotope : List String := []
  energy : List ℝ := []
  px : List ℝ := []
  py : List ℝ := []
  pz : List ℝ := []
  vertex_x : List ℝ := []
  vertex_y : List ℝ := []
  vertex_z : List ℝ := []

/-- `l[idx]` on an array, `idx ≥ 0`. -/
def arrGet {α : Type} (l : List α) (idx : ℕ) : Except PyErr α :=
  match l[idx]? with
  | some a => .ok a
  | none => .error .indexError

/-- The list of nuclei, kinematics/convert_kinematics.py:22-26. -/
def convert_nuclei (get_data : NuclearMap) (proton_numbers mass_numbers : List ℤ) :
    Except PyErr (List Nucleus) :=
  (List.range proton_numbers.length).mapM fun idx => do
    let z ← arrGet proton_numbers idx
    let a ← arrGet mass_numbers idx
    get_data z a

/-- One pass of the inner loop, kinematics/convert_kinematics.py:50-60. -/
def convert_nucleus (proton_numbers mass_numbers : List ℤ) (nuclei : List Nucleus) (event : ℕ)
    (dataset : List Vec4) (vertex : ℝ × ℝ × ℝ) (f : Frame) (idx : ℕ) : Except PyErr Frame := do
  let z ← arrGet proton_numbers idx
  let a ← arrGet mass_numbers idx
  let n ← arrGet nuclei idx
  let row ← arrGet dataset idx
  return { event := f.event ++ [event]
           Z := f.Z ++ [z]
           A := f.A ++ [a]
           isotope := f.isotope ++ [n.isotopic_symbol]
           energy := f.energy ++ [row.E]
           px := f.px ++ [row.px]
           py := f.py ++ [row.py]
           pz := f.pz ++ [row.pz]
           vertex_x := f.vertex_x ++ [vertex.1]
           vertex_y := f.vertex_y ++ [vertex.2.1]
           vertex_z := f.vertex_z ++ [vertex.2.2] }

/-- One pass of the event loop, kinematics/convert_kinematics.py:43-60. -/
def convert_event (file : KinFile (List Vec4)) (chunk_size : ℕ) (proton_numbers mass_numbers : List ℤ)
    (nuclei : List Nucleus) (f : Frame) (event : ℕ) : Except PyErr Frame := do
  let (dataset, vertex) ← read_event file chunk_size event
  (List.range proton_numbers.length).foldlM
    (convert_nucleus proton_numbers mass_numbers nuclei event dataset vertex) f

/-- `convert_kinematics_hdf5_to_polars`, kinematics/convert_kinematics.py:11-63, up to writing the
frame to disk. -/
def convert_kinematics (get_data : NuclearMap) (file : KinFile (List Vec4)) :
    Except PyErr Frame := do
  let proton_numbers ← attr file.proton_numbers
  let mass_numbers ← attr file.mass_numbers
  let n_events ← attr file.n_events
  let chunk_size ← attr file.chunk_size
  let nuclei ← convert_nuclei get_data proton_numbers mass_numbers
  (List.range n_events.toNat).foldlM
    (convert_event file chunk_size proton_numbers mass_numbers nuclei) {}

end Verif.Kinematics
