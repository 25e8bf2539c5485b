import Verif.Machine.Float
import Verif.Detector.Writer

/-! # Float arithmetic of the electronics response and of the writer -/

namespace Verif.Machine

open Verif.Detector

/-- The signal of a point, detector/response.py:55-56, in float64: every product is rounded, values above
4095 are replaced. -/
noncomputable def signal64 (rn : ℝ → ℝ) (response : List ℝ) (electrons : ℝ) : List ℝ :=
  let resp_sig := response.map fun r => rn (r * electrons)
  resp_sig.map fun s => if s > 4095 then 4095 else s

/-- `apply_response(response, electrons)`, detector/response.py:35-57, in float64. The compiled sum adds the
samples from the first to the last, with a rounding after every addition. -/
noncomputable def apply_response64 (rn : ℝ → ℝ) (response : List ℝ) (electrons : ℝ) : ℝ × ℝ :=
  let resp_sig := signal64 rn response electrons
  (npMax resp_sig, resp_sig.foldl (fun a x => rn (a + x)) 0)

/-- The z coordinate of a row, detector/writer.py:103-105, in float64. The difference of the integer edges is
exact. -/
noncomputable def position64 (rn : ℝ → ℝ) (window_edge mm_edge : ℤ) (length tb : ℝ) : ℝ :=
  rn (rn (rn (rn ((window_edge : ℝ) - tb) / ((window_edge - mm_edge : ℤ) : ℝ)) * length) * 1000)

/-- One iteration of the loop of `convert_to_spyral`, detector/writer.py:98-110, in float64. -/
noncomputable def convert_point64 (rn : ℝ → ℝ) (window_edge mm_edge : ℤ) (length : ℝ) (response : List ℝ)
    (pad_centers : List (ℝ × ℝ)) (pad_sizes : List ℝ) (point : CloudPoint) :
    Except PyErr SpyralRow := do
  let pad ← numbaGet pad_centers (pyInt point.pad)
  let (amp, integral) := apply_response64 rn response point.e
  if window_edge - mm_edge = 0 then .error .zeroDivision
  else
    let size ← numbaGet pad_sizes (pyInt point.pad)
    return { x := pad.1
             y := pad.2
             z := position64 rn window_edge mm_edge length point.tb
             amp := amp
             integral := integral
             pad := point.pad
             tb := point.tb
             scale := size }

/-- `convert_to_spyral(...)`, detector/writer.py:61-112, in float64. -/
noncomputable def convert_to_spyral64 (rn : ℝ → ℝ) (points : List CloudPoint) (window_edge mm_edge : ℤ)
    (length : ℝ) (response : List ℝ) (pad_centers : List (ℝ × ℝ)) (pad_sizes : List ℝ) :
    Except PyErr (List SpyralRow) :=
  points.mapM (convert_point64 rn window_edge mm_edge length response pad_centers pad_sizes)

end Verif.Machine
