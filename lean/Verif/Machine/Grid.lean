import Verif.Machine.Float
import Verif.Detector.Transporter

/-! # Float arithmetic of the grid index and of the time wiggle -/

namespace Verif.Machine

open Verif.Detector

/-- `position_to_index(grid_edges, position)`, detector/transporter.py:78-120, in float64: the
conversion to millimetres, the subtraction of the low edge and the division are rounded. -/
noncomputable def position_to_index64 (rn : ℝ → ℝ) (grid_edges : GridEdges) (position : ℝ × ℝ) :
    ℤ × ℤ :=
  let x := rn (position.1 * 1000)
  let y := rn (position.2 * 1000)
  if grid_edges.high ≤ (⌊x⌋ : ℝ) ∨ grid_edges.high ≤ (⌊y⌋ : ℝ) then (-1, -1)
  else if (⌊x⌋ : ℝ) < grid_edges.low ∨ (⌊y⌋ : ℝ) < grid_edges.low then (-1, -1)
  else
    let x_idx := pyInt (rn (rn ((⌊x⌋ : ℝ) - grid_edges.low) / grid_edges.bin))
    let y_idx := pyInt (rn (rn ((⌊y⌋ : ℝ) - grid_edges.low) / grid_edges.bin))
    (x_idx, y_idx)

/-- `point_array[:, 1] += rng.uniform(...)`, detector/simulator.py:108, one element: the time
bucket plus an offset in float64. -/
noncomputable def wiggle64 (rn : ℝ → ℝ) (tb : ℤ) (u : ℝ) : ℝ := rn ((tb : ℝ) + u)

end Verif.Machine
