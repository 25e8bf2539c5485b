import Verif.Machine.Grid
import Verif.Machine.Int64

/-! # Float arithmetic of the transverse diffusion -/

namespace Verif.Machine

open Verif.Detector

/-- The float64 operations used by the compiled transport: rounding of the basic operations, `np.exp`
and `np.pi`. -/
structure Math64 where
  rn : ℝ → ℝ
  exp : ℝ → ℝ
  pi : ℝ

/-- `bivariate_normal_pdf(point, mu, sigma)`, detector/transporter.py:11-41, in float64; `x ** 2` is one
rounded product. -/
noncomputable def bivariate_normal_pdf64 (m : Math64) (point mu : ℝ × ℝ) (sigma : ℝ) : ℝ :=
  let rn := m.rn
  let c1 := rn (rn (rn (1 / 2) / m.pi) / rn (sigma ^ 2))
  let c2 := rn (rn (rn (-1 / 2) / rn (sigma ^ 2)) *
    rn (rn (rn (point.1 - mu.1) ^ 2) + rn (rn (point.2 - mu.2) ^ 2)))
  rn (c1 * m.exp c2)

/-- `np.linspace(lo, hi, 10)` as compiled by numba: `step = (hi - lo) / 9`, `lo + i * step`, and the last
element is replaced by `hi`. Used at detector/transporter.py:223, 225. -/
noncomputable def linspace64 (rn : ℝ → ℝ) (lo hi : ℝ) : List ℝ :=
  (List.range STEPS).map fun (i : ℕ) =>
    if i + 1 = STEPS then hi
    else rn (lo + rn ((i : ℝ) * rn (rn (hi - lo) / ((STEPS : ℝ) - 1))))

/-- The mesh built by `transverse_transport`, detector/transporter.py:217-227, in float64. -/
noncomputable def transverse_mesh64 (m : Math64) (center : ℝ × ℝ) (sigma_t : ℝ) : List (ℝ × ℝ) :=
  let rn := m.rn
  let xsteps := linspace64 rn (rn (center.1 - rn (3 * sigma_t))) (rn (center.1 + rn (3 * sigma_t)))
  let ysteps := linspace64 rn (rn (center.2 - rn (3 * sigma_t))) (rn (center.2 + rn (3 * sigma_t)))
  meshgrid xsteps ysteps

/-- The number of electrons put into one pixel, detector/transporter.py:224, 226, 240-246, in float64. -/
noncomputable def pixel_electrons64 (m : Math64) (center : ℝ × ℝ) (sigma_t : ℝ) (electrons : ℤ)
    (pixel : ℝ × ℝ) : ℤ :=
  let rn := m.rn
  let step_size : ℝ := rn (rn (2 * 3 * sigma_t) / ((STEPS : ℝ) - 1))
  pyInt (rn (rn (bivariate_normal_pdf64 m pixel center sigma_t * rn (step_size * step_size))
    * rn (electrons : ℝ)))

/-- One iteration of the pixel loop of `transverse_transport`, detector/transporter.py:229-249, with
float64 positions and int64 counters. -/
noncomputable def transverse_pixel64 (m : Math64) (pad_grid : PadGrid) (grid_edges : GridEdges)
    (time : ℝ) (center : ℝ × ℝ) (electrons : ℤ) (sigma_t : ℝ) (label : ℤ) (points : Points)
    (pixel : ℝ × ℝ) : Points :=
  let (index_x, index_y) := position_to_index64 m.rn grid_edges pixel
  if index_x = -1 ∨ index_y = -1 then points
  else
    let pad := pad_grid.cell index_x index_y
    if pad ≠ -1 ∧ pad ∉ BEAM_PADS then
      let tb := pyInt time
      addCharge64 points tb pad (pixel_electrons64 m center sigma_t electrons pixel) label
    else points

/-- `transverse_transport(...)`, detector/transporter.py:172-249, in machine arithmetic. -/
noncomputable def transverse_transport64 (m : Math64) (pad_grid : PadGrid) (grid_edges : GridEdges)
    (time : ℝ) (center : ℝ × ℝ) (electrons : ℤ) (sigma_t : ℝ) (points : Points) (label : ℤ) : Points :=
  (transverse_mesh64 m center sigma_t).foldl
    (transverse_pixel64 m pad_grid grid_edges time center electrons sigma_t label) points

end Verif.Machine
