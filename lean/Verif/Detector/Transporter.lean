import Verif.Py
import Verif.Detector.Pairing
import Verif.Detector.BeamPads
import Mathlib.Analysis.SpecialFunctions.Exp
import Mathlib.Analysis.Real.Pi.Bounds

/-! # Model of `src/attpc_engine/detector/transporter.py` -/

namespace Verif.Detector

/-- `STEPS`, detector/transporter.py:8. -/
def STEPS : ℕ := 10

/-- The point dictionary `numba.typed.Dict[int64, (int64, int64)]` (typed_dict.py:7-36,
created at detector/simulator.py:93-95): an insertion-ordered association list
`key ↦ (charge, label)`.  Unbounded integers (int64: see `Verif/Machine/Int64.lean`). -/
abbrev Points := List (ℤ × (ℤ × ℤ))

/-- `points.get(id, default)`. -/
def Points.get (points : Points) (id : ℤ) (dflt : ℤ × ℤ) : ℤ × ℤ :=
  match points with
  | [] => dflt
  | (k, v) :: rest => if k = id then v else Points.get rest id dflt

/-- `points[id] = v`: overwrite in place, or append at the end if the key is new. -/
def Points.set (points : Points) (id : ℤ) (v : ℤ × ℤ) : Points :=
  match points with
  | [] => [(id, v)]
  | (k, w) :: rest => if k = id then (k, v) :: rest else (k, w) :: Points.set rest id v

/-- The pad grid array (detector/parameters.py:176-205): an `size × size` integer array.
`cell i j` is what reading `pad_grid[i, j]` returns; outside `[0, size)²` numba performs an
unchecked read, so `cell` is left arbitrary there (property C14 shows that such reads do not happen). -/
structure PadGrid where
  size : ℕ
  cell : ℤ → ℤ → ℤ

/-- `grid_edges` (detector/parameters.py:122-125): `[low_edge, high_edge, step]` in mm. -/
structure GridEdges where
  low : ℝ
  high : ℝ
  bin : ℝ

/-- `bivariate_normal_pdf(point, mu, sigma)`, detector/transporter.py:11-41.
`sigma ≠ 0` in every call. -/
noncomputable def bivariate_normal_pdf (point mu : ℝ × ℝ) (sigma : ℝ) : ℝ :=
  let c1 := 1 / 2 / Real.pi / (sigma ^ 2)
  let c2 := (-1 / 2 / sigma ^ 2) * ((point.1 - mu.1) ^ 2 + (point.2 - mu.2) ^ 2)
  c1 * Real.exp c2

/-- `meshgrid(xarr, yarr)`, detector/transporter.py:44-75. -/
def meshgrid (xarr yarr : List ℝ) : List (ℝ × ℝ) :=
  xarr.flatMap fun x => yarr.map fun y => (x, y)

/-- `np.linspace(lo, hi, n)` (n ≥ 2), used at detector/transporter.py:223,225
and detector/response.py:26. -/
noncomputable def linspace (lo hi : ℝ) (n : ℕ) : List ℝ :=
  (List.range n).map fun (i : ℕ) => lo + (i : ℝ) * ((hi - lo) / ((n : ℝ) - 1))

/-- `position_to_index(grid_edges, position)`, detector/transporter.py:78-120, for finite positions
and `bin_size ≠ 0` (numba raises ZeroDivisionError for 0). -/
noncomputable def position_to_index (grid_edges : GridEdges) (position : ℝ × ℝ) : ℤ × ℤ :=
  let x := position.1 * 1000
  let y := position.2 * 1000
  if grid_edges.high ≤ (⌊x⌋ : ℝ) ∨ grid_edges.high ≤ (⌊y⌋ : ℝ) then (-1, -1)
  else if (⌊x⌋ : ℝ) < grid_edges.low ∨ (⌊y⌋ : ℝ) < grid_edges.low then (-1, -1)
  else
    let x_idx := pyInt (((⌊x⌋ : ℝ) - grid_edges.low) / grid_edges.bin)
    let y_idx := pyInt (((⌊y⌋ : ℝ) - grid_edges.low) / grid_edges.bin)
    (x_idx, y_idx)

/-- The five lines shared by both transports: detector/transporter.py:166-169 and 239, 247-249:
look the key up (default charge 0), add, store with the label of the current call. -/
def addCharge (points : Points) (tb pad electrons label : ℤ) : Points :=
  let id := pair tb pad
  let charge := (points.get id (0, 0)).1
  points.set id (charge + electrons, label)

/-- `point_transport(...)`, detector/transporter.py:123-169. -/
noncomputable def point_transport (pad_grid : PadGrid) (grid_edges : GridEdges) (time : ℝ)
    (center : ℝ × ℝ) (electrons : ℤ) (points : Points) (label : ℤ) : Points :=
  let (index_x, index_y) := position_to_index grid_edges center
  if index_x = -1 ∨ index_y = -1 then points
  else
    let pad := pad_grid.cell index_x index_y
    if pad ≠ -1 ∧ pad ∉ BEAM_PADS then
      let tb := pyInt time
      addCharge points tb pad electrons label
    else points

/-- The mesh built by `transverse_transport`, detector/transporter.py:217-227. -/
noncomputable def transverse_mesh (center : ℝ × ℝ) (sigma_t : ℝ) : List (ℝ × ℝ) :=
  let xsteps := linspace (center.1 - 3 * sigma_t) (center.1 + 3 * sigma_t) STEPS
  let ysteps := linspace (center.2 - 3 * sigma_t) (center.2 + 3 * sigma_t) STEPS
  meshgrid xsteps ysteps

/-- The number of electrons put into one pixel, detector/transporter.py:224, 226, 240-246. -/
noncomputable def pixel_electrons (center : ℝ × ℝ) (sigma_t : ℝ) (electrons : ℤ)
    (pixel : ℝ × ℝ) : ℤ :=
  let step_sizex : ℝ := 2 * 3 * sigma_t / ((STEPS : ℝ) - 1)
  let step_sizey : ℝ := 2 * 3 * sigma_t / ((STEPS : ℝ) - 1)
  pyInt (bivariate_normal_pdf pixel center sigma_t * (step_sizex * step_sizey) * (electrons : ℝ))

/-- One iteration of the pixel loop of `transverse_transport`, detector/transporter.py:229-249. -/
noncomputable def transverse_pixel (pad_grid : PadGrid) (grid_edges : GridEdges) (time : ℝ)
    (center : ℝ × ℝ) (electrons : ℤ) (sigma_t : ℝ) (label : ℤ) (points : Points)
    (pixel : ℝ × ℝ) : Points :=
  let (index_x, index_y) := position_to_index grid_edges pixel
  if index_x = -1 ∨ index_y = -1 then points
  else
    let pad := pad_grid.cell index_x index_y
    if pad ≠ -1 ∧ pad ∉ BEAM_PADS then
      let tb := pyInt time
      addCharge points tb pad (pixel_electrons center sigma_t electrons pixel) label
    else points

/-- `transverse_transport(...)`, detector/transporter.py:172-249. -/
noncomputable def transverse_transport (pad_grid : PadGrid) (grid_edges : GridEdges) (time : ℝ)
    (center : ℝ × ℝ) (electrons : ℤ) (sigma_t : ℝ) (points : Points) (label : ℤ) : Points :=
  (transverse_mesh center sigma_t).foldl
    (transverse_pixel pad_grid grid_edges time center electrons sigma_t label) points

/-- One row of a trajectory: `(x, y, z, γβx, γβy, γβz)` (detector/solver.py:36). After the drift
conversion (detector/solver.py:396-398) the third entry is the exact time bucket. -/
structure Row where
  x : ℝ
  y : ℝ
  z : ℝ
  gvx : ℝ
  gvy : ℝ
  gvz : ℝ

/-- One iteration of the loop of `transport_track`, detector/transporter.py:297-317.
`efield = 0` makes numba raise ZeroDivisionError.  A negative radicand makes `sigma_t` NaN; the
comparison with 0.0 is false, all mesh positions are NaN, all range checks of `position_to_index`
are false and the pad grid is read at an index obtained by converting NaN to an integer:
`PyErr.undefinedRead`. -/
noncomputable def transport_step (pad_grid : PadGrid) (grid_edges : GridEdges)
    (diffusion efield dv : ℝ) (label : ℤ) (points : Points) (re : Row × ℤ) : Except PyErr Points :=
  let row := re.1
  let time := row.z
  let center := (row.x, row.y)
  let point_electrons := re.2
  if efield = 0 then .error .zeroDivision
  else match npSqrt (2 * diffusion * dv * time / efield) with
    | none => .error .undefinedRead
    | some sigma_t =>
      if sigma_t = 0 then
        .ok (point_transport pad_grid grid_edges time center point_electrons points label)
      else
        .ok (transverse_transport pad_grid grid_edges time center point_electrons sigma_t points label)

/-- `transport_track(...)`, detector/transporter.py:252-317.  `track` and `electrons` always have the
same length (they are masked together, detector/solver.py:387-389), so the model takes them zipped.
The dictionary is updated in place; an exception ends the whole simulation, so the partially
updated dictionary is never observed and is dropped. -/
noncomputable def transport_track (pad_grid : PadGrid) (grid_edges : GridEdges)
    (diffusion efield dv : ℝ) (track : List Row) (electrons : List ℤ) (points : Points)
    (label : ℤ) : Except PyErr Points :=
  (track.zip electrons).foldlM (transport_step pad_grid grid_edges diffusion efield dv label) points

end Verif.Detector
