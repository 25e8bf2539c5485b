import Verif.Detector.PadData
import Verif.Detector.Parameters

/-! # The packaged data files as seen by `Config`, `src/attpc_engine/detector/data` -/

namespace Verif.Detector

/-- The array `edges` of detector/data/pad_grid.npz: -280 mm, 279 mm, 0.1 mm. The stored step is the
double nearest to 0.1 (`Machine/Float.lean`). -/
noncomputable def packagedEdges : GridEdges := { low := -280, high := 279, bin := 1 / 10 }

/-- The lines of detector/data/padxy.csv after the header, in mm. -/
noncomputable def packagedPadXY : List (List ℝ) :=
  (List.range 10240).map fun (p : ℕ) => [(padX p : ℝ) / 10000000, (padY p : ℝ) / 10000000]

/-- The lines of detector/data/pad_scale.csv after the header. -/
noncomputable def packagedScale : List (List ℝ) :=
  (List.range 10240).map fun (p : ℕ) => [if padIsLarge p then 1 else 0.5]

/-- The packaged files are those of the repository. Of the 5600 × 5600 cells of the grid only those
with indices divisible by ten and below 5590 are fixed; the code reads no others
(`C15_packaged_rows`). -/
structure PackagedFiles (fs : FileSystem) : Prop where
  padxy : fs.packaged_padxy = packagedPadXY
  scale : fs.packaged_scale = packagedScale
  edges : fs.packaged_grid.2 = packagedEdges
  size : fs.packaged_grid.1.size = 5600
  cells : ∀ i j : ℕ, i < 559 → j < 559 → fs.packaged_grid.1.cell (10 * i) (10 * j) = padCell i j

end Verif.Detector
