import Verif.Data.PadXY
import Verif.Data.PadScale
import Verif.Data.PadGrid
import Mathlib.Data.Nat.Notation
import Mathlib.Data.Int.Notation

/-! # Model of the data files in `src/attpc_engine/detector/data` -/

namespace Verif.Detector

open Verif.Data

/-- Entry `k` of a table with 24 entries per list (0 past the end). -/
def nth (table : List (List ℕ)) (k : ℕ) : ℕ := (table.getD (k / 24) []).getD (k % 24) 0

/-- A number given by a sign digit and ten digits. -/
def signed (v : ℕ) : ℤ := if v < 10000000000 then (v : ℤ) else -((v - 10000000000 : ℕ) : ℤ)

/-- First entry of line `p + 2` of detector/data/padxy.csv, in units of 10⁻⁷ mm. -/
def padX (p : ℕ) : ℤ :=
  signed (nth padxyRows (p / 128) / 10 ^ (22 * (p % 128) + 11) % 100000000000)

/-- Second entry of line `p + 2` of detector/data/padxy.csv, in units of 10⁻⁷ mm. -/
def padY (p : ℕ) : ℤ :=
  signed (nth padxyRows (p / 128) / 10 ^ (22 * (p % 128)) % 100000000000)

/-- Whether line `p + 2` of detector/data/pad_scale.csv is 1.0 (otherwise it is 0.5). -/
def padIsLarge (p : ℕ) : Bool := padScaleBits.testBit p

/-- The runs of equal cells in a row of the grid: pad (99999 for none) and length. -/
def decodeRuns : ℕ → ℕ → List (ℕ × ℕ)
  | 0, _ => []
  | fuel + 1, v =>
    if v = 0 then [] else (v / 1000 % 100000, v % 1000) :: decodeRuns fuel (v / 100000000)

/-- Cell `j` of a row given by its runs. -/
def runCell : List (ℕ × ℕ) → ℕ → ℤ
  | [], _ => -1
  | (pad, len) :: runs, j =>
    if j < len then (if pad = 99999 then -1 else (pad : ℤ)) else runCell runs (j - len)

/-- The cell `grid[10 * i, 10 * j]` of detector/data/pad_grid.npz, for `i, j < 559`. -/
def padCell (i j : ℕ) : ℤ := runCell (decodeRuns 559 (nth padGridRows i)) j

end Verif.Detector
