import Verif.Detector.Transporter

/-!
# Specification of charge collection

What it means to deposit electrons on pads, stated without the point dictionary, the pairing
function, the mesh or the Gaussian helper of the model.
-/

namespace Verif.Spec

open Verif.Detector (PadGrid GridEdges BEAM_PADS)

/-- One elementary deposit: `e` electrons on `pad` in time bucket `tb`, produced by `label`. -/
structure Deposit where
  tb : ℤ
  pad : ℤ
  e : ℤ
  label : ℤ
  deriving DecidableEq

/-- The deposit is on this pad and in this time bucket. -/
def Deposit.at (d : Deposit) (tb pad : ℤ) : Prop := d.tb = tb ∧ d.pad = pad

instance (d : Deposit) (tb pad : ℤ) : Decidable (d.at tb pad) :=
  inferInstanceAs (Decidable (_ ∧ _))

/-- Total charge deposited on a pad in a time bucket. -/
def chargeAt (h : List Deposit) (tb pad : ℤ) : ℤ :=
  ((h.filter fun d => decide (d.at tb pad)).map (·.e)).sum

/-- Label of the last deposit on a pad in a time bucket. -/
def lastLabel (h : List Deposit) (tb pad : ℤ) : Option ℤ :=
  ((h.filter fun d => decide (d.at tb pad)).getLast?).map (·.label)

/-- Something (possibly zero electrons) was deposited on this pad in this time bucket. -/
def Occupied (h : List Deposit) (tb pad : ℤ) : Prop := ∃ d ∈ h, d.at tb pad

/-- The grid row (or column) used for a coordinate `u` in metres: the coordinate is floored to whole
millimetres, must lie in `[low, high)`, and is then divided by the bin size. -/
noncomputable def gridIndex (g : GridEdges) (u : ℝ) : Option ℤ :=
  if g.low ≤ (⌊u * 1000⌋ : ℝ) ∧ (⌊u * 1000⌋ : ℝ) < g.high then
    some ⌊((⌊u * 1000⌋ : ℝ) - g.low) / g.bin⌋
  else none

/-- The active pad hit at a position: the pad of its grid cell, unless the position is off the grid,
the cell is off the pad plane (-1) or the pad is a beam pad. -/
noncomputable def activePad (grid : PadGrid) (g : GridEdges) (pos : ℝ × ℝ) : Option ℤ :=
  match gridIndex g pos.1, gridIndex g pos.2 with
  | some i, some j =>
    let pad := grid.cell i j
    if pad = -1 ∨ pad ∈ BEAM_PADS then none else some pad
  | _, _ => none

/-- The offsets, in units of sigma, of the ten mesh lines: -3, -7/3, ..., 7/3, 3. -/
noncomputable def meshOffset (i : ℕ) : ℝ := -3 + 2 / 3 * (i : ℝ)

/-- Fraction of the electrons sent to mesh point `(i, j)`: Gaussian density in units of sigma times
the area `(2/3)²` of a mesh cell. -/
noncomputable def meshWeight (i j : ℕ) : ℝ :=
  (2 / 3) ^ 2 / (2 * Real.pi) * Real.exp (-(meshOffset i ^ 2 + meshOffset j ^ 2) / 2)

/-- The hundred mesh points around `center`: position and fraction of the electrons. -/
noncomputable def meshPoints (center : ℝ × ℝ) (sigma : ℝ) : List ((ℝ × ℝ) × ℝ) :=
  (List.range 10).flatMap fun i => (List.range 10).map fun j =>
    ((center.1 + meshOffset i * sigma, center.2 + meshOffset j * sigma), meshWeight i j)

/-- The deposits made by one track point: exact time bucket `time`, position, electrons, spread. -/
noncomputable def pointDeposits (grid : PadGrid) (g : GridEdges) (time : ℝ) (center : ℝ × ℝ)
    (electrons : ℤ) (sigma : ℝ) (label : ℤ) : List Deposit :=
  if sigma = 0 then
    match activePad grid g center with
    | some pad => [⟨pyInt time, pad, electrons, label⟩]
    | none => []
  else
    (meshPoints center sigma).filterMap fun pw =>
      (activePad grid g pw.1).map fun pad =>
        ⟨pyInt time, pad, pyInt (pw.2 * (electrons : ℝ)), label⟩

end Verif.Spec
