import Mathlib.Data.Real.Basic
import Mathlib.Data.Set.Finite.Lattice
import Mathlib.Algebra.Order.Archimedean.Basic

/-!
# IEEE-754 binary64 values and rounding

Model of the `float64` arithmetic used by the compiled detector functions.  A finite double is a real
number `m · 2^e` with `|m| < 2^53` and `-1074 ≤ e ≤ 971`.  One machine operation is the exact real
operation followed by a rounding to a nearest double.

Simplifications: signed zeros are not distinguished; overflow to infinity is not modelled (in the
theorems all magnitudes stay far below the largest double); which of two equally near doubles is taken
is left open, so the theorems hold in particular for ties-to-even.
-/

namespace Verif.Machine

/-- The finite binary64 values. -/
def Binary64 : Set ℝ :=
  {x | ∃ m e : ℤ, |m| < 2 ^ 53 ∧ -1074 ≤ e ∧ e ≤ 971 ∧ x = (m : ℝ) * (2 : ℝ) ^ e}

/-- `rn` rounds every real to a nearest binary64 value. -/
def Rounding (rn : ℝ → ℝ) : Prop :=
  ∀ x, rn x ∈ Binary64 ∧ ∀ f ∈ Binary64, |rn x - x| ≤ |f - x|

/-- The double nearest to 0.1, the step stored in the packaged `pad_grid.npz` (bytes
`9a9999999999b93f`). -/
noncomputable def tenth64 : ℝ := 3602879701896397 * (2 : ℝ) ^ (-55 : ℤ)

end Verif.Machine
