import Verif.Machine.Float
import Mathlib.Analysis.Real.Sqrt

/-!
# `unpair` in machine arithmetic

The function takes the rounding `rn` of `Verif/Machine/Float.lean`.
-/

namespace Verif.Machine

/-- `unpair(id)`, detector/pairing.py:30-55, as compiled by numba for an int64 `id`: `np.sqrt` and
the differences convert `id` to float64, `sqrt_id**2` is one multiplication, `np.floor` is exact.
The result is a pair of doubles. -/
noncomputable def unpair64 (rn : ℝ → ℝ) (id : ℤ) : ℝ × ℝ :=
  if id < 0 then (-1, -1)
  else
    let idf : ℝ := rn (id : ℝ)
    let sqrt_id : ℝ := (⌊rn (Real.sqrt idf)⌋ : ℝ)
    let sq : ℝ := rn (sqrt_id * sqrt_id)
    if rn (idf - sq) < sqrt_id then (rn (idf - sq), sqrt_id)
    else (sqrt_id, rn (rn (idf - sq) - sqrt_id))

end Verif.Machine
