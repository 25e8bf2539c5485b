import Mathlib.Data.Nat.Sqrt
import Mathlib.Data.Int.Order.Basic

/-! # Model of `src/attpc_engine/detector/pairing.py` -/

namespace Verif.Detector

/-- `pair(tb, pad)`, detector/pairing.py:5-27.  Unbounded integers instead of int64
(see `Verif/Machine/Pairing.lean` for int64). -/
def pair (tb pad : ℤ) : ℤ :=
  if tb < 0 ∨ pad < 0 then -1
  else if tb = max tb pad then tb * tb + tb + pad
  else pad * pad + tb

/-- `unpair(id)`, detector/pairing.py:30-55.  `np.floor(np.sqrt(id))` is the exact integer square
root here (see `Verif/Machine/Pairing.lean` for float64). -/
def unpair (id : ℤ) : ℤ × ℤ :=
  if id < 0 then (-1, -1)
  else
    let sqrt_id : ℤ := (Nat.sqrt id.toNat : ℤ)
    if id - sqrt_id ^ 2 < sqrt_id then (id - sqrt_id ^ 2, sqrt_id)
    else (sqrt_id, id - sqrt_id ^ 2 - sqrt_id)

end Verif.Detector
