import Verif.Detector.Transporter

/-!
# Two's complement 64-bit integers

Model of the `int64` arithmetic used by the compiled detector functions: the exact integer operation
followed by `wrap64`.
-/

namespace Verif.Machine

open Verif.Detector

/-- Reduction of an exact integer result to the `int64` range. -/
def wrap64 (n : ℤ) : ℤ := (n + 2 ^ 63) % 2 ^ 64 - 2 ^ 63

/-- `pair(tb, pad)`, detector/pairing.py:5-27, compiled for int64 arguments: every product and every
sum wraps. -/
def pair64 (tb pad : ℤ) : ℤ :=
  if tb < 0 ∨ pad < 0 then -1
  else if tb = max tb pad then wrap64 (wrap64 (wrap64 (tb * tb) + tb) + pad)
  else wrap64 (wrap64 (pad * pad) + tb)

/-- detector/transporter.py:166-169 and 239, 247-249 with int64 keys and counters. -/
def addCharge64 (points : Points) (tb pad electrons label : ℤ) : Points :=
  let id := pair64 tb pad
  let charge := (points.get id (0, 0)).1
  points.set id (wrap64 (charge + electrons), label)

end Verif.Machine
