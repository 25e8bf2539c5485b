import Verif.Data.PadText
import Verif.Detector.PadData
import Verif.Detector.Text
import Mathlib.Data.Nat.Digits.Defs

/-! # The text of the packaged csv files, `src/attpc_engine/detector/data` -/

namespace Verif.Detector

open Verif.Data

/-- Lines `128 k + 2` to `128 k + 129` of detector/data/padxy.csv: the bytes of a number. -/
def padxyGroup (k : ℕ) : Text := Nat.digits 256 (nth padxyTextRows k)

/-- Lines `512 k + 2` to `512 k + 513` of detector/data/pad_scale.csv. -/
def scaleGroup (k : ℕ) : Text := Nat.digits 256 (nth scaleTextRows k)

/-- The text of detector/data/padxy.csv: the header `x,y` and 80 groups of 128 lines. -/
def padxyText : Text := [120, 44, 121, 10] ++ (List.range 80).flatMap padxyGroup

/-- The text of detector/data/pad_scale.csv: the header `scale` and 20 groups of 512 lines. -/
def scaleText : Text := [115, 99, 97, 108, 101, 10] ++ (List.range 20).flatMap scaleGroup

end Verif.Detector
