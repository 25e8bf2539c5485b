import Verif.Detector.PadText

/-! # The packaged csv text, checked by evaluation -/

namespace Verif.Detector

open Verif.Data

/-- The decimals of `f / 10^k`, without trailing zeros. -/
def fracText : ℕ → ℕ → Text
  | 0, _ => []
  | k + 1, f => (48 + f / 10 ^ k) :: (bif Nat.beq (f % 10 ^ k) 0 then [] else fracText k (f % 10 ^ k))

/-- The decimal digits of a number below 1000. -/
def intText (i : ℕ) : Text :=
  bif Nat.blt i 10 then [48 + i]
  else bif Nat.blt i 100 then [48 + i / 10, 48 + i % 10]
  else [48 + i / 100, 48 + i / 10 % 10, 48 + i % 10]

/-- The text of `n / 10^7`, for `n` below `10^10`. -/
def natText (n : ℕ) : Text := intText (n / 10000000) ++ 46 :: fracText 7 (n % 10000000)

/-- The text of `v / 10^7`. -/
def numText : ℤ → Text
  | .ofNat n => natText n
  | .negSucc n => 45 :: natText (n + 1)

/-- The line of pad `p` in padxy.csv. -/
def lineText (p : ℕ) : Text := numText (padX p) ++ 44 :: (numText (padY p) ++ [10])

/-- The bytes `t` in front of those of `v`. -/
def onto : Text → ℕ → ℕ
  | [], v => v
  | c :: t, v => c + 256 * onto t v

/-- The lines of pads `p`, …, `p + n - 1` as a number. -/
def linesNat : ℕ → ℕ → ℕ
  | _, 0 => 0
  | p, n + 1 => onto (lineText p) (linesNat (p + 1) n)

/-- The groups `a`, …, `a + n - 1` of padxy.csv are the lines of the pads. -/
def groupsOk (a : ℕ) : ℕ → Bool
  | 0 => true
  | n + 1 => Nat.beq (nth padxyTextRows (a + n)) (linesNat (128 * (a + n)) 128) && groupsOk a n

/-- The line of pad `p` in pad_scale.csv. -/
def sizeText (p : ℕ) : Text := bif padIsLarge p then [49, 46, 48, 10] else [48, 46, 53, 10]

/-- The lines of pads `p`, …, `p + n - 1` of pad_scale.csv as a number. -/
def sizesNat : ℕ → ℕ → ℕ
  | _, 0 => 0
  | p, n + 1 => onto (sizeText p) (sizesNat (p + 1) n)

/-- The groups `a`, …, `a + n - 1` of pad_scale.csv are the lines of the pads. -/
def scalesOk (a : ℕ) : ℕ → Bool
  | 0 => true
  | n + 1 => Nat.beq (nth scaleTextRows (a + n)) (sizesNat (512 * (a + n)) 512) && scalesOk a n

theorem groups_0 : groupsOk 0 20 = true := by decide +kernel

theorem groups_20 : groupsOk 20 20 = true := by decide +kernel

theorem groups_40 : groupsOk 40 20 = true := by decide +kernel

theorem groups_60 : groupsOk 60 20 = true := by decide +kernel

theorem scales_0 : scalesOk 0 20 = true := by decide +kernel

end Verif.Detector
