import Verif.Py
import Mathlib.Data.Nat.Notation
import Mathlib.Data.Int.Notation

/-!
# Reading csv text

Model of the text handling of `Config.load_pad_centers` and `Config.load_pad_sizes`,
detector/parameters.py:207-261: `open(path, "r")`, `readline`, `readlines`, `line.split(",")` and
`float(entry)`. Text is a list of code points.

Simplifications: the decoding of bytes to text is left out (the packaged files are ASCII); `float`
accepts digits and white space of other scripts too, here only those of ASCII; the number written in the
text is not rounded to a double.
-/

namespace Verif.Detector

/-- Text as a list of code points. -/
abbrev Text := List ℕ

/-- The translation of line ends by `open(path, "r")` (detector/parameters.py:218, 227, 247, 255):
`\r\n` and `\r` become `\n`. -/
def universal : Text → Text
  | [] => []
  | c :: t =>
    if c = 13 then (match t with
      | [] => [10]
      | d :: t' => if d = 10 then universal (d :: t') else 10 :: universal (d :: t'))
    else c :: universal t

/-- The lines of a text, each with its line end: `readlines()`. -/
def readlines : Text → List Text
  | [] => []
  | c :: t =>
    if c = 10 then [c] :: readlines t
    else match readlines t with
      | [] => [[c]]
      | l :: ls => (c :: l) :: ls

/-- `geofile.readline()`, which removes the header, and `lines = geofile.readlines()`
(detector/parameters.py:219-220, 228-229, 248-249, 256-257). -/
def dataLines (t : Text) : List Text := (readlines (universal t)).tail

/-- `line.split(",")`. -/
def splitComma : Text → List Text
  | [] => [[]]
  | c :: t =>
    if c = 44 then [] :: splitComma t
    else match splitComma t with
      | [] => [[c]]
      | e :: es => (c :: e) :: es

/-- The ASCII white space removed by `float`. -/
def isSpace (c : ℕ) : Bool := (9 ≤ c && c ≤ 13) || (28 ≤ c && c ≤ 32)

/-- An ASCII digit. -/
def isDigit (c : ℕ) : Bool := 48 ≤ c && c ≤ 57

/-- What `float` returns: the number `±m · 10^e` (before rounding to a double), an infinity or NaN. -/
inductive FloatLit where
  | num (neg : Bool) (m : ℕ) (e : ℤ)
  | inf (neg : Bool)
  | nan
deriving DecidableEq

/-- Reads digits, with single underscores between digits: the number, how many digits, the rest. -/
def readDigits : ℕ → ℕ → Text → ℕ × ℕ × Text
  | m, n, [] => (m, n, [])
  | m, n, c :: t =>
    if isDigit c then readDigits (10 * m + (c - 48)) (n + 1) t
    else if c = 95 && n ≠ 0 && (match t with | [] => false | d :: _ => isDigit d) then readDigits m n t
    else (m, n, c :: t)

/-- An optional sign: whether it is a minus, and the rest. -/
def readSign : Text → Bool × Text
  | [] => (false, [])
  | c :: t => if c = 45 then (true, t) else if c = 43 then (false, t) else (false, c :: t)

/-- The exponent at the end of a number (`e` or `E`, sign, digits), or nothing. -/
def readExponent : Text → Option ℤ
  | [] => some 0
  | c :: t =>
    if c = 101 || c = 69 then
      let (neg, t) := readSign t
      let (x, n, rest) := readDigits 0 0 t
      if n = 0 then none
      else match rest with
        | [] => some (if neg then -(x : ℤ) else x)
        | _ :: _ => none
    else none

/-- Digits with an optional decimal point: all digits as a number, how many digits, how many of them
after the point, the rest. -/
def readMantissa (t : Text) : ℕ × ℕ × ℕ × Text :=
  let (m, n, t) := readDigits 0 0 t
  match t with
  | [] => (m, n, 0, [])
  | c :: t' =>
    if c = 46 then
      let (m, k, rest) := readDigits m 0 t'
      (m, n + k, k, rest)
    else (m, n, 0, c :: t')

/-- An unsigned decimal number `m · 10^e`. -/
def readNumber (t : Text) : Option (ℕ × ℤ) :=
  let (m, n, k, rest) := readMantissa t
  if n = 0 then none
  else match readExponent rest with
    | none => none
    | some x => some (m, x - k)

/-- Lower case of an ASCII letter. -/
def lower (c : ℕ) : ℕ := if 65 ≤ c && c ≤ 90 then c + 32 else c

/-- `float(entry)` for text, detector/parameters.py:223-224, 232-233, 252, 260. White space at both ends
is removed; anything that is not a number, `inf`, `infinity` or `nan` raises ValueError. -/
def pyFloat (t : Text) : Except PyErr FloatLit :=
  let t := ((t.dropWhile isSpace).reverse.dropWhile isSpace).reverse
  let (neg, t) := readSign t
  match readNumber t with
  | some (m, e) => .ok (.num neg m e)
  | none =>
    if t.map lower = [105, 110, 102] ∨ t.map lower = [105, 110, 102, 105, 110, 105, 116, 121] then
      .ok (.inf neg)
    else if t.map lower = [110, 97, 110] then .ok .nan
    else .error .valueError

/-- `float(entries[i])`: IndexError if there is no such entry. -/
def floatEntry (entries : List Text) (i : ℕ) : Except PyErr FloatLit :=
  match entries[i]? with
  | some t => pyFloat t
  | none => .error .indexError

end Verif.Detector
