import Verif.Detector.Text
import Mathlib.Data.Real.Basic

/-!
# Specification of csv text

The grammar of decimal numbers in Python (https://docs.python.org/3/library/functions.html#float, for
ASCII text), lines and comma separated entries, given as relations.
-/

namespace Verif.Spec

open Verif.Detector

/-- The number with the given decimal digits. -/
def digitsValue (ds : List ℕ) : ℕ := ds.foldl (fun m d => 10 * m + d) 0

/-- `digitpart ::= digit (["_"] digit)*`, with its digits. -/
inductive DigitPart : Text → List ℕ → Prop
  | single {d : ℕ} (h : d < 10) : DigitPart [48 + d] [d]
  | cons {d : ℕ} {t : Text} {ds : List ℕ} (h : d < 10) (ht : DigitPart t ds) :
      DigitPart ((48 + d) :: t) (d :: ds)
  | under {d : ℕ} {t : Text} {ds : List ℕ} (h : d < 10) (ht : DigitPart t ds) :
      DigitPart ((48 + d) :: 95 :: t) (d :: ds)

/-- `sign ::= "+" | "-"`, or nothing; the Boolean is true for a minus. -/
inductive Sign : Text → Bool → Prop
  | none : Sign [] false
  | plus : Sign [43] false
  | minus : Sign [45] true

/-- `exponent ::= ("e" | "E") [sign] digitpart`, or nothing, with its value. -/
inductive Exponent : Text → ℤ → Prop
  | none : Exponent [] 0
  | some {c : ℕ} {s t : Text} {neg : Bool} {ds : List ℕ} (hc : c = 101 ∨ c = 69) (hs : Sign s neg)
      (ht : DigitPart t ds) :
      Exponent (c :: (s ++ t)) (if neg then -(digitsValue ds : ℤ) else digitsValue ds)

/-- `floatnumber ::= (digitpart ["."] | [digitpart] "." digitpart) [exponent]`, with the value
`m · 10^e`. -/
inductive Number : Text → ℕ → ℤ → Prop
  | int {t te : Text} {ds : List ℕ} {x : ℤ} (ht : DigitPart t ds) (he : Exponent te x) :
      Number (t ++ te) (digitsValue ds) x
  | point {t te : Text} {ds : List ℕ} {x : ℤ} (ht : DigitPart t ds) (he : Exponent te x) :
      Number (t ++ 46 :: te) (digitsValue ds) x
  | frac {t tf te : Text} {ds fs : List ℕ} {x : ℤ} (ht : DigitPart t ds) (hf : DigitPart tf fs)
      (he : Exponent te x) :
      Number (t ++ 46 :: (tf ++ te)) (digitsValue (ds ++ fs)) (x - fs.length)
  | lead {tf te : Text} {fs : List ℕ} {x : ℤ} (hf : DigitPart tf fs) (he : Exponent te x) :
      Number (46 :: (tf ++ te)) (digitsValue fs) (x - fs.length)

/-- ASCII white space: tab, line feed, vertical tab, form feed, carriage return, the separators 28 to
31, space. -/
def Blank (t : Text) : Prop := ∀ c ∈ t, c ∈ [9, 10, 11, 12, 13, 28, 29, 30, 31, 32]

/-- The text of a finite number: white space, sign, number, white space. -/
def Literal (t : Text) (neg : Bool) (m : ℕ) (e : ℤ) : Prop :=
  ∃ a s n z, t = a ++ s ++ n ++ z ∧ Blank a ∧ Blank z ∧ Sign s neg ∧ Number n m e

/-- `w` is the word `l` of lower case letters, in upper or lower case. -/
def Letters (w l : Text) : Prop := List.Forall₂ (fun c d => c = d ∨ c + 32 = d) w l

/-- The text of an infinity: `inf` or `infinity`, with a sign. -/
def Infinity (t : Text) (neg : Bool) : Prop :=
  ∃ a s w z, t = a ++ s ++ w ++ z ∧ Blank a ∧ Blank z ∧ Sign s neg ∧
    (Letters w [105, 110, 102] ∨ Letters w [105, 110, 102, 105, 110, 105, 116, 121])

/-- The text of `nan`, with a sign. -/
def NotANumber (t : Text) : Prop :=
  ∃ a s w z neg, t = a ++ s ++ w ++ z ∧ Blank a ∧ Blank z ∧ Sign s neg ∧ Letters w [110, 97, 110]

/-- `t'` is `t` with each line end `\r\n`, `\r` or `\n` written as `\n` (10). -/
inductive LineEnds : Text → Text → Prop
  | nil : LineEnds [] []
  | crlf {t t' : Text} (h : LineEnds t t') : LineEnds (13 :: 10 :: t) (10 :: t')
  | cr {t t' : Text} (ht : ∀ r, t ≠ 10 :: r) (h : LineEnds t t') : LineEnds (13 :: t) (10 :: t')
  | other {c : ℕ} {t t' : Text} (hc : c ≠ 13) (h : LineEnds t t') : LineEnds (c :: t) (c :: t')

/-- `lines` are the lines of `t`: together they are `t`, and each of them ends with its only line feed,
except that the last may have none (but is not empty). -/
inductive Lines : Text → List Text → Prop
  | nil : Lines [] []
  | last {l : Text} (h : 10 ∉ l) (hl : l ≠ []) : Lines l [l]
  | cons {l t : Text} {ls : List Text} (h : 10 ∉ l) (ht : Lines t ls) :
      Lines (l ++ 10 :: t) ((l ++ [10]) :: ls)

/-- `es` are the comma separated entries of `t`. -/
inductive Entries : Text → List Text → Prop
  | last {e : Text} (h : 44 ∉ e) : Entries e [e]
  | cons {e t : Text} {es : List Text} (h : 44 ∉ e) (ht : Entries t es) :
      Entries (e ++ 44 :: t) (e :: es)

/-- The value of a literal: the written number, as a real number. -/
noncomputable def litValue (neg : Bool) (m : ℕ) (e : ℤ) : ℝ :=
  (if neg then -1 else 1) * (m : ℝ) * (10 : ℝ) ^ e

/-- What a text stands for: a number, an infinity or NaN. -/
def Denotes (t : Text) : FloatLit → Prop
  | .num neg m e => Literal t neg m e
  | .inf neg => Infinity t neg
  | .nan => NotANumber t

/-- The text `e` writes the number `v`. -/
def Writes (e : Text) (v : ℝ) : Prop := ∃ neg m x, Literal e neg m x ∧ v = litValue neg m x

/-- The line consists of comma separated numbers. -/
def RowOfNumbers (line : Text) (row : List ℝ) : Prop := ∃ es, Entries line es ∧ List.Forall₂ Writes es row

/-- The csv text `t` has a header line, followed by lines with the numbers `rows`. -/
def Table (t : Text) (rows : List (List ℝ)) : Prop :=
  ∃ t' header lines, LineEnds t t' ∧ Lines t' (header :: lines) ∧ List.Forall₂ RowOfNumbers lines rows

/-- The value returned by `float` is the number `v`. -/
def LitIs (l : FloatLit) (v : ℝ) : Prop := ∃ neg m e, l = .num neg m e ∧ v = litValue neg m e

/-- Both raise the same exception, or both return, with related values. -/
inductive SameOutcome {α β : Type} (R : α → β → Prop) : Except PyErr α → Except PyErr β → Prop
  | ok {a : α} {b : β} (h : R a b) : SameOutcome R (.ok a) (.ok b)
  | error (e : PyErr) : SameOutcome R (.error e) (.error e)

end Verif.Spec
