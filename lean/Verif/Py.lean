import Mathlib.Data.Real.Basic
import Mathlib.Analysis.Real.Sqrt
import Mathlib.Algebra.Order.Floor.Ring
import Mathlib.Algebra.Order.Archimedean.Real.Basic

/-!
# Python / numpy prelude

The few pieces of Python and numpy behaviour that the model of attpc_engine relies on.
Floating-point numbers are real numbers here (see `Verif/Machine` for binary64); NaN is `none`.
-/

namespace Verif

/-- Exceptions as values.  Only the exception class matters for the model, not the message. -/
inductive PyErr where
  | valueError        -- ValueError
  | zeroDivision      -- ZeroDivisionError
  | keyError          -- KeyError (missing HDF5 name, attribute or nucleus)
  | indexError        -- IndexError
  | pipelineError     -- attpc_engine.kinematics.pipeline.PipelineError
  | fileNotFound      -- FileNotFoundError from open()
  | closedFile        -- ValueError raised by h5py on a closed file
  | nameExists        -- ValueError raised by h5py when a dataset/group name exists
  | undefinedRead     -- not an exception: numba reads memory at an index computed from NaN
  deriving DecidableEq, Repr

/-- Python `int(x)` on a float: truncation towards zero.  Also `np.array(.., dtype=np.int64)`. -/
noncomputable def pyInt (x : ℝ) : ℤ := if 0 ≤ x then ⌊x⌋ else ⌈x⌉

/-- `np.sqrt` on a float: NaN (`none`) for negative input. -/
noncomputable def npSqrt (x : ℝ) : Option ℝ := if x < 0 then none else some (Real.sqrt x)

/-- Python/numpy one-dimensional indexing `l[i]` with negative wrap-around. -/
def pyGet {α : Type} (l : List α) (i : ℤ) : Except PyErr α :=
  let j : ℤ := if i < 0 then i + l.length else i
  if j < 0 then .error .indexError
  else match l[j.toNat]? with
    | some a => .ok a
    | none => .error .indexError

/-- `a[mask]`: boolean-mask selection (mask and array have the same length in all uses). -/
def maskSel {α : Type} : List Bool → List α → List α
  | true :: m, a :: l => a :: maskSel m l
  | false :: m, _ :: l => maskSel m l
  | _, _ => []

/-- `numpy.random.Generator`, as far as the engine uses it: every draw maps the hidden state
`σ` to a value and the next state. -/
structure Gen (σ : Type) where
  /-- `rng.normal(loc, scale)` -/
  normal : ℝ → ℝ → σ → ℝ × σ
  /-- `rng.uniform(low, high)` -/
  uniform : ℝ → ℝ → σ → ℝ × σ

/-- The documented contract of `numpy.random.Generator` used in the proofs: `uniform(a, b)` lies in
the half-open interval `[a, b)` (and is `a` if `a = b`); `normal(m, 0)` is `m`. -/
structure LawfulGen {σ : Type} (g : Gen σ) : Prop where
  uniform_ge : ∀ a b s, a ≤ b → a ≤ (g.uniform a b s).1
  uniform_lt : ∀ a b s, a < b → (g.uniform a b s).1 < b
  uniform_eq : ∀ a s, (g.uniform a a s).1 = a
  normal_zero : ∀ m s, (g.normal m 0 s).1 = m

/-- `rng.uniform(low, high, size=n)`: `n` successive draws. -/
def Gen.uniformN {σ : Type} (g : Gen σ) (a b : ℝ) : ℕ → σ → List ℝ × σ
  | 0, s => ([], s)
  | n + 1, s =>
    let (x, s) := g.uniform a b s
    let (xs, s) := g.uniformN a b n s
    (x :: xs, s)

end Verif
