import Verif.Spec.Sampling
import Verif.Spec.Runs

/-! # Specification of independent simulated events -/

namespace Verif.Spec

open Verif.Detector Verif.Kinematics MeasureTheory

variable {σ α : Type}

/-- A random procedure that may raise: when it returns, the generator state that it leaves is
distributed like a new one, independently of the result. -/
structure FreshResult [MeasurableSpace σ] [MeasurableSpace α] (μ : Measure σ)
    (f : σ → Except PyErr (α × σ)) : Prop where
  measurable : ∀ (B : Set α) (A : Set σ), MeasurableSet B → MeasurableSet A →
    MeasurableSet {s | ∃ a s', f s = .ok (a, s') ∧ a ∈ B ∧ s' ∈ A}
  indep : ∀ (B : Set α) (A : Set σ), MeasurableSet B → MeasurableSet A →
    μ {s | ∃ a s', f s = .ok (a, s') ∧ a ∈ B ∧ s' ∈ A}
      = μ {s | ∃ a s', f s = .ok (a, s') ∧ a ∈ B} * μ A

/-- The measurable sets of clouds: those described by the columns. -/
instance : MeasurableSpace (List CloudPoint) :=
  MeasurableSpace.comap (fun l : List CloudPoint => (l.map (·.pad), l.map (·.tb), l.map (·.e))) inferInstance

/-- Lists of labels are countable: all their sets are measurable. -/
instance : MeasurableSpace (List ℤ) := ⊤

/-- What a call of the writer hands over for event `k`. -/
def givenBy (k : ℕ) : Call → Option (List CloudPoint × List ℤ)
  | .write c l _ n => if n = k then some (c, l) else none
  | .close => none

/-- The cloud and the labels handed to the writer for event `k`; empty if there was no call. -/
def writtenAt (log : List Call) (k : ℕ) : List CloudPoint × List ℤ :=
  (log.findSome? (givenBy k)).getD ([], [])

/-- A point of a cloud without its random part, and a part `[lo, hi)` of its time bucket. -/
structure Cell where
  pad : ℤ
  bucket : ℤ
  charge : ℤ
  label : ℤ
  lo : ℝ
  hi : ℝ

/-- The row has the pad, the integer time bucket, the charge and the label of the cell. -/
def Cell.Has (row : CloudPoint × ℤ) (c : Cell) : Prop :=
  row.1.pad = c.pad ∧ ⌊row.1.tb⌋ = c.bucket ∧ row.1.e = c.charge ∧ row.2 = c.label

/-- Moreover its time lies in the given part of the time bucket. -/
def Cell.HasIn (row : CloudPoint × ℤ) (c : Cell) : Prop :=
  Cell.Has row c ∧ c.bucket + c.lo ≤ row.1.tb ∧ row.1.tb < c.bucket + c.hi

end Verif.Spec
