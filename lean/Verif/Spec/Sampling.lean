import Verif.Spec.Chain
import Mathlib.MeasureTheory.Constructions.BorelSpace.Real

/-! # Specification of independent random sampling -/

namespace Verif.Spec

open Verif.Kinematics MeasureTheory

variable {σ V : Type}

/-- A random procedure on the generator state which yields the value `v` and leaves the state `g`: the
state that it leaves is distributed like a new one, independently of the value. -/
structure Fresh [MeasurableSpace σ] [MeasurableSpace V] (μ : Measure σ) (v : σ → V) (g : σ → σ) :
    Prop where
  value : Measurable v
  state : Measurable g
  indep : ∀ (B : Set V) (A : Set σ), MeasurableSet B → MeasurableSet A →
    μ {s | v s ∈ B ∧ g s ∈ A} = μ {s | v s ∈ B} * μ A

/-- An ideal generator: the standard uniform and the standard normal draws are fresh, all others are
shifted and scaled ones. -/
structure FreshGen [MeasurableSpace σ] (rng : Gen σ) (μ : Measure σ) (u z : σ → ℝ)
    (next skip : σ → σ) : Prop where
  uniform : ∀ a b s, rng.uniform a b s = (a + (b - a) * u s, next s)
  range : ∀ s, 0 ≤ u s ∧ u s < 1
  normal : ∀ m sd s, rng.normal m sd s = (m + sd * z s, skip s)
  fresh_uniform : Fresh μ u next
  fresh_normal : Fresh μ z skip

/-- A sampler whose result and the generator state that it leaves are fresh. -/
def FreshSampler [MeasurableSpace σ] (μ : Measure σ) {α : Type} [MeasurableSpace α]
    (d : σ → Except PyErr (α × σ)) : Prop :=
  ∃ (v : σ → α) (g : σ → σ), Fresh μ v g ∧ ∀ s, d s = .ok (v s, g s)

/-- The measurable sets of lists of numbers: those described by the length and the entries. -/
instance : MeasurableSpace (List ℝ) :=
  MeasurableSpace.comap (fun l => (l.length, fun k : ℕ => l.getD k 0)) inferInstance

/-- The measurable sets of samples: those described by the fields. -/
instance : MeasurableSpace Sample :=
  MeasurableSpace.comap (fun x : Sample => (x.beam_energy, x.reaction_excitation, x.reaction_theta,
    x.reaction_phi, x.vertex, x.decay_excitations, x.decay_thetas, x.decay_phis)) inferInstance

/-- `x` is the first allowed one among at most `limit` samples drawn from state `s`; the generator is
then in state `s'`. -/
def FirstAllowed (p : Pipeline σ) (limit : ℕ) (s : σ) (x : Sample) (s' : σ) : Prop :=
  ∃ k < limit, ∃ s1, SkippedBy (fun y => ¬ EnergyAllowed p y) p k s s1 ∧
    p.sample s1 = .ok (x, s') ∧ EnergyAllowed p x

/-- `xs` are the samples accepted one after the other. -/
inductive AcceptedSamples (p : Pipeline σ) (limit : ℕ) : σ → List Sample → σ → Prop where
  | nil (s) : AcceptedSamples p limit s [] s
  | cons {s x s1 xs s'} : FirstAllowed p limit s x s1 → AcceptedSamples p limit s1 xs s' →
      AcceptedSamples p limit s (x :: xs) s'

end Verif.Spec
