import Verif.Kinematics.Pipeline

/-! # Specification of reaction chains -/

namespace Verif.Spec

open Verif.Kinematics

/-- The final products among the products of the steps, listed pairwise: the first product of every
step, and the second product of the last step. -/
def finals {α : Type} : List α → List α
  | [] => []
  | [a] => [a]
  | [a, b] => [a, b]
  | a :: _ :: c :: rest => a :: finals (c :: rest)

/-- Sum of four-momenta. -/
noncomputable def sumVec : List Vec4 → Vec4
  | [] => ⟨0, 0, 0, 0⟩
  | v :: vs => v + sumVec vs

/-- `rows` are the products of the decays `ds` of a nucleus with four-momentum `q`: energy and momentum
are conserved in every decay, all products are on their mass shells (including the excitation), with
positive energy. -/
inductive DecaysOk : Vec4 → List Decay → List ℝ → List Vec4 → Prop where
  | nil (q exs) : DecaysOk q [] exs []
  | cons {q d ds ex exs a b rows} :
      a + b = q → a.M = d.residual_1.mass → b.M = d.residual_2.mass + ex → 0 < a.E → 0 < b.E →
      DecaysOk b ds exs rows → DecaysOk q (d :: ds) (ex :: exs) (a :: b :: rows)

/-- The decays of a nucleus of mass `m` (including its excitation) are energetically possible. -/
def DecaysAllowed : ℝ → List Decay → List ℝ → Prop
  | _, [], _ => True
  | _, _ :: _, [] => False
  | m, d :: ds, ex :: exs => d.residual_1.mass + d.residual_2.mass + ex < m ∧
      DecaysAllowed (d.residual_2.mass + ex) ds exs

/-- The sample is energetically possible: the beam has not been stopped, the invariant mass of beam and target exceeds the masses of
the products including the excitation, and so on along the chain. -/
def EnergyAllowed {σ : Type} (p : Pipeline σ) (x : Sample) : Prop :=
  0 ≤ x.beam_energy ∧
  p.reaction.ejectile.mass + p.reaction.residual.mass + x.reaction_excitation
    < Real.sqrt ((p.reaction.target.mass + p.reaction.projectile.mass) ^ 2
        + 2 * p.reaction.target.mass * x.beam_energy) ∧
  DecaysAllowed (p.reaction.residual.mass + x.reaction_excitation) p.decays x.decay_excitations

/-- The event of a sample: the first four rows are those of the reaction, the others those of the
decays. -/
structure EventOk {σ : Type} (p : Pipeline σ) (x : Sample) (t b e r : Vec4) (rows : List Vec4) : Prop where
  target : t = ⟨0, 0, 0, p.reaction.target.mass⟩
  beam_px : b.px = 0
  beam_py : b.py = 0
  beam_pz : 0 ≤ b.pz
  beam_E : b.E = x.beam_energy + p.reaction.projectile.mass
  beam_M : b.M = p.reaction.projectile.mass
  conserved : e + r = t + b
  ejectile_M : e.M = p.reaction.ejectile.mass
  residual_M : r.M = p.reaction.residual.mass + x.reaction_excitation
  ejectile_E : 0 < e.E
  residual_E : 0 < r.E
  decays : DecaysOk r p.decays x.decay_excitations rows

/-- Masses of a physical chain. -/
structure ChainOk {σ : Type} (p : Pipeline σ) : Prop where
  target : 0 < p.reaction.target.mass
  projectile : 0 ≤ p.reaction.projectile.mass
  ejectile : 0 ≤ p.reaction.ejectile.mass
  decays : ∀ d ∈ p.decays, 0 ≤ d.residual_1.mass

/-- A physical sample: the beam energy is not below minus twice the projectile mass (in practice, not
negative), and masses stay positive with the sampled excitations. -/
structure SampleOk {σ : Type} (p : Pipeline σ) (x : Sample) : Prop where
  beam : -(2 * p.reaction.projectile.mass) < x.beam_energy
  residual : 0 < p.reaction.residual.mass + x.reaction_excitation
  decays : ∀ de ∈ p.decays.zip x.decay_excitations, 0 < de.1.residual_2.mass + de.2

/-- `n` samples drawn from generator state `s` all satisfy `P`; the generator is then in state `s'`. -/
inductive SkippedBy {σ : Type} (P : Sample → Prop) (p : Pipeline σ) : ℕ → σ → σ → Prop where
  | zero (s) : SkippedBy P p 0 s s
  | succ {n s x s1 s'} : p.sample s = .ok (x, s1) → P x → SkippedBy P p n s1 s' →
      SkippedBy P p (n + 1) s s'

end Verif.Spec
