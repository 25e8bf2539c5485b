import Verif.Spec.Sampling
import Mathlib.Probability.ProductMeasure

/-! # Sequences of independent numbers -/

namespace Verif.Props

open MeasureTheory Verif.Spec

variable {α : Type} [MeasurableSpace α]

/-- Dropping the first number. -/
def dropFirst (s : ℕ → α) : ℕ → α := fun k => s (k + 1)

theorem measurable_dropFirst : Measurable (dropFirst (α := α)) :=
  measurable_pi_lambda _ fun k => measurable_pi_apply (k + 1)

/-- The first number of a stream is independent of the others. -/
theorem sequence_split (ν : Measure α) [IsProbabilityMeasure ν] : (Measure.infinitePi fun _ : ℕ => ν)
    = (ν.prod (Measure.infinitePi fun _ : ℕ => ν)).map fun x => (fun k => Nat.casesOn k x.1 x.2 : ℕ → α) := by
  symm
  have hm : Measurable fun x : α × (ℕ → α) =>
      (fun k => Nat.casesOn k x.1 x.2 : ℕ → α) := by
    apply measurable_pi_lambda
    intro k
    cases k with
    | zero => exact measurable_fst
    | succ k => exact (measurable_pi_apply k).comp measurable_snd
  apply Measure.eq_infinitePi
  intro F t ht
  rw [Measure.map_apply hm (MeasurableSet.pi F.countable_toSet fun i _ => ht i)]
  -- the box splits into the condition on the first number and those on the others
  let G : Finset ℕ := (F.erase 0).image (· - 1)
  have e : (fun x : α × (ℕ → α) => (fun k => Nat.casesOn k x.1 x.2 : ℕ → α)) ⁻¹' Set.pi F t
      = (if 0 ∈ F then t 0 else Set.univ) ×ˢ Set.pi G fun i => t (i + 1) := by
    ext ⟨x, s⟩
    simp only [Set.mem_preimage, Set.mem_pi, Set.mem_prod, G, Finset.coe_image, Set.mem_image,
      Finset.mem_coe, Finset.mem_erase]
    constructor
    · intro h
      refine ⟨?_, ?_⟩
      · split_ifs with h0
        · exact h 0 h0
        · trivial
      · rintro i ⟨j, ⟨hj0, hj⟩, rfl⟩
        have := h j hj
        cases j with
        | zero => omega
        | succ j => exact this
    · rintro ⟨h1, h2⟩ i hi
      cases i with
      | zero => rw [if_pos hi] at h1; exact h1
      | succ i => exact h2 i ⟨i + 1, ⟨by omega, hi⟩, rfl⟩
  rw [e, Measure.prod_prod]
  have hinj : Set.InjOn (· - 1) (F.erase 0 : Set ℕ) := by
    intro a ha b hb h
    simp only [Finset.coe_erase, Set.mem_diff, Set.mem_singleton_iff] at ha hb
    have := ha.2
    have := hb.2
    simp only at h
    omega
  have h2 : (Measure.infinitePi fun _ : ℕ => ν) (Set.pi G fun i => t (i + 1)) = ∏ i ∈ F.erase 0, ν (t i) := by
    rw [Measure.infinitePi_pi _ fun i _ => ht _, Finset.prod_image hinj]
    refine Finset.prod_congr rfl fun i hi => ?_
    have : i ≠ 0 := Finset.ne_of_mem_erase hi
    rw [show i - 1 + 1 = i from by omega]
  rw [h2]
  by_cases h0 : 0 ∈ F
  · rw [if_pos h0]
    exact Finset.mul_prod_erase F (fun i => ν (t i)) h0
  · rw [if_neg h0, Finset.erase_eq_of_notMem h0]
    simp

theorem sequence_fresh (ν : Measure α) [IsProbabilityMeasure ν] : Fresh (Measure.infinitePi fun _ : ℕ => ν) (fun s => s 0) dropFirst := by
  have hm : Measurable fun x : α × (ℕ → α) =>
      (fun k => Nat.casesOn k x.1 x.2 : ℕ → α) := by
    apply measurable_pi_lambda
    intro k
    cases k with
    | zero => exact measurable_fst
    | succ k => exact (measurable_pi_apply k).comp measurable_snd
  have hv : Measurable fun s : ℕ → α => s 0 :=
    measurable_pi_apply 0
  have key : ∀ (B : Set α) (A : Set (ℕ → α)), MeasurableSet B → MeasurableSet A →
      (Measure.infinitePi fun _ : ℕ => ν) {s | s 0 ∈ B ∧ dropFirst s ∈ A}
        = ν B * (Measure.infinitePi fun _ : ℕ => ν) A := by
    intro B A hB hA
    have hS : MeasurableSet {s : ℕ → α | s 0 ∈ B ∧ dropFirst s ∈ A} :=
      (hv hB).inter (measurable_dropFirst hA)
    conv_lhs => rw [sequence_split ν]
    rw [Measure.map_apply hm hS, ← Measure.prod_prod]
    rfl
  refine ⟨hv, measurable_dropFirst, fun B A hB hA => ?_⟩
  have h1 := key B Set.univ hB .univ
  simp only [Set.mem_univ, and_true, measure_univ, mul_one] at h1
  rw [key B A hB hA, h1]

end Verif.Props
