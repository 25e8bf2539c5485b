import Verif.Proofs.Sampling
import Verif.Spec.Rotation
import Mathlib.MeasureTheory.Integral.IntervalIntegral.Periodic
import Mathlib.MeasureTheory.Function.Floor
import Mathlib.MeasureTheory.Measure.Prod

/-! # Rotation of random samples -/

namespace Verif.Spec

open Verif.Kinematics MeasureTheory

/-- Shifting a uniform number of the unit interval, modulo 1, leaves it uniform. -/
theorem shift_fract_preserving (c : ℝ) : MeasurePreserving (fun x : ℝ => Int.fract (x + c))
    (volume.restrict (Set.Ico (0 : ℝ) 1)) (volume.restrict (Set.Ico (0 : ℝ) 1)) := by
  have hm : Measurable fun x : ℝ => Int.fract (x + c) := (measurable_id.add_const c).fract
  refine ⟨hm, ?_⟩
  ext B hB
  rw [Measure.map_apply hm hB, Measure.restrict_apply (hm hB), Measure.restrict_apply hB]
  obtain ⟨U, hU⟩ : ∃ U : Set UnitAddCircle,
      U = {y | ((AddCircle.measurableEquivIco (1 : ℝ) 0 y : Set.Ico (0 : ℝ) (0 + 1)) : ℝ) ∈ B} := ⟨_, rfl⟩
  have hUm : MeasurableSet U := by
    rw [hU]
    exact (measurable_subtype_coe.comp (AddCircle.measurableEquivIco (1 : ℝ) 0).measurable) hB
  have hmk : ∀ x : ℝ, (QuotientAddGroup.mk x : UnitAddCircle) ∈ U ↔ Int.fract x ∈ B := by
    intro x
    rw [hU]
    have h1 : ((AddCircle.measurableEquivIco (1 : ℝ) 0 (x : UnitAddCircle) : Set.Ico (0 : ℝ) (0 + 1)) : ℝ)
        = Int.fract (x / 1) * 1 := AddCircle.coe_equivIco_mk_apply (1 : ℝ) x
    rw [div_one, mul_one] at h1
    change ((AddCircle.measurableEquivIco (1 : ℝ) 0 (x : UnitAddCircle) : Set.Ico (0 : ℝ) (0 + 1)) : ℝ) ∈ B ↔ _
    rw [h1]
  have h0 := AddCircle.add_projection_respects_measure (T := (1 : ℝ)) 0 hUm
  have h1 := AddCircle.add_projection_respects_measure (T := (1 : ℝ)) c hUm
  have e0 : volume (QuotientAddGroup.mk ⁻¹' U ∩ Set.Ioc (0 : ℝ) (0 + 1) : Set ℝ)
      = volume (B ∩ Set.Ico (0 : ℝ) 1) := by
    have : (B ∩ Set.Ico (0 : ℝ) 1 : Set ℝ) = QuotientAddGroup.mk ⁻¹' U ∩ Set.Ico (0 : ℝ) 1 := by
      ext x
      simp only [Set.mem_inter_iff, Set.mem_preimage]
      constructor
      · rintro ⟨h1, h2⟩; exact ⟨(hmk x).2 (by rwa [Int.fract_eq_self.2 h2]), h2⟩
      · rintro ⟨h1, h2⟩; exact ⟨by have := (hmk x).1 h1; rwa [Int.fract_eq_self.2 h2] at this, h2⟩
    rw [this, zero_add]
    exact measure_congr ((Filter.EventuallyEq.refl _ _).inter Ico_ae_eq_Ioc.symm)
  have e1 : (fun x : ℝ => x + c) ⁻¹' (QuotientAddGroup.mk ⁻¹' U ∩ Set.Ioc c (c + 1) : Set ℝ)
      = (fun x : ℝ => Int.fract (x + c)) ⁻¹' B ∩ Set.Ioc 0 1 := by
    ext x
    simp only [Set.mem_preimage, Set.mem_inter_iff, Set.mem_Ioc, hmk]
    constructor
    · rintro ⟨h1, h2, h3⟩; exact ⟨h1, by linarith, by linarith⟩
    · rintro ⟨h1, h2, h3⟩; exact ⟨h1, by linarith, by linarith⟩
  have e2 : volume ((fun x : ℝ => Int.fract (x + c)) ⁻¹' B ∩ Set.Ico 0 1)
      = volume ((fun x : ℝ => Int.fract (x + c)) ⁻¹' B ∩ Set.Ioc 0 1) :=
    measure_congr ((Filter.EventuallyEq.refl _ _).inter Ico_ae_eq_Ioc)
  rw [e2, ← e1, measure_preimage_add_right, ← e0]
  exact h1.symm.trans h0

variable {σ : Type} [MeasurableSpace σ] {μ : Measure σ}

/-- A sampler whose results are fresh and have a distribution that is not changed by `τ`. -/
def InvSampler (μ : Measure σ) {α : Type} [MeasurableSpace α] (d : σ → Except PyErr (α × σ)) (τ : α → α) :
    Prop :=
  ∃ (v : σ → α) (g : σ → σ), Fresh μ v g ∧ (∀ s, d s = .ok (v s, g s)) ∧
    MeasurePreserving τ (μ.map v) (μ.map v)

/-- Every fresh sampler has this property for the identity. -/
theorem InvSampler.of_fresh {α : Type} [MeasurableSpace α] {d : σ → Except PyErr (α × σ)}
    (h : FreshSampler μ d) : InvSampler μ d id := by
  obtain ⟨v, g, h1, h2⟩ := h
  exact ⟨v, g, h1, h2, .id _⟩

/-- A symmetry of a distribution is one of its image. -/
theorem preserving_map {α β : Type} [MeasurableSpace α] [MeasurableSpace β] {ν : Measure α} {τ : α → α}
    (h : MeasurePreserving τ ν ν) {k : α → β} (hk : Measurable k) {τ' : β → β} (hτ' : Measurable τ')
    (hkt : ∀ a, k (τ a) = τ' (k a)) : MeasurePreserving τ' (ν.map k) (ν.map k) := by
  refine ⟨hτ', ?_⟩
  rw [Measure.map_map hτ' hk]
  have : τ' ∘ k = k ∘ τ := funext fun a => (hkt a).symm
  rw [this, ← Measure.map_map hk h.measurable, h.map_eq]

theorem InvSampler.map {α β : Type} [MeasurableSpace α] [MeasurableSpace β]
    {d : σ → Except PyErr (α × σ)} {e : σ → Except PyErr (β × σ)} {τ : α → α} {τ' : β → β}
    (h : InvSampler μ d τ) {k : α → β} (hk : Measurable k) (hτ' : Measurable τ')
    (hkt : ∀ a, k (τ a) = τ' (k a))
    (he : ∀ s a s', d s = .ok (a, s') → e s = .ok (k a, s')) : InvSampler μ e τ' := by
  obtain ⟨v, g, hf, hd, hp⟩ := h
  refine ⟨fun s => k (v s), g, hf.map hk, fun s => he s _ _ (hd s), ?_⟩
  have := preserving_map hp hk hτ' hkt
  rwa [Measure.map_map hk hf.value] at this

/-- The joint distribution of two fresh procedures one after the other. -/
theorem Fresh.law_comp [IsProbabilityMeasure μ] {V W : Type} [MeasurableSpace V] [MeasurableSpace W]
    {v : σ → V} {g : σ → σ} {w : σ → W} {h : σ → σ}
    (h1 : Fresh μ v g) (h2 : Fresh μ w h) :
    μ.map (fun s => (v s, w (g s))) = (μ.map v).prod (μ.map w) := by
  have i1 : IsProbabilityMeasure (μ.map v) := Measure.isProbabilityMeasure_map h1.value.aemeasurable
  have i2 : IsProbabilityMeasure (μ.map w) := Measure.isProbabilityMeasure_map h2.value.aemeasurable
  have e1 := (fresh_iff h1.value h1.state).1 h1
  have : (fun s => (v s, w (g s))) = (Prod.map id w) ∘ fun s => (v s, g s) := rfl
  rw [this, ← Measure.map_map (measurable_id.prodMap h2.value) (h1.value.prodMk h1.state), e1,
    ← Measure.map_prod_map _ _ measurable_id h2.value, Measure.map_id]

theorem InvSampler.seq [IsProbabilityMeasure μ] {α β γ : Type} [MeasurableSpace α] [MeasurableSpace β]
    [MeasurableSpace γ] {d : σ → Except PyErr (α × σ)} {e : σ → Except PyErr (β × σ)} {τ₁ : α → α}
    {τ₂ : β → β} (h1 : InvSampler μ d τ₁) (h2 : InvSampler μ e τ₂) (k : α → β → γ)
    (hk : Measurable fun x : α × β => k x.1 x.2) {τ : γ → γ} (hτ : Measurable τ)
    (hkt : ∀ a b, k (τ₁ a) (τ₂ b) = τ (k a b)) :
    InvSampler μ (fun s => do
      let (a, s) ← d s
      let (b, s) ← e s
      return (k a b, s)) τ := by
  obtain ⟨v, g, hf, hd, hp⟩ := h1
  obtain ⟨w, h, hf', he, hp'⟩ := h2
  have i1 : IsProbabilityMeasure (μ.map v) := Measure.isProbabilityMeasure_map hf.value.aemeasurable
  have i2 : IsProbabilityMeasure (μ.map w) := Measure.isProbabilityMeasure_map hf'.value.aemeasurable
  refine ⟨_, _, (hf.comp hf').map hk, fun s => ?_, ?_⟩
  · simp only [hd, he, bind, Except.bind]
    rfl
  · have hprod : MeasurePreserving (Prod.map τ₁ τ₂) (μ.map fun s => (v s, w (g s)))
        (μ.map fun s => (v s, w (g s))) := by
      rw [hf.law_comp hf']
      exact hp.prod hp'
    have := preserving_map hprod hk hτ (fun x => hkt x.1 x.2)
    have hm : Measurable fun s => (v s, w (g s)) := hf.value.prodMk (hf'.value.comp hf.state)
    rwa [Measure.map_map hk hm] at this

theorem InvSampler.pair [IsProbabilityMeasure μ] {α β : Type} [MeasurableSpace α] [MeasurableSpace β]
    {d : σ → Except PyErr (α × σ)} {e : σ → Except PyErr (β × σ)} {τ₁ : α → α} {τ₂ : β → β}
    (h1 : InvSampler μ d τ₁) (h2 : InvSampler μ e τ₂) :
    InvSampler μ (fun s => do
      let (a, s) ← d s
      let (b, s) ← e s
      return (Prod.mk a b, s)) (Prod.map τ₁ τ₂) := by
  obtain ⟨_, _, _, _, hp⟩ := id h1
  obtain ⟨_, _, _, _, hp'⟩ := id h2
  exact h1.seq h2 Prod.mk measurable_id (hp.measurable.prodMap hp'.measurable) fun _ _ => rfl

variable {rng : Gen σ} {u z : σ → ℝ} {next skip : σ → σ}

theorem measurable_turnAngle (α : ℝ) : Measurable (turnAngle α) :=
  (Measurable.fract ((measurable_id.div_const _).add_const _)).const_mul _

/-- The turned angle has the direction of the sum. -/
theorem turnAngle_eq (α φ : ℝ) : ∃ n : ℤ, turnAngle α φ = φ + α - n * (2 * Real.pi) := by
  refine ⟨⌊φ / (2 * Real.pi) + α / (2 * Real.pi)⌋, ?_⟩
  have h : 2 * Real.pi ≠ 0 := by positivity
  unfold turnAngle
  rw [← Int.self_sub_floor]
  field_simp

theorem cos_turnAngle (α φ : ℝ) : Real.cos (turnAngle α φ) = Real.cos (φ + α) := by
  obtain ⟨n, hn⟩ := turnAngle_eq α φ
  rw [hn, Real.cos_sub_int_mul_two_pi]

theorem sin_turnAngle (α φ : ℝ) : Real.sin (turnAngle α φ) = Real.sin (φ + α) := by
  obtain ⟨n, hn⟩ := turnAngle_eq α φ
  rw [hn, Real.sin_sub_int_mul_two_pi]

theorem turnAngle_turned (α φ : ℝ) : TurnedAngle α φ (turnAngle α φ) :=
  ⟨cos_turnAngle α φ, sin_turnAngle α φ⟩

theorem turnSample_turned (α : ℝ) (x : Sample) : TurnedSample α x (turnSample α x) where
  beam_energy := rfl
  reaction_excitation := rfl
  reaction_theta := rfl
  reaction_phi := turnAngle_turned _ _
  vertex := rfl
  decay_excitations := rfl
  decay_thetas := rfl
  decay_phis := by
    simp only [turnSample]
    induction x.decay_phis with
    | nil => exact .nil
    | cons φ l ih => exact .cons (turnAngle_turned _ _) ih

/-- A uniformly distributed azimuth has no preferred direction. -/
theorem angle_inv (hr : FreshGen rng μ u z next skip)
    (hu : μ.map u = volume.restrict (Set.Ico (0 : ℝ) 1)) (α : ℝ) {b : ℝ} (hb : b = 2 * Real.pi) :
    InvSampler μ (fun s => (.ok (rng.uniform 0 b s) : Except PyErr (ℝ × σ))) (turnAngle α) := by
  have h0 : InvSampler μ (fun s => (.ok (u s, next s) : Except PyErr (ℝ × σ)))
      (fun x => Int.fract (x + α / (2 * Real.pi))) := by
    refine ⟨u, next, hr.fresh_uniform, fun _ => rfl, ?_⟩
    rw [hu]
    exact shift_fract_preserving _
  have hpi : 2 * Real.pi ≠ 0 := by positivity
  refine h0.map (k := fun x => 0 + (b - 0) * x) ((measurable_id.const_mul _).const_add _)
    (measurable_turnAngle α) (fun a => ?_) (fun s a s' h => ?_)
  · unfold turnAngle
    simp only [hb, zero_add, sub_zero]
    rw [mul_div_cancel_left₀ a hpi]
  · simp only [hr.uniform]
    obtain ⟨rfl, rfl⟩ := Prod.mk.inj (Except.ok.inj h)
    rfl

theorem measurable_map_list {f : ℝ → ℝ} (hf : Measurable f) :
    Measurable fun l : List ℝ => l.map f := by
  apply measurable_list
  · simp only [List.length_map]
    exact measurable_list_length
  · intro k
    have h : (fun l : List ℝ => (l.map f).getD k 0) = fun l => if k < l.length then f (l.getD k 0) else 0 := by
      funext l
      by_cases hk : k < l.length
      · simp [hk]
      · simp [hk, List.getD, not_lt.1 hk]
    rw [h]
    refine Measurable.ite ?_ (hf.comp (measurable_list_getD k)) measurable_const
    exact measurable_list_length (t := {n | k < n}) MeasurableSet.of_discrete

theorem angles_inv [IsProbabilityMeasure μ] (hr : FreshGen rng μ u z next skip)
    (hu : μ.map u = volume.restrict (Set.Ico (0 : ℝ) 1)) (α : ℝ) {b : ℝ} (hb : b = 2 * Real.pi) (n : ℕ) :
    InvSampler μ (fun s => (.ok (rng.uniformN 0 b n s) : Except PyErr (List ℝ × σ)))
      (List.map (turnAngle α)) := by
  induction n with
  | zero =>
    exact (InvSampler.of_fresh (FreshSampler.pure (μ := μ) ([] : List ℝ))).map (k := fun _ => []) measurable_const
      (measurable_map_list (measurable_turnAngle α)) (fun _ => rfl) fun s a s' h => by
        obtain ⟨rfl, rfl⟩ := Prod.mk.inj (Except.ok.inj h)
        rfl
  | succ n ih =>
    exact (angle_inv hr hu α hb).seq ih List.cons measurable_cons
      (measurable_map_list (measurable_turnAngle α)) fun _ _ => rfl

theorem measurable_turnPoint (α : ℝ) : Measurable (turnPoint α) := by
  unfold turnPoint
  fun_prop

/-- The distribution of the vertices is symmetric about the axis. -/
theorem sample_vertex_inv [IsProbabilityMeasure μ] (hr : FreshGen rng μ u z next skip)
    (hu : μ.map u = volume.restrict (Set.Ico (0 : ℝ) 1)) (α : ℝ)
    {p : Pipeline σ} (hp : p.rng = rng) (ht : ∀ t, p.target_material = some t → 0 ≤ t.rho_sigma ∧
      t.z_range.1 ≤ t.z_range.2 ∧
      Measurable fun z => t.material.get_energy_loss p.reaction.projectile p.beam_energy z) :
    InvSampler μ p.sample_vertex (Prod.map id (turnPoint α)) := by
  have hτ : Measurable (Prod.map (id : ℝ → ℝ) (turnPoint α)) :=
    measurable_id.prodMap (measurable_turnPoint α)
  unfold Pipeline.sample_vertex
  cases h : p.target_material with
  | none =>
    refine (InvSampler.of_fresh (FreshSampler.pure (μ := μ) ())).map (k := fun _ => (p.beam_energy, (0, 0, 0)))
      measurable_const hτ (fun _ => ?_) fun s a s' h => ?_
    · simp [turnPoint]
    · obtain ⟨rfl, rfl⟩ := Prod.mk.inj (Except.ok.inj h)
      rfl
  | some t =>
    obtain ⟨h1, h0, h2⟩ := ht t h
    simp only [not_lt.2 h1, not_lt.2 h0, if_false, hp]
    refine (InvSampler.of_fresh (normal_fresh hr 0 t.rho_sigma)).seq
      ((angle_inv hr hu α rfl).pair (InvSampler.of_fresh (uniform_fresh hr t.z_range.1 t.z_range.2)))
      (fun n x => (p.beam_energy - t.material.get_energy_loss p.reaction.projectile p.beam_energy x.2,
        (|n| * Real.cos x.1, |n| * Real.sin x.1, x.2))) ?_ hτ ?_
    · have hn : Measurable fun x : ℝ × ℝ × ℝ => |x.1| := continuous_abs.measurable.comp measurable_fst
      have ht : Measurable fun x : ℝ × ℝ × ℝ => x.2.1 := measurable_fst.comp measurable_snd
      have hz : Measurable fun x : ℝ × ℝ × ℝ => x.2.2 := measurable_snd.comp measurable_snd
      exact ((h2.comp hz).const_sub _).prodMk ((hn.mul (Real.measurable_cos.comp ht)).prodMk
        ((hn.mul (Real.measurable_sin.comp ht)).prodMk hz))
    · rintro n ⟨θ, z⟩
      simp only [Prod.map, id, cos_turnAngle, sin_turnAngle, turnPoint, Real.cos_add, Real.sin_add]
      refine Prod.ext rfl (Prod.ext ?_ (Prod.ext ?_ rfl)) <;> simp only <;> ring

theorem measurable_turnSample (α : ℝ) : Measurable (turnSample α) := by
  have h := measurable_fields
  refine measurable_sample ?_ ?_ ?_ ?_ ?_ ?_ ?_ ?_ <;> simp only [turnSample]
  · exact measurable_beam_energy
  · exact measurable_reaction_excitation
  · exact (measurable_fst.comp (measurable_snd.comp measurable_snd)).comp h
  · exact (measurable_turnAngle α).comp
      ((measurable_fst.comp (measurable_snd.comp (measurable_snd.comp measurable_snd))).comp h)
  · exact (measurable_turnPoint α).comp measurable_vertex
  · exact measurable_decay_excitations
  · exact (measurable_fst.comp (measurable_snd.comp (measurable_snd.comp (measurable_snd.comp
      (measurable_snd.comp (measurable_snd.comp measurable_snd)))))).comp h
  · exact (measurable_map_list (measurable_turnAngle α)).comp
      ((measurable_snd.comp (measurable_snd.comp (measurable_snd.comp (measurable_snd.comp
      (measurable_snd.comp (measurable_snd.comp measurable_snd)))))).comp h)

/-- The distribution of the samples of a pipeline is symmetric about the axis. -/
theorem sample_inv [IsProbabilityMeasure μ] (hr : FreshGen rng μ u z next skip)
    (hu : μ.map u = volume.restrict (Set.Ico (0 : ℝ) 1)) (α : ℝ)
    {p : Pipeline σ} (hp : p.rng = rng) (ht : ∀ t, p.target_material = some t → 0 ≤ t.rho_sigma ∧
      t.z_range.1 ≤ t.z_range.2 ∧
      Measurable fun z => t.material.get_energy_loss p.reaction.projectile p.beam_energy z)
    (hex : p.excitations ≠ [] ∧ ∀ d ∈ p.excitations, FreshSampler μ d)
    (hpol : p.polar_dists ≠ [] ∧ ∀ d ∈ p.polar_dists, FreshSampler μ d) :
    InvSampler μ p.sample (turnSample α) := by
  obtain ⟨d, ds, hd⟩ := List.exists_cons_of_ne_nil hex.1
  obtain ⟨e, es, he⟩ := List.exists_cons_of_ne_nil hpol.1
  have hex := hex.2
  have hpol := hpol.2
  rw [hd] at hex
  rw [he] at hpol
  have hds := InvSampler.of_fresh (sampleAll_fresh ds fun d' h => hex d' (by simp [h]))
  have hes := InvSampler.of_fresh (sampleAll_fresh es fun d' h => hpol d' (by simp [h]))
  have hphi := angles_inv hr hu α (mul_comm Real.pi 2) p.decays.length
  have key := (sample_vertex_inv hr hu α hp ht).seq
    ((InvSampler.of_fresh (hex d (by simp))).pair ((InvSampler.of_fresh (hpol e (by simp))).pair
      ((angle_inv hr hu α (mul_comm Real.pi 2)).pair (hds.pair (hes.pair hphi)))))
    (fun a b => Sample.mk a.1 b.1 b.2.1 b.2.2.1 a.2 b.2.2.2.1 b.2.2.2.2.1 b.2.2.2.2.2)
    (by apply measurable_sample <;> fun_prop) (measurable_turnSample α) (fun _ _ => rfl)
  refine key.map measurable_id (measurable_turnSample α) (fun _ => rfl) fun s a s' h => ?_
  unfold Pipeline.sample
  simp only [hd, he, sampleHead, List.tail_cons, hp, id] at h ⊢
  rw [← h]
  simp only [bind, Except.bind]
  cases p.sample_vertex s with
  | error _ => rfl
  | ok r1 =>
  simp only
  cases d r1.2 with
  | error _ => rfl
  | ok r2 =>
  simp only
  cases e r2.2 with
  | error _ => rfl
  | ok r3 =>
  simp only
  cases sampleAll ds (rng.uniform 0 (Real.pi * 2) r3.2).2 with
  | error _ => rfl
  | ok r4 =>
  simp only
  cases sampleAll es r4.2 with
  | error _ => rfl
  | ok r5 => rfl

end Verif.Spec
