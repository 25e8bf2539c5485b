import Verif.Proofs.Turning
import Verif.Props.Rotation
import Verif.Props.Sampling

/-! # C97: the distribution of the generated events is symmetric about the beam axis -/

namespace Verif.Props

open Verif.Kinematics Verif.Spec MeasureTheory
open Verif.Detector (C96_event)

variable {σ : Type} [MeasurableSpace σ] {μ : Measure σ} [IsProbabilityMeasure μ] {p : Pipeline σ}

omit [MeasurableSpace σ] in
/-- The event of a turned sample is the turned event. -/
theorem eventRows_turned {α : ℝ} {x x' : Sample} (h : TurnedSample α x x') {rows : List ResultRow}
    (hx : eventRows p x = .ok (some rows)) :
    eventRows p x' = .ok (some (rows.map (Option.map (turnVec α)))) := by
  have hlen : (List.replicate (4 + 2 * p.decays.length) (none : ResultRow)).length
    = 4 + 2 * p.decays.length := by simp
  have h1 := (attempt_rows p x _ hlen).2
  have h2 := (attempt_rows p x' _ hlen).2
  rw [hx] at h1
  have h3 := C96_event p h (List.replicate (4 + 2 * p.decays.length) none)
  rw [h1] at h3
  simp only [List.map_replicate, Option.map_none] at h3
  rw [h3] at h2
  split at h2
  · cases h2
  · cases h2
  · rename_i rows' hr
    rw [hr, ← (Prod.mk.inj h2).2]

/-- The pipelines of C97: an ideal generator whose uniform numbers are uniformly distributed, and
distributions of the package. -/
structure SymmetricOk (p : Pipeline σ) (μ : Measure σ) : Prop where
  runs : RunsOk p
  generator : ∃ u z next skip, FreshGen p.rng μ u z next skip ∧
    μ.map u = volume.restrict (Set.Ico (0 : ℝ) 1)
  target : ∀ t, p.target_material = some t → 0 ≤ t.rho_sigma ∧
      t.z_range.1 ≤ t.z_range.2 ∧
    Measurable fun z => t.material.get_energy_loss p.reaction.projectile p.beam_energy z
  excitations : p.excitations ≠ [] ∧ ∀ d ∈ p.excitations, FreshSampler μ d
  polar : p.polar_dists ≠ [] ∧ ∀ d ∈ p.polar_dists, FreshSampler μ d

/-- **C97.** The parameters of the events that `run` returns have the same distribution when the vertex and
all azimuths are turned by any angle. -/
theorem C97_parameters (h : SymmetricOk p μ) (α : ℝ) {B : Set Sample} (hB : MeasurableSet B)
    {buf : List ResultRow} (hlen : buf.length = 4 + 2 * p.decays.length) :
    μ {s | ∃ x st', p.run ⟨s, buf⟩ = (.ok x.vertex, st') ∧ eventRows p x = .ok (some st'.result) ∧
        FirstAllowed p p.event_sample_limit.toNat s x st'.gen ∧ turnSample α x ∈ B}
      = μ {s | ∃ x st', p.run ⟨s, buf⟩ = (.ok x.vertex, st') ∧ eventRows p x = .ok (some st'.result) ∧
        FirstAllowed p p.event_sample_limit.toNat s x st'.gen ∧ x ∈ B} := by
  obtain ⟨u, z, next, skip, hr, hu⟩ := h.generator
  obtain ⟨v, g, hf, hs, hinv⟩ := sample_inv hr hu α rfl h.target h.excitations h.polar
  have h1 := C82_accepted h.runs hf hs (B := turnSample α ⁻¹' B) (hinv.measurable hB) hlen
  have h2 := C82_accepted h.runs hf hs hB hlen
  simp only [Set.mem_preimage] at h1
  rw [h1, h2]
  congr 1
  have hm := (measurable_energyAllowed p).inter hB
  have h3 := hinv.measure_preimage hm.nullMeasurableSet
  rw [Measure.map_apply hf.value hm, Measure.map_apply hf.value (hinv.measurable hm)] at h3
  exact h3

omit [MeasurableSpace σ] in
theorem run_iff_accepted (h : RunsOk p) {buf : List ResultRow}
    (hlen : buf.length = 4 + 2 * p.decays.length) (s : σ) (P : (ℝ × ℝ × ℝ) → List ResultRow → Prop) :
    (∃ vertex st', p.run ⟨s, buf⟩ = (.ok vertex, st') ∧ P vertex st'.result) ↔
      ∃ x st', p.run ⟨s, buf⟩ = (.ok x.vertex, st') ∧ eventRows p x = .ok (some st'.result) ∧
        FirstAllowed p p.event_sample_limit.toNat s x st'.gen ∧
        ∃ rows, eventRows p x = .ok (some rows) ∧ P x.vertex rows := by
  constructor
  · rintro ⟨vertex, st', hrun, hP⟩
    obtain ⟨k, hk, s1, x, i1, i2, i3, rfl, -⟩ :=
      C49_first_allowed h.built h.lawful h.chain h.samples hlen hrun
    have hfa : FirstAllowed p p.event_sample_limit.toNat s x st'.gen := ⟨k, by omega, s1, i1, i2, i3⟩
    obtain ⟨st2, g1, -, g3⟩ := run_of_firstAllowed h (st := ⟨s, buf⟩) hlen hfa
    rw [hrun] at g1
    simp only [Prod.mk.injEq, true_and] at g1
    subst g1
    exact ⟨x, st', hrun, g3, hfa, _, g3, hP⟩
  · rintro ⟨x, st', hrun, h1, -, rows, h2, hP⟩
    rw [h1] at h2
    have := Option.some.inj (Except.ok.inj h2)
    exact ⟨_, st', hrun, by rw [this]; exact hP⟩

/-- **C97.** The distribution of the events that `run` returns is symmetric about the beam axis: turning the
vertex and all four-momenta by any angle does not change the probability of any set of events that is
measurable in terms of their parameters. -/
theorem C97_events (h : SymmetricOk p μ) (α : ℝ) (E : (ℝ × ℝ × ℝ) → List ResultRow → Prop)
    {B : Set Sample} (hB : MeasurableSet B)
    (hE : ∀ x rows, eventRows p x = .ok (some rows) → (E x.vertex rows ↔ x ∈ B))
    {buf : List ResultRow} (hlen : buf.length = 4 + 2 * p.decays.length) :
    μ {s | ∃ vertex st', p.run ⟨s, buf⟩ = (.ok vertex, st') ∧
        E (turnPoint α vertex) (st'.result.map (Option.map (turnVec α)))}
      = μ {s | ∃ vertex st', p.run ⟨s, buf⟩ = (.ok vertex, st') ∧ E vertex st'.result} := by
  have key := C97_parameters h α hB hlen
  have e1 : ∀ s, (∃ vertex st', p.run ⟨s, buf⟩ = (.ok vertex, st') ∧ E vertex st'.result) ↔ _ :=
    fun s => run_iff_accepted h.runs hlen s E
  have e2 : ∀ s, (∃ vertex st', p.run ⟨s, buf⟩ = (.ok vertex, st') ∧
        E (turnPoint α vertex) (st'.result.map (Option.map (turnVec α)))) ↔ _ :=
    fun s => run_iff_accepted h.runs hlen s
      (fun vertex rows => E (turnPoint α vertex) (rows.map (Option.map (turnVec α))))
  simp only [e1, e2]
  refine Eq.trans (congrArg μ ?_) (key.trans (congrArg μ ?_))
  · ext s
    constructor
    · rintro ⟨x, st', h1, h2, h3, rows, h4, h5⟩
      exact ⟨x, st', h1, h2, h3, (hE _ _ (eventRows_turned (turnSample_turned α x) h4)).1 h5⟩
    · rintro ⟨x, st', h1, h2, h3, h4⟩
      exact ⟨x, st', h1, h2, h3, _, h2, (hE _ _ (eventRows_turned (turnSample_turned α x) h2)).2 h4⟩
  · ext s
    constructor
    · rintro ⟨x, st', h1, h2, h3, h4⟩
      exact ⟨x, st', h1, h2, h3, _, h2, (hE _ _ h2).2 h4⟩
    · rintro ⟨x, st', h1, h2, h3, rows, h4, h5⟩
      exact ⟨x, st', h1, h2, h3, (hE _ _ h4).1 h5⟩

/-- The uniform numbers of the stream generator are uniformly distributed. -/
theorem stream_uniform : streamMeasure.map (fun s : Stream => (s 0 : ℝ))
    = volume.restrict (Set.Ico (0 : ℝ) 1) := by
  have h1 : streamMeasure.map (fun s : Stream => s 0) = unitMeasure :=
    (measurePreserving_eval_infinitePi (fun _ : ℕ => unitMeasure) 0).map_eq
  have : (fun s : Stream => (s 0 : ℝ)) = (fun x : Set.Ico (0 : ℝ) 1 => (x : ℝ)) ∘ fun s : Stream => s 0 := rfl
  rw [this, ← Measure.map_map measurable_subtype_coe (measurable_pi_apply 0), h1]
  unfold unitMeasure
  rw [map_comap_subtype_coe measurableSet_Ico]

/-- The pipeline of C82 with an extended target. -/
noncomputable def targetPipe : Pipeline Stream :=
  { halfPipe with
    target_material := some
      { material := { density := 1, get_dedx := fun _ _ => 0, get_energy_loss := fun _ _ _ => 0 },
        z_range := (0, 1), rho_sigma := 0.005 } }

theorem targetPipe_values {s s' : Stream} {x : Sample} (h : targetPipe.sample s = .ok (x, s')) :
    x.beam_energy = 5 ∧ x.reaction_excitation = 4 * s 3 := by
  have h0 : ¬ (0.005 : ℝ) < 0 := by norm_num
  have h1 : ¬ (1 : ℝ) < -1 := by norm_num
  have h2 : ¬ (1 : ℝ) < 0 := by norm_num
  have h4 : ¬ (4 : ℝ) < 0 := by norm_num
  simp only [Pipeline.sample, Pipeline.sample_vertex, targetPipe, halfPipe, sampleHead,
    ExcitationUniform.sample, h0, h1, h2, h4, if_false,
    PolarUniform.sample, mkPolarUniform, Real.cos_zero, Real.cos_pi, sampleAll, streamGen, List.tail_cons, bind, Except.bind, pure, Except.pure,
    Except.ok.injEq, Prod.mk.injEq] at h
  obtain ⟨rfl, -⟩ := h
  exact ⟨by simp, by simp⟩

theorem targetPipe_samples : SamplesOk targetPipe := by
  intro s x s' h
  obtain ⟨h1, h2⟩ := targetPipe_values h
  have := (s 3).2.1
  refine ⟨?_, ?_, by simp [targetPipe, halfPipe]⟩
  · rw [h1]; norm_num [targetPipe, halfPipe, exReaction]
  · rw [h2]
    simp only [targetPipe, halfPipe, exReaction]
    linarith

theorem targetPipe_ok : RunsOk targetPipe where
  built := ⟨rfl, rfl⟩
  lawful := streamGen_lawful
  chain := ⟨by norm_num [targetPipe, halfPipe, exReaction], by norm_num [targetPipe, halfPipe, exReaction],
    by norm_num [targetPipe, halfPipe, exReaction], by simp [targetPipe, halfPipe]⟩
  samples := targetPipe_samples
  calculates := by
    intro s x s' h ha
    have hx := targetPipe_samples s x s' h
    obtain ⟨h1, h2⟩ := targetPipe_values h
    rw [h1] at ha ⊢
    obtain ⟨t, b, e, q, h⟩ := C43_partial exReaction_ok (T := 5) (by norm_num) (hx.residual.le) ha
      (by norm_num [exReaction]) (.inl (by norm_num [exReaction])) x.reaction_theta x.reaction_phi
    exact ⟨_, h⟩

/-- The hypotheses of C97 are met by this pipeline. -/
theorem targetPipe_symmetric : SymmetricOk targetPipe streamMeasure where
  runs := targetPipe_ok
  generator := ⟨_, _, _, _, streamGen_fresh, stream_uniform⟩
  target := by
    intro t ht
    obtain rfl := Option.some.inj ht
    exact ⟨by norm_num, by norm_num, measurable_const⟩
  excitations := ⟨by simp [targetPipe, halfPipe], fun d hd => by
    simp only [targetPipe, halfPipe, List.mem_singleton] at hd
    subst hd
    exact excitation_uniform_fresh streamGen_fresh _ (by norm_num)⟩
  polar := ⟨by simp [targetPipe, halfPipe], fun d hd => by
    simp only [targetPipe, halfPipe, List.mem_singleton] at hd
    subst hd
    exact polar_uniform_fresh streamGen_fresh _ (by simp [mkPolarUniform])⟩

/-- Its reactions are on the left of the axis as often as on the right. -/
example : streamMeasure {s | ∃ vertex st', targetPipe.run ⟨s, List.replicate 4 none⟩ = (.ok vertex, st') ∧
      vertex.1 < 0}
    = streamMeasure {s | ∃ vertex st', targetPipe.run ⟨s, List.replicate 4 none⟩ = (.ok vertex, st') ∧
      0 < vertex.1} := by
  have := C97_events targetPipe_symmetric Real.pi (fun vertex _ => 0 < vertex.1)
    (B := {x | 0 < x.vertex.1}) (measurableSet_lt measurable_const (measurable_fst.comp measurable_vertex))
    (fun _ _ _ => Iff.rfl) (buf := List.replicate 4 none) rfl
  simpa [turnPoint] using this

end Verif.Props
