import Verif.Proofs.Sampling
import Verif.Props.Isotropy
import Verif.Props.PipelineRuns
import Verif.Props.KinFile

/-! # C82: the distribution of the accepted events -/

namespace Verif.Props

open Verif.Kinematics Verif.Spec MeasureTheory
open Verif.Detector (read_event)

variable {σ : Type} [MeasurableSpace σ] {μ : Measure σ} [IsProbabilityMeasure μ]
  {p : Pipeline σ} {v : σ → Sample} {g : σ → σ}

/-- The pipelines of C82: a validated pipeline with physical masses whose allowed reactions are not
rejected by `calculate` (see C43). -/
structure RunsOk {σ : Type} (p : Pipeline σ) : Prop where
  built : Built p
  lawful : LawfulGen p.rng
  chain : ChainOk p
  samples : SamplesOk p
  calculates : ∀ s x s', p.sample s = .ok (x, s') →
    p.reaction.is_excitation_allowed x.beam_energy x.reaction_excitation = true →
    ∃ res, p.reaction.calculate x.beam_energy x.reaction_theta x.reaction_phi
      x.reaction_excitation = .ok res

omit [MeasurableSpace σ] in
theorem run_of_firstAllowed (h : RunsOk p) {st : PipeState σ}
    (hlen : st.result.length = 4 + 2 * p.decays.length) {x : Sample} {s' : σ}
    (hf : FirstAllowed p p.event_sample_limit.toNat st.gen x s') :
    ∃ st', p.run st = (.ok x.vertex, st') ∧ st'.gen = s' ∧ eventRows p x = .ok (some st'.result) := by
  obtain ⟨k, hk, s1, h1, h2, h3⟩ := hf
  exact C49_returns_partial h.built h.lawful h.chain h.samples hlen h.calculates (by omega) h1 h2 h3

omit [MeasurableSpace σ] in
theorem produced_of_accepted (h : RunsOk p) {s s' : σ} {xs : List Sample}
    (ha : AcceptedSamples p p.event_sample_limit.toNat s xs s') : ∀ {buf : List ResultRow},
    buf.length = 4 + 2 * p.decays.length →
    ∃ evs buf', Produced p.runCopy ⟨s, buf⟩ evs ⟨s', buf'⟩ ∧
      List.Forall₂ (fun x e => eventRows p x = .ok (some e.2) ∧ e.1 = x.vertex) xs evs := by
  induction ha with
  | nil s => intro buf _; exact ⟨[], buf, .nil _, .nil⟩
  | @cons s0 x s1 xs s' h1 _ ih =>
    intro buf hb
    obtain ⟨st', g1, g2, g3⟩ := run_of_firstAllowed h (st := ⟨_, buf⟩) hb h1
    have hl := run_length p (st := ⟨s0, buf⟩) hb
    rw [g1] at hl
    obtain ⟨evs, buf', i1, i2⟩ := ih hl
    subst g2
    refine ⟨(x.vertex, st'.result) :: evs, buf', .cons (p' := st') ?_ i1, .cons ⟨g3, rfl⟩ i2⟩
    unfold Pipeline.runCopy
    rw [g1]

theorem measurable_search (as : List ℝ) : Measurable fun v => searchsortedRight v as := by
  induction as with
  | nil => exact measurable_const
  | cons a as ih =>
    unfold searchsortedRight
    exact Measurable.ite measurableSet_Ici (ih.add_const 1) measurable_const

theorem polar_arbitrary_fresh {rng : Gen σ} {u z : σ → ℝ} {next skip : σ → σ}
    (hr : FreshGen rng μ u z next skip) {d : PolarArbitrary} (h : TableOk d) :
    FreshSampler μ (d.sample rng) := by
  have hk : Measurable fun x : ℝ × ℝ => d.angles.getD (binOf d x.1) 0 + x.2 * d.angle_width := by
    have h1 : Measurable fun k : ℕ => d.angles.getD k 0 := measurable_from_top
    have h2 : Measurable fun x : ℝ × ℝ => binOf d x.1 := (measurable_search _).comp measurable_fst
    exact (h1.comp h2).add (measurable_snd.mul_const _)
  refine ((uniform_fresh hr 0 1).pair (uniform_fresh hr 0 1)).map hk fun s x s' hx => ?_
  have hv : 0 ≤ (rng.uniform 0 1 s).1 ∧ (rng.uniform 0 1 s).1 < 1 := by
    have := hr.range s
    simpa [hr.uniform] using this
  obtain ⟨hlt, he⟩ := sample_eq d h s hv
  simp only [bind, Except.bind, pure, Except.pure, Except.ok.injEq, Prod.mk.injEq] at hx
  obtain ⟨rfl, rfl⟩ := hx
  rw [he]
  have hg : d.angles.getD (binOf d (rng.uniform 0 1 s).1) 0 = d.angles[binOf d (rng.uniform 0 1 s).1] := by
    rw [List.getD_eq_getElem?_getD, List.getElem?_eq_getElem hlt]
    rfl
  show _ = Except.ok (d.angles.getD (binOf d (rng.uniform 0 1 s).1) 0 + _, _)
  rw [hg]

/-- One of the excitation distributions of the package, with admissible parameters. The Breit–Wigner
numbers come from scipy; they are assumed to be fresh like those of the generator. -/
inductive PackageExcitation (rng : Gen σ) (μ : Measure σ) : Sampler σ → Prop where
  | uniform (e : ExcitationUniform) : e.min_value ≤ e.max_value → PackageExcitation rng μ (e.sample rng)
  | gaussian (e : ExcitationGaussian) : 0 ≤ e.sigma → PackageExcitation rng μ (e.sample rng)
  | breitWigner (e : ExcitationBreitWigner) (rvs : BreitWignerRvs σ) : 0 < e.width →
      0 < e.rest_mass + e.centroid →
      FreshSampler μ (fun s => (.ok (rvs ((e.rest_mass + e.centroid) / e.width) e.width s) :
        Except PyErr (ℝ × σ))) → PackageExcitation rng μ (e.sample rvs)

/-- One of the polar angle distributions of the package, with admissible parameters. -/
inductive PackagePolar (rng : Gen σ) : Sampler σ → Prop where
  | uniform (e : PolarUniform) : e.cos_angle_min ≤ e.cos_angle_max → PackagePolar rng (e.sample rng)
  | arbitrary (e : PolarArbitrary) : TableOk e → PackagePolar rng (e.sample rng)

/-- **C82.** With an ideal generator, the samples of a pipeline whose distributions are those of the
package are fresh: the next sample is independent of the one before and distributed like it. -/
theorem C82_fresh {rng : Gen σ} {u z : σ → ℝ} {next skip : σ → σ} (hr : FreshGen rng μ u z next skip)
    (hp : p.rng = rng) (ht : ∀ t, p.target_material = some t → 0 ≤ t.rho_sigma ∧
      t.z_range.1 ≤ t.z_range.2 ∧
      Measurable fun z => t.material.get_energy_loss p.reaction.projectile p.beam_energy z)
    (hex : p.excitations ≠ [] ∧ ∀ d ∈ p.excitations, PackageExcitation rng μ d)
    (hpol : p.polar_dists ≠ [] ∧ ∀ d ∈ p.polar_dists, PackagePolar rng d) :
    ∃ v g, Fresh μ v g ∧ ∀ s, p.sample s = .ok (v s, g s) := by
  refine sample_fresh hr hp ht ⟨hex.1, fun d hd => ?_⟩ ⟨hpol.1, fun d hd => ?_⟩
  · cases hex.2 d hd with
    | uniform e he => exact excitation_uniform_fresh hr e he
    | gaussian e he => exact excitation_gaussian_fresh hr e he
    | breitWigner e rvs h1 h2 h3 =>
      refine h3.map (measurable_id.sub_const e.rest_mass) fun s a s' h => ?_
      unfold ExcitationBreitWigner.sample
      simp only [Except.ok.injEq] at h
      have h4 : ¬ ((e.rest_mass + e.centroid) / e.width ≤ 0 ∨ e.width < 0) := by
        push Not
        exact ⟨div_pos h2 h1, h1.le⟩
      simp only [h1.ne', if_false, h4, h, id]
  · cases hpol.2 d hd with
    | uniform e he => exact polar_uniform_fresh hr e he
    | arbitrary e he => exact polar_arbitrary_fresh hr he

/-- **C82.** The probability that `run` returns an event whose parameters lie in `B` is that of a sample in
`B` being allowed, times the expected number of samples drawn. -/
theorem C82_accepted (h : RunsOk p) (hf : Fresh μ v g) (hs : ∀ s, p.sample s = .ok (v s, g s))
    {B : Set Sample} (hB : MeasurableSet B)
    {buf : List ResultRow} (hlen : buf.length = 4 + 2 * p.decays.length) :
    μ {s | ∃ x st', p.run ⟨s, buf⟩ = (.ok x.vertex, st') ∧ eventRows p x = .ok (some st'.result) ∧
        FirstAllowed p p.event_sample_limit.toNat s x st'.gen ∧ x ∈ B}
      = μ {s | EnergyAllowed p (v s) ∧ v s ∈ B}
        * ∑ k ∈ Finset.range p.event_sample_limit.toNat, μ {s | ¬ EnergyAllowed p (v s)} ^ k := by
  have := (firstAllowed_prob hf hs p.event_sample_limit.toNat hB MeasurableSet.univ).2
  simp only [Set.mem_univ, and_true, measure_univ, mul_one] at this
  rw [← this]
  congr 1
  ext s
  constructor
  · rintro ⟨x, st', -, -, h3, h4⟩
    exact ⟨x, _, h3, h4⟩
  · rintro ⟨x, s', h3, h4⟩
    obtain ⟨st', g1, g2, g3⟩ := run_of_firstAllowed h (st := ⟨s, buf⟩) hlen h3
    exact ⟨x, st', g1, g3, by rw [g2]; exact h3, h4⟩

/-- **C82.** Given that `run` returns an event, its parameters are distributed like those of a sample given
that it is allowed. -/
theorem C82_conditional (h : RunsOk p) (hf : Fresh μ v g) (hs : ∀ s, p.sample s = .ok (v s, g s))
    {B : Set Sample} (hB : MeasurableSet B)
    {buf : List ResultRow} (hlen : buf.length = 4 + 2 * p.decays.length) :
    μ {s | ∃ x st', p.run ⟨s, buf⟩ = (.ok x.vertex, st') ∧ eventRows p x = .ok (some st'.result) ∧
        FirstAllowed p p.event_sample_limit.toNat s x st'.gen ∧ x ∈ B}
      * μ {s | EnergyAllowed p (v s)}
      = μ {s | ∃ vertex st', p.run ⟨s, buf⟩ = (.ok vertex, st')}
        * μ {s | EnergyAllowed p (v s) ∧ v s ∈ B} := by
  have h1 := C82_accepted h hf hs hB hlen
  have h2 := C82_accepted h hf hs (B := Set.univ) MeasurableSet.univ hlen
  simp only [Set.mem_univ, and_true] at h2
  have e : {s | ∃ vertex st', p.run ⟨s, buf⟩ = (.ok vertex, st')}
      = {s | ∃ x st', p.run ⟨s, buf⟩ = (.ok x.vertex, st') ∧ eventRows p x = .ok (some st'.result) ∧
        FirstAllowed p p.event_sample_limit.toNat s x st'.gen} := by
    ext s
    constructor
    · rintro ⟨vertex, st', hrun⟩
      obtain ⟨k, hk, s1, x, i1, i2, i3, rfl, -⟩ :=
        C49_first_allowed h.built h.lawful h.chain h.samples hlen hrun
      have hfa : FirstAllowed p p.event_sample_limit.toNat s x st'.gen :=
        ⟨k, by omega, s1, i1, i2, i3⟩
      obtain ⟨st2, g1, -, g3⟩ := run_of_firstAllowed h (st := ⟨s, buf⟩) hlen hfa
      rw [hrun] at g1
      simp only [Prod.mk.injEq, true_and] at g1
      subst g1
      exact ⟨x, st', hrun, g3, hfa⟩
    · rintro ⟨x, st', hrun, -⟩
      exact ⟨_, st', hrun⟩
  rw [e, h1, h2]
  ring

/-- **C82.** The probability that `run` gives up is that of drawing only forbidden samples. -/
theorem C82_limit (h : RunsOk p) (hf : Fresh μ v g) (hs : ∀ s, p.sample s = .ok (v s, g s))
   
    {buf : List ResultRow} (hlen : buf.length = 4 + 2 * p.decays.length) :
    μ {s | (p.run ⟨s, buf⟩).1 = .error .pipelineError}
      = μ {s | ¬ EnergyAllowed p (v s)} ^ p.event_sample_limit.toNat := by
  have h1 := (skipped_prob hf hs p.event_sample_limit.toNat MeasurableSet.univ).2
  simp only [Set.mem_univ, and_true, measure_univ, mul_one] at h1
  rw [← h1]
  congr 1
  ext s
  obtain ⟨h2, h3⟩ := C49_limit h.built h.lawful h.chain h.samples (fun s => by rw [hs]; simp)
    (st := ⟨s, buf⟩) hlen
  exact ⟨h2, h3 h.calculates⟩

/-- **C82.** The events of a kinematics file are independent, and each is distributed like the event of a
single run. -/
theorem C82_independent (h : RunsOk p) (hf : Fresh μ v g) (hs : ∀ s, p.sample s = .ok (v s, g s))
    (Bs : List (Set Sample))
    (hB : ∀ B ∈ Bs, MeasurableSet B) (zs as : List ℤ) (cs : ℕ) (hcs : 1 ≤ cs)
    {buf : List ResultRow} (hlen : buf.length = 4 + 2 * p.decays.length) :
    μ {s | ∃ st xs, run_kinematics_pipeline p.runCopy zs as cs Bs.length ⟨s, buf⟩ = (.ok (), st) ∧
        AcceptedSamples p p.event_sample_limit.toNat s xs st.pipe.gen ∧
        List.Forall₂ (· ∈ ·) xs Bs ∧
        ∀ k x, xs[k]? = some x → ∃ rows, eventRows p x = .ok (some rows) ∧
          read_event st.file cs k = .ok (rows, x.vertex)}
      = (Bs.map fun B => μ {s | ∃ x st', p.run ⟨s, buf⟩ = (.ok x.vertex, st') ∧
          eventRows p x = .ok (some st'.result) ∧
          FirstAllowed p p.event_sample_limit.toNat s x st'.gen ∧ x ∈ B}).prod := by
  have h1 := (accepted_prob hf hs p.event_sample_limit.toNat MeasurableSet.univ Bs hB).2
  simp only [Set.mem_univ, and_true, measure_univ, mul_one] at h1
  have e : ∀ B : Set Sample, {s | ∃ x st', p.run ⟨s, buf⟩ = (.ok x.vertex, st') ∧
      eventRows p x = .ok (some st'.result) ∧
      FirstAllowed p p.event_sample_limit.toNat s x st'.gen ∧ x ∈ B}
      = {s | ∃ x s', FirstAllowed p p.event_sample_limit.toNat s x s' ∧ x ∈ B} := by
    intro B
    ext s
    constructor
    · rintro ⟨x, st', -, -, h3, h4⟩
      exact ⟨x, _, h3, h4⟩
    · rintro ⟨x, s', h3, h4⟩
      obtain ⟨st', g1, g2, g3⟩ := run_of_firstAllowed h (st := ⟨s, buf⟩) hlen h3
      exact ⟨x, st', g1, g3, by rw [g2]; exact h3, h4⟩
  simp only [e]
  rw [← h1]
  congr 1
  ext s
  constructor
  · rintro ⟨st, xs, -, i2, i3, -⟩
    exact ⟨xs, _, i2, i3⟩
  · rintro ⟨xs, s', i2, i3⟩
    obtain ⟨evs, buf', j1, j2⟩ := produced_of_accepted h i2 hlen
    have hl1 := j2.length_eq
    have hl2 := i3.length_eq
    have hok := (C37_succeeds p.runCopy zs as cs hcs Bs.length ⟨s, buf⟩).2
      ⟨evs, _, j1, by simp; omega⟩
    rcases hrun : run_kinematics_pipeline p.runCopy zs as cs Bs.length ⟨s, buf⟩ with ⟨o, st⟩
    rw [hrun] at hok
    simp only at hok
    subst hok
    obtain ⟨evs', k1, k2, -, -, -, -, k3⟩ := C37_round_trip _ zs as cs hcs _ _ st hrun
    obtain ⟨rfl, k4⟩ := Produced_unique j1 k1 (by rw [k2]; simp; omega)
    refine ⟨st, xs, hrun, by rw [← k4]; exact i2, i3, fun k x hx => ?_⟩
    have hk : k < xs.length := (List.getElem?_eq_some_iff.1 hx).1
    have hkx : xs[k] = x := (List.getElem?_eq_some_iff.1 hx).2
    have := List.Forall₂.get j2 hk (by omega)
    simp only [List.get_eq_getElem, hkx] at this
    exact ⟨_, this.1, by rw [k3 k (by omega), this.2]⟩

/-! ## An example -/

theorem streamGen_lawful : LawfulGen streamGen where
  uniform_ge := fun a b s h => by
    have := mul_nonneg (sub_nonneg.2 h) (s 0).2.1
    simp only [streamGen]
    linarith
  uniform_lt := fun a b s h => by
    have := mul_lt_mul_of_pos_left (s 0).2.2 (sub_pos.2 h)
    simp only [streamGen]
    linarith
  uniform_eq := fun a s => by simp [streamGen]
  normal_zero := fun m s => by simp [streamGen]

theorem measurable_shift : Measurable shift :=
  measurable_pi_lambda _ fun k => measurable_pi_apply (k + 1)

instance : IsProbabilityMeasure streamMeasure := by unfold streamMeasure; infer_instance

/-- The first number of a stream is independent of the others. -/
theorem stream_split : streamMeasure
    = (unitMeasure.prod streamMeasure).map fun x => (fun k => Nat.casesOn k x.1 x.2 : Stream) := by
  symm
  have hm : Measurable fun x : Set.Ico (0 : ℝ) 1 × Stream =>
      (fun k => Nat.casesOn k x.1 x.2 : Stream) := by
    apply measurable_pi_lambda
    intro k
    cases k with
    | zero => exact measurable_fst
    | succ k => exact (measurable_pi_apply k).comp measurable_snd
  apply Measure.eq_infinitePi
  intro F t ht
  rw [Measure.map_apply hm (MeasurableSet.pi F.countable_toSet fun i _ => ht i)]
  -- the box splits into the condition on the first number and those on the others
  let G : Finset ℕ := (F.erase 0).image (· - 1)
  have e : (fun x : Set.Ico (0 : ℝ) 1 × Stream => (fun k => Nat.casesOn k x.1 x.2 : Stream)) ⁻¹' Set.pi F t
      = (if 0 ∈ F then t 0 else Set.univ) ×ˢ Set.pi G fun i => t (i + 1) := by
    ext ⟨x, s⟩
    simp only [Set.mem_preimage, Set.mem_pi, Set.mem_prod, G, Finset.coe_image, Set.mem_image,
      Finset.mem_coe, Finset.mem_erase]
    constructor
    · intro h
      refine ⟨?_, ?_⟩
      · split_ifs with h0
        · exact h 0 h0
        · trivial
      · rintro i ⟨j, ⟨hj0, hj⟩, rfl⟩
        have := h j hj
        cases j with
        | zero => omega
        | succ j => exact this
    · rintro ⟨h1, h2⟩ i hi
      cases i with
      | zero => rw [if_pos hi] at h1; exact h1
      | succ i => exact h2 i ⟨i + 1, ⟨by omega, hi⟩, rfl⟩
  rw [e, Measure.prod_prod]
  have hinj : Set.InjOn (· - 1) (F.erase 0 : Set ℕ) := by
    intro a ha b hb h
    simp only [Finset.coe_erase, Set.mem_diff, Set.mem_singleton_iff] at ha hb
    have := ha.2
    have := hb.2
    simp only at h
    omega
  have h2 : streamMeasure (Set.pi G fun i => t (i + 1)) = ∏ i ∈ F.erase 0, unitMeasure (t i) := by
    unfold streamMeasure
    rw [Measure.infinitePi_pi _ fun i _ => ht _, Finset.prod_image hinj]
    refine Finset.prod_congr rfl fun i hi => ?_
    have : i ≠ 0 := Finset.ne_of_mem_erase hi
    rw [show i - 1 + 1 = i from by omega]
  rw [h2]
  by_cases h0 : 0 ∈ F
  · rw [if_pos h0]
    exact Finset.mul_prod_erase F (fun i => unitMeasure (t i)) h0
  · rw [if_neg h0, Finset.erase_eq_of_notMem h0]
    simp

theorem stream_fresh : Fresh streamMeasure (fun s => (s 0 : ℝ)) shift := by
  have hm : Measurable fun x : Set.Ico (0 : ℝ) 1 × Stream =>
      (fun k => Nat.casesOn k x.1 x.2 : Stream) := by
    apply measurable_pi_lambda
    intro k
    cases k with
    | zero => exact measurable_fst
    | succ k => exact (measurable_pi_apply k).comp measurable_snd
  have hv : Measurable fun s : Stream => (s 0 : ℝ) :=
    measurable_subtype_coe.comp (measurable_pi_apply 0)
  have key : ∀ (B : Set ℝ) (A : Set Stream), MeasurableSet B → MeasurableSet A →
      streamMeasure {s | (s 0 : ℝ) ∈ B ∧ shift s ∈ A}
        = unitMeasure {x | (x : ℝ) ∈ B} * streamMeasure A := by
    intro B A hB hA
    have hS : MeasurableSet {s : Stream | (s 0 : ℝ) ∈ B ∧ shift s ∈ A} :=
      (hv hB).inter (measurable_shift hA)
    conv_lhs => rw [stream_split]
    rw [Measure.map_apply hm hS, ← Measure.prod_prod]
    rfl
  refine ⟨hv, measurable_shift, fun B A hB hA => ?_⟩
  have h1 := key B Set.univ hB .univ
  simp only [Set.mem_univ, and_true, measure_univ, mul_one] at h1
  rw [key B A hB hA, h1]

/-- The stream generator is an ideal one. -/
theorem streamGen_fresh : FreshGen streamGen streamMeasure (fun s => (s 0 : ℝ)) (fun s => (s 0 : ℝ))
    shift shift where
  uniform := fun _ _ _ => rfl
  range := fun s => (s 0).2
  normal := fun _ _ _ => rfl
  fresh_uniform := stream_fresh
  fresh_normal := stream_fresh

/-- A reaction whose residual has an excitation between 0 and 4, of which those below 2 are allowed. -/
noncomputable def halfPipe : Pipeline Stream :=
  { reaction := exReaction, decays := [],
    excitations := [(⟨0, 4⟩ : ExcitationUniform).sample streamGen],
    polar_dists := [(mkPolarUniform 0 Real.pi).sample streamGen],
    beam_energy := 5, target_material := none, event_sample_limit := 3, rng := streamGen }

theorem halfPipe_fresh : FreshSampler streamMeasure halfPipe.sample := by
  refine C82_fresh streamGen_fresh rfl (by simp [halfPipe]) ⟨by simp [halfPipe], fun d hd => ?_⟩
    ⟨by simp [halfPipe], fun d hd => ?_⟩
  · simp only [halfPipe, List.mem_singleton] at hd
    subst hd
    exact .uniform _ (by norm_num)
  · simp only [halfPipe, List.mem_singleton] at hd
    subst hd
    exact .uniform _ (by simp [mkPolarUniform])

theorem halfPipe_values {s s' : Stream} {x : Sample} (h : halfPipe.sample s = .ok (x, s')) :
    x.beam_energy = 5 ∧ x.reaction_excitation = 4 * s 0 := by
  have h1 : ¬ (1 : ℝ) < -1 := by norm_num
  have h4 : ¬ (4 : ℝ) < 0 := by norm_num
  simp only [Pipeline.sample, Pipeline.sample_vertex, halfPipe, sampleHead, ExcitationUniform.sample,
    PolarUniform.sample, mkPolarUniform, Real.cos_zero, Real.cos_pi, h1, h4, if_false, sampleAll, streamGen, List.tail_cons, bind, Except.bind, pure, Except.pure,
    Except.ok.injEq, Prod.mk.injEq] at h
  obtain ⟨rfl, -⟩ := h
  exact ⟨rfl, by simp⟩

theorem halfPipe_samples : SamplesOk halfPipe := by
  intro s x s' h
  obtain ⟨h1, h2⟩ := halfPipe_values h
  have := (s 0).2.1
  refine ⟨?_, ?_, by simp [halfPipe]⟩
  · rw [h1]; norm_num [halfPipe, exReaction]
  · rw [h2]
    simp only [halfPipe, exReaction]
    linarith

theorem halfPipe_allowed {s s' : Stream} {x : Sample} (h : halfPipe.sample s = .ok (x, s')) :
    EnergyAllowed halfPipe x ↔ (s 0 : ℝ) < 1 / 2 := by
  obtain ⟨h1, h2⟩ := halfPipe_values h
  have hW := exReaction_cm
  unfold cmEnergy at hW
  unfold EnergyAllowed
  rw [h1, h2]
  simp only [halfPipe]
  rw [hW]
  simp only [DecaysAllowed, exReaction, and_true]
  constructor
  · rintro ⟨-, h⟩; linarith
  · intro h; exact ⟨by norm_num, by linarith⟩

/-- C82 applies to it. -/
theorem halfPipe_ok : RunsOk halfPipe where
  built := ⟨rfl, rfl⟩
  lawful := streamGen_lawful
  chain := ⟨by norm_num [halfPipe, exReaction], by norm_num [halfPipe, exReaction],
    by norm_num [halfPipe, exReaction], by simp [halfPipe]⟩
  samples := halfPipe_samples
  calculates := by
    intro s x s' h ha
    have hx := halfPipe_samples s x s' h
    obtain ⟨h1, h2⟩ := halfPipe_values h
    rw [h1] at ha ⊢
    obtain ⟨t, b, e, q, h⟩ := C43_partial exReaction_ok (T := 5) (by norm_num) (hx.residual.le) ha
      (by norm_num [exReaction]) (.inl (by norm_num [exReaction])) x.reaction_theta x.reaction_phi
    exact ⟨_, h⟩

/-- Half of its samples are forbidden, so that it gives up after three samples with probability one
eighth. -/
example : streamMeasure {s | (halfPipe.run ⟨s, List.replicate 4 none⟩).1 = .error .pipelineError}
    = 1 / 8 := by
  obtain ⟨v, g, hf, hs⟩ := halfPipe_fresh
  rw [C82_limit halfPipe_ok hf hs rfl]
  have e : {s | ¬ EnergyAllowed halfPipe (v s)}
      = {s : Stream | (1 / 2 : ℝ) ≤ s 0 ∧ (s 0 : ℝ) < 1} := by
    ext s
    simp only [Set.mem_setOf_eq, halfPipe_allowed (hs s), not_lt]
    exact ⟨fun h => ⟨h, (s 0).2.2⟩, fun h => h.1⟩
  have h0 : streamMeasure {s : Stream | (1 / 2 : ℝ) ≤ s 0 ∧ (s 0 : ℝ) < 1} = ENNReal.ofReal (1 / 2) := by
    have h := streamGen_iid.pair 0 1 (by norm_num) (1 / 2) 1 0 1 (by norm_num) le_rfl le_rfl le_rfl
    rw [show (1 : ℝ) - 1 / 2 = 1 / 2 from by norm_num, sub_zero, ENNReal.ofReal_one, mul_one] at h
    rw [← h]
    congr 1
    ext s
    exact ⟨fun h => ⟨h, (s 1).2⟩, fun h => h.1⟩
  rw [e, h0, ← ENNReal.ofReal_pow (by norm_num)]
  rw [show halfPipe.event_sample_limit.toNat = 3 from rfl,
    show ((1 : ℝ) / 2) ^ 3 = 8⁻¹ from by norm_num, ENNReal.ofReal_inv_of_pos (by norm_num)]
  simp

end Verif.Props
