import Verif.Props.Depth

/-! # C161: how the accessible depth of the gas weights the excitation energies -/

namespace Verif.Props

open Verif.Kinematics Verif.Spec MeasureTheory ProbabilityTheory

open Classical in
/-- The depth at which the beam reaches the energy `T` (C159). -/
noncomputable def depthAt {σ : Type} (p : Pipeline σ) (t : TargetMaterial) (T : ℝ) : ℝ :=
  if h : ∃ zs, DepthOf p t T zs then h.choose else 0

/-- The part of the gas in which the beam has more energy than needed for the excitation `Ex`. -/
noncomputable def accessible {σ : Type} (p : Pipeline σ) (t : TargetMaterial) (Ex : ℝ) : ℝ :=
  (depthAt p t (thresholdEnergy p.reaction Ex) - t.z_range.1) / (t.z_range.2 - t.z_range.1)

section

variable {σ : Type} {p : Pipeline σ} {t : TargetMaterial}

theorem depthAt_spec (h : SlowsDown p t) (hr : t.z_range.1 < t.z_range.2) (T : ℝ) : DepthOf p t T (depthAt p t T) := by
  have hex : ∃ zs, DepthOf p t T zs := (C159_depth h hr T).exists
  unfold depthAt
  rw [dif_pos hex]
  exact hex.choose_spec

theorem depthAt_antitone (h : SlowsDown p t) (hr : t.z_range.1 < t.z_range.2) : Antitone (depthAt p t) := by
  intro T T' hT
  by_contra hlt
  have hlt := not_le.1 hlt
  have d := depthAt_spec h hr T
  have d' := depthAt_spec h hr T'
  have hb : depthAt p t T < t.z_range.2 := hlt.trans_le d'.upper
  exact lt_irrefl _ ((d.above _ d.lower hb).1 (hT.trans_lt ((d'.above _ d.lower hb).2 hlt)))

theorem accessible_measurable (h : SlowsDown p t) (hr : t.z_range.1 < t.z_range.2) : Measurable (accessible p t) := by
  have h1 : Measurable (thresholdEnergy p.reaction) := by
    unfold thresholdEnergy
    fun_prop
  exact (((depthAt_antitone h hr).measurable.comp h1).sub_const _).div_const _

/-- **C161.** The accessible part lies between 0 and 1 and shrinks with the excitation. -/
theorem C161_accessible (h : SlowsDown p t) (hr : t.z_range.1 < t.z_range.2) (hreac : ReactionOk p.reaction) {Ex Ex' : ℝ}
    (ho : 0 ≤ p.reaction.ejectile.mass + p.reaction.residual.mass + Ex) (hE : Ex ≤ Ex') :
    0 ≤ accessible p t Ex' ∧ accessible p t Ex' ≤ accessible p t Ex ∧ accessible p t Ex ≤ 1 := by
  have hL : 0 < t.z_range.2 - t.z_range.1 := by linarith
  have d := depthAt_spec h hr (thresholdEnergy p.reaction Ex)
  have d' := depthAt_spec h hr (thresholdEnergy p.reaction Ex')
  have hle := depthAt_antitone h hr (C159_levels hreac ho hE)
  refine ⟨div_nonneg (by linarith [d'.lower]) hL.le, div_le_div_of_nonneg_right (by linarith) hL.le, ?_⟩
  exact (div_le_one hL).2 (by linarith [d.upper])

/-- Samples are allowed exactly before the depth of their level. -/
theorem level_allowed (h : RunsOk p) (hd : p.decays = []) (ht : p.target_material = some t)
    (hr : t.z_range.1 < t.z_range.2) (hs : SlowsDown p t) (h0 : 0 ≤ remaining p t t.z_range.2)
    {s s' : σ} {x : Sample} (hx : p.sample s = .ok (x, s')) :
    EnergyAllowed p x ↔ x.vertex.2.2 < depthAt p t (thresholdEnergy p.reaction x.reaction_excitation) := by
  obtain ⟨e1, e2, e3⟩ := sample_place h.lawful ht hr hx
  have hm := h.chain.target
  have hej := h.chain.ejectile
  have hres := (h.samples s x s' hx).residual
  have hE : 0 ≤ x.beam_energy := by
    rw [e1]
    exact h0.trans (hs.antitone ⟨e2, e3.le⟩ (Set.right_mem_Icc.2 hr.le) e3.le)
  rw [← (depthAt_spec hs hr _).above _ e2 e3, ← e1]
  unfold EnergyAllowed
  rw [hd, lt_cm_iff hm (by linarith)]
  exact ⟨fun h => h.2.1, fun h => ⟨hE, h, trivial⟩⟩

end

section

variable {σ : Type} [MeasurableSpace σ] {μ : Measure σ} [IsProbabilityMeasure μ] {p : Pipeline σ}
  {t : TargetMaterial} {x : σ → Sample} {k : σ → σ}

theorem measurable_excitation : Measurable fun x : Sample => x.reaction_excitation :=
  (measurable_fst.comp measurable_snd).comp measurable_fields

/-- **C161.** Samples with an excitation in `A` are drawn and allowed with the probability of `A`, weighted with the
accessible part of the gas. -/
theorem C161_allowed (h : BeamOk p t μ) (hrun : RunsOk p) (hd : p.decays = []) (hs : SlowsDown p t)
    (h0 : 0 ≤ remaining p t t.z_range.2) (hx : ∀ s, p.sample s = .ok (x s, k s)) {A : Set ℝ} (hA : MeasurableSet A) :
    μ {s | EnergyAllowed p (x s) ∧ (x s).reaction_excitation ∈ A}
      = ∫⁻ E in A, ENNReal.ofReal (accessible p t E) ∂(μ.map fun s => (x s).reaction_excitation) := by
  obtain ⟨v, w, g, k', hv, hw, hlaw, -, hvs, -⟩ := h.split
  have hxe : ∀ s, x s = placed (v s) (w (g s)) := fun s =>
    (Prod.mk.inj (Except.ok.inj ((hx s).symm.trans (hvs s)))).1
  have hz : Fresh μ (fun s => (v s).2.2.2) g := hv.map (k := fun y : ℝ × ℝ × ℝ × ℝ => y.2.2.2) (by fun_prop)
  have he : Fresh μ (fun s => (w s).reaction_excitation) k' := hw.map measurable_excitation
  have heg : Measurable fun s => (w (g s)).reaction_excitation := he.value.comp hv.state
  have hD : Measurable fun E => depthAt p t (thresholdEnergy p.reaction E) := by
    have h1 : Measurable (thresholdEnergy p.reaction) := by
      unfold thresholdEnergy
      fun_prop
    exact (depthAt_antitone hs h.range).measurable.comp h1
  have hS : MeasurableSet {y : ℝ × ℝ | y.1 < depthAt p t (thresholdEnergy p.reaction y.2) ∧ y.2 ∈ A} :=
    (measurableSet_lt measurable_fst (hD.comp measurable_snd)).inter (measurable_snd hA)
  have hle : μ.map (fun s => (x s).reaction_excitation) = μ.map fun s => (w s).reaction_excitation := by
    have e : (fun s => (x s).reaction_excitation) = fun s => (w (g s)).reaction_excitation := by
      funext s
      rw [hxe]
      rfl
    rw [e]
    ext B hB
    rw [Measure.map_apply heg hB, Measure.map_apply he.value hB]
    have := hv.indep Set.univ ((fun s => (w s).reaction_excitation) ⁻¹' B) MeasurableSet.univ (he.value hB)
    simp only [Set.mem_univ, true_and, Set.setOf_true, measure_univ, one_mul] at this
    exact this
  have i1 : IsProbabilityMeasure (μ.map fun s => (v s).2.2.2) := Measure.isProbabilityMeasure_map hz.value.aemeasurable
  have i2 : IsProbabilityMeasure (μ.map fun s => (w s).reaction_excitation) :=
    Measure.isProbabilityMeasure_map he.value.aemeasurable
  have e1 : {s | EnergyAllowed p (x s) ∧ (x s).reaction_excitation ∈ A}
      = (fun s => ((v s).2.2.2, (w (g s)).reaction_excitation)) ⁻¹'
        {y : ℝ × ℝ | y.1 < depthAt p t (thresholdEnergy p.reaction y.2) ∧ y.2 ∈ A} := by
    ext s
    simp only [Set.mem_setOf_eq, Set.mem_preimage]
    rw [level_allowed hrun hd h.target h.range hs h0 (hx s), hxe]
    rfl
  rw [e1, ← Measure.map_apply (hz.value.prodMk heg) hS, hz.law_comp he, Measure.prod_apply_symm hS, hle,
    ← lintegral_indicator hA]
  congr 1
  funext E
  have hge : ∀ s, t.z_range.1 ≤ (v s).2.2.2 := fun s => (sample_place hrun.lawful h.target h.range (hvs s)).2.1
  have d := depthAt_spec hs h.range (thresholdEnergy p.reaction E)
  by_cases hE : E ∈ A
  · rw [Set.indicator_of_mem hE]
    have e2 : (fun z : ℝ => (z, E)) ⁻¹' {y : ℝ × ℝ | y.1 < depthAt p t (thresholdEnergy p.reaction y.2) ∧ y.2 ∈ A}
        = Set.Iio (depthAt p t (thresholdEnergy p.reaction E)) := by
      ext z
      simp [hE]
    rw [e2, Measure.map_apply hz.value measurableSet_Iio]
    have := depth_prob h hv.value hlaw le_rfl d.upper
    rw [← accessible] at this
    rw [← this]
    congr 1
    ext s
    exact ⟨fun h => ⟨hge s, h⟩, fun h => h.2⟩
  · rw [Set.indicator_of_notMem hE]
    have e2 : (fun z : ℝ => (z, E)) ⁻¹' {y : ℝ × ℝ | y.1 < depthAt p t (thresholdEnergy p.reaction y.2) ∧ y.2 ∈ A} = ∅ := by
      ext z
      simp [hE]
    rw [e2, measure_empty]

/-- **C161.** The excitation energies of the events of a run are distributed like the sampled ones, weighted with the
accessible part of the gas. -/
theorem C161_spectrum (h : BeamOk p t μ) (hrun : RunsOk p) (hd : p.decays = []) (hs : SlowsDown p t)
    (h0 : 0 ≤ remaining p t t.z_range.2) (hx : ∀ s, p.sample s = .ok (x s, k s)) {A : Set ℝ} (hA : MeasurableSet A)
    {buf : List ResultRow} (hlen : buf.length = 4) :
    μ {s | ∃ y st', p.run ⟨s, buf⟩ = (.ok y.vertex, st') ∧ eventRows p y = .ok (some st'.result) ∧
        FirstAllowed p p.event_sample_limit.toNat s y st'.gen ∧ y.reaction_excitation ∈ A}
      * ∫⁻ E, ENNReal.ofReal (accessible p t E) ∂(μ.map fun s => (x s).reaction_excitation)
      = μ {s | ∃ vertex st', p.run ⟨s, buf⟩ = (.ok vertex, st')}
        * ∫⁻ E in A, ENNReal.ofReal (accessible p t E) ∂(μ.map fun s => (x s).reaction_excitation) := by
  obtain ⟨v, w, g, k', hv, hw, hlaw, -, hvs, hf⟩ := h.split
  have hxe : x = fun s => placed (v s) (w (g s)) := funext fun s =>
    (Prod.mk.inj (Except.ok.inj ((hx s).symm.trans (hvs s)))).1
  have hke : k = fun s => k' (g s) := funext fun s =>
    (Prod.mk.inj (Except.ok.inj ((hx s).symm.trans (hvs s)))).2
  rw [← hxe, ← hke] at hf
  have key := C82_conditional hrun hf hx (B := {y : Sample | y.reaction_excitation ∈ A})
    (measurable_excitation hA) (buf := buf) (by rw [hd, hlen]; rfl)
  have a1 := C161_allowed h hrun hd hs h0 hx hA
  have a2 := C161_allowed h hrun hd hs h0 hx MeasurableSet.univ
  simp only [Set.mem_univ, and_true, Measure.restrict_univ] at a2
  rw [← a1, ← a2]
  exact key

end

/-- The beam and gas of `slowPipe`, with excitations between 0 and 1 MeV. -/
noncomputable def spreadPipe : Pipeline (ℕ → ℝ × Set.Ico (0 : ℝ) 1) :=
  { slowPipe with excitations := [(⟨0, 1⟩ : ExcitationUniform).sample pairGen] }

theorem spreadPipe_beam : BeamOk spreadPipe slowTarget pairMeasure where
  generator := ⟨_, _, _, _, pairGen_ideal, pair_uniform⟩
  target := rfl
  width := by norm_num [slowTarget]
  range := by norm_num [slowTarget]
  measurable := by
    simp only [slowTarget]
    fun_prop
  excitations := ⟨by simp [spreadPipe], fun d hd => by
    simp only [spreadPipe, List.mem_singleton] at hd
    subst hd
    exact excitation_uniform_fresh pairGen_ideal.fresh _ zero_le_one⟩
  polar := ⟨by simp [spreadPipe, slowPipe], fun d hd => by
    simp only [spreadPipe, slowPipe, List.mem_singleton] at hd
    subst hd
    exact polar_uniform_fresh pairGen_ideal.fresh _ (by simp [mkPolarUniform])⟩

theorem spreadPipe_remaining (z : ℝ) : remaining spreadPipe slowTarget z = 5 - 4 * z := rfl

theorem spreadPipe_values {s s'} {x : Sample} (h : spreadPipe.sample s = .ok (x, s')) :
    1 < x.beam_energy ∧ 0 ≤ x.reaction_excitation := by
  have h0 : ¬ (0.005 : ℝ) < 0 := by norm_num
  have h1 : ¬ (1 : ℝ) < -1 := by norm_num
  have h2 : ¬ (1 : ℝ) < 0 := by norm_num
  simp only [Pipeline.sample, Pipeline.sample_vertex, spreadPipe, slowPipe, slowTarget, sampleHead,
    ExcitationUniform.sample, h0, h1, h2, if_false,
    PolarUniform.sample, mkPolarUniform, Real.cos_zero, Real.cos_pi, sampleAll, pairGen, List.tail_cons, bind, Except.bind, pure, Except.pure,
    Except.ok.injEq, Prod.mk.injEq] at h
  obtain ⟨rfl, -⟩ := h
  have h2 := ((dropFirst (dropFirst s)) 0).2.2.2
  have h3 := ((dropFirst (dropFirst (dropFirst s))) 0).2.2.1
  refine ⟨?_, ?_⟩
  · simp only
    linarith
  · simp only
    linarith

theorem spreadPipe_samples : SamplesOk spreadPipe := by
  intro s x s' h
  obtain ⟨h1, h2⟩ := spreadPipe_values h
  refine ⟨?_, ?_, by simp [spreadPipe, slowPipe]⟩
  · simp only [spreadPipe, slowPipe, exReaction]; linarith
  · simp only [spreadPipe, slowPipe, exReaction]; linarith

theorem spreadPipe_ok : RunsOk spreadPipe where
  built := ⟨rfl, rfl⟩
  lawful := pairGen_lawful
  chain := ⟨by norm_num [spreadPipe, slowPipe, exReaction], by norm_num [spreadPipe, slowPipe, exReaction],
    by norm_num [spreadPipe, slowPipe, exReaction], by simp [spreadPipe, slowPipe]⟩
  samples := spreadPipe_samples
  calculates := by
    intro s x s' h ha
    have hx := spreadPipe_samples s x s' h
    obtain ⟨h1, -⟩ := spreadPipe_values h
    obtain ⟨t, b, e, q, h⟩ := C43_partial exReaction_ok (T := x.beam_energy) (by linarith) (hx.residual.le) ha
      (by norm_num [exReaction]) (.inl (by norm_num [exReaction])) x.reaction_theta x.reaction_phi
    exact ⟨_, h⟩

theorem spreadPipe_slows : SlowsDown spreadPipe slowTarget where
  continuous := by
    have : remaining spreadPipe slowTarget = fun z => 5 - 4 * z := rfl
    rw [this]
    fun_prop
  antitone := by
    intro a _ b _ hab
    rw [spreadPipe_remaining, spreadPipe_remaining]
    linarith

/-- The highest level is accessible in 11/16 of the gas. -/
example : accessible spreadPipe slowTarget 1 = 11 / 16 := by
  have hthr : thresholdEnergy spreadPipe.reaction 1 = 9 / 4 := by
    norm_num [thresholdEnergy, spreadPipe, slowPipe, exReaction]
  have hr : slowTarget.z_range.1 < slowTarget.z_range.2 := by norm_num [slowTarget]
  have hz : DepthOf spreadPipe slowTarget (9 / 4) (11 / 16) := by
    refine ⟨by norm_num [slowTarget], by norm_num [slowTarget], fun z _ _ => ?_, fun _ _ => ?_⟩
    · rw [spreadPipe_remaining]
      constructor <;> intro h <;> linarith
    · rw [spreadPipe_remaining]
      norm_num
  have := (C159_depth spreadPipe_slows hr (9 / 4)).unique (depthAt_spec spreadPipe_slows hr (9 / 4)) hz
  unfold accessible
  rw [hthr, this]
  norm_num [slowTarget]

/-- The spectrum of `spreadPipe`. -/
example {x : (ℕ → ℝ × Set.Ico (0 : ℝ) 1) → Sample} {k : (ℕ → ℝ × Set.Ico (0 : ℝ) 1) → (ℕ → ℝ × Set.Ico (0 : ℝ) 1)}
    (hx : ∀ s, spreadPipe.sample s = .ok (x s, k s)) {A : Set ℝ} (hA : MeasurableSet A) :
    pairMeasure {s | EnergyAllowed spreadPipe (x s) ∧ (x s).reaction_excitation ∈ A}
      = ∫⁻ E in A, ENNReal.ofReal (accessible spreadPipe slowTarget E)
        ∂(pairMeasure.map fun s => (x s).reaction_excitation) :=
  C161_allowed spreadPipe_beam spreadPipe_ok rfl spreadPipe_slows
    (by rw [spreadPipe_remaining]; norm_num [slowTarget]) hx hA

end Verif.Props
