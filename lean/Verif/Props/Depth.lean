import Verif.Props.BeamEnergy
import Verif.Props.Elastic

/-! # C159: up to which depth of the gas a level is populated -/

namespace Verif.Props

open Verif.Kinematics Verif.Spec MeasureTheory ProbabilityTheory

/-- The threshold of a reaction on a target at rest, as in textbooks: the products need the mass
`sqrt ((m_t + m_p)^2 + 2 m_t T)`. -/
noncomputable def thresholdEnergy (r : Reaction) (Ex : ℝ) : ℝ :=
  ((r.ejectile.mass + r.residual.mass + Ex) ^ 2 - (r.target.mass + r.projectile.mass) ^ 2) / (2 * r.target.mass)

theorem lt_cm_iff {mt mp out T : ℝ} (ht : 0 < mt) (ho : 0 ≤ out) :
    out < Real.sqrt ((mt + mp) ^ 2 + 2 * mt * T) ↔ (out ^ 2 - (mt + mp) ^ 2) / (2 * mt) < T := by
  rw [Real.lt_sqrt ho, div_lt_iff₀ (by positivity)]
  constructor <;> intro h <;> linarith

/-- **C159.** An excitation is allowed exactly if the beam is above the textbook threshold. -/
theorem C159_threshold {r : Reaction} (h : ReactionOk r) {T Ex : ℝ} (hT : 0 ≤ T)
    (ho : 0 ≤ r.ejectile.mass + r.residual.mass + Ex) :
    r.is_excitation_allowed T Ex = true ↔ thresholdEnergy r Ex < T := by
  rw [C42_reaction h hT, parent_M h hT]
  exact lt_cm_iff h.target ho

/-- **C159.** The threshold grows with the excitation. -/
theorem C159_levels {r : Reaction} (h : ReactionOk r) {Ex Ex' : ℝ}
    (ho : 0 ≤ r.ejectile.mass + r.residual.mass + Ex) (hE : Ex ≤ Ex') :
    thresholdEnergy r Ex ≤ thresholdEnergy r Ex' := by
  unfold thresholdEnergy
  have ht := h.target
  refine div_le_div_of_nonneg_right ?_ (by positivity)
  have : (r.ejectile.mass + r.residual.mass + Ex) ^ 2 ≤ (r.ejectile.mass + r.residual.mass + Ex') ^ 2 :=
    pow_le_pow_left₀ ho (by linarith) 2
  linarith

/-- The beam loses energy continuously: the deeper, the less is left. -/
structure SlowsDown {σ : Type} (p : Pipeline σ) (t : TargetMaterial) : Prop where
  continuous : ContinuousOn (remaining p t) (Set.Icc t.z_range.1 t.z_range.2)
  antitone : AntitoneOn (remaining p t) (Set.Icc t.z_range.1 t.z_range.2)

/-- `zs` is the depth at which the beam reaches the energy `T`: before it there is more, after it there is not; the ends
of the gas, if that happens before or behind it. -/
structure DepthOf {σ : Type} (p : Pipeline σ) (t : TargetMaterial) (T zs : ℝ) : Prop where
  lower : t.z_range.1 ≤ zs
  upper : zs ≤ t.z_range.2
  above : ∀ z, t.z_range.1 ≤ z → z < t.z_range.2 → (T < remaining p t z ↔ z < zs)
  reaches : t.z_range.1 < zs → zs < t.z_range.2 → remaining p t zs = T

/-- **C159.** For every energy there is exactly one such depth. -/
theorem C159_depth {σ : Type} {p : Pipeline σ} {t : TargetMaterial} (h : SlowsDown p t)
    (hr : t.z_range.1 < t.z_range.2) (T : ℝ) : ∃! zs, DepthOf p t T zs := by
  set a := t.z_range.1
  set b := t.z_range.2
  let A : Set ℝ := (Set.Icc a b ∩ remaining p t ⁻¹' Set.Iic T) ∪ {b}
  have hA : IsClosed A :=
    (h.continuous.preimage_isClosed_of_isClosed isClosed_Icc isClosed_Iic).union isClosed_singleton
  have hbelow : BddBelow A := ⟨a, by
    rintro z (⟨⟨h1, -⟩, -⟩ | rfl)
    · exact h1
    · exact hr.le⟩
  have hmem : sInf A ∈ A := hA.csInf_mem ⟨b, Or.inr rfl⟩ hbelow
  have hle : sInf A ≤ b := csInf_le hbelow (Or.inr rfl)
  have hge : a ≤ sInf A := by
    rcases hmem with ⟨⟨h1, -⟩, -⟩ | h1
    · exact h1
    · rw [h1]; exact hr.le
  have habove : ∀ z, a ≤ z → z < b → (T < remaining p t z ↔ z < sInf A) := by
    intro z h1 h2
    constructor
    · intro h3
      by_contra h4
      have h5 := not_lt.1 h4
      rcases hmem with ⟨h6, h7⟩ | h6
      · have := h.antitone h6 ⟨h1, h2.le⟩ h5
        exact absurd (h3.trans_le this) (not_lt.2 h7)
      · rw [Set.mem_singleton_iff.1 h6] at h5
        linarith
    · intro h3
      by_contra h4
      exact absurd (csInf_le hbelow (Or.inl ⟨⟨h1, h2.le⟩, not_lt.1 h4⟩)) (not_le.2 h3)
  refine ⟨sInf A, ⟨hge, hle, habove, ?_⟩, ?_⟩
  · intro h1 h2
    have h3 : remaining p t (sInf A) ≤ T := not_lt.1 fun h3 => lt_irrefl _ ((habove _ hge h2).1 h3)
    refine le_antisymm h3 (not_lt.1 fun h4 => ?_)
    have h5 := (habove a le_rfl hr).2 h1
    obtain ⟨z, hz, hzT⟩ := intermediate_value_Icc' h1.le
      (h.continuous.mono (Set.Icc_subset_Icc_right hle)) ⟨h4.le, h5.le⟩
    have hne : z ≠ sInf A := by
      rintro rfl
      linarith
    have := (habove z hz.1 (lt_of_le_of_lt hz.2 h2)).2 (lt_of_le_of_ne hz.2 hne)
    linarith
  · intro y hy
    by_contra hne
    rcases lt_or_gt_of_ne hne with h1 | h1
    · have h2 : y < b := h1.trans_le hle
      exact lt_irrefl y ((hy.above y hy.lower h2).1 ((habove y hy.lower h2).2 h1))
    · have h2 : sInf A < b := h1.trans_le hy.upper
      exact lt_irrefl _ ((habove _ hge h2).1 ((hy.above _ hge h2).2 h1))

/-- A single reaction to one level: no decays, every sample has the excitation `Ex`, and energy is needed for it. -/
structure OneLevel {σ : Type} (p : Pipeline σ) (Ex : ℝ) : Prop where
  decays : p.decays = []
  level : ∀ s x s', p.sample s = .ok (x, s') → x.reaction_excitation = Ex
  needs : p.reaction.target.mass + p.reaction.projectile.mass ≤ p.reaction.ejectile.mass + p.reaction.residual.mass + Ex

section

variable {σ : Type} {p : Pipeline σ} {t : TargetMaterial} {Ex zs : ℝ}

/-- The vertices of samples lie in the gas, and the beam has the energy that is left there. -/
theorem sample_place (hg : LawfulGen p.rng) (ht : p.target_material = some t) (hr : t.z_range.1 < t.z_range.2)
    {s s' : σ} {x : Sample} (hs : p.sample s = .ok (x, s')) :
    x.beam_energy = remaining p t x.vertex.2.2 ∧ t.z_range.1 ≤ x.vertex.2.2 ∧ x.vertex.2.2 < t.z_range.2 := by
  obtain ⟨s1, s2, hv, -⟩ := sample_parts hs
  generalize x.beam_energy = E at *
  generalize x.vertex = v at *
  unfold Pipeline.sample_vertex at hv
  rw [ht] at hv
  simp only at hv
  split_ifs at hv with c1 c2
  cases hv
  exact ⟨rfl, hg.uniform_ge _ _ _ hr.le, hg.uniform_lt _ _ _ hr⟩

/-- **C159.** A sample is allowed exactly if its vertex is before the depth of the threshold. -/
theorem C159_allowed (h : RunsOk p) (h1 : OneLevel p Ex) (ht : p.target_material = some t)
    (hr : t.z_range.1 < t.z_range.2) (hz : DepthOf p t (thresholdEnergy p.reaction Ex) zs)
    {s s' : σ} {x : Sample} (hs : p.sample s = .ok (x, s')) : EnergyAllowed p x ↔ x.vertex.2.2 < zs := by
  obtain ⟨e1, e2, e3⟩ := sample_place h.lawful ht hr hs
  have hx := h1.level s x s' hs
  have hm := h.chain.target
  have hp := h.chain.projectile
  have hn := h1.needs
  rw [← hz.above _ e2 e3, ← e1]
  unfold EnergyAllowed
  rw [hx, h1.decays, lt_cm_iff hm (by linarith)]
  have h0 : 0 ≤ thresholdEnergy p.reaction Ex := by
    unfold thresholdEnergy
    refine div_nonneg (sub_nonneg.2 (pow_le_pow_left₀ (by linarith) hn 2)) (by linarith)
  constructor
  · exact fun h => h.2.1
  · exact fun h => ⟨h0.trans h.le, h, trivial⟩

end

section

variable {σ : Type} [MeasurableSpace σ] {μ : Measure σ} [IsProbabilityMeasure μ] {p : Pipeline σ}
  {t : TargetMaterial} {Ex zs : ℝ}

omit [MeasurableSpace σ] in
/-- The sample behind an event that was returned. -/
theorem returned_sample (h : RunsOk p) {s : σ} {buf : List ResultRow}
    (hlen : buf.length = 4 + 2 * p.decays.length) {vertex : ℝ × ℝ × ℝ} {st' : PipeState σ}
    (hrun : p.run ⟨s, buf⟩ = (.ok vertex, st')) :
    ∃ x, x.vertex = vertex ∧ eventRows p x = .ok (some st'.result) ∧
      FirstAllowed p p.event_sample_limit.toNat s x st'.gen := by
  obtain ⟨k, hk, s1, x, i1, i2, i3, rfl, -⟩ := C49_first_allowed h.built h.lawful h.chain h.samples hlen hrun
  have hfa : FirstAllowed p p.event_sample_limit.toNat s x st'.gen := ⟨k, by omega, s1, i1, i2, i3⟩
  obtain ⟨st2, g1, -, g3⟩ := run_of_firstAllowed h (st := ⟨s, buf⟩) hlen hfa
  rw [hrun] at g1
  simp only [Prod.mk.injEq, true_and] at g1
  subst g1
  exact ⟨x, rfl, g3, hfa⟩

omit [IsProbabilityMeasure μ] in
theorem depth_prob (h : BeamOk p t μ) {v : σ → ℝ × ℝ × ℝ × ℝ} (hv : Measurable v)
    (hlaw : μ.map v = numbers.map (vertexOf p t)) {c d : ℝ} (hc : t.z_range.1 ≤ c) (hd : d ≤ t.z_range.2) :
    μ {s | c ≤ (v s).2.2.2 ∧ (v s).2.2.2 < d} = ENNReal.ofReal ((d - c) / (t.z_range.2 - t.z_range.1)) := by
  have hm : Measurable (remaining p t) := h.measurable.const_sub _
  have hL : 0 < t.z_range.2 - t.z_range.1 := by linarith [h.range]
  have hset : MeasurableSet {y : ℝ × ℝ × ℝ × ℝ | c ≤ y.2.2.2 ∧ y.2.2.2 < d} :=
    (measurableSet_le (g := fun y : ℝ × ℝ × ℝ × ℝ => y.2.2.2) measurable_const (by fun_prop)).inter
      (measurableSet_lt (f := fun y : ℝ × ℝ × ℝ × ℝ => y.2.2.2) (by fun_prop) measurable_const)
  have e2 : vertexOf p t ⁻¹' {y : ℝ × ℝ × ℝ × ℝ | c ≤ y.2.2.2 ∧ y.2.2.2 < d}
      = (Set.univ : Set ℝ) ×ˢ ((Set.univ : Set ℝ) ×ˢ
        Set.Ico ((c - t.z_range.1) / (t.z_range.2 - t.z_range.1))
          ((d - t.z_range.1) / (t.z_range.2 - t.z_range.1))) := by
    ext ⟨n, a, b⟩
    simp only [vertexOf, Set.mem_preimage, Set.mem_setOf_eq, Set.mem_prod, Set.mem_univ, true_and, Set.mem_Ico]
    rw [div_le_iff₀ hL, lt_div_iff₀ hL]
    constructor
    · rintro ⟨h2, h3⟩
      exact ⟨by linarith, by linarith⟩
    · rintro ⟨h2, h3⟩
      exact ⟨by linarith, by linarith⟩
  have e : {s | c ≤ (v s).2.2.2 ∧ (v s).2.2.2 < d} = v ⁻¹' {y : ℝ × ℝ × ℝ × ℝ | c ≤ y.2.2.2 ∧ y.2.2.2 < d} := rfl
  rw [e, ← Measure.map_apply hv hset, hlaw, Measure.map_apply (measurable_vertexOf hm) hset, e2]
  unfold numbers
  rw [Measure.prod_prod, Measure.prod_prod, measure_univ, measure_univ, one_mul, one_mul,
    Measure.restrict_apply measurableSet_Ico,
    Set.inter_eq_left.2 (Set.Ico_subset_Ico (div_nonneg (by linarith) hL.le)
      ((div_le_one hL).2 (by linarith))), Real.volume_Ico, ← sub_div]
  congr 2
  ring

/-- **C159.** The reactions of a run are uniformly distributed over the gas before the depth of the threshold. -/
theorem C159_uniform (h : BeamOk p t μ) (hrun : RunsOk p) (h1 : OneLevel p Ex)
    (hz : DepthOf p t (thresholdEnergy p.reaction Ex) zs) (hpos : t.z_range.1 < zs) {c d : ℝ}
    (hc : t.z_range.1 ≤ c) (hd : d ≤ zs) {buf : List ResultRow} (hlen : buf.length = 4) :
    μ {s | ∃ vertex st', p.run ⟨s, buf⟩ = (.ok vertex, st') ∧ c ≤ vertex.2.2 ∧ vertex.2.2 < d}
      = ENNReal.ofReal ((d - c) / (zs - t.z_range.1)) * μ {s | ∃ vertex st', p.run ⟨s, buf⟩ = (.ok vertex, st')} := by
  obtain ⟨v, w, g, k, hv, hw, hlaw, hws, hs, hf⟩ := h.split
  have hL : 0 < t.z_range.2 - t.z_range.1 := by linarith [h.range]
  have hall : ∀ s, EnergyAllowed p (placed (v s) (w (g s))) ↔ (v s).2.2.2 < zs := fun s =>
    C159_allowed hrun h1 h.target h.range hz (hs s)
  have hge : ∀ s, t.z_range.1 ≤ (v s).2.2.2 := fun s => (sample_place hrun.lawful h.target h.range (hs s)).2.1
  have hB : MeasurableSet {x : Sample | c ≤ x.vertex.2.2 ∧ x.vertex.2.2 < d} := by
    have hvx : Measurable fun x : Sample => x.vertex.2.2 := measurable_snd.comp (measurable_snd.comp
      ((measurable_fst.comp (measurable_snd.comp (measurable_snd.comp (measurable_snd.comp measurable_snd)))).comp
        measurable_fields))
    exact (measurableSet_le measurable_const hvx).inter (measurableSet_lt hvx measurable_const)
  have key := C82_conditional hrun hf hs hB (buf := buf) (by rw [h1.decays, hlen]; rfl)
  have e0 : {s | ∃ vertex st', p.run ⟨s, buf⟩ = (.ok vertex, st') ∧ c ≤ vertex.2.2 ∧ vertex.2.2 < d}
      = {s | ∃ x st', p.run ⟨s, buf⟩ = (.ok x.vertex, st') ∧ eventRows p x = .ok (some st'.result) ∧
        FirstAllowed p p.event_sample_limit.toNat s x st'.gen ∧ x ∈ {x : Sample | c ≤ x.vertex.2.2 ∧ x.vertex.2.2 < d}} := by
    ext s
    constructor
    · rintro ⟨vertex, st', hr, hcd⟩
      obtain ⟨x, rfl, h2, h3⟩ := returned_sample hrun (by rw [h1.decays, hlen]; rfl) hr
      exact ⟨x, st', hr, h2, h3, hcd⟩
    · rintro ⟨x, st', hr, -, -, hcd⟩
      exact ⟨_, st', hr, hcd⟩
  rw [← e0] at key
  simp only [Set.mem_setOf_eq, hall] at key
  have p1 : μ {s | (v s).2.2.2 < zs} = ENNReal.ofReal ((zs - t.z_range.1) / (t.z_range.2 - t.z_range.1)) := by
    rw [← depth_prob h hv.value hlaw le_rfl hz.upper]
    congr 1
    ext s
    exact ⟨fun h => ⟨hge s, h⟩, fun h => h.2⟩
  have p2 : μ {s | (v s).2.2.2 < zs ∧ c ≤ (placed (v s) (w (g s))).vertex.2.2 ∧
      (placed (v s) (w (g s))).vertex.2.2 < d} = ENNReal.ofReal ((d - c) / (t.z_range.2 - t.z_range.1)) := by
    rw [← depth_prob h hv.value hlaw hc (hd.trans hz.upper)]
    congr 1
    ext s
    exact ⟨fun h => h.2, fun h => ⟨h.2.trans_le hd, h⟩⟩
  rw [p1, p2] at key
  have hq : 0 < (zs - t.z_range.1) / (t.z_range.2 - t.z_range.1) := div_pos (by linarith) hL
  have e : ENNReal.ofReal ((d - c) / (t.z_range.2 - t.z_range.1))
      = ENNReal.ofReal ((d - c) / (zs - t.z_range.1))
        * ENNReal.ofReal ((zs - t.z_range.1) / (t.z_range.2 - t.z_range.1)) := by
    rw [← ENNReal.ofReal_mul' hq.le]
    congr 1
    have : zs - t.z_range.1 ≠ 0 := by linarith
    field_simp
  rw [e, ← mul_assoc] at key
  rw [mul_comm (ENNReal.ofReal _)]
  exact (ENNReal.mul_left_inj (by simpa using hq) ENNReal.ofReal_ne_top).1 key

/-- **C159.** No reaction takes place behind that depth, and a run fails only if all samples it may draw lie there. -/
theorem C159_limit (h : BeamOk p t μ) (hrun : RunsOk p) (h1 : OneLevel p Ex)
    (hz : DepthOf p t (thresholdEnergy p.reaction Ex) zs) {buf : List ResultRow} (hlen : buf.length = 4) :
    (∀ s vertex st', p.run ⟨s, buf⟩ = (.ok vertex, st') → t.z_range.1 ≤ vertex.2.2 ∧ vertex.2.2 < zs) ∧
    μ {s | (p.run ⟨s, buf⟩).1 = .error .pipelineError}
      = ENNReal.ofReal ((t.z_range.2 - zs) / (t.z_range.2 - t.z_range.1)) ^ p.event_sample_limit.toNat := by
  obtain ⟨v, w, g, k, hv, hw, hlaw, hws, hs, hf⟩ := h.split
  have hall : ∀ s, EnergyAllowed p (placed (v s) (w (g s))) ↔ (v s).2.2.2 < zs := fun s =>
    C159_allowed hrun h1 h.target h.range hz (hs s)
  have hlt : ∀ s, (v s).2.2.2 < t.z_range.2 := fun s => (sample_place hrun.lawful h.target h.range (hs s)).2.2
  constructor
  · intro s vertex st' hr
    obtain ⟨x, rfl, -, k, -, s1, -, h2, h3⟩ := returned_sample hrun (by rw [h1.decays, hlen]; rfl) hr
    exact ⟨(sample_place hrun.lawful h.target h.range h2).2.1, (C159_allowed hrun h1 h.target h.range hz h2).1 h3⟩
  · rw [C82_limit hrun hf hs (buf := buf) (by rw [h1.decays, hlen]; rfl)]
    congr 1
    rw [← depth_prob h hv.value hlaw hz.lower le_rfl]
    congr 1
    ext s
    simp only [Set.mem_setOf_eq, hall, not_lt]
    exact ⟨fun h => ⟨h, hlt s⟩, fun h => h.1⟩

end

/-- In `slowPipe` (5 MeV, 4 MeV lost per metre, threshold 2.25 MeV) the reactions are distributed uniformly over the first 11/16 of
the gas. -/
example {c d : ℝ} (hc : 0 ≤ c) (hd : d ≤ 11 / 16) :
    pairMeasure {s | ∃ vertex st', slowPipe.run ⟨s, List.replicate 4 none⟩ = (.ok vertex, st') ∧
        c ≤ vertex.2.2 ∧ vertex.2.2 < d}
      = ENNReal.ofReal ((d - c) / (11 / 16))
        * pairMeasure {s | ∃ vertex st', slowPipe.run ⟨s, List.replicate 4 none⟩ = (.ok vertex, st')} := by
  have hthr : thresholdEnergy slowPipe.reaction 1 = 9 / 4 := by
    norm_num [thresholdEnergy, slowPipe, exReaction]
  have h1 : OneLevel slowPipe 1 := ⟨rfl, fun s x s' h => (slowPipe_values h).2.2, by norm_num [slowPipe, exReaction]⟩
  have hz : DepthOf slowPipe slowTarget (thresholdEnergy slowPipe.reaction 1) (11 / 16) := by
    rw [hthr]
    refine ⟨by norm_num [slowTarget], by norm_num [slowTarget], fun z _ _ => ?_, fun _ _ => ?_⟩
    · rw [slowPipe_remaining]
      constructor <;> intro h <;> linarith
    · rw [slowPipe_remaining]
      norm_num
  have key := C159_uniform slowPipe_beam slowPipe_ok h1 hz (by norm_num [slowTarget]) (c := c) (d := d) hc hd
    (buf := List.replicate 4 none) rfl
  simpa [slowTarget] using key

end Verif.Props
