import Verif.Props.Pipeline
import Verif.Props.Kinematics
import Verif.Props.Simulate

/-! # C140: reactions that need no resampling -/

namespace Verif.Props

open Verif.Kinematics Verif.Spec

variable {σ : Type}

/-- **C140.** With more beam energy or less excitation an allowed reaction stays allowed. -/
theorem C140_monotone {r : Reaction} (h : ReactionOk r) {T T' Ex Ex' : ℝ} (hT : 0 ≤ T) (hTT : T ≤ T') (hE : Ex' ≤ Ex)
    (ha : r.is_excitation_allowed T Ex = true) : r.is_excitation_allowed T' Ex' = true := by
  rw [C42_reaction h hT, parent_M h hT] at ha
  rw [C42_reaction h (hT.trans hTT), parent_M h (hT.trans hTT)]
  have hle : cmEnergy r T ≤ cmEnergy r T' := by
    refine Real.sqrt_le_sqrt ?_
    have := mul_le_mul_of_nonneg_left hTT (by linarith [h.target] : 0 ≤ 2 * r.target.mass)
    linarith
  linarith

/-- **C140.** Scattering to the ground state is allowed exactly for positive beam energies. -/
theorem C140_allowed {r : Reaction} (h : ReactionOk r)
    (hel : r.ejectile.mass + r.residual.mass = r.target.mass + r.projectile.mass) {T : ℝ} (hT : 0 ≤ T) :
    r.is_excitation_allowed T 0 = true ↔ 0 < T := by
  rw [C42_reaction h hT, parent_M h hT, hel, add_zero]
  have ht := h.target
  have hp := h.projectile
  have hs := cmEnergy_sq h hT
  have hc := cmEnergy_pos h hT
  constructor
  · intro hlt
    by_contra hn
    have h0 : T = 0 := le_antisymm (not_lt.1 hn) hT
    rw [h0] at hs hlt
    nlinarith
  · intro h0
    have : 0 < 2 * r.target.mass * T := by positivity
    exact abs_lt_of_sq_lt_sq' (by linarith) hc.le |>.2

/-- A sample whose reaction is allowed and computed makes an event of a chain without decays. -/
theorem first_sample {p : Pipeline σ} (hd : p.decays = []) (hl : 1 ≤ p.event_sample_limit) {st : PipeState σ} {x : Sample}
    {s : σ} (hs : p.sample st.gen = .ok (x, s))
    (ha : p.reaction.is_excitation_allowed x.beam_energy x.reaction_excitation = true) {t : Vec4} {b e r : Option Vec4}
    (hc : p.reaction.calculate x.beam_energy x.reaction_theta x.reaction_phi x.reaction_excitation = .ok (t, b, e, r)) :
    p.run st = (.ok x.vertex, ⟨s, (((st.result.set 0 (some t)).set 1 b).set 2 e).set 3 r⟩) := by
  unfold Pipeline.run
  obtain ⟨n, hn⟩ : ∃ n, p.event_sample_limit.toNat = n + 1 := ⟨p.event_sample_limit.toNat - 1, by omega⟩
  rw [hn]
  simp [Pipeline.runLoop, hs, Pipeline.attempt, ha, hc, hd, decayLoop]

/-- **C140.** A chain of one reaction whose highest excitation is allowed at the lowest beam energy never resamples: the
first sample is the event. The reaction is endothermic or elastic (for the others see C43). -/
theorem C140_first {p : Pipeline σ} (h : ReactionOk p.reaction) (hd : p.decays = []) (hl : 1 ≤ p.event_sample_limit)
    (hq : p.reaction.target.mass + p.reaction.projectile.mass ≤ p.reaction.ejectile.mass + p.reaction.residual.mass)
    {T Ex : ℝ} (hT : 0 ≤ T) (ha : p.reaction.is_excitation_allowed T Ex = true) {st : PipeState σ} {x : Sample} {s : σ}
    (hs : p.sample st.gen = .ok (x, s)) (hx : T ≤ x.beam_energy) (hx2 : x.reaction_excitation ≤ Ex)
    (hx3 : 0 ≤ p.reaction.residual.mass + x.reaction_excitation) :
    ∃ t b e r, p.reaction.calculate x.beam_energy x.reaction_theta x.reaction_phi x.reaction_excitation
        = .ok (t, some b, some e, some r) ∧
      p.run st = (.ok x.vertex, ⟨s, (((st.result.set 0 (some t)).set 1 (some b)).set 2 (some e)).set 3 (some r)⟩) := by
  have ha' := C140_monotone h hT hx hx2 ha
  obtain ⟨t, b, e, r, hc⟩ := C43_partial h (hT.trans hx) hx3 ha' (by linarith [h.target]) (Or.inl hq)
    x.reaction_theta x.reaction_phi
  exact ⟨t, b, e, r, hc, first_sample hd hl hs ha' hc⟩

/-- The beam reaches every vertex. -/
def BeamReaches (p : Pipeline σ) : Prop :=
  match p.target_material with
  | none => 0 < p.beam_energy
  | some t => ∀ z, t.z_range.1 ≤ z → z ≤ t.z_range.2 →
      t.material.get_energy_loss p.reaction.projectile p.beam_energy z < p.beam_energy

/-- Beam energy and excitation of a sample. -/
theorem sample_parts {p : Pipeline σ} {s s' : σ} {x : Sample} (hs : p.sample s = .ok (x, s')) :
    ∃ s1 s2, p.sample_vertex s = .ok ((x.beam_energy, x.vertex), s1) ∧
      sampleHead p.excitations s1 = .ok (x.reaction_excitation, s2) := by
  unfold Pipeline.sample at hs
  simp only [Verif.Detector.except_bind_ok] at hs
  obtain ⟨a, h1, b, h2, c, -, d, -, e, -, h3⟩ := hs
  cases h3
  exact ⟨a.2, b.2, h1, h2⟩

theorem sample_beam {p : Pipeline σ} (hg : LawfulGen p.rng) (hb : BeamReaches p) {s s' : σ} {x : Sample}
    (hs : p.sample s = .ok (x, s')) : 0 < x.beam_energy := by
  obtain ⟨s1, s2, hv, -⟩ := sample_parts hs
  generalize x.beam_energy = E at *
  generalize x.vertex = v at *
  unfold Pipeline.sample_vertex at hv
  unfold BeamReaches at hb
  cases ht : p.target_material with
  | none =>
    rw [ht] at hv hb
    cases hv
    exact hb
  | some t =>
    rw [ht] at hv hb
    simp only at hv hb
    split_ifs at hv with c1 c2
    cases hv
    refine sub_pos.2 (hb _ ?_ ?_)
    · exact hg.uniform_ge _ _ _ (not_lt.1 c2)
    · rcases (not_lt.1 c2).lt_or_eq with h | h
      · exact (hg.uniform_lt _ _ _ h).le
      · rw [h, hg.uniform_eq]

theorem sample_excitation {p : Pipeline σ} (hg : LawfulGen p.rng) (he : p.excitations = [(mkExcitationGaussian 0 0).sample p.rng])
    {s s' : σ} {x : Sample} (hs : p.sample s = .ok (x, s')) : x.reaction_excitation = 0 := by
  obtain ⟨s1, s2, -, h⟩ := sample_parts hs
  rw [he] at h
  simp only [sampleHead, ExcitationGaussian.sample, mkExcitationGaussian, zero_div, lt_irrefl, if_false] at h
  have h1 := congrArg Prod.fst (Except.ok.inj h)
  rw [hg.normal_zero] at h1
  exact h1.symm

/-- **C140.** Elastic scattering to a ground state without width, as in the user guide: whatever the random numbers, the
first sample is the event, for every limit on the number of samples. -/
theorem C140_elastic {p : Pipeline σ} (hg : LawfulGen p.rng) (h : ReactionOk p.reaction) (hr : 0 ≤ p.reaction.residual.mass)
    (hel : p.reaction.ejectile.mass + p.reaction.residual.mass = p.reaction.target.mass + p.reaction.projectile.mass)
    (hd : p.decays = []) (he : p.excitations = [(mkExcitationGaussian 0 0).sample p.rng]) (hb : BeamReaches p)
    (hl : 1 ≤ p.event_sample_limit) {st : PipeState σ} {x : Sample} {s : σ} (hs : p.sample st.gen = .ok (x, s)) :
    ∃ t b e r, p.reaction.calculate x.beam_energy x.reaction_theta x.reaction_phi 0 = .ok (t, some b, some e, some r) ∧
      p.run st = (.ok x.vertex, ⟨s, (((st.result.set 0 (some t)).set 1 (some b)).set 2 (some e)).set 3 (some r)⟩) := by
  have h0 := sample_beam hg hb hs
  have hx := sample_excitation hg he hs
  have ha := (C140_allowed h hel h0.le).2 h0
  have key := C140_first h hd hl hel.ge h0.le ha hs le_rfl hx.le (by rw [hx]; linarith)
  rwa [hx] at key

/-- **C140.** A beam that stops in the gas before it reaches the vertex: the sample is rejected. -/
theorem C140_stopped {p : Pipeline σ} (h : ReactionOk p.reaction)
    (hel : p.reaction.ejectile.mass + p.reaction.residual.mass = p.reaction.target.mass + p.reaction.projectile.mass)
    {x : Sample} (hx : x.reaction_excitation = 0) (h0 : x.beam_energy = 0) (buf : List ResultRow) :
    p.attempt x buf = (.ok false, buf) := by
  have : p.reaction.is_excitation_allowed x.beam_energy x.reaction_excitation = false := by
    rw [hx, h0, ← Bool.not_eq_true, C140_allowed h hel le_rfl]
    exact lt_irrefl 0
  unfold Pipeline.attempt
  rw [this]
  rfl

/-- The pipeline of the user guide (docs/user_guide/getting_started.md): deuterons scattered by 16C of 184.131 MeV, ground
state without width, all angles, vertices along 1 m. -/
noncomputable def guidePipeline (rng : Gen σ) (gas : GasTarget) (limit : ℤ) : Pipeline σ where
  reaction := ⟨⟨1, 2, 1876.124, "2H"⟩, ⟨6, 16, 14914.53, "16C"⟩, ⟨1, 2, 1876.124, "2H"⟩, ⟨6, 16, 14914.53, "16C"⟩⟩
  decays := []
  excitations := [(mkExcitationGaussian 0 0).sample rng]
  polar_dists := [(mkPolarUniform 0 Real.pi).sample rng]
  beam_energy := 184.131
  target_material := some { material := gas, z_range := (0, 1), rho_sigma := 0.007 }
  event_sample_limit := limit
  rng := rng

/-- **C140.** With the pipeline of the user guide each event takes exactly one sample and nothing is raised, whatever the
generator, as long as the gas does not stop the beam. -/
theorem C140_guide {rng : Gen σ} (hg : LawfulGen rng) {gas : GasTarget} {limit : ℤ} (hl : 1 ≤ limit)
    (hgas : ∀ z, 0 ≤ z → z ≤ 1 → gas.get_energy_loss ⟨6, 16, 14914.53, "16C"⟩ 184.131 z < 184.131) (st : PipeState σ) :
    ∃ x s rows, (guidePipeline rng gas limit).sample st.gen = .ok (x, s) ∧
      (guidePipeline rng gas limit).run st = (.ok x.vertex, ⟨s, rows⟩) := by
  have hs : ∃ x s, (guidePipeline rng gas limit).sample st.gen = .ok (x, s) := by
    have h1 : ¬ (1 : ℝ) < 0 := by norm_num
    have h2 : ¬ (1 : ℝ) < -1 := by norm_num
    have h3 : ¬ (0.007 : ℝ) < 0 := by norm_num
    have hv : ∀ s, ∃ E v s', (guidePipeline rng gas limit).sample_vertex s = .ok ((E, v), s') := by
      intro s
      simp only [Pipeline.sample_vertex, guidePipeline, h1, h3, if_false]
      exact ⟨_, _, _, rfl⟩
    obtain ⟨E, v, s1, hv⟩ := hv st.gen
    have he : sampleHead (guidePipeline rng gas limit).excitations s1 = .ok (rng.normal 0 0 s1) := by
      simp [sampleHead, guidePipeline, ExcitationGaussian.sample, mkExcitationGaussian]
    have hp : ∀ s, ∃ y s', sampleHead (guidePipeline rng gas limit).polar_dists s = .ok (y, s') := by
      intro s
      simp only [sampleHead, guidePipeline, PolarUniform.sample, mkPolarUniform, Real.cos_pi, Real.cos_zero, h2, if_false]
      exact ⟨_, _, rfl⟩
    obtain ⟨y, s3, hp⟩ := hp (rng.normal 0 0 s1).2
    refine ⟨?_, ?_, ?_⟩
    rotate_left 2
    · unfold Pipeline.sample
      rw [Verif.Detector.except_bind_ok]
      refine ⟨_, hv, ?_⟩
      rw [Verif.Detector.except_bind_ok]
      refine ⟨_, he, ?_⟩
      rw [Verif.Detector.except_bind_ok]
      refine ⟨_, hp, ?_⟩
      rfl
  obtain ⟨x, s, hs⟩ := hs
  obtain ⟨t, b, e, r, -, h⟩ := C140_elastic (p := guidePipeline rng gas limit) hg
    ⟨by norm_num [guidePipeline], by norm_num [guidePipeline], by norm_num [guidePipeline]⟩ (by norm_num [guidePipeline])
    (by norm_num [guidePipeline]) rfl rfl (fun z h1 h2 => hgas z h1 h2) hl hs
  exact ⟨x, s, _, hs, h⟩

/-- A gas in which the beam loses 10 MeV per metre. -/
noncomputable def guideGas : GasTarget := { density := 1e-4, get_dedx := fun _ _ => 1, get_energy_loss := fun _ _ z => 10 * z }

/-- Non-trivial instance of `C140_guide`, `C140_elastic` and `C140_allowed`. -/
example : ∃ x s rows, (guidePipeline Detector.exGen guideGas 1).sample () = .ok (x, s) ∧
    (guidePipeline Detector.exGen guideGas 1).run ⟨(), [none, none, none, none]⟩ = (.ok x.vertex, ⟨s, rows⟩) :=
  C140_guide Detector.exGen_lawful le_rfl (fun z _ h => by norm_num [guideGas]; linarith) ⟨(), [none, none, none, none]⟩

/-- Non-trivial instance of `C140_first` and `C140_monotone`: states of 16C up to 10 MeV, at beam energies above 100 MeV. -/
example (T Ex : ℝ) (hT : 100 ≤ T) (hE : Ex ≤ 10) :
    (guidePipeline Detector.exGen guideGas 1).reaction.is_excitation_allowed T Ex = true := by
  have hok : ReactionOk (guidePipeline Detector.exGen guideGas 1).reaction :=
    ⟨by norm_num [guidePipeline], by norm_num [guidePipeline], by norm_num [guidePipeline]⟩
  refine C140_monotone hok (by norm_num) hT hE ?_
  rw [C42_reaction hok (by norm_num), parent_M hok (by norm_num)]
  unfold cmEnergy
  apply Real.lt_sqrt_of_sq_lt
  norm_num [guidePipeline]

end Verif.Props
