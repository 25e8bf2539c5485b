import Verif.Kinematics.Pipeline
import Verif.Kinematics.KinFile
import Verif.Props.PipelineRuns

/-! # C164: the kinematics has no unit of energy built in -/

namespace Verif.Props

open Verif Verif.Kinematics

/-! ## Everything in another unit -/

/-- A nucleus with its mass in another unit. -/
noncomputable def unitNucleus (c : ℝ) (n : Nucleus) : Nucleus := { n with mass := c * n.mass }

/-- A four-momentum in another unit. -/
noncomputable def unitVec (c : ℝ) (v : Vec4) : Vec4 := ⟨c * v.px, c * v.py, c * v.pz, c * v.E⟩

/-- A reaction in another unit. -/
noncomputable def unitReaction (c : ℝ) (r : Reaction) : Reaction :=
  ⟨unitNucleus c r.target, unitNucleus c r.projectile, unitNucleus c r.ejectile, unitNucleus c r.residual⟩

/-- A decay in another unit. -/
noncomputable def unitDecay (c : ℝ) (d : Decay) : Decay :=
  ⟨unitNucleus c d.parent, unitNucleus c d.residual_1, unitNucleus c d.residual_2⟩

/-- A sample with its energies in another unit. -/
noncomputable def unitSample (c : ℝ) (s : Sample) : Sample :=
  { s with beam_energy := c * s.beam_energy, reaction_excitation := c * s.reaction_excitation,
           decay_excitations := s.decay_excitations.map (c * ·) }

/-- A sampler with its values in another unit. -/
noncomputable def unitSampler {σ : Type} (c : ℝ) (d : Sampler σ) : Sampler σ := fun s =>
  (d s).map fun q => (c * q.1, q.2)

/-- A target with its energy losses in another unit: asked with masses and energies in that unit, it answers in it. -/
noncomputable def unitTarget (c : ℝ) (t : TargetMaterial) : TargetMaterial :=
  { t with material := { t.material with
      get_energy_loss := fun n T z => c * t.material.get_energy_loss (unitNucleus c⁻¹ n) (c⁻¹ * T) z } }

/-- A pipeline in another unit: same angles, same target geometry, same generator, same limit. -/
noncomputable def unitPipeline {σ : Type} (c : ℝ) (p : Pipeline σ) : Pipeline σ :=
  { p with reaction := unitReaction c p.reaction, decays := p.decays.map (unitDecay c),
           excitations := p.excitations.map (unitSampler c), beam_energy := c * p.beam_energy,
           target_material := p.target_material.map (unitTarget c) }

/-- The state of a pipeline in another unit. -/
noncomputable def unitState {σ : Type} (c : ℝ) (st : PipeState σ) : PipeState σ :=
  ⟨st.gen, st.result.map (Option.map (unitVec c))⟩

section

variable {c : ℝ}

theorem npSqrt_unit (hc : 0 < c) (x : ℝ) : npSqrt (c ^ 2 * x) = (npSqrt x).map (c * ·) := by
  unfold npSqrt
  by_cases h : x < 0
  · rw [if_pos h, if_pos (mul_neg_of_pos_of_neg (by positivity) h)]
    rfl
  · rw [if_neg h, if_neg (not_lt.2 (mul_nonneg (by positivity) (not_lt.1 h))), Real.sqrt_mul (by positivity),
      Real.sqrt_sq hc.le]
    rfl

theorem boostBeta_unit (v : Vec4) (bx by' bz : ℝ) :
    (unitVec c v).boostBeta bx by' bz = unitVec c (v.boostBeta bx by' bz) := by
  unfold Vec4.boostBeta unitVec
  simp only [Vec4.mk.injEq]
  refine ⟨?_, ?_, ?_, ?_⟩ <;> ring

theorem boost_unit (hc : 0 < c) (v q : Vec4) : (unitVec c v).boost (unitVec c q) = unitVec c (v.boost q) := by
  unfold Vec4.boost
  rw [boostBeta_unit]
  simp only [unitVec, mul_div_mul_left _ _ hc.ne']

theorem boostCM_unit (hc : 0 < c) (v q : Vec4) :
    (unitVec c v).boostCM_of (unitVec c q) = unitVec c (v.boostCM_of q) := by
  unfold Vec4.boostCM_of
  rw [boostBeta_unit]
  simp only [unitVec, mul_div_mul_left _ _ hc.ne']

theorem M_unit (hc : 0 < c) (v : Vec4) : (unitVec c v).M = c * v.M := by
  have h2 : (unitVec c v).M2 = c ^ 2 * v.M2 := by
    unfold Vec4.M2 unitVec
    ring
  unfold Vec4.M
  rw [h2]
  by_cases h : v.M2 < 0
  · rw [if_pos h, if_pos (mul_neg_of_pos_of_neg (by positivity) h), ← mul_neg, Real.sqrt_mul (by positivity),
      Real.sqrt_sq hc.le]
    ring
  · rw [if_neg h, if_neg (not_lt.2 (mul_nonneg (by positivity) (not_lt.1 h))), Real.sqrt_mul (by positivity),
      Real.sqrt_sq hc.le]

theorem boostable_unit (hc : 0 < c) (v : Vec4) : (unitVec c v).Boostable ↔ v.Boostable := by
  have h2 : 0 < c ^ 2 := by positivity
  unfold Vec4.Boostable unitVec
  dsimp only
  rw [show (c * v.px) ^ 2 + (c * v.py) ^ 2 + (c * v.pz) ^ 2 = c ^ 2 * (v.px ^ 2 + v.py ^ 2 + v.pz ^ 2) by ring,
    show (c * v.E) ^ 2 = c ^ 2 * v.E ^ 2 by ring]
  exact mul_lt_mul_iff_of_pos_left h2

theorem cmVector_unit (hc : 0 < c) (m1 m2 e polar azimuthal : ℝ) :
    cmVector (c * m1) (c * m2) (c * e) polar azimuthal = (cmVector m1 m2 e polar azimuthal).map (unitVec c) := by
  have he : ((c * m1) ^ 2 - (c * m2) ^ 2 + (c * e) ^ 2) / (2 * (c * e))
      = c * ((m1 ^ 2 - m2 ^ 2 + e ^ 2) / (2 * e)) := by
    rw [show (c * m1) ^ 2 - (c * m2) ^ 2 + (c * e) ^ 2 = c * (c * (m1 ^ 2 - m2 ^ 2 + e ^ 2)) by ring,
      show 2 * (c * e) = c * (2 * e) by ring, mul_div_mul_left _ _ hc.ne', mul_div_assoc]
  unfold cmVector
  simp only [he]
  generalize (m1 ^ 2 - m2 ^ 2 + e ^ 2) / (2 * e) = e1
  rw [show (c * e1) ^ 2 - (c * m1) ^ 2 = c ^ 2 * (e1 ^ 2 - m1 ^ 2) by ring, npSqrt_unit hc]
  rcases npSqrt (e1 ^ 2 - m1 ^ 2) with _ | p
  · rfl
  · simp only [Option.map_some, unitVec, Option.some.injEq, Vec4.mk.injEq, and_true]
    refine ⟨?_, ?_, ?_⟩ <;> ring

theorem add_unit (v w : Vec4) : unitVec c v + unitVec c w = unitVec c (v + w) := by
  show Vec4.add _ _ = unitVec c (Vec4.add _ _)
  unfold Vec4.add unitVec
  simp only [Vec4.mk.injEq]
  refine ⟨?_, ?_, ?_, ?_⟩ <;> ring

theorem sub_unit (v w : Vec4) : unitVec c v - unitVec c w = unitVec c (v - w) := by
  show Vec4.sub _ _ = unitVec c (Vec4.sub _ _)
  unfold Vec4.sub unitVec
  simp only [Vec4.mk.injEq]
  refine ⟨?_, ?_, ?_, ?_⟩ <;> ring

/-- **C164.** The energetic condition of a reaction does not depend on the unit of energy. -/
theorem C164_allowed (hc : 0 < c) (r : Reaction) (T E : ℝ) :
    (unitReaction c r).is_excitation_allowed (c * T) (c * E) = r.is_excitation_allowed T E := by
  unfold Reaction.is_excitation_allowed
  dsimp +instances only [unitReaction, unitNucleus]
  rw [show c * T * (c * T + 2 * (c * r.projectile.mass)) = c ^ 2 * (T * (T + 2 * r.projectile.mass)) by ring,
    npSqrt_unit hc]
  rcases npSqrt (T * (T + 2 * r.projectile.mass)) with _ | pz
  · rfl
  · simp only [Option.map_some]
    rw [show (c * r.target.mass + c * T + c * r.projectile.mass) ^ 2 - (c * pz) ^ 2
        = c ^ 2 * ((r.target.mass + T + r.projectile.mass) ^ 2 - pz ^ 2) by ring, npSqrt_unit hc]
    rcases npSqrt ((r.target.mass + T + r.projectile.mass) ^ 2 - pz ^ 2) with _ | e
    · rfl
    · simp only [Option.map_some]
      rw [show c * r.ejectile.mass + c * r.residual.mass + c * E = c * (r.ejectile.mass + r.residual.mass + E) by ring]
      simp only [mul_lt_mul_iff_of_pos_left hc]

/-- **C164.** With masses and energies in another unit `calculate` raises the same exception or gives the same
four-momenta in that unit. -/
theorem C164_reaction (hc : 0 < c) (r : Reaction) (T polar azimuthal E : ℝ) :
    (unitReaction c r).calculate (c * T) polar azimuthal (c * E)
      = (r.calculate T polar azimuthal E).map fun q =>
          (unitVec c q.1, q.2.1.map (unitVec c), q.2.2.1.map (unitVec c), q.2.2.2.map (unitVec c)) := by
  unfold Reaction.calculate
  dsimp +instances only [unitReaction, unitNucleus]
  rw [show c * r.ejectile.mass + c * r.residual.mass - c * r.projectile.mass
      = c * (r.ejectile.mass + r.residual.mass - r.projectile.mass) by ring]
  by_cases h0 : r.ejectile.mass + r.residual.mass - r.projectile.mass = 0
  · rw [if_pos h0, if_pos (by rw [h0, mul_zero])]
    rfl
  · rw [if_neg h0, if_neg (mul_ne_zero hc.ne' h0)]
    rw [show -(c * r.target.mass + c * r.projectile.mass - (c * r.ejectile.mass + c * r.residual.mass + c * E))
          * (c * r.ejectile.mass + c * r.residual.mass)
        / (c * (r.ejectile.mass + r.residual.mass - r.projectile.mass))
        = c * (-(r.target.mass + r.projectile.mass - (r.ejectile.mass + r.residual.mass + E))
          * (r.ejectile.mass + r.residual.mass) / (r.ejectile.mass + r.residual.mass - r.projectile.mass)) by
        rw [show -(c * r.target.mass + c * r.projectile.mass - (c * r.ejectile.mass + c * r.residual.mass + c * E))
          * (c * r.ejectile.mass + c * r.residual.mass)
          = c * (c * (-(r.target.mass + r.projectile.mass - (r.ejectile.mass + r.residual.mass + E))
          * (r.ejectile.mass + r.residual.mass))) by ring, mul_div_mul_left _ _ hc.ne', mul_div_assoc]]
    simp only [mul_lt_mul_iff_of_pos_left hc]
    split_ifs with hth
    · rfl
    rw [show c * T * (c * T + 2 * (c * r.projectile.mass)) = c ^ 2 * (T * (T + 2 * r.projectile.mass)) by ring,
      npSqrt_unit hc]
    have ht : (⟨0, 0, 0, c * r.target.mass⟩ : Vec4) = unitVec c ⟨0, 0, 0, r.target.mass⟩ := by
      simp [unitVec]
    rcases npSqrt (T * (T + 2 * r.projectile.mass)) with _ | pz
    · simp only [Option.map_none, Except.map, ht]
    · have hp : (⟨0, 0, c * pz, c * T + c * r.projectile.mass⟩ : Vec4)
          = unitVec c ⟨0, 0, pz, T + r.projectile.mass⟩ := by
        simp [unitVec, mul_add]
      dsimp only [Option.map_some]
      rw [ht, hp, add_unit]
      generalize (⟨0, 0, 0, r.target.mass⟩ : Vec4) = target
      generalize (⟨0, 0, pz, T + r.projectile.mass⟩ : Vec4) = proj
      by_cases hb : (target + proj).Boostable
      · rw [if_pos hb, if_pos ((boostable_unit hc _).2 hb), boostCM_unit hc,
          show c * r.residual.mass + c * E = c * (r.residual.mass + E) by ring]
        have hE : (unitVec c ((target + proj).boostCM_of (target + proj))).E
            = c * ((target + proj).boostCM_of (target + proj)).E := rfl
        rw [hE, cmVector_unit hc]
        rcases cmVector r.ejectile.mass (r.residual.mass + E) ((target + proj).boostCM_of (target + proj)).E polar
          azimuthal with _ | v
        · rfl
        · simp only [Option.map_some, boost_unit hc, sub_unit, Except.map]
      · rw [if_neg hb, if_neg (fun h => hb ((boostable_unit hc _).1 h))]
        rfl

/-- **C164.** The energetic condition of a decay does not depend on the unit of energy. -/
theorem C164_decay_allowed (hc : 0 < c) (d : Decay) (v : Vec4) (E : ℝ) :
    (unitDecay c d).is_excitation_allowed (unitVec c v) (c * E) = d.is_excitation_allowed v E := by
  unfold Decay.is_excitation_allowed
  dsimp +instances only [unitDecay, unitNucleus]
  rw [M_unit hc]
  rw [show c * v.M - (c * d.residual_1.mass + c * d.residual_2.mass + c * E)
    = c * (v.M - (d.residual_1.mass + d.residual_2.mass + E)) by ring]
  simp only [gt_iff_lt, mul_pos_iff_of_pos_left hc]

/-- **C164.** The same for decays. -/
theorem C164_decay (hc : 0 < c) (d : Decay) (v : Vec4) (polar azimuthal E : ℝ) :
    (unitDecay c d).calculate (unitVec c v) polar azimuthal (c * E)
      = (d.calculate v polar azimuthal E).map fun q =>
          (unitVec c q.1, q.2.1.map (unitVec c), q.2.2.map (unitVec c)) := by
  unfold Decay.calculate
  dsimp +instances only [unitDecay, unitNucleus]
  rw [M_unit hc]
  rw [show c * v.M - (c * d.residual_1.mass + c * d.residual_2.mass + c * E)
    = c * (v.M - (d.residual_1.mass + d.residual_2.mass + E)) by ring]
  by_cases hq : v.M - (d.residual_1.mass + d.residual_2.mass + E) < 0
  · rw [if_pos hq, if_pos (mul_neg_of_pos_of_neg hc hq)]
    rfl
  rw [if_neg hq, if_neg (not_lt.2 (mul_nonneg hc.le (not_lt.1 hq)))]
  by_cases hb : v.Boostable
  · rw [if_pos hb, if_pos ((boostable_unit hc _).2 hb), boostCM_unit hc,
      show c * d.residual_2.mass + c * E = c * (d.residual_2.mass + E) by ring]
    have hE : (unitVec c (v.boostCM_of v)).E = c * (v.boostCM_of v).E := rfl
    rw [hE, cmVector_unit hc]
    rcases cmVector d.residual_1.mass (d.residual_2.mass + E) (v.boostCM_of v).E polar azimuthal with _ | w
    · rfl
    · simp only [Option.map_some, boost_unit hc, sub_unit, Except.map]
  · rw [if_neg hb, if_neg (fun h => hb ((boostable_unit hc _).1 h))]
    rfl

theorem listGet_unit {α β : Type} (f : α → β) (l : List α) (i : ℕ) :
    listGet (l.map f) i = (listGet l i).map f := by
  unfold listGet
  rw [List.getElem?_map]
  rcases l[i]? with _ | a
  · rfl
  · rfl

theorem decayLoop_unit (hc : 0 < c) (s : Sample) (ds : List Decay) : ∀ (idx : ℕ) (prev : ResultRow)
    (buf : List ResultRow),
    decayLoop (unitSample c s) idx (ds.map (unitDecay c)) (prev.map (unitVec c)) (buf.map (Option.map (unitVec c)))
      = ((decayLoop s idx ds prev buf).1, (decayLoop s idx ds prev buf).2.map (Option.map (unitVec c))) := by
  induction ds with
  | nil =>
    intro idx prev buf
    rfl
  | cons d ds ih =>
    intro idx prev buf
    rw [List.map_cons]
    unfold decayLoop
    have h1 : (unitSample c s).decay_excitations = s.decay_excitations.map (c * ·) := rfl
    have h2 : (unitSample c s).decay_thetas = s.decay_thetas := rfl
    have h3 : (unitSample c s).decay_phis = s.decay_phis := rfl
    rw [h1, h2, h3, listGet_unit]
    rcases listGet s.decay_excitations idx with e | ex
    · rfl
    simp only [Except.map]
    rcases prev with _ | parent
    · rfl
    simp only [Option.map_some]
    rw [C164_decay_allowed hc]
    by_cases ha : d.is_excitation_allowed parent ex
    · simp only [ha, Bool.not_true, Bool.false_eq_true, if_false]
      rcases listGet s.decay_thetas idx with e | theta
      · rfl
      rcases listGet s.decay_phis idx with e | phi
      · rfl
      simp only [bind, Except.bind]
      rw [C164_decay hc]
      rcases d.calculate parent theta phi ex with e | ⟨q0, r1, r2⟩
      · rfl
      · simp only [Except.map]
        rw [← ih (idx + 1) r2, List.map_set, List.map_set]
    · simp only [ha]
      rfl

/-- **C164.** A whole attempt, reaction and decays, is accepted, rejected or fails alike in any unit of energy and fills
the result with the same four-momenta in that unit. -/
theorem C164_attempt {σ : Type} (hc : 0 < c) (p : Pipeline σ) (s : Sample) (buf : List ResultRow) :
    (unitPipeline c p).attempt (unitSample c s) (buf.map (Option.map (unitVec c)))
      = ((p.attempt s buf).1, (p.attempt s buf).2.map (Option.map (unitVec c))) := by
  unfold Pipeline.attempt
  have h1 : (unitSample c s).beam_energy = c * s.beam_energy := rfl
  have h2 : (unitSample c s).reaction_excitation = c * s.reaction_excitation := rfl
  have h3 : (unitSample c s).reaction_theta = s.reaction_theta := rfl
  have h4 : (unitSample c s).reaction_phi = s.reaction_phi := rfl
  have h5 : (unitPipeline c p).reaction = unitReaction c p.reaction := rfl
  have h6 : (unitPipeline c p).decays = p.decays.map (unitDecay c) := rfl
  simp only [h1, h2, h3, h4, h5, h6]
  rw [C164_allowed hc]
  by_cases ha : p.reaction.is_excitation_allowed s.beam_energy s.reaction_excitation
  · simp only [ha, Bool.not_true, Bool.false_eq_true, if_false]
    rw [C164_reaction hc]
    rcases p.reaction.calculate s.beam_energy s.reaction_theta s.reaction_phi s.reaction_excitation with
      e | ⟨q0, q1, q2, q3⟩
    · rfl
    · simp only [Except.map]
      rw [← decayLoop_unit hc, List.map_set, List.map_set, List.map_set, List.map_set]
      rfl
  · simp only [ha]
    rfl

theorem sampleAll_unit {σ : Type} (ds : List (Sampler σ)) : ∀ s,
    sampleAll (ds.map (unitSampler c)) s = (sampleAll ds s).map fun q => (q.1.map (c * ·), q.2) := by
  induction ds with
  | nil =>
    intro s
    rfl
  | cons d ds ih =>
    intro s
    rw [List.map_cons]
    unfold sampleAll
    simp only [unitSampler, bind, Except.bind]
    rcases d s with e | ⟨x, s1⟩
    · rfl
    simp only [Except.map]
    have := ih s1
    rw [this]
    rcases sampleAll ds s1 with e | ⟨xs, s2⟩
    · rfl
    · rfl

theorem sampleHead_unit {σ : Type} (ds : List (Sampler σ)) (s : σ) :
    sampleHead (ds.map (unitSampler c)) s = (sampleHead ds s).map fun q => (c * q.1, q.2) := by
  rcases ds with _ | ⟨d, ds⟩
  · rfl
  · rfl

theorem sample_vertex_unit {σ : Type} (hc : 0 < c) (p : Pipeline σ) (s : σ) :
    (unitPipeline c p).sample_vertex s = (p.sample_vertex s).map fun q => ((c * q.1.1, q.1.2), q.2) := by
  have hn : ∀ n : Nucleus, unitNucleus c⁻¹ (unitNucleus c n) = n := fun n => by
    simp only [unitNucleus, inv_mul_cancel_left₀ hc.ne']
  have h1 : (unitPipeline c p).target_material = p.target_material.map (unitTarget c) := rfl
  have h2 : (unitPipeline c p).reaction.projectile = unitNucleus c p.reaction.projectile := rfl
  have h3 : (unitPipeline c p).beam_energy = c * p.beam_energy := rfl
  have h4 : (unitPipeline c p).rng = p.rng := rfl
  unfold Pipeline.sample_vertex
  rw [h1, h2, h3, h4]
  rcases p.target_material with _ | t
  · rfl
  · have h5 : (unitTarget c t).rho_sigma = t.rho_sigma := rfl
    have h6 : (unitTarget c t).z_range = t.z_range := rfl
    have h7 : ∀ z, (unitTarget c t).material.get_energy_loss (unitNucleus c p.reaction.projectile) (c * p.beam_energy) z
        = c * t.material.get_energy_loss p.reaction.projectile p.beam_energy z := fun z => by
      show c * t.material.get_energy_loss (unitNucleus c⁻¹ (unitNucleus c p.reaction.projectile))
        (c⁻¹ * (c * p.beam_energy)) z = _
      rw [hn, inv_mul_cancel_left₀ hc.ne']
    simp only [Option.map_some, h5, h6, h7, ← mul_sub]
    split_ifs
    · rfl
    · rfl
    · rfl

/-- **C164.** The pipeline draws the same samples in any unit. -/
theorem C164_sample {σ : Type} (hc : 0 < c) (p : Pipeline σ) (s : σ) :
    (unitPipeline c p).sample s = (p.sample s).map fun q => (unitSample c q.1, q.2) := by
  have h1 : (unitPipeline c p).excitations = p.excitations.map (unitSampler c) := rfl
  have h2 : (unitPipeline c p).polar_dists = p.polar_dists := rfl
  have h3 : (unitPipeline c p).decays.length = p.decays.length := List.length_map _
  have h4 : (unitPipeline c p).rng = p.rng := rfl
  unfold Pipeline.sample
  rw [sample_vertex_unit hc, h1, h2, h3, h4]
  rcases p.rng with ⟨nrm, unif⟩
  rcases p.sample_vertex s with e | ⟨⟨T, v⟩, s⟩
  · rfl
  simp only [Except.map, bind, Except.bind, sampleHead_unit]
  rcases sampleHead p.excitations s with e | ⟨ex, s⟩
  · rfl
  simp only
  rcases sampleHead p.polar_dists s with e | ⟨th, s⟩
  · rfl
  simp only
  rw [← List.map_tail, sampleAll_unit]
  generalize unif 0 (Real.pi * 2) s = ph
  rcases sampleAll p.excitations.tail ph.2 with e | ⟨exs, s⟩
  · rfl
  simp only [Except.map]
  rcases sampleAll p.polar_dists.tail s with e | ⟨ths, s⟩
  · rfl
  · rfl

theorem runLoop_unit {σ : Type} (hc : 0 < c) (p : Pipeline σ) (n : ℕ) : ∀ st : PipeState σ,
    (unitPipeline c p).runLoop n (unitState c st) = ((p.runLoop n st).1, unitState c (p.runLoop n st).2) := by
  induction n with
  | zero =>
    intro st
    rfl
  | succ n ih =>
    intro st
    unfold Pipeline.runLoop
    have h1 : (unitState c st).gen = st.gen := rfl
    have h2 : (unitState c st).result = st.result.map (Option.map (unitVec c)) := rfl
    rw [h1, h2, C164_sample hc]
    rcases p.sample st.gen with e | ⟨x, s⟩
    · rfl
    simp only [Except.map]
    rw [C164_attempt hc]
    rcases p.attempt x st.result with ⟨_ | _ | _, buf⟩
    · rfl
    · exact ih ⟨s, buf⟩
    · rfl

/-- **C164.** A call of `run` in another unit of energy: the same exception or the same vertex after the same random
numbers, and the same four-momenta in that unit. -/
theorem C164_run {σ : Type} (hc : 0 < c) (p : Pipeline σ) (st : PipeState σ) :
    (unitPipeline c p).run (unitState c st) = ((p.run st).1, unitState c (p.run st).2) :=
  runLoop_unit hc p _ st

end

/-! ## The file -/

/-- An event with its array replaced by a function of it. -/
def dsetMap {ρ ρ' : Type} (g : ρ → ρ') (d : EventDset ρ) : EventDset ρ' :=
  ⟨g d.data, d.vertex_x, d.vertex_y, d.vertex_z⟩

/-- A chunk with the arrays of all its events so replaced. -/
def chunkMap {ρ ρ' : Type} (g : ρ → ρ') (k : ChunkGroup ρ) : ChunkGroup ρ' :=
  ⟨k.events.map fun e => (e.1, dsetMap g e.2), k.min_event, k.max_event⟩

/-- A kinematics file with all arrays so replaced: names, vertices and attributes are kept. -/
def kinMap {ρ ρ' : Type} (g : ρ → ρ') (f : KinFile ρ) : KinFile ρ' :=
  ⟨f.n_events, f.proton_numbers, f.mass_numbers, f.chunk_size, f.n_chunks,
    f.chunks.map fun k => (k.1, chunkMap g k.2), f.closed⟩

/-- The same for an operation. -/
def kinOpMap {ρ ρ' : Type} (g : ρ → ρ') : FileOp ρ → FileOp ρ'
  | .setNEvents n => .setNEvents n
  | .setProton z => .setProton z
  | .setMass a => .setMass a
  | .setChunkSize n => .setChunkSize n
  | .createChunk name => .createChunk name
  | .setMin c v => .setMin c v
  | .setMax c v => .setMax c v
  | .createEvent c e d => .createEvent c e (g d)
  | .setVx c e v => .setVx c e v
  | .setVy c e v => .setVy c e v
  | .setVz c e v => .setVz c e v
  | .setNChunks n => .setNChunks n
  | .close => .close

/-- The same for the state of a run. -/
def kinRunMap {ρ ρ' π π' : Type} (g : ρ → ρ') (h : π → π') (st : KinRun ρ π) : KinRun ρ' π' :=
  ⟨h st.pipe, kinMap g st.file, st.trace.map (kinMap g)⟩

theorem lookup_second {α β : Type} (g : α → β) (name : String) (l : List (String × α)) :
    (l.map fun q => (q.1, g q.2)).lookup name = (l.lookup name).map g := by
  induction l with
  | nil => rfl
  | cons a l ih =>
    rw [List.map_cons, List.lookup_cons, List.lookup_cons, ih]
    split <;> rfl

theorem modifyName_second {α β : Type} (g : α → β) (name : String) (f : α → α) (f' : β → β)
    (hf : ∀ a, f' (g a) = g (f a)) (l : List (String × α)) :
    modifyName name f' (l.map fun q => (q.1, g q.2)) = (modifyName name f l).map fun q => (q.1, g q.2) := by
  unfold modifyName
  rw [List.map_map, List.map_map]
  refine List.map_congr_left fun q _ => ?_
  simp only [Function.comp]
  split_ifs
  · rw [hf]
  · rfl

theorem kinOp_map {ρ ρ' : Type} (g : ρ → ρ') (f : KinFile ρ) (o : FileOp ρ) :
    FileOp.apply (kinMap g f) (kinOpMap g o) = (FileOp.apply f o).map (kinMap g) := by
  have vert : ∀ (c e : String) (w : EventDset ρ → EventDset ρ) (w' : EventDset ρ' → EventDset ρ'),
      (∀ d, w' (dsetMap g d) = dsetMap g (w d)) →
      modifyName c (fun k : ChunkGroup ρ' => { k with events := modifyName e w' k.events })
          (f.chunks.map fun k => (k.1, chunkMap g k.2))
        = (modifyName c (fun k : ChunkGroup ρ => { k with events := modifyName e w k.events }) f.chunks).map
            fun k => (k.1, chunkMap g k.2) := by
    intro c e w w' hw
    refine modifyName_second (chunkMap g) c _ _ (fun k => ?_) _
    simp only [chunkMap, modifyName_second (dsetMap g) e w w' hw]
  cases o with
  | createChunk name =>
    simp only [kinOpMap, FileOp.apply, kinMap, lookup_second (chunkMap g), Option.isSome_map]
    split_ifs
    · rfl
    · simp only [Except.map, kinMap, List.map_append, List.map_cons, List.map_nil]
      rfl
  | setMin c v =>
    simp only [kinOpMap, FileOp.apply, kinMap, Except.map]
    rw [modifyName_second (chunkMap g) c (fun k => { k with min_event := some v }) _ (fun k => rfl)]
  | setMax c v =>
    simp only [kinOpMap, FileOp.apply, kinMap, Except.map]
    rw [modifyName_second (chunkMap g) c (fun k => { k with max_event := some v }) _ (fun k => rfl)]
  | createEvent c e d =>
    simp only [kinOpMap, FileOp.apply, kinMap, lookup_second (chunkMap g)]
    rcases f.chunks.lookup c with _ | k
    · rfl
    · simp only [Option.map_some, chunkMap, lookup_second (dsetMap g), Option.isSome_map]
      split_ifs
      · rfl
      · simp only [Except.map, kinMap]
        rw [← modifyName_second (chunkMap g) c
          (fun k : ChunkGroup ρ => { k with events := k.events ++ [(e, { data := d })] })
          (fun k : ChunkGroup ρ' => { k with events := k.events ++ [(e, { data := g d })] })
          (fun k => by simp only [chunkMap, List.map_append, List.map_cons, List.map_nil]; rfl)]
        rfl
  | setVx c e v =>
    simp only [kinOpMap, FileOp.apply, kinMap, Except.map]
    rw [vert c e (fun d => { d with vertex_x := some v }) _ (fun d => rfl)]
  | setVy c e v =>
    simp only [kinOpMap, FileOp.apply, kinMap, Except.map]
    rw [vert c e (fun d => { d with vertex_y := some v }) _ (fun d => rfl)]
  | setVz c e v =>
    simp only [kinOpMap, FileOp.apply, kinMap, Except.map]
    rw [vert c e (fun d => { d with vertex_z := some v }) _ (fun d => rfl)]
  | _ => rfl

theorem kinOps_map {ρ ρ' π π' : Type} (g : ρ → ρ') (h : π → π') (os : List (FileOp ρ)) : ∀ st : KinRun ρ π,
    KinRun.ops (os.map (kinOpMap g)) (kinRunMap g h st)
      = ((KinRun.ops os st).1, kinRunMap g h (KinRun.ops os st).2) := by
  induction os with
  | nil =>
    intro st
    rfl
  | cons o os ih =>
    intro st
    rw [List.map_cons]
    unfold KinRun.ops KinRun.op
    have h1 : (kinRunMap g h st).file = kinMap g st.file := rfl
    rw [h1, kinOp_map]
    rcases FileOp.apply st.file o with e | f
    · rfl
    · exact ih ⟨st.pipe, f, f :: st.trace⟩

theorem kinLoop_map {ρ ρ' π π' : Type} (g : ρ → ρ') (h : π → π') (run : PipeRun ρ π) (run' : PipeRun ρ' π')
    (hr : ∀ p, run' (h p) = ((run p).1.map fun q => (q.1, g q.2), h (run p).2)) (cs : ℕ) (n : ℕ) :
    ∀ (event chunk chunk_event : ℕ) (st : KinRun ρ π),
    kinLoop run' cs n event chunk chunk_event (kinRunMap g h st)
      = ((kinLoop run cs n event chunk chunk_event st).1,
          kinRunMap g h (kinLoop run cs n event chunk chunk_event st).2) := by
  induction n with
  | zero =>
    intro event chunk chunk_event st
    rfl
  | succ n ih =>
    intro event chunk chunk_event st
    unfold kinLoop
    have hroll : (if (chunk_event == cs) = true then (kinRunMap g h st).ops (nextChunkOps chunk event)
          else (.ok (), kinRunMap g h st))
        = ((if (chunk_event == cs) = true then st.ops (nextChunkOps chunk event) else (.ok (), st)).1,
            kinRunMap g h (if (chunk_event == cs) = true then st.ops (nextChunkOps chunk event) else (.ok (), st)).2) := by
      split_ifs
      · exact kinOps_map g h (nextChunkOps chunk event) st
      · rfl
    simp only [hroll]
    rcases (if (chunk_event == cs) = true then st.ops (nextChunkOps chunk event) else (.ok (), st)) with ⟨_ | _, st1⟩
    · rfl
    simp only
    have hp : (kinRunMap g h st1).pipe = h st1.pipe := rfl
    rw [hp, hr]
    rcases run st1.pipe with ⟨e | ⟨vertex, result⟩, p⟩
    · rfl
    simp only [Except.map]
    have hops := kinOps_map g h (eventOps (if (chunk_event == cs) = true then chunk + 1 else chunk) event vertex result)
      ⟨p, st1.file, st1.trace⟩
    have he : (eventOps (if (chunk_event == cs) = true then chunk + 1 else chunk) event vertex result).map (kinOpMap g)
        = eventOps (if (chunk_event == cs) = true then chunk + 1 else chunk) event vertex (g result) := rfl
    rw [he] at hops
    have hs : ({ kinRunMap g h st1 with pipe := h p } : KinRun ρ' π') = kinRunMap g h ⟨p, st1.file, st1.trace⟩ := rfl
    rw [hs, hops]
    rcases KinRun.ops (eventOps (if (chunk_event == cs) = true then chunk + 1 else chunk) event vertex result)
      ⟨p, st1.file, st1.trace⟩ with ⟨_ | _, st2⟩
    · rfl
    · exact ih _ _ _ st2

/-- Runs whose calls of `run` differ by a function of the arrays leave files which differ by that function. -/
theorem kinematics_map {ρ ρ' π π' : Type} (g : ρ → ρ') (h : π → π') (run : PipeRun ρ π) (run' : PipeRun ρ' π')
    (hr : ∀ p, run' (h p) = ((run p).1.map fun q => (q.1, g q.2), h (run p).2)) (zs as : List ℤ) (cs : ℕ) (n : ℤ)
    (pipe : π) :
    run_kinematics_pipeline run' zs as cs n (h pipe)
      = ((run_kinematics_pipeline run zs as cs n pipe).1,
          kinRunMap g h (run_kinematics_pipeline run zs as cs n pipe).2) := by
  unfold run_kinematics_pipeline
  have h0 : ({ pipe := h pipe, file := {}, trace := [{}] } : KinRun ρ' π')
      = kinRunMap g h { pipe := pipe, file := {}, trace := [{}] } := rfl
  have h1 := kinOps_map g h [.setNEvents n, .setProton zs, .setMass as, .setChunkSize cs,
    .createChunk (chunk_name 0), .setMin (chunk_name 0) 0] ({ pipe := pipe, file := {}, trace := [{}] } : KinRun ρ π)
  simp only [List.map_cons, List.map_nil, kinOpMap] at h1
  simp only
  rw [h0, h1]
  rcases KinRun.ops [.setNEvents n, .setProton zs, .setMass as, .setChunkSize cs,
    .createChunk (chunk_name 0), .setMin (chunk_name 0) 0] ({ pipe := pipe, file := {}, trace := [{}] } : KinRun ρ π)
    with ⟨_ | _, st⟩
  · rfl
  simp only
  rw [kinLoop_map g h run run' hr]
  rcases kinLoop run cs n.toNat 0 0 0 st with ⟨_ | chunk, st⟩
  · rfl
  · exact kinOps_map g h [.setMax (chunk_name chunk) (n - 1), .setNChunks (chunk + 1), .close] st

/-- **C164.** A whole run of the kinematics in another unit ends alike after the same random numbers; at every moment
its file differs from the file of the original run only in the four-momenta, which are in that unit. -/
theorem C164_file {σ : Type} {c : ℝ} (hc : 0 < c) (p : Pipeline σ) (zs as : List ℤ) (cs : ℕ) (n : ℤ)
    (st : PipeState σ) :
    run_kinematics_pipeline (unitPipeline c p).runCopy zs as cs n (unitState c st)
      = ((run_kinematics_pipeline p.runCopy zs as cs n st).1,
          kinRunMap (List.map (Option.map (unitVec c))) (unitState c)
            (run_kinematics_pipeline p.runCopy zs as cs n st).2) := by
  refine kinematics_map _ _ _ _ (fun q => ?_) zs as cs n st
  unfold Pipeline.runCopy
  rw [C164_run hc]
  rcases p.run q with ⟨_ | _, q'⟩
  · rfl
  · rfl

/-- In keV instead of MeV: the reaction of the example at 5000 keV with 1000 keV of excitation is allowed. -/
example : (unitReaction 1000 exReaction).is_excitation_allowed 5000 1000 = true ∧
    (unitReaction 1000 exReaction).ejectile.mass = 1000 * exReaction.ejectile.mass := by
  refine ⟨?_, rfl⟩
  have h := C164_allowed (c := 1000) (by norm_num) exReaction 5 1
  norm_num at h
  rw [h]
  exact exReaction_allowed

end Verif.Props
