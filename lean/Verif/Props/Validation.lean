import Verif.Props.LabKinematics
import Verif.Props.Pipeline
import Verif.Detector.Pairing
import Mathlib.Analysis.SpecialFunctions.Trigonometric.Bounds

/-! # The model on the cases of the project's own tests

These theorems are no properties. They evaluate the model on the inputs of `/repo/tests` and find the values asserted
there. -/

namespace Verif.Props

open Verif.Kinematics Verif.Spec

/-- ¹²C(d,p)¹³C with masses in MeV (atomic mass evaluation of 2020, less the electrons), tests/test_kinematics.py:14-18. -/
noncomputable def carbonReaction : Reaction :=
  { target := ⟨6, 12, 11174.86323534, "12C"⟩
    projectile := ⟨1, 2, 1875.61292903, "2H"⟩
    ejectile := ⟨1, 1, 938.27207484, "1H"⟩
    residual := ⟨6, 13, 12109.48234684, "13C"⟩ }

theorem cos_twenty : 0.93969 < Real.cos (Real.pi / 9) ∧ Real.cos (Real.pi / 9) < 0.9397 := by
  have h := Real.cos_three_mul (Real.pi / 9)
  rw [show 3 * (Real.pi / 9) = Real.pi / 3 by ring, Real.cos_pi_div_three] at h
  have h1 : Real.cos (Real.pi / 3) ≤ Real.cos (Real.pi / 9) :=
    Real.cos_le_cos_of_nonneg_of_le_pi (by positivity) (by linarith [Real.pi_pos]) (by linarith [Real.pi_pos])
  rw [Real.cos_pi_div_three] at h1
  generalize Real.cos (Real.pi / 9) = c at *
  constructor
  · by_contra hc
    push Not at hc
    nlinarith [mul_nonneg (sub_nonneg.2 h1) (sub_nonneg.2 hc), sq_nonneg (c - 0.5), sq_nonneg c,
      mul_nonneg (sq_nonneg c) (sub_nonneg.2 hc)]
  · by_contra hc
    push Not at hc
    nlinarith [mul_nonneg (sub_nonneg.2 h1) (sub_nonneg.2 hc), sq_nonneg (c - 0.9397), sq_nonneg c,
      mul_nonneg (sq_nonneg c) (sub_nonneg.2 hc)]

/-- `test_reaction`, tests/test_kinematics.py:13-38: with 16 MeV deuterons and protons at 20° in the centre of mass
the kinetic energy of the proton rounds to 18.391 MeV. -/
theorem test_reaction : ∃ t p e q, carbonReaction.calculate 16 (Real.pi / 9) 0 0 = .ok (t, some p, some e, some q) ∧
    18.3905 < e.E - e.M ∧ e.E - e.M < 18.3915 := by
  have hok : ReactionOk carbonReaction := ⟨by norm_num [carbonReaction], by norm_num [carbonReaction],
    by norm_num [carbonReaction]⟩
  have hEx : 0 ≤ carbonReaction.residual.mass + 0 := by norm_num [carbonReaction]
  have ha : carbonReaction.is_excitation_allowed 16 0 = true := by
    rw [C42_reaction hok (by norm_num), parent_M hok (by norm_num)]
    unfold cmEnergy
    apply Real.lt_sqrt_of_sq_lt
    norm_num [carbonReaction]
  obtain ⟨t, p, e, q, hc⟩ := C43_partial hok (T := 16) (by norm_num) hEx ha (by norm_num [carbonReaction])
    (Or.inr (by norm_num [carbonReaction])) (Real.pi / 9) 0
  refine ⟨t, p, e, q, hc, ?_⟩
  obtain ⟨he, -⟩ := C81_closed_form hok (by norm_num) hEx ha _ _ hc
  obtain ⟨t', p', e', q', h1, -, -, -, -, -, -, -, hM, -⟩ := C40_reaction hok (by norm_num) hEx ha _ _ hc
  simp only [Prod.mk.injEq, Option.some.injEq] at h1
  obtain ⟨-, -, rfl, -⟩ := h1
  rw [hM, he]
  have hle : carbonReaction.ejectile.mass + (carbonReaction.residual.mass + 0) ≤ cmEnergy carbonReaction 16 := by
    have := ha
    rw [C42_reaction hok (by norm_num), parent_M hok (by norm_num)] at this
    linarith
  have hes := eStar_eq hok (by norm_num) hEx hle
  obtain ⟨c1, c2⟩ := cos_twenty
  have hs2 := cmEnergy_sq hok (T := 16) (by norm_num)
  have hsp := cmEnergy_pos hok (T := 16) (by norm_num)
  rw [hes]
  simp only [TwoBody.gamma, TwoBody.gammaBeta, TwoBody.pStar]
  rw [(twoBody_s (Ex := 0) hok (by norm_num)).1, (twoBody_s (Ex := 0) hok (by norm_num)).2]
  simp only [Reaction.twoBody] at *
  rw [hs2]
  have e1 : ∀ (E N P R c m W : ℝ), W ≠ 0 → E / W * (N / (2 * W)) + P / W * (R / (2 * W) * c) - m
      = (E * N + P * R * c) / (2 * W ^ 2) - m := by
    intro E N P R c m W hW
    field_simp
  rw [e1 _ _ _ _ _ _ _ hsp.ne', hs2]
  generalize Real.cos (Real.pi / 9) = c at *
  simp only [carbonReaction]
  clear hc he hM hle hes hs2 hsp ha hEx hok
  set P := Real.sqrt (16 * (16 + 2 * 1875.61292903)) with hP
  have p1 : 245.5109 < P := Real.lt_sqrt_of_sq_lt (by norm_num)
  have p2 : P < 245.511 := (Real.sqrt_lt' (by norm_num)).2 (by norm_num)
  set R := Real.sqrt ((((11174.86323534 : ℝ) + 1875.61292903) ^ 2 + 2 * 11174.86323534 * 16
    - (938.27207484 + (12109.48234684 + 0)) ^ 2) * (((11174.86323534 : ℝ) + 1875.61292903) ^ 2
    + 2 * 11174.86323534 * 16 - (938.27207484 - (12109.48234684 + 0)) ^ 2)) with hR
  have r1 : 4434411 < R := Real.lt_sqrt_of_sq_lt (by norm_num)
  have r2 : R < 4434412 := (Real.sqrt_lt' (by norm_num)).2 (by norm_num)
  have lo : 245.5109 * 4434411 * 0.93969 ≤ P * R * c := by gcongr
  have hi : P * R * c ≤ 245.511 * 4434412 * 0.9397 := by gcongr
  generalize P * R * c = x at *
  clear hP hR p1 p2 r1 r2 c1 c2
  constructor
  · rw [lt_sub_iff_add_lt, lt_div_iff₀ (by norm_num)]
    norm_num at lo ⊢
    linarith
  · rw [sub_lt_iff_lt_add, div_lt_iff₀ (by norm_num)]
    norm_num at hi ⊢
    linarith

/-- `test_pairing_low` and `test_pairing_hi`, tests/test_pairing.py:4-26. -/
theorem test_pairing :
    Detector.pair 56 937 = 937 ^ 2 + 56 ∧ Detector.unpair (Detector.pair 56 937) = (56, 937) ∧
    Detector.pair 937 56 = 937 ^ 2 + 937 + 56 ∧ Detector.unpair (Detector.pair 937 56) = (937, 56) := by
  decide +kernel

/-- The nuclei of tests/test_kinematics.py:41-82; the masses play no part here. -/
noncomputable def testMap : NuclearMap := fun z a => match z, a with
  | 1, 1 => .ok ⟨1, 1, 938.272, "1H"⟩
  | 2, 3 => .ok ⟨2, 3, 2808.391, "3He"⟩
  | 2, 4 => .ok ⟨2, 4, 3727.379, "4He"⟩
  | 3, 5 => .ok ⟨3, 5, 4667.617, "5Li"⟩
  | 4, 8 => .ok ⟨4, 8, 7454.85, "8Be"⟩
  | 5, 9 => .ok ⟨5, 9, 8393.307, "9B"⟩
  | 5, 10 => .ok ⟨5, 10, 9324.436, "10B"⟩
  | _, _ => .error .keyError

/-- `Reaction(target=10B, projectile=3He, ejectile=4He)` of the tests. -/
noncomputable def testReaction : Reaction :=
  ⟨⟨5, 10, 9324.436, "10B"⟩, ⟨2, 3, 2808.391, "3He"⟩, ⟨2, 4, 3727.379, "4He"⟩, ⟨5, 9, 8393.307, "9B"⟩⟩

/-- `Decay(parent=9B, residual_1=4He)` of the tests. -/
noncomputable def testDecay : Decay :=
  ⟨⟨5, 9, 8393.307, "9B"⟩, ⟨2, 4, 3727.379, "4He"⟩, ⟨3, 5, 4667.617, "5Li"⟩⟩

/-- `Decay(parent=5Li, residual_1=4He)` of the tests. -/
noncomputable def testDecay2 : Decay :=
  ⟨⟨3, 5, 4667.617, "5Li"⟩, ⟨2, 4, 3727.379, "4He"⟩, ⟨1, 1, 938.272, "1H"⟩⟩

/-- The constructors called in the tests give these objects. -/
theorem test_constructors :
    (do mkReaction testMap (← testMap 5 10) (← testMap 2 3) (← testMap 2 4)) = .ok testReaction ∧
    (do mkDecay testMap (← testMap 5 9) (← testMap 2 4)) = .ok testDecay ∧
    (do mkDecay testMap (← testMap 3 5) (← testMap 2 4)) = .ok testDecay2 := by
  refine ⟨?_, ?_, ?_⟩ <;> rfl

/-- `test_pipeline`, tests/test_kinematics.py:41-82: the pipeline is accepted, and whenever `run` returns, the proton
numbers, mass numbers, the number of rows and the vertex are those of the test. -/
theorem test_pipeline {σ : Type} (rng : Gen σ) (gen : σ) (uninit : ℕ → ResultRow) :
    ∃ p st, mkPipeline rng gen uninit [.reaction testReaction, .decay testDecay, .decay testDecay2]
        [(mkExcitationGaussian 16.8 0.2).sample rng, (mkExcitationGaussian 0 1.25).sample rng,
          (mkExcitationGaussian 0 0).sample rng]
        (List.replicate 3 ((mkPolarUniform 0 Real.pi).sample rng)) 24 none = .ok (p, st) ∧
      p.get_proton_numbers = [5, 2, 2, 5, 2, 3, 2, 1] ∧ p.get_mass_numbers = [10, 3, 4, 9, 4, 5, 4, 1] ∧
      ∀ v st', p.run st = (.ok v, st') → st'.result.length = 8 ∧ v = (0, 0, 0) := by
  refine ⟨_, _, rfl, rfl, rfl, ?_⟩
  generalize hp : Pipeline.mk testReaction _ _ _ _ _ _ rng = p
  have htm : p.target_material = none := by rw [← hp]
  have hd : p.decays.length = 2 := by rw [← hp]; rfl
  clear hp
  intro v st' h
  obtain ⟨h1, h2⟩ := runLoop_spec p p.event_sample_limit.toNat
    ⟨gen, (List.range (4 + ([Step.reaction testReaction, .decay testDecay, .decay testDecay2].length - 1) * 2)).map
      uninit⟩ (by simp [hd])
  unfold Pipeline.run at h
  rw [h] at h1 h2
  refine ⟨by simpa using h1, ?_⟩
  obtain ⟨-, -, s, x, -, g2, -, rfl⟩ := h2
  obtain ⟨s1, hs1⟩ := sample_vertex_of g2
  unfold Pipeline.sample_vertex at hs1
  rw [htm] at hs1
  simp only [Except.ok.injEq, Prod.mk.injEq] at hs1
  exact hs1.1.2.symm

/-- `test_pipeline_ex_length`, `test_pipeline_pl_length`, `test_pipeline_chain`, `test_pipeline_order` and
`test_pipeline_sample_limit`, tests/test_kinematics.py:85-235: `PipelineError` is raised. In the last of them it is
raised by the constructor, because the test passes two angular distributions for one step, and not by `run`. -/
theorem test_pipeline_errors {σ : Type} (rng : Gen σ) (gen : σ) (uninit : ℕ → ResultRow) (x y u : Sampler σ)
    (other : Decay) (ho : other.parent.isotopic_symbol = "8Be") :
    mkPipeline rng gen uninit [.reaction testReaction, .decay testDecay] [x] [u, u] 24 none = .error .pipelineError ∧
    mkPipeline rng gen uninit [.reaction testReaction, .decay testDecay] [x, y] [u] 24 none = .error .pipelineError ∧
    mkPipeline rng gen uninit [.reaction testReaction, .decay other] [x, y] [u, u] 24 none = .error .pipelineError ∧
    mkPipeline rng gen uninit [.decay testDecay, .reaction testReaction] [x, y] [u, u] 24 none
      = .error .pipelineError ∧
    mkPipeline rng gen uninit [.reaction testReaction] [x] [u, u] 2 none = .error .pipelineError := by
  refine ⟨rfl, rfl, ?_, rfl, rfl⟩
  simp [mkPipeline, check_chain, testReaction, ho]

end Verif.Props
