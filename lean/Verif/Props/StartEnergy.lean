import Verif.Props.Species
import Verif.Props.Trajectory

/-! # C72: the energy with which the detector simulation starts a nucleus -/

namespace Verif.Props

open Verif.Kinematics Verif.Spec Verif.Detector

/-- The kinetic energy with which the trajectory of a nucleus with four-momentum `q` starts. -/
noncomputable def startEnergy (n : Nucleus) (q : Vec4) (vertex : ℝ × ℝ × ℝ) (params : DetectorParams) : ℝ :=
  kinetic n (trajectory_problem vertex (q.px, q.py, q.pz) n params).y0

theorem startEnergy_eq {n : Nucleus} (hm : 0 < n.mass) {q : Vec4} (hE : 0 < q.E) {ex : ℝ}
    (hex : 0 < n.mass + ex) (hM : q.M = n.mass + ex) (vertex : ℝ × ℝ × ℝ) (params : DetectorParams) :
    startEnergy n q vertex params
      = Real.sqrt (q.E ^ 2 - (n.mass + ex) ^ 2 + n.mass ^ 2) - n.mass := by
  unfold startEnergy
  rw [kinetic_initial hm params]
  have h2 := M2_of_M hex hM
  unfold Vec4.M2 at h2
  congr 2
  simp only
  linarith

/-- **C72, the part that holds.** A nucleus without excitation starts with the kinetic energy `E - M` of
its four-momentum. -/
theorem C72_ground_partial {n : Nucleus} (hm : 0 < n.mass) {q : Vec4} (hE : 0 < q.E)
    (hM : q.M = n.mass) (vertex : ℝ × ℝ × ℝ) (params : DetectorParams) :
    startEnergy n q vertex params = q.E - q.M := by
  have := startEnergy_eq hm hE (ex := 0) (by linarith) (by linarith) vertex params
  rw [this, add_zero, sub_add_cancel, Real.sqrt_sq hE.le, hM]

/-- **C72.** An excited nucleus that moves starts with too much kinetic energy: its momentum is divided
by the mass of the ground state. The excess is less than the excitation energy. -/
theorem C72_excited_partial {n : Nucleus} (hm : 0 < n.mass) {q : Vec4} (hE : 0 < q.E) {ex : ℝ}
    (hex : 0 < ex) (hM : q.M = n.mass + ex) (hp : ¬ (q.px = 0 ∧ q.py = 0 ∧ q.pz = 0))
    (vertex : ℝ × ℝ × ℝ) (params : DetectorParams) :
    q.E - q.M < startEnergy n q vertex params ∧ startEnergy n q vertex params < q.E - q.M + ex := by
  rw [startEnergy_eq hm hE (by linarith) hM, hM]
  have h2 := M2_of_M (by linarith : 0 < n.mass + ex) hM
  unfold Vec4.M2 at h2
  have hp2 : 0 < q.px ^ 2 + q.py ^ 2 + q.pz ^ 2 := by
    rcases (by positivity : 0 ≤ q.px ^ 2 + q.py ^ 2 + q.pz ^ 2).eq_or_lt with h | h
    · exfalso
      apply hp
      have h1 := sq_nonneg q.px
      have h2 := sq_nonneg q.py
      have h3 := sq_nonneg q.pz
      refine ⟨?_, ?_, ?_⟩ <;> (apply pow_eq_zero_iff two_ne_zero |>.1; linarith)
    · exact h
  have hgt : n.mass + ex < q.E := by
    apply lt_of_pow_lt_pow_left₀ 2 hE.le
    linarith
  constructor
  · have : q.E - ex < Real.sqrt (q.E ^ 2 - (n.mass + ex) ^ 2 + n.mass ^ 2) := by
      apply Real.lt_sqrt_of_sq_lt
      nlinarith
    linarith
  · have : Real.sqrt (q.E ^ 2 - (n.mass + ex) ^ 2 + n.mass ^ 2) < q.E := by
      rw [Real.sqrt_lt' hE]
      nlinarith
    linarith

/-- **C72 is false for excited residuals.** In the first event of the example pipeline the residual
starts with more kinetic energy than its four-momentum says. -/
theorem C72_refuted : ∃ (st st' : PipeState ℕ) (v : ℝ × ℝ × ℝ) (t b e q : Vec4) (rows : List Vec4),
    exPipe.run st = (.ok v, st') ∧ st'.result = (t :: b :: e :: q :: rows).map some ∧
    ∀ vertex params, q.E - q.M < startEnergy exPipe.reaction.residual q vertex params := by
  obtain ⟨st', h, -, hr⟩ := exPipe_first (List.replicate 6 none) rfl
  obtain ⟨-, t, b, e, q, rs, i1, i2⟩ := eventRows_some exPipe_chain
    (exPipe_samples 6 _ _ (exPipe_sample 6)) hr
  refine ⟨_, st', _, t, b, e, q, rs, h, i1, fun vertex params => ?_⟩
  have hM := i2.residual_M
  have hex : (exSample 6).reaction_excitation = 19 / 10 := by norm_num [exSample, exExcitation]
  refine (C72_excited_partial (by norm_num [exPipe, exReaction]) i2.residual_E (ex := 19 / 10)
    (by norm_num) (by rw [hM, hex]) ?_ vertex params).1
  rintro ⟨h1, h2, h3⟩
  have hM2 := M2_of_M (by norm_num [exPipe, exReaction, hex]) hM
  have hMe := M2_of_M (by norm_num [exPipe, exReaction]) i2.ejectile_M
  have hMb := M2_of_M (by norm_num [exPipe, exReaction]) i2.beam_M
  have hc := i2.conserved
  have c0 := congrArg Vec4.px hc
  have c1 := congrArg Vec4.py hc
  have c2 := congrArg Vec4.pz hc
  have c3 := congrArg Vec4.E hc
  have hbE := i2.beam_E
  have ht := i2.target
  have hb1 := i2.beam_px
  have hb2 := i2.beam_py
  change e.px + q.px = t.px + b.px at c0
  change e.py + q.py = t.py + b.py at c1
  change e.pz + q.pz = t.pz + b.pz at c2
  change e.E + q.E = t.E + b.E at c3
  rw [ht] at c0 c1 c2 c3
  simp only [Vec4.M2, h1, h2, h3, hex, exPipe, exReaction, exSample] at hM2 hMe hMb c0 c1 c2 c3 hbE
  have hqE := i2.residual_E
  rw [show exExcitation 6 = 19 / 10 by norm_num [exExcitation]] at hM2
  have hq : q.E = 49 / 10 := by nlinarith
  rw [hb1] at c0 hMb
  rw [hb2] at c1 hMb
  have e1 : e.px = 0 := by linarith
  have e2 : e.py = 0 := by linarith
  have e3 : e.pz = b.pz := by linarith
  have e4 : e.E = 41 / 10 := by linarith
  rw [e1, e2, e3, e4] at hMe
  rw [hbE] at hMb
  linarith

/-- C72 applies to a moving nucleus of mass 4 with total energy 5. -/
example (vertex : ℝ × ℝ × ℝ) (params : DetectorParams) :
    startEnergy ⟨2, 4, 4, "4He"⟩ ⟨0, 0, 3, 5⟩ vertex params = 1 := by
  have hM : (⟨0, 0, 3, 5⟩ : Vec4).M = 4 := Vec4.M_of_M2 (by norm_num) (by norm_num [Vec4.M2])
  rw [C72_ground_partial (by norm_num) (by norm_num) hM, hM]
  norm_num

end Verif.Props
