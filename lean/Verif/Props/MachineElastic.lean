import Verif.Props.MachineThreshold
import Verif.Proofs.Nearest

/-! # C140 in machine arithmetic -/

namespace Verif.Machine

open Verif.Kinematics

/-- Target and projectile leave the reaction as ejectile and residual, in either order. -/
def Elastic (r : Reaction) : Prop :=
  (r.ejectile.mass = r.target.mass ∧ r.residual.mass = r.projectile.mass) ∨
    (r.ejectile.mass = r.projectile.mass ∧ r.residual.mass = r.target.mass)

theorem Elastic.sum {r : Reaction} (hel : Elastic r) :
    r.ejectile.mass + r.residual.mass = r.target.mass + r.projectile.mass := by
  rcases hel with ⟨a, b⟩ | ⟨a, b⟩ <;> rw [a, b]
  ring

/-- **C140.** In float64 the beam energy of an elastic reaction is compared with a threshold that is exactly 0: the
rounding errors of the Q value cancel, and `calculate` does not raise. -/
theorem C140_threshold {k : Kin64} (h : Rounding k.rn) {r : Reaction} (hm : MassesOk r) (hel : Elastic r) {T : ℝ}
    (hT : 0 ≤ T) (polar azimuthal : ℝ) : ∃ res, reaction_calculate64 k r T polar azimuthal 0 = .ok res := by
  have hsum := hel.sum
  have hden : k.rn (k.rn (r.target.mass + r.projectile.mass) - r.projectile.mass) ≠ 0 := by
    have t1 := hm.target.1
    have p1 := hm.projectile.1
    have t2 := hm.target.2
    have p2 := hm.projectile.2
    have h1 : |r.projectile.mass - r.projectile.mass| ≤ 0 * r.projectile.mass := by simp
    have s1 := add_near h (by linarith) (by linarith : 0 ≤ r.target.mass) h1 le_rfl (by norm_num) (p1.trans' (by norm_num))
      (by norm_num at p2 t2 ⊢; linarith)
    rw [add_comm] at s1
    have s2 := abs_le.1 s1
    have h2 : (1 / 2 : ℝ) ≤ k.rn (r.target.mass + r.projectile.mass) - r.projectile.mass := by
      norm_num at s2 p2 t2
      linarith
    have h3 := h.ge_of_ge (mem_of_eq 1 (-1) (by norm_num) (by norm_num) (by norm_num) (by norm_num) : (1 / 2 : ℝ) ∈ Binary64) h2
    intro h0
    rw [h0] at h3
    norm_num at h3
  have z : k.rn 0 = 0 := h.exact zero_mem
  have hex : k.rn (k.rn (r.target.mass + r.projectile.mass)) = k.rn (r.target.mass + r.projectile.mass) := h.exact (h _).1
  unfold reaction_calculate64
  simp only [hsum, add_zero, hex, sub_self, z, neg_zero, zero_mul, zero_div]
  rw [if_neg hden, if_neg (not_lt.2 hT)]
  repeat' split
  all_goals exact ⟨_, rfl⟩

theorem elastic_margin {t p T e : ℝ} (ht : 0 < t) (hp : 0 < p) (hT : T ≤ t + p) (he : 0 < e)
    (hs : e ^ 2 = (t + p) ^ 2 + 2 * t * T) (hmin : 1e-11 * (t + p) ^ 4 ≤ t ^ 2 * p * T) :
    1e-12 * e ^ 3 ≤ (e - (t + p)) * (t * p) ∧ (t + p) * (1 + 1e-14) < e := by
  have hM : 0 < t + p := by linarith
  have tp : 0 < t * p := by positivity
  have hle : e ≤ 1.75 * (t + p) := by
    refine abs_le_of_sq_le_sq' ?_ (by positivity) |>.2
    have : t * T ≤ (t + p) * (t + p) := by nlinarith
    rw [hs]
    nlinarith
  have hprod : (e - (t + p)) * (e + (t + p)) = 2 * (t * T) := by linarith [hs, sq_sub_sq e (t + p), mul_comm (e + (t + p)) (e - (t + p))]
  have hpos : 0 < e + (t + p) := by linarith
  have h4 : 4 * (t * p) ≤ (t + p) ^ 2 := by nlinarith [sq_nonneg (t - p)]
  have htT : 4e-11 * (t + p) ^ 2 ≤ t * T := by
    have h1 : 1e-11 * (t + p) ^ 4 ≤ t * p * (t * T) := by linarith [show t * p * (t * T) = t ^ 2 * p * T by ring]
    have h0 : 0 < t * T := by
      have : 0 < t * p * (t * T) := lt_of_lt_of_le (by positivity) h1
      exact pos_of_mul_pos_right this tp.le
    have h2 : 4 * (t * p) * (t * T) ≤ (t + p) ^ 2 * (t * T) := mul_le_mul_of_nonneg_right h4 h0.le
    have h3 : (t + p) ^ 2 * (4e-11 * (t + p) ^ 2) ≤ (t + p) ^ 2 * (t * T) := by
      have : (t + p) ^ 2 * (4e-11 * (t + p) ^ 2) = 4 * (1e-11 * (t + p) ^ 4) := by ring
      linarith
    exact le_of_mul_le_mul_left h3 (by positivity)
  constructor
  · have h1 : 1e-12 * e ^ 3 * (e + (t + p)) ≤ (e - (t + p)) * (t * p) * (e + (t + p)) := by
      have e3 : e ^ 3 ≤ (1.75 * (t + p)) ^ 3 := pow_le_pow_left₀ he.le hle 3
      calc 1e-12 * e ^ 3 * (e + (t + p)) ≤ 1e-12 * (1.75 * (t + p)) ^ 3 * (2.75 * (t + p)) := by
            refine mul_le_mul (mul_le_mul_of_nonneg_left e3 (by norm_num)) (by linarith) hpos.le (by positivity)
        _ ≤ 2 * (1e-11 * (t + p) ^ 4) := by
            have : 0 ≤ (t + p) ^ 4 := by positivity
            have e1 : (1e-12 : ℝ) * (1.75 * (t + p)) ^ 3 * (2.75 * (t + p)) = 1e-12 * 1.75 ^ 3 * 2.75 * (t + p) ^ 4 := by ring
            rw [e1, ← mul_assoc]
            exact mul_le_mul_of_nonneg_right (by norm_num) this
        _ ≤ 2 * (t ^ 2 * p * T) := by linarith
        _ = (e - (t + p)) * (t * p) * (e + (t + p)) := by linear_combination (-(t * p)) * hprod
    exact le_of_mul_le_mul_right h1 hpos
  · have h1 : (t + p) * 1e-14 * (e + (t + p)) < (e - (t + p)) * (e + (t + p)) := by
      rw [hprod]
      have : (t + p) * 1e-14 * (e + (t + p)) ≤ (t + p) * 1e-14 * (2.75 * (t + p)) :=
        mul_le_mul_of_nonneg_left (by linarith) (by positivity)
      have : 0 < (t + p) ^ 2 := by positivity
      nlinarith
    have := lt_of_mul_lt_mul_right h1 hpos.le
    linarith

/-- **C140.** In float64 elastic scattering to the ground state is accepted and gives numbers for all beam energies from
`1e-11 (t + p)^4 / (t² p)` on (15 eV for 16C on deuterons), where `t` and `p` are the masses of target and projectile. -/
theorem C140_machine {σ : Type} {k : Kin64} (hk : k.BoostOk) {pl : Pipeline σ} (hd : pl.decays = []) (hm : MassesOk pl.reaction)
    (hel : Elastic pl.reaction) {x : Sample} (hx : x.reaction_excitation = 0) (hT : 1e-6 ≤ x.beam_energy)
    (hT2 : x.beam_energy ≤ pl.reaction.target.mass + pl.reaction.projectile.mass)
    (hmin : 1e-11 * (pl.reaction.target.mass + pl.reaction.projectile.mass) ^ 4
      ≤ pl.reaction.target.mass ^ 2 * pl.reaction.projectile.mass * x.beam_energy) :
    ∃ b e s, attempt64 k pl x = .ok (some [⟨0, 0, 0, pl.reaction.target.mass⟩, b, e, s]) := by
  have hr := hk.rounding
  have T0 : 0 < x.beam_energy := lt_of_lt_of_le (by norm_num) hT
  have t0 : 0 < pl.reaction.target.mass := by linarith [hm.target.1]
  have p0 : 0 < pl.reaction.projectile.mass := by linarith [hm.projectile.1]
  obtain ⟨e0, -, hex, -⟩ := cm_facts hm.target hm.projectile T0.le hT2 (e := cmEnergy pl.reaction x.beam_energy) rfl
  have hout : outMass pl.reaction 0 = pl.reaction.target.mass + pl.reaction.projectile.mass := by
    unfold outMass
    rw [hel.sum, add_zero]
  have hmm : pl.reaction.ejectile.mass * (pl.reaction.residual.mass + 0)
      = pl.reaction.target.mass * pl.reaction.projectile.mass := by
    rw [add_zero]
    rcases hel with ⟨a, b⟩ | ⟨a, b⟩ <;> rw [a, b]
    ring
  have hmar := elastic_margin (e := cmEnergy pl.reaction x.beam_energy) t0 p0 hT2 (by linarith)
    (by rw [← hex]; ring) hmin
  have hmargin : 1e-12 * cmEnergy pl.reaction x.beam_energy ^ 3 ≤ (cmEnergy pl.reaction x.beam_energy
      - outMass pl.reaction 0) * (pl.reaction.ejectile.mass * (pl.reaction.residual.mass + 0)) := by
    rw [hout, hmm]
    exact hmar.1
  have hall : reaction_allowed64 k pl.reaction x.beam_energy 0 = true := by
    refine (C136_allowed hr hm hT hT2 le_rfl (by norm_num)).1 ?_
    rw [hout]
    exact hmar.2
  obtain ⟨res, hres⟩ := C140_threshold hr hm hel T0.le x.reaction_theta x.reaction_phi
  obtain ⟨b, e, s, c, p, hres', -⟩ := C136_finite hk hm hT hT2 le_rfl (by norm_num) hmargin hres
  refine ⟨b, e, s, ?_⟩
  unfold attempt64
  rw [hx, hall, hd, hres, hres']
  rfl

/-- **C140.** The energies below that are not all accepted: at `2^-44` MeV, which is lost when the masses are added, the
elastic scattering of a nucleus of 14914 MeV on one of 1876 MeV is rejected, whatever the rounding of ties. -/
theorem C140_tiny {k : Kin64} (h : Rounding k.rn) :
    reaction_allowed64 k ⟨⟨1, 2, 1876, "2H"⟩, ⟨6, 16, 14914, "16C"⟩, ⟨1, 2, 1876, "2H"⟩, ⟨6, 16, 14914, "16C"⟩⟩
      (2 ^ (-44 : ℤ)) 0 = false := by
  have h1 : k.rn (1876 + 2 ^ (-44 : ℤ)) = 1876 := by
    rw [h.nearest (m := 1876 * 2 ^ 42) (e := -42) (by norm_num) (by norm_num) (by norm_num) (by norm_num) (by norm_num [abs_of_pos])]
    norm_num
  have h2 : k.rn 16790 = 16790 := by exact_mod_cast h.int (n := 16790) (by norm_num)
  have h3 : k.rn 281904100 = 281904100 := by exact_mod_cast h.int (n := 281904100) (by norm_num)
  have m3 : (281904100 : ℝ) ∈ Binary64 := by exact_mod_cast int_mem (n := 281904100) (by norm_num)
  have m2 : (16790 : ℝ) ∈ Binary64 := by exact_mod_cast int_mem (n := 16790) (by norm_num)
  have s1 : (1876 : ℝ) + 14914 = 16790 := by norm_num
  have s2 : (16790 : ℝ) ^ 2 = 281904100 := by norm_num
  unfold reaction_allowed64
  simp only [h1, s1, h2, s2, h3, add_zero]
  cases hq : npSqrt64 k.rn (k.rn (2 ^ (-44 : ℤ) * k.rn (2 ^ (-44 : ℤ) + k.rn (2 * 14914)))) with
  | none => rfl
  | some pz =>
    simp only
    cases hw : npSqrt64 k.rn (k.rn (281904100 - k.rn (pz ^ 2))) with
    | none => rfl
    | some e =>
      simp only
      unfold npSqrt64 at hw
      split_ifs at hw
      cases hw
      rw [decide_eq_false_iff_not, not_lt]
      refine h.le_of_le m2 ?_
      have : k.rn (281904100 - k.rn (pz ^ 2)) ≤ 281904100 :=
        h.le_of_le m3 (by linarith [h.nonneg (sq_nonneg pz)])
      rw [← s2] at this ⊢
      exact Real.sqrt_le_iff.2 ⟨by norm_num, this⟩

/-- The scattering of the example of the user guide, with a number as beam energy. -/
noncomputable def exGuide (T : ℝ) : Pipeline Unit × Sample :=
  ({ reaction := ⟨⟨1, 2, 1876.124, "2H"⟩, ⟨6, 16, 14914.53, "16C"⟩, ⟨1, 2, 1876.124, "2H"⟩, ⟨6, 16, 14914.53, "16C"⟩⟩
     decays := [], excitations := [], polar_dists := [], beam_energy := T, target_material := none
     event_sample_limit := 1000, rng := ⟨fun m _ s => (m, s), fun a _ s => (a, s)⟩ },
   ⟨T, 0, 1, 2, (0, 0, 0), [], [], []⟩)

/-- Non-trivial instance of `C140_machine` and `C140_threshold`: all beam energies from 20 eV to 10 GeV. -/
example {rn : ℝ → ℝ} (h : Rounding rn) {T : ℝ} (h1 : 2e-5 ≤ T) (h2 : T ≤ 1e4) :
    ∃ b e s, attempt64 (exactKin rn) (exGuide T).1 (exGuide T).2 = .ok (some [⟨0, 0, 0, 1876.124⟩, b, e, s]) := by
  refine C140_machine (exactKin_boostOk h) rfl ⟨?_, ?_, ?_, ?_⟩ (Or.inl ⟨rfl, rfl⟩) rfl (h1.trans' (by norm_num)) ?_ ?_
  all_goals try (constructor <;> norm_num [exGuide])
  · simp only [exGuide]
    norm_num at h2 ⊢
    linarith
  · simp only [exGuide]
    norm_num at h1 ⊢
    linarith

end Verif.Machine
