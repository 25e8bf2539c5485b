import Verif.Props.Kinematics
import Verif.Spec.TwoBody
import Mathlib.Analysis.SpecialFunctions.Trigonometric.Inverse

/-! # C81: the products of a reaction in the laboratory -/

namespace Verif.Props

open Verif.Kinematics Verif.Spec

/-- The two-body problem of a reaction with excitation `Ex` and beam energy `T`. -/
def Reaction.twoBody (r : Reaction) (T Ex : ℝ) : TwoBody :=
  ⟨r.target.mass, r.projectile.mass, r.ejectile.mass, r.residual.mass + Ex, T⟩

section

variable {r : Reaction} {T Ex : ℝ}

theorem twoBody_s (h : ReactionOk r) (hT : 0 ≤ T) :
    Real.sqrt (Reaction.twoBody r T Ex).s = cmEnergy r T ∧ (Reaction.twoBody r T Ex).s = cmEnergy r T ^ 2 :=
  ⟨rfl, (cmEnergy_sq h hT).symm⟩

/-- The momentum in the centre of mass, in the form used by the code. -/
theorem pStar_sq (h : ReactionOk r) (hT : 0 ≤ T) (hEx : 0 ≤ r.residual.mass + Ex)
    (hle : r.ejectile.mass + (r.residual.mass + Ex) ≤ cmEnergy r T) :
    0 ≤ (Reaction.twoBody r T Ex).pStar ∧ (Reaction.twoBody r T Ex).pStar ^ 2
      = ((r.ejectile.mass ^ 2 - (r.residual.mass + Ex) ^ 2 + cmEnergy r T ^ 2) / (2 * cmEnergy r T)) ^ 2
        - r.ejectile.mass ^ 2 := by
  have hW := cmEnergy_pos h hT
  obtain ⟨hs, hs2⟩ := twoBody_s (Ex := Ex) h hT
  have h1 := h.ejectile
  unfold TwoBody.pStar
  rw [hs, hs2]
  simp only [Reaction.twoBody]
  generalize cmEnergy r T = W at *
  generalize r.residual.mass + Ex = m2 at *
  generalize r.ejectile.mass = m1 at *
  have hn : 0 ≤ (W ^ 2 - (m1 + m2) ^ 2) * (W ^ 2 - (m1 - m2) ^ 2) := by
    apply mul_nonneg
    · nlinarith
    · nlinarith [mul_nonneg h1 hEx]
  refine ⟨by positivity, ?_⟩
  rw [div_pow, Real.sq_sqrt hn]
  field_simp
  ring

theorem pStar_pos (h : ReactionOk r) (hT : 0 ≤ T) (hEx : 0 ≤ r.residual.mass + Ex)
    (ha : r.is_excitation_allowed T Ex = true) : 0 < (Reaction.twoBody r T Ex).pStar := by
  rw [C42_reaction h hT, parent_M h hT, add_assoc] at ha
  obtain ⟨hp0, hp2⟩ := pStar_sq h hT hEx (by linarith)
  rcases hp0.lt_or_eq with hlt | heq
  · exact hlt
  · exfalso
    rw [← heq] at hp2
    have hW := cmEnergy_pos h hT
    have hm := h.ejectile
    have e : ((r.ejectile.mass ^ 2 - (r.residual.mass + Ex) ^ 2 + cmEnergy r T ^ 2)
        / (2 * cmEnergy r T)) ^ 2 - r.ejectile.mass ^ 2
        = ((cmEnergy r T ^ 2 - (r.ejectile.mass + (r.residual.mass + Ex)) ^ 2)
          * (cmEnergy r T ^ 2 - (r.ejectile.mass - (r.residual.mass + Ex)) ^ 2))
          / (4 * cmEnergy r T ^ 2) := by field_simp; ring
    rw [e] at hp2
    generalize cmEnergy r T = W at *
    generalize r.residual.mass + Ex = m2 at *
    generalize r.ejectile.mass = m1 at *
    have hpos : 0 < (W ^ 2 - (m1 + m2) ^ 2) * (W ^ 2 - (m1 - m2) ^ 2) := by
      apply mul_pos
      · nlinarith
      · nlinarith [mul_nonneg hm hEx]
    have : 0 < (W ^ 2 - (m1 + m2) ^ 2) * (W ^ 2 - (m1 - m2) ^ 2) / (4 * W ^ 2) := by positivity
    simp at hp2
    linarith

theorem eStar_eq (h : ReactionOk r) (hT : 0 ≤ T) (hEx : 0 ≤ r.residual.mass + Ex)
    (hle : r.ejectile.mass + (r.residual.mass + Ex) ≤ cmEnergy r T) :
    (Reaction.twoBody r T Ex).eStar
      = (r.ejectile.mass ^ 2 - (r.residual.mass + Ex) ^ 2 + cmEnergy r T ^ 2) / (2 * cmEnergy r T) := by
  have hW := cmEnergy_pos h hT
  obtain ⟨-, hp⟩ := pStar_sq h hT hEx hle
  have h1 := h.ejectile
  unfold TwoBody.eStar
  rw [hp]
  have : (Reaction.twoBody r T Ex).ejectile = r.ejectile.mass := rfl
  rw [this, add_sub_cancel]
  apply Real.sqrt_sq
  apply div_nonneg _ (by positivity)
  nlinarith

/-- The product of `boost` with the velocity of a beam along z. -/
theorem boost_beam (h : ReactionOk r) (hT : 0 ≤ T) (v : Vec4) :
    v.boost (targetVec r + beamVec r T) =
      ⟨v.px, v.py,
        (Reaction.twoBody r T Ex).gamma * v.pz + (Reaction.twoBody r T Ex).gammaBeta * v.E,
        (Reaction.twoBody r T Ex).gamma * v.E + (Reaction.twoBody r T Ex).gammaBeta * v.pz⟩ := by
  have hm := parent_massive h hT
  have hM := parent_M h hT
  have hW := cmEnergy_pos h hT
  have hW2 := cmEnergy_sq h hT
  have hb := beam_sq h hT
  have h1 := h.target
  have h2 := h.projectile
  rw [Vec4.boost_eq hm, hM]
  unfold TwoBody.gamma TwoBody.gammaBeta
  rw [(twoBody_s (Ex := Ex) h hT).1]
  simp only [Reaction.twoBody, targetVec, beamVec, Vec4.add_px, Vec4.add_py, Vec4.add_pz, Vec4.add_E, zero_add,
    Vec4.dot, zero_mul, mul_zero, add_zero]
  generalize cmEnergy r T = W at *
  generalize Real.sqrt (T * (T + 2 * r.projectile.mass)) = P at *
  generalize r.target.mass = mt at *
  generalize r.projectile.mass = mp at *
  have hE : 0 < W + (mt + (T + mp)) := by linarith
  ext
  · rfl
  · rfl
  · simp only
    field_simp
    have hP : P ^ 2 = (mt + (T + mp)) ^ 2 - W ^ 2 := by rw [hb, hW2]; ring
    linear_combination v.pz * hP
  · simp only
    field_simp
    ring

/-- **C81.** Closed form of the products in the laboratory, for every beam energy at which the reaction
is allowed: the transverse momenta are those in the centre of mass, the longitudinal momentum and the
energy are mixed by the Lorentz factor of the centre of mass, whose momentum is given by the Källén
function. -/
theorem C81_closed_form (h : ReactionOk r) (hT : 0 ≤ T) (hEx : 0 ≤ r.residual.mass + Ex)
    (ha : r.is_excitation_allowed T Ex = true) (polar azimuthal : ℝ) {t p e q : Vec4}
    (hc : r.calculate T polar azimuthal Ex = .ok (t, some p, some e, some q)) :
    let k := Reaction.twoBody r T Ex
    e = ⟨k.pStar * Real.sin polar * Real.cos azimuthal, k.pStar * Real.sin polar * Real.sin azimuthal,
      k.gamma * (k.pStar * Real.cos polar) + k.gammaBeta * k.eStar,
      k.gamma * k.eStar + k.gammaBeta * (k.pStar * Real.cos polar)⟩ ∧
    q = ⟨-e.px, -e.py, Real.sqrt (T * (T + 2 * r.projectile.mass)) - e.pz,
      r.target.mass + r.projectile.mass + T - e.E⟩ := by
  rw [C42_reaction h hT, parent_M h hT] at ha
  have hle : r.ejectile.mass + (r.residual.mass + Ex) ≤ cmEnergy r T := by linarith
  obtain ⟨pp, hpp, hpp2, hv⟩ := cmVector_some polar azimuthal h.ejectile hEx (cmEnergy_pos h hT) hle
  obtain ⟨hp0, hp2⟩ := pStar_sq h hT hEx hle
  have hpe : pp = (Reaction.twoBody r T Ex).pStar := by
    rw [← hpp2] at hp2
    exact (pow_left_inj₀ hpp hp0 two_ne_zero).1 hp2.symm
  rw [reaction_calculate h hT, hv] at hc
  split_ifs at hc
  simp only [Except.ok.injEq, Prod.mk.injEq, Option.some.injEq] at hc
  obtain ⟨-, -, rfl, rfl⟩ := hc
  simp only
  rw [boost_beam (Ex := Ex) h hT, ← eStar_eq h hT hEx hle, hpe]
  refine ⟨rfl, ?_⟩
  ext
  · simp [targetVec, beamVec]
  · simp [targetVec, beamVec]
  · simp [targetVec, beamVec]
  · simp only [targetVec, beamVec, Vec4.sub_E, Vec4.add_E]
    ring

/-- **C81.** The azimuth in the laboratory is the sampled one, and the residual is opposite to it in the
transverse plane. -/
theorem C81_azimuth (h : ReactionOk r) (hT : 0 ≤ T) (hEx : 0 ≤ r.residual.mass + Ex)
    (ha : r.is_excitation_allowed T Ex = true) (polar azimuthal : ℝ) (h0 : 0 < polar)
    (hpi : polar < Real.pi) {t p e q : Vec4}
    (hc : r.calculate T polar azimuthal Ex = .ok (t, some p, some e, some q)) :
    ∃ pt > 0, e.px = pt * Real.cos azimuthal ∧ e.py = pt * Real.sin azimuthal ∧
      q.px = -e.px ∧ q.py = -e.py := by
  obtain ⟨he, hq⟩ := C81_closed_form h hT hEx ha polar azimuthal hc
  have hpos : 0 < (Reaction.twoBody r T Ex).pStar * Real.sin polar :=
    mul_pos (pStar_pos h hT hEx ha) (Real.sin_pos_of_pos_of_lt_pi h0 hpi)
  refine ⟨_, hpos, ?_, ?_, ?_, ?_⟩
  · rw [he]
  · rw [he]
  · rw [hq]
  · rw [hq]

/-- **C81.** The energy of the ejectile in the laboratory decreases with the polar angle in the centre of
mass, strictly if the beam moves, and it lies between its values for
emission backwards and forwards. -/
theorem C81_energy_range (h : ReactionOk r) (hT : 0 ≤ T) (hEx : 0 ≤ r.residual.mass + Ex)
    (ha : r.is_excitation_allowed T Ex = true) (polar azimuthal : ℝ) {t p e q : Vec4}
    (hc : r.calculate T polar azimuthal Ex = .ok (t, some p, some e, some q)) :
    let k := Reaction.twoBody r T Ex
    k.gamma * k.eStar - k.gammaBeta * k.pStar ≤ e.E ∧ e.E ≤ k.gamma * k.eStar + k.gammaBeta * k.pStar ∧
    ∀ (polar' azimuthal' : ℝ) (t' p' e' q' : Vec4), 0 ≤ polar → polar ≤ polar' → polar' ≤ Real.pi →
      r.calculate T polar' azimuthal' Ex = .ok (t', some p', some e', some q') →
      e'.E ≤ e.E ∧ (0 < T → polar < polar' → e'.E < e.E) := by
  obtain ⟨he, -⟩ := C81_closed_form h hT hEx ha polar azimuthal hc
  have ha' := ha
  rw [C42_reaction h hT, parent_M h hT] at ha'
  have hp := (pStar_sq h hT hEx (by linarith)).1
  have hg : 0 ≤ (Reaction.twoBody r T Ex).gammaBeta :=
    div_nonneg (Real.sqrt_nonneg _) (Real.sqrt_nonneg _)
  have hgp := mul_nonneg hg hp
  have h1 := Real.neg_one_le_cos polar
  have h2 := Real.cos_le_one polar
  simp only
  refine ⟨?_, ?_, ?_⟩
  · rw [he]; simp only; nlinarith
  · rw [he]; simp only; nlinarith
  · intro polar' azimuthal' t' p' e' q' h0 hle hpi hc'
    obtain ⟨he', -⟩ := C81_closed_form h hT hEx ha polar' azimuthal' hc'
    have h3 := Real.cos_le_cos_of_nonneg_of_le_pi h0 hpi hle
    rw [he, he']
    simp only
    refine ⟨by nlinarith, fun hT' hlt => ?_⟩
    have h4 := Real.cos_lt_cos_of_nonneg_of_le_pi h0 hpi hlt
    have h5 : 0 < (Reaction.twoBody r T Ex).gammaBeta := by
      have := h.projectile
      have hW := cmEnergy_pos h hT
      unfold TwoBody.gammaBeta
      rw [(twoBody_s (Ex := Ex) h hT).1]
      exact div_pos (Real.sqrt_pos.2 (mul_pos hT' (by simp only [Reaction.twoBody]; linarith))) hW
    have h6 := mul_pos h5 (pStar_pos h hT hEx ha)
    nlinarith

/-- **C81.** In elastic scattering the target nucleus receives the kinetic energy
`pStar² (1 + cos θ) / m`. -/
theorem C81_elastic (h : ReactionOk r) (hT : 0 ≤ T) (he : r.ejectile.mass = r.target.mass)
    (hres : r.residual.mass = r.projectile.mass) (ha : r.is_excitation_allowed T 0 = true)
    (polar azimuthal : ℝ) {t p e q : Vec4}
    (hc : r.calculate T polar azimuthal 0 = .ok (t, some p, some e, some q)) :
    e.E - r.target.mass = (Reaction.twoBody r T 0).pStar ^ 2 * (1 + Real.cos polar) / r.target.mass ∧
    (Reaction.twoBody r T 0).pStar
      = r.target.mass * Real.sqrt (T * (T + 2 * r.projectile.mass)) / cmEnergy r T := by
  have hEx : 0 ≤ r.residual.mass + 0 := by rw [add_zero, hres]; exact h.projectile
  obtain ⟨hee, -⟩ := C81_closed_form h hT hEx ha polar azimuthal hc
  have ha' := ha
  rw [C42_reaction h hT, parent_M h hT] at ha'
  have hle : r.ejectile.mass + (r.residual.mass + 0) ≤ cmEnergy r T := by linarith
  obtain ⟨hp0, hp2⟩ := pStar_sq h hT hEx hle
  have hes := eStar_eq h hT hEx hle
  have hW := cmEnergy_pos h hT
  have hW2 := cmEnergy_sq h hT
  have hb := beam_sq h hT
  have hm := h.target
  have hmp := h.projectile
  have hs1 := (twoBody_s (Ex := 0) h hT).1
  have hg : (Reaction.twoBody r T 0).gamma = (r.target.mass + r.projectile.mass + T) / cmEnergy r T := rfl
  have hgb : (Reaction.twoBody r T 0).gammaBeta
      = Real.sqrt (T * (T + 2 * r.projectile.mass)) / cmEnergy r T := rfl
  have hP0 := Real.sqrt_nonneg (T * (T + 2 * r.projectile.mass))
  have hps : (Reaction.twoBody r T 0).pStar
      = r.target.mass * Real.sqrt (T * (T + 2 * r.projectile.mass)) / cmEnergy r T := by
    refine (pow_left_inj₀ hp0 (by positivity) two_ne_zero).1 ?_
    rw [hp2, he, hres]
    generalize cmEnergy r T = W at *
    generalize Real.sqrt (T * (T + 2 * r.projectile.mass)) = P at *
    generalize r.target.mass = mt at *
    generalize r.projectile.mass = mp at *
    rw [div_pow (mt * P), mul_pow mt P, hb]
    field_simp
    rw [hW2]
    ring
  refine ⟨?_, hps⟩
  have hE : e.E = (Reaction.twoBody r T 0).gamma * (Reaction.twoBody r T 0).eStar
      + (Reaction.twoBody r T 0).gammaBeta * ((Reaction.twoBody r T 0).pStar * Real.cos polar) := by
    rw [hee]
  rw [hE, hg, hgb, hes, hps, he, hres]
  generalize cmEnergy r T = W at *
  generalize Real.sqrt (T * (T + 2 * r.projectile.mass)) = P at *
  generalize r.target.mass = mt at *
  generalize r.projectile.mass = mp at *
  generalize Real.cos polar = c at *
  field_simp
  have hP2 : P ^ 2 = T * (T + 2 * mp) := hb
  rw [hP2, hW2]
  ring

/-- Elastic scattering of equal masses. -/
noncomputable def exElastic : Reaction :=
  { target := ⟨1, 2, 2, "2H"⟩, projectile := ⟨1, 2, 2, "2H"⟩, ejectile := ⟨1, 2, 2, "2H"⟩,
    residual := ⟨1, 2, 2, "2H"⟩ }

theorem exElastic_ok : ReactionOk exElastic := ⟨by norm_num [exElastic], by norm_num [exElastic],
  by norm_num [exElastic]⟩

theorem exElastic_cm : cmEnergy exElastic 5 = 6 := by
  unfold cmEnergy
  rw [show ((exElastic.target.mass + exElastic.projectile.mass) ^ 2 + 2 * exElastic.target.mass * 5)
    = (6 : ℝ) ^ 2 by norm_num [exElastic]]
  exact Real.sqrt_sq (by norm_num)

/-- The theorems apply to it: at angle 0 the target nucleus takes over the whole beam energy of 5. -/
example : exElastic.is_excitation_allowed 5 0 = true ∧ ∃ t p e q,
    exElastic.calculate 5 0 0 0 = .ok (t, some p, some e, some q) ∧ e.E - 2 = 5 := by
  have ha : exElastic.is_excitation_allowed 5 0 = true := by
    rw [C42_reaction exElastic_ok (by norm_num), parent_M exElastic_ok (by norm_num), exElastic_cm]
    norm_num [exElastic]
  refine ⟨ha, ?_⟩
  obtain ⟨pp, -, -, hv⟩ := cmVector_some (m1 := exElastic.ejectile.mass)
    (m2 := exElastic.residual.mass + 0) (W := cmEnergy exElastic 5) 0 0
    (by norm_num [exElastic]) (by norm_num [exElastic]) (by rw [exElastic_cm]; norm_num)
    (by rw [exElastic_cm]; norm_num [exElastic])
  have hc := reaction_calculate exElastic_ok (T := 5) (by norm_num) 0 0 0
  rw [hv, if_neg (by norm_num [exElastic]), if_neg (by norm_num [exElastic])] at hc
  refine ⟨_, _, _, _, hc, ?_⟩
  obtain ⟨h1, h2⟩ := C81_elastic exElastic_ok (by norm_num) rfl rfl ha 0 0 hc
  have hm : exElastic.target.mass = 2 := rfl
  rw [hm] at h1
  rw [h1, h2, exElastic_cm, div_pow, mul_pow, Real.sq_sqrt (by norm_num [exElastic])]
  norm_num [exElastic]

end

end Verif.Props
