import Verif.Props.PipelineRuns

/-! # C42, C43, C44, C49: the exact range of beam energies -/

namespace Verif.Props

open Verif.Kinematics Verif.Spec

variable {σ : Type}

/-- The energy that a reaction at rest lacks: minus the Q value. -/
noncomputable def missingEnergy (r : Reaction) (Ex : ℝ) : ℝ :=
  r.ejectile.mass + r.residual.mass + Ex - (r.target.mass + r.projectile.mass)

/-- The beam energy from which energy and momentum can be conserved. -/
noncomputable def exactThreshold (r : Reaction) (Ex : ℝ) : ℝ :=
  missingEnergy r Ex * (r.target.mass + r.projectile.mass + r.ejectile.mass + r.residual.mass + Ex)
    / (2 * r.target.mass)

/-- The threshold from which `calculate` goes on. -/
noncomputable def codeThreshold (r : Reaction) (Ex : ℝ) : ℝ :=
  missingEnergy r Ex * (r.ejectile.mass + r.residual.mass)
    / (r.ejectile.mass + r.residual.mass - r.projectile.mass)

theorem cmEnergy_threshold {r : Reaction} (h : ReactionOk r) {T : ℝ} (hT : 0 ≤ T) (Ex : ℝ) :
    cmEnergy r T ^ 2 - (r.ejectile.mass + r.residual.mass + Ex) ^ 2
      = 2 * r.target.mass * (T - exactThreshold r Ex) := by
  have := h.target.ne'
  rw [cmEnergy_sq h hT]
  unfold exactThreshold missingEnergy
  field_simp
  ring

theorem cmEnergy_lt {r : Reaction} (h : ReactionOk r) {T : ℝ} (hT : 0 ≤ T) {Ex : ℝ}
    (hout : 0 ≤ r.ejectile.mass + r.residual.mass + Ex) :
    r.ejectile.mass + r.residual.mass + Ex < cmEnergy r T ↔ exactThreshold r Ex < T := by
  have e := cmEnergy_threshold h hT Ex
  have ht := h.target
  rw [← pow_lt_pow_iff_left₀ hout (cmEnergy_pos h hT).le two_ne_zero, ← sub_pos, e,
    mul_pos_iff_of_pos_left (by linarith), sub_pos]

theorem cmEnergy_le {r : Reaction} (h : ReactionOk r) {T : ℝ} (hT : 0 ≤ T) {Ex : ℝ}
    (hout : 0 ≤ r.ejectile.mass + r.residual.mass + Ex) :
    r.ejectile.mass + r.residual.mass + Ex ≤ cmEnergy r T ↔ exactThreshold r Ex ≤ T := by
  have e := cmEnergy_threshold h hT Ex
  have ht := h.target
  rw [← pow_le_pow_iff_left₀ hout (cmEnergy_pos h hT).le two_ne_zero, ← sub_nonneg, e,
    mul_nonneg_iff_of_pos_left (by linarith), sub_nonneg]

/-- **C42.** The check says True exactly above the exact threshold. -/
theorem C42_threshold {r : Reaction} (h : ReactionOk r) {T : ℝ} (hT : 0 ≤ T) {Ex : ℝ}
    (hout : 0 ≤ r.ejectile.mass + r.residual.mass + Ex) :
    r.is_excitation_allowed T Ex = true ↔ exactThreshold r Ex < T := by
  rw [C42_reaction h hT, parent_M h hT, cmEnergy_lt h hT hout]

/-- `calculate` in terms of the two thresholds. -/
theorem calculate_threshold {r : Reaction} (h : ReactionOk r) {T : ℝ} (hT : 0 ≤ T)
    (hS : r.projectile.mass < r.ejectile.mass + r.residual.mass) (polar azimuthal Ex : ℝ) :
    r.calculate T polar azimuthal Ex =
      if T < codeThreshold r Ex then .error .valueError
      else match cmVector r.ejectile.mass (r.residual.mass + Ex) (cmEnergy r T) polar azimuthal with
        | none => .ok (targetVec r, some (beamVec r T), none, none)
        | some v => .ok (targetVec r, some (beamVec r T), some (v.boost (targetVec r + beamVec r T)),
            some (targetVec r + beamVec r T - v.boost (targetVec r + beamVec r T))) := by
  rw [reaction_calculate h hT, if_neg (by linarith)]
  unfold codeThreshold missingEnergy
  rw [neg_sub]
  rfl

/-- `calculate` raises ValueError exactly below the threshold of the code, and nothing else. -/
theorem C43_rejects {r : Reaction} (h : ReactionOk r) {T : ℝ} (hT : 0 ≤ T)
    (hS : r.projectile.mass < r.ejectile.mass + r.residual.mass) (polar azimuthal Ex : ℝ) (e : PyErr) :
    r.calculate T polar azimuthal Ex = .error e ↔ T < codeThreshold r Ex ∧ e = .valueError := by
  rw [calculate_threshold h hT hS]
  by_cases hc : T < codeThreshold r Ex
  · simp [hc, eq_comm]
  · rw [if_neg hc]
    constructor
    · intro h
      split at h <;> simp at h
    · intro h
      exact absurd h.1 hc

theorem thresholds_le {r : Reaction} (h : ReactionOk r) {Ex : ℝ}
    (hS : r.projectile.mass < r.ejectile.mass + r.residual.mass) (hk : 0 < missingEnergy r Ex) :
    codeThreshold r Ex ≤ exactThreshold r Ex ↔
      2 * r.target.mass * (r.ejectile.mass + r.residual.mass) ≤
        (r.ejectile.mass + r.residual.mass - r.projectile.mass) *
        (r.target.mass + r.projectile.mass + r.ejectile.mass + r.residual.mass + Ex) := by
  have ht := h.target
  unfold codeThreshold exactThreshold
  rw [div_le_div_iff₀ (by linarith) (by linarith), mul_assoc, mul_assoc,
    mul_le_mul_iff_right₀ hk]
  constructor <;> intro h <;> linarith

theorem threshold_nonpos {r : Reaction} (h : ReactionOk r) {Ex : ℝ}
    (hout : 0 ≤ r.ejectile.mass + r.residual.mass + Ex)
    (hS : r.projectile.mass < r.ejectile.mass + r.residual.mass) (hk : missingEnergy r Ex ≤ 0) :
    codeThreshold r Ex ≤ 0 ∧ exactThreshold r Ex ≤ 0 := by
  have ht := h.target
  have hp := h.projectile
  constructor
  · exact div_nonpos_of_nonpos_of_nonneg
      (mul_nonpos_of_nonpos_of_nonneg hk (by linarith)) (by linarith)
  · exact div_nonpos_of_nonpos_of_nonneg
      (mul_nonpos_of_nonpos_of_nonneg hk (by linarith)) (by linarith)

theorem exactThreshold_pos {r : Reaction} (h : ReactionOk r) {Ex : ℝ}
    (hout : 0 ≤ r.ejectile.mass + r.residual.mass + Ex) (hk : 0 < missingEnergy r Ex) :
    0 < exactThreshold r Ex := by
  have ht := h.target
  have hp := h.projectile
  exact div_pos (mul_pos hk (by linarith)) (by linarith)

/-- **C43, exactly when it holds.** All allowed beam energies are accepted if and only if the reaction
to the given state needs no energy, or twice the target mass times the outgoing ground state masses is
at most their excess over the projectile mass times the sum of all masses. -/
theorem C43_exact {r : Reaction} (h : ReactionOk r) {Ex : ℝ} (hEx : 0 ≤ r.residual.mass + Ex)
    (hS : r.projectile.mass < r.ejectile.mass + r.residual.mass) :
    (∀ T polar azimuthal, 0 ≤ T → r.is_excitation_allowed T Ex = true →
      ∃ t p e q, r.calculate T polar azimuthal Ex = .ok (t, some p, some e, some q)) ↔
    (r.ejectile.mass + r.residual.mass + Ex ≤ r.target.mass + r.projectile.mass ∨
      2 * r.target.mass * (r.ejectile.mass + r.residual.mass) ≤
        (r.ejectile.mass + r.residual.mass - r.projectile.mass) *
        (r.target.mass + r.projectile.mass + r.ejectile.mass + r.residual.mass + Ex)) := by
  have hej := h.ejectile
  have hout : 0 ≤ r.ejectile.mass + r.residual.mass + Ex := by linarith
  constructor
  · intro hall
    by_cases hk : missingEnergy r Ex ≤ 0
    · left
      unfold missingEnergy at hk
      linarith
    · right
      have hk : 0 < missingEnergy r Ex := lt_of_not_ge hk
      rw [← thresholds_le h hS hk]
      by_contra hlt
      have hlt : exactThreshold r Ex < codeThreshold r Ex := lt_of_not_ge hlt
      have hpos := exactThreshold_pos h hout hk
      set T := (exactThreshold r Ex + codeThreshold r Ex) / 2 with hTdef
      have hT : 0 ≤ T := by rw [hTdef]; linarith
      obtain ⟨t, p, e, q, hc⟩ := hall T 0 0 hT
        ((C42_threshold h hT hout).2 (by rw [hTdef]; linarith))
      rw [(C43_rejects h hT hS 0 0 Ex .valueError).2 ⟨by rw [hTdef]; linarith, rfl⟩] at hc
      simp at hc
  · intro hcase T polar azimuthal hT ha
    rw [C42_threshold h hT hout] at ha
    have hcode : codeThreshold r Ex ≤ T := by
      by_cases hk : missingEnergy r Ex ≤ 0
      · exact (threshold_nonpos h hout hS hk).1.trans hT
      · have hk : 0 < missingEnergy r Ex := lt_of_not_ge hk
        rcases hcase with hc | hc
        · unfold missingEnergy at hk
          linarith
        · exact ((thresholds_le h hS hk).2 hc).trans ha.le
    obtain ⟨pp, -, -, hv⟩ := cmVector_some polar azimuthal hej hEx (cmEnergy_pos h hT)
      (by have := (cmEnergy_le h hT hout).2 ha.le; linarith)
    rw [calculate_threshold h hT hS, if_neg (not_lt.2 hcode), hv]
    exact ⟨_, _, _, _, rfl⟩

theorem cmVector_none {m1 m2 W : ℝ} (polar azimuthal : ℝ) (hW : 0 < W) (h1 : |m1 - m2| < W)
    (h2 : W < m1 + m2) : cmVector m1 m2 W polar azimuthal = none := by
  have e : ((m1 ^ 2 - m2 ^ 2 + W ^ 2) / (2 * W)) ^ 2 - m1 ^ 2
      = ((W ^ 2 - (m1 + m2) ^ 2) * (W ^ 2 - (m1 - m2) ^ 2)) / (4 * W ^ 2) := by
    field_simp; ring
  have hneg : ((m1 ^ 2 - m2 ^ 2 + W ^ 2) / (2 * W)) ^ 2 - m1 ^ 2 < 0 := by
    rw [e]
    apply div_neg_of_neg_of_pos _ (by positivity)
    apply mul_neg_of_neg_of_pos
    · nlinarith
    · have : (m1 - m2) ^ 2 < W ^ 2 := by
        rw [← sq_abs (m1 - m2)]
        exact pow_lt_pow_left₀ h1 (abs_nonneg _) two_ne_zero
      linarith
  unfold cmVector npSqrt
  simp only
  rw [if_pos hneg]

/-- **C44, exactly when it is false.** For masses that differ by less than those of the entrance channel
(true for all nuclei), `calculate` returns NaN exactly for the beam energies from the threshold of the
code up to the exact threshold. -/
theorem C44_nan_range {r : Reaction} (h : ReactionOk r) {T : ℝ} (hT : 0 ≤ T) {Ex : ℝ}
    (hEx : 0 ≤ r.residual.mass + Ex)
    (hS : r.projectile.mass < r.ejectile.mass + r.residual.mass)
    (hm : |r.ejectile.mass - (r.residual.mass + Ex)| < r.target.mass + r.projectile.mass)
    (polar azimuthal : ℝ) :
    r.calculate T polar azimuthal Ex = .ok (targetVec r, some (beamVec r T), none, none) ↔
      codeThreshold r Ex ≤ T ∧ T < exactThreshold r Ex := by
  have hej := h.ejectile
  have ht := h.target
  have hp := h.projectile
  have hout : 0 ≤ r.ejectile.mass + r.residual.mass + Ex := by linarith
  rw [calculate_threshold h hT hS]
  by_cases hc : T < codeThreshold r Ex
  · rw [if_pos hc]
    constructor
    · simp
    · intro h
      exact absurd h.1 (not_le.2 hc)
  rw [if_neg hc]
  by_cases he : T < exactThreshold r Ex
  · have hlt : cmEnergy r T < r.ejectile.mass + (r.residual.mass + Ex) := by
      have := (cmEnergy_le h hT hout).not.2 (not_le.2 he)
      linarith [lt_of_not_ge this]
    have hgt : |r.ejectile.mass - (r.residual.mass + Ex)| < cmEnergy r T := by
      apply hm.trans_le
      unfold cmEnergy
      apply Real.le_sqrt_of_sq_le
      have : 0 ≤ 2 * r.target.mass * T := by positivity
      linarith
    rw [cmVector_none polar azimuthal (cmEnergy_pos h hT) hgt hlt]
    simp [not_lt.1 hc, he]
  · obtain ⟨pp, -, -, hv⟩ := cmVector_some polar azimuthal hej hEx (cmEnergy_pos h hT)
      (by have := (cmEnergy_le h hT hout).2 (not_lt.1 he); linarith)
    rw [hv]
    simp [he]

/-- **C44.** At and above the exact threshold `calculate` raises below the threshold of the code, and
returns four finite four-vectors otherwise. -/
theorem C44_finite_range {r : Reaction} (h : ReactionOk r) {T : ℝ} (hT : 0 ≤ T) {Ex : ℝ}
    (hEx : 0 ≤ r.residual.mass + Ex)
    (hS : r.projectile.mass < r.ejectile.mass + r.residual.mass)
    (hm : |r.ejectile.mass - (r.residual.mass + Ex)| < r.target.mass + r.projectile.mass)
    (polar azimuthal : ℝ) :
    (∃ t p e q, r.calculate T polar azimuthal Ex = .ok (t, some p, some e, some q)) ↔
      codeThreshold r Ex ≤ T ∧ exactThreshold r Ex ≤ T := by
  have hej := h.ejectile
  have hout : 0 ≤ r.ejectile.mass + r.residual.mass + Ex := by linarith
  constructor
  · rintro ⟨t, p, e, q, hc⟩
    have h1 : ¬ T < codeThreshold r Ex := by
      intro hlt
      rw [(C43_rejects h hT hS polar azimuthal Ex .valueError).2 ⟨hlt, rfl⟩] at hc
      simp at hc
    refine ⟨not_lt.1 h1, not_lt.1 fun h2 => ?_⟩
    rw [(C44_nan_range h hT hEx hS hm polar azimuthal).2 ⟨not_lt.1 h1, h2⟩] at hc
    simp at hc
  · rintro ⟨h1, h2⟩
    obtain ⟨pp, -, -, hv⟩ := cmVector_some polar azimuthal hej hEx (cmEnergy_pos h hT)
      (by have := (cmEnergy_le h hT hout).2 h2; linarith)
    rw [calculate_threshold h hT hS, if_neg (not_lt.2 h1), hv]
    exact ⟨_, _, _, _, rfl⟩

/-- **C44.** Every reaction that needs energy and whose ground state masses are not below those of the
entrance channel has a range of beam energies for which `calculate` returns NaN. -/
theorem C44_endothermic_refuted {r : Reaction} (h : ReactionOk r) {Ex : ℝ}
    (hEx : 0 ≤ r.residual.mass + Ex)
    (hQ : r.target.mass + r.projectile.mass ≤ r.ejectile.mass + r.residual.mass)
    (hk : r.target.mass + r.projectile.mass < r.ejectile.mass + r.residual.mass + Ex)
    (hm : |r.ejectile.mass - (r.residual.mass + Ex)| < r.target.mass + r.projectile.mass) :
    0 < codeThreshold r Ex ∧ codeThreshold r Ex < exactThreshold r Ex ∧
    ∀ T polar azimuthal, codeThreshold r Ex ≤ T → T < exactThreshold r Ex →
      r.calculate T polar azimuthal Ex = .ok (targetVec r, some (beamVec r T), none, none) := by
  have ht := h.target
  have hp := h.projectile
  have hS : r.projectile.mass < r.ejectile.mass + r.residual.mass := by linarith
  have hk' : 0 < missingEnergy r Ex := by unfold missingEnergy; linarith
  have hpos : 0 < codeThreshold r Ex :=
    div_pos (mul_pos hk' (by linarith)) (by linarith)
  refine ⟨hpos, ?_, fun T polar azimuthal h1 h2 =>
    (C44_nan_range h (hpos.le.trans h1) hEx hS hm polar azimuthal).2 ⟨h1, h2⟩⟩
  unfold codeThreshold exactThreshold
  rw [div_lt_div_iff₀ (by linarith) (by linarith), mul_assoc, mul_assoc,
    mul_lt_mul_iff_right₀ hk']
  obtain ⟨d, hd⟩ : ∃ d, r.ejectile.mass + r.residual.mass = r.target.mass + r.projectile.mass + d :=
    ⟨_, (add_sub_cancel _ _).symm⟩
  have hd0 : 0 ≤ d := by linarith
  have he : 0 < d + Ex := by linarith
  have e1 : r.target.mass + r.projectile.mass + r.ejectile.mass + r.residual.mass + Ex
      = r.target.mass + r.projectile.mass + (r.ejectile.mass + r.residual.mass) + Ex := by ring
  rw [e1, hd]
  have h1 : 0 ≤ r.projectile.mass * d := mul_nonneg hp hd0
  have h2 : 0 < r.target.mass * (d + Ex) := mul_pos ht he
  have h3 : 0 ≤ d * (d + Ex) := mul_nonneg hd0 he.le
  nlinarith

/-- **C49.** For a reaction to which `C43_exact` applies in every sample, `run` returns the event of the
first allowed sample whenever it comes within the limit. -/
theorem C49_returns_exact_partial {p : Pipeline σ} (hb : Built p) (hg : LawfulGen p.rng)
    (hc : ChainOk p) (hs : SamplesOk p) {st : PipeState σ}
    (hlen : st.result.length = 4 + 2 * p.decays.length)
    (hS : p.reaction.projectile.mass < p.reaction.ejectile.mass + p.reaction.residual.mass)
    (hcase : ∀ s x s', p.sample s = .ok (x, s') →
      p.reaction.ejectile.mass + p.reaction.residual.mass + x.reaction_excitation
        ≤ p.reaction.target.mass + p.reaction.projectile.mass ∨
      2 * p.reaction.target.mass * (p.reaction.ejectile.mass + p.reaction.residual.mass) ≤
        (p.reaction.ejectile.mass + p.reaction.residual.mass - p.reaction.projectile.mass) *
        (p.reaction.target.mass + p.reaction.projectile.mass + p.reaction.ejectile.mass
          + p.reaction.residual.mass + x.reaction_excitation))
    {k : ℕ} (hk : (k : ℤ) < p.event_sample_limit) {s s' : σ} {x : Sample}
    (hskip : SkippedBy (fun x => ¬ EnergyAllowed p x) p k st.gen s) (hx : p.sample s = .ok (x, s'))
    (hE : EnergyAllowed p x) :
    ∃ st', p.run st = (.ok x.vertex, st') ∧ st'.gen = s' ∧ eventRows p x = .ok (some st'.result) := by
  refine C49_returns_partial hb hg hc hs hlen ?_ hk hskip hx hE
  intro s1 x1 s1' h1 ha
  have hx1 := hs _ _ _ h1
  have hE1 := (reaction_allowed_iff hc hx1).1 ha
  obtain ⟨t, b, e, q, h2⟩ := (C43_exact ⟨hc.target, hc.projectile, hc.ejectile⟩ hx1.residual.le hS).2 (hcase _ _ _ h1)
    x1.beam_energy x1.reaction_theta x1.reaction_phi hE1.1 ha
  exact ⟨_, h2⟩

/-- The example reactions: `C43_exact` holds for the first, which needs no energy in its ground state,
and fails for the state of the second used in `C43_refuted`. -/
example : 2 * exReaction.target.mass * (exReaction.ejectile.mass + exReaction.residual.mass) ≤
    (exReaction.ejectile.mass + exReaction.residual.mass - exReaction.projectile.mass) *
    (exReaction.target.mass + exReaction.projectile.mass + exReaction.ejectile.mass
      + exReaction.residual.mass + 19 / 10) := by
  norm_num [exReaction]

example : exactThreshold exExothermic 10.1 < 0.852 ∧ 0.852 < codeThreshold exExothermic 10.1 := by
  constructor <;> norm_num [exactThreshold, codeThreshold, missingEnergy, exExothermic]

/-- The endothermic example: the range of NaN. -/
example : codeThreshold exEndothermic 0 < 70 ∧ 70 < exactThreshold exEndothermic 0 ∧
    |exEndothermic.ejectile.mass - (exEndothermic.residual.mass + 0)|
      < exEndothermic.target.mass + exEndothermic.projectile.mass := by
  refine ⟨?_, ?_, ?_⟩
  · norm_num [codeThreshold, missingEnergy, exEndothermic]
  · norm_num [exactThreshold, missingEnergy, exEndothermic]
  · rw [abs_lt]
    constructor <;> norm_num [exEndothermic]

end Verif.Props
