import Verif.Props.LabKinematics
import Mathlib.Topology.Order.IntermediateValue
import Mathlib.Analysis.SpecialFunctions.Trigonometric.Inverse

/-! # C123: the angles of the products in the laboratory -/

namespace Verif.Props

open Verif.Kinematics Verif.Spec

variable {r : Reaction} {T Ex : ℝ}

/-- The momentum of a particle. -/
noncomputable def absMomentum (v : Vec4) : ℝ := Real.sqrt (v.px ^ 2 + v.py ^ 2 + v.pz ^ 2)

/-- The component of the momentum transverse to the beam. -/
noncomputable def transverse (v : Vec4) : ℝ := Real.sqrt (v.px ^ 2 + v.py ^ 2)

/-- The particle moves at the angle `θ` to the beam. -/
def AtAngle (v : Vec4) (θ : ℝ) : Prop :=
  v.pz = absMomentum v * Real.cos θ ∧ transverse v = absMomentum v * Real.sin θ

theorem absMomentum_sq (v : Vec4) : absMomentum v ^ 2 = transverse v ^ 2 + v.pz ^ 2 := by
  unfold absMomentum transverse
  rw [Real.sq_sqrt (by positivity), Real.sq_sqrt (by positivity)]

/-- Everything about one product with momentum `p` in the centre of mass frame, emitted at an angle
with cosine `c`: the largest angle in the laboratory. -/
theorem focused {p m es g gb c pz pt2 : ℝ} (hp : 0 ≤ p) (hes : es ^ 2 = m ^ 2 + p ^ 2) (hes0 : 0 ≤ es)
    (hg : g ^ 2 = 1 + gb ^ 2) (hg0 : 0 ≤ g) (hgb : 0 ≤ gb) (hc1 : -1 ≤ c)
    (hlt : p < m * gb) (hpz : pz = g * (p * c) + gb * es) (hpt : pt2 = p ^ 2 * (1 - c ^ 2)) :
    0 < pz ∧ pt2 * (m * gb) ^ 2 ≤ p ^ 2 * (pt2 + pz ^ 2) := by
  have h1 : (g * p) ^ 2 < (gb * es) ^ 2 := by
    rw [mul_pow, mul_pow, hes, hg]
    nlinarith
  have h2 : g * p < gb * es := lt_of_pow_lt_pow_left₀ 2 (by positivity) h1
  constructor
  · rw [hpz]
    nlinarith [mul_nonneg hg0 hp]
  · have key : p ^ 2 * (pt2 + pz ^ 2) - pt2 * (m * gb) ^ 2 = p ^ 2 * (gb * es * c + g * p) ^ 2 := by
      rw [hpz, hpt]
      linear_combination (-p ^ 2 * gb ^ 2 * (c ^ 2 - 1)) * hes + p ^ 4 * (c ^ 2 - 1) * hg
    nlinarith [mul_nonneg (sq_nonneg p) (sq_nonneg (gb * es * c + g * p))]

/-- The facts about the two products used below. -/
structure LabFacts (k : TwoBody) (e q : Vec4) (polar : ℝ) : Prop where
  p : 0 < k.pStar
  es0 : 0 ≤ k.eStar
  es : k.eStar ^ 2 = k.ejectile ^ 2 + k.pStar ^ 2
  es' : (Real.sqrt k.s - k.eStar) ^ 2 = k.residual ^ 2 + k.pStar ^ 2
  es0' : 0 ≤ Real.sqrt k.s - k.eStar
  g : k.gamma ^ 2 = 1 + k.gammaBeta ^ 2
  g0 : 0 ≤ k.gamma
  gb : 0 ≤ k.gammaBeta
  ez : e.pz = k.gamma * (k.pStar * Real.cos polar) + k.gammaBeta * k.eStar
  qz : q.pz = k.gamma * (k.pStar * -Real.cos polar) + k.gammaBeta * (Real.sqrt k.s - k.eStar)
  et : transverse e ^ 2 = k.pStar ^ 2 * (1 - Real.cos polar ^ 2)
  qt : transverse q ^ 2 = k.pStar ^ 2 * (1 - (-Real.cos polar) ^ 2)

theorem labFacts (h : ReactionOk r) (hT : 0 ≤ T) (hEx : 0 ≤ r.residual.mass + Ex)
    (ha : r.is_excitation_allowed T Ex = true) (polar azimuthal : ℝ) {t p e q : Vec4}
    (hc : r.calculate T polar azimuthal Ex = .ok (t, some p, some e, some q)) :
    LabFacts (Reaction.twoBody r T Ex) e q polar := by
  obtain ⟨he, hq⟩ := C81_closed_form h hT hEx ha polar azimuthal hc
  have hpp := pStar_pos h hT hEx ha
  have ha' := ha
  rw [C42_reaction h hT, parent_M h hT] at ha'
  have hle : r.ejectile.mass + (r.residual.mass + Ex) ≤ cmEnergy r T := by linarith
  obtain ⟨-, hp2⟩ := pStar_sq h hT hEx hle
  have hes := eStar_eq h hT hEx hle
  have hW := cmEnergy_pos h hT
  have hW2 := cmEnergy_sq h hT
  have hb := beam_sq h hT
  have hs1 := (twoBody_s (Ex := Ex) h hT).1
  have hm := h.target
  have hmp := h.projectile
  have hme := h.ejectile
  have hg : (Reaction.twoBody r T Ex).gamma = (r.target.mass + r.projectile.mass + T) / cmEnergy r T := rfl
  have hgb : (Reaction.twoBody r T Ex).gammaBeta
      = Real.sqrt (T * (T + 2 * r.projectile.mass)) / cmEnergy r T := rfl
  have hP0 := Real.sqrt_nonneg (T * (T + 2 * r.projectile.mass))
  have hs2 : Real.sin polar ^ 2 = 1 - Real.cos polar ^ 2 := by
    linarith [Real.sin_sq_add_cos_sq polar]
  have ht : e.px ^ 2 + e.py ^ 2 = (Reaction.twoBody r T Ex).pStar ^ 2 * (1 - Real.cos polar ^ 2) := by
    rw [he]
    simp only
    linear_combination (Reaction.twoBody r T Ex).pStar ^ 2 * hs2
      + (Reaction.twoBody r T Ex).pStar ^ 2 * Real.sin polar ^ 2 * Real.sin_sq_add_cos_sq azimuthal
  refine ⟨hpp, Real.sqrt_nonneg _, ?_, ?_, ?_, ?_, ?_, ?_, ?_, ?_, ?_, ?_⟩
  · unfold TwoBody.eStar
    exact Real.sq_sqrt (by positivity)
  · rw [hs1, hes, hp2]
    simp only [Reaction.twoBody]
    field_simp
    ring
  · rw [hs1, hes]
    rw [sub_nonneg, div_le_iff₀ (by positivity)]
    nlinarith
  · rw [hg, hgb]
    rw [div_pow, div_pow, hb]
    field_simp
    rw [hW2]
    ring
  · rw [hg]; positivity
  · rw [hgb]; positivity
  · rw [he]
  · rw [hq]
    simp only
    rw [he, hs1]
    simp only
    rw [hgb]
    field_simp
    ring
  · unfold transverse
    rw [Real.sq_sqrt (by positivity), ht]
  · unfold transverse
    rw [Real.sq_sqrt (by positivity)]
    have : q.px ^ 2 + q.py ^ 2 = e.px ^ 2 + e.py ^ 2 := by rw [hq]; simp only; ring
    rw [this, ht]
    ring

/-- **C123.** The momenta of the ejectile in the laboratory lie on an ellipsoid around the beam axis, with
half-axes `pStar` across and `γ pStar` along the beam. -/
theorem C123_ellipse (h : ReactionOk r) (hT : 0 ≤ T) (hEx : 0 ≤ r.residual.mass + Ex)
    (ha : r.is_excitation_allowed T Ex = true) (polar azimuthal : ℝ) {t p e q : Vec4}
    (hc : r.calculate T polar azimuthal Ex = .ok (t, some p, some e, some q)) :
    let k := Reaction.twoBody r T Ex
    ((e.pz - k.gammaBeta * k.eStar) / k.gamma) ^ 2 + transverse e ^ 2 = k.pStar ^ 2 := by
  have f := labFacts h hT hEx ha polar azimuthal hc
  have hg : 0 < (Reaction.twoBody r T Ex).gamma := by
    rcases f.g0.lt_or_eq with h1 | h1
    · exact h1
    · have := f.g
      rw [← h1] at this
      nlinarith [sq_nonneg (Reaction.twoBody r T Ex).gammaBeta]
  simp only
  rw [f.et, f.ez]
  field_simp
  ring

/-- **C123.** A product that is slower in the centre-of-mass frame than this frame in the laboratory moves
forward, and its angle to the beam is at most `arcsin (pStar / (m βγ))`. For the ejectile `m` is its
mass, for the residual it includes the excitation. -/
theorem C123_focused (h : ReactionOk r) (hT : 0 ≤ T) (hEx : 0 ≤ r.residual.mass + Ex)
    (ha : r.is_excitation_allowed T Ex = true) (polar azimuthal : ℝ) {t p e q : Vec4}
    (hc : r.calculate T polar azimuthal Ex = .ok (t, some p, some e, some q)) :
    let k := Reaction.twoBody r T Ex
    (k.pStar < k.ejectile * k.gammaBeta → 0 < e.pz ∧
      transverse e ≤ absMomentum e * (k.pStar / (k.ejectile * k.gammaBeta))) ∧
    (k.pStar < k.residual * k.gammaBeta → 0 < q.pz ∧
      transverse q ≤ absMomentum q * (k.pStar / (k.residual * k.gammaBeta))) := by
  have f := labFacts h hT hEx ha polar azimuthal hc
  have fin : ∀ {m : ℝ} (v : Vec4), (Reaction.twoBody r T Ex).pStar < m * (Reaction.twoBody r T Ex).gammaBeta →
      transverse v ^ 2 * (m * (Reaction.twoBody r T Ex).gammaBeta) ^ 2
        ≤ (Reaction.twoBody r T Ex).pStar ^ 2 * (transverse v ^ 2 + v.pz ^ 2) →
      transverse v ≤ absMomentum v * ((Reaction.twoBody r T Ex).pStar
        / (m * (Reaction.twoBody r T Ex).gammaBeta)) := by
    intro m v hlt hle
    have hpos : 0 < m * (Reaction.twoBody r T Ex).gammaBeta := f.p.trans hlt
    rw [← mul_div_assoc, le_div_iff₀ hpos]
    have hv : 0 ≤ absMomentum v := Real.sqrt_nonneg _
    refine le_of_sq_le_sq ?_ (mul_nonneg hv f.p.le)
    rw [mul_pow (transverse v), mul_pow (absMomentum v), absMomentum_sq]
    linarith
  refine ⟨fun hlt => ?_, fun hlt => ?_⟩
  · obtain ⟨h1, h2⟩ := focused f.p.le f.es f.es0 f.g f.g0 f.gb
      (Real.neg_one_le_cos polar) hlt f.ez f.et
    exact ⟨h1, fin e hlt h2⟩
  · obtain ⟨h1, h2⟩ := focused f.p.le f.es' f.es0' f.g f.g0 f.gb
      (neg_le_neg (Real.cos_le_one polar)) hlt f.qz f.qt
    exact ⟨h1, fin q hlt h2⟩

/-- Whether the reaction is calculated does not depend on the angles. -/
theorem calculate_any (h : ReactionOk r) (hT : 0 ≤ T) (hEx : 0 ≤ r.residual.mass + Ex)
    (ha : r.is_excitation_allowed T Ex = true) {polar azimuthal : ℝ} {res}
    (hc : r.calculate T polar azimuthal Ex = .ok res) (polar' azimuthal' : ℝ) :
    ∃ t p e q, r.calculate T polar' azimuthal' Ex = .ok (t, some p, some e, some q) := by
  rw [C42_reaction h hT, parent_M h hT] at ha
  obtain ⟨pp, -, -, hv⟩ := cmVector_some polar' azimuthal' h.ejectile hEx (cmEnergy_pos h hT) (by linarith)
  rw [reaction_calculate h hT] at hc ⊢
  rw [hv]
  split_ifs at hc ⊢
  exact ⟨_, _, _, _, rfl⟩

/-- **C123.** The bound of `C123_focused` is the best one: some angle in the centre-of-mass frame gives it,
for all azimuths. -/
theorem C123_attained (h : ReactionOk r) (hT : 0 ≤ T) (hEx : 0 ≤ r.residual.mass + Ex)
    (ha : r.is_excitation_allowed T Ex = true) {polar₀ azimuthal₀ : ℝ} {res}
    (hc₀ : r.calculate T polar₀ azimuthal₀ Ex = .ok res)
    (hlt : (Reaction.twoBody r T Ex).pStar
      < (Reaction.twoBody r T Ex).ejectile * (Reaction.twoBody r T Ex).gammaBeta) :
    let k := Reaction.twoBody r T Ex
    ∃ polar, 0 ≤ polar ∧ polar ≤ Real.pi ∧ ∀ azimuthal, ∃ t p e q,
      r.calculate T polar azimuthal Ex = .ok (t, some p, some e, some q) ∧
      transverse e = absMomentum e * (k.pStar / (k.ejectile * k.gammaBeta)) := by
  intro k
  obtain ⟨t0, p0, e0, q0, hc1⟩ := calculate_any h hT hEx ha hc₀ 0 0
  have f0 := labFacts h hT hEx ha 0 0 hc1
  have hpos : 0 < k.ejectile * k.gammaBeta := f0.p.trans hlt
  have hgb : 0 < k.gammaBeta := by
    rcases f0.gb.lt_or_eq with h1 | h1
    · exact h1
    · have h1' : k.gammaBeta = 0 := h1.symm
      rw [h1', mul_zero] at hpos
      exact absurd hpos (lt_irrefl _)
  have hes : 0 < k.eStar := by
    refine lt_of_le_of_ne f0.es0 fun h3 => ?_
    have h1 := f0.es
    rw [← h3] at h1
    nlinarith [sq_nonneg (Reaction.twoBody r T Ex).ejectile, pow_pos f0.p 2]
  have hlt2 : k.gamma * k.pStar < k.gammaBeta * k.eStar := by
    refine lt_of_pow_lt_pow_left₀ 2 (mul_nonneg f0.gb f0.es0) ?_
    have h1 := f0.es
    have h2 := f0.g
    have h3 : k.pStar ^ 2 < (k.ejectile * k.gammaBeta) ^ 2 := pow_lt_pow_left₀ hlt f0.p.le two_ne_zero
    rw [mul_pow, mul_pow, h1, h2]
    rw [mul_pow] at h3
    nlinarith
  have hgp : 0 ≤ k.gamma * k.pStar := mul_nonneg f0.g0 f0.p.le
  have hc1' : -1 ≤ -(k.gamma * k.pStar) / (k.gammaBeta * k.eStar) := by
    rw [le_div_iff₀ (mul_pos hgb hes)]
    linarith
  have hc2 : -(k.gamma * k.pStar) / (k.gammaBeta * k.eStar) ≤ 1 := by
    rw [div_le_iff₀ (mul_pos hgb hes)]
    nlinarith [mul_pos hgb hes]
  refine ⟨Real.arccos (-(k.gamma * k.pStar) / (k.gammaBeta * k.eStar)), Real.arccos_nonneg _,
    Real.arccos_le_pi _, fun azimuthal => ?_⟩
  obtain ⟨t, p, e, q, hc⟩ := calculate_any h hT hEx ha hc₀
    (Real.arccos (-(k.gamma * k.pStar) / (k.gammaBeta * k.eStar))) azimuthal
  refine ⟨t, p, e, q, hc, ?_⟩
  have f := labFacts h hT hEx ha _ azimuthal hc
  have ez := f.ez
  have et := f.et
  rw [Real.cos_arccos hc1' hc2] at ez et
  have hc3 : k.gammaBeta * k.eStar * (-(k.gamma * k.pStar) / (k.gammaBeta * k.eStar)) + k.gamma * k.pStar = 0 := by
    field_simp
    ring
  have he1 := f.es
  have hg1 := f.g
  rw [← mul_div_assoc, eq_div_iff hpos.ne']
  refine (pow_left_inj₀ (mul_nonneg (Real.sqrt_nonneg _) hpos.le)
    (mul_nonneg (Real.sqrt_nonneg _) f.p.le) two_ne_zero).1 ?_
  change (transverse e * (k.ejectile * k.gammaBeta)) ^ 2 = (absMomentum e * k.pStar) ^ 2
  rw [mul_pow (transverse e), mul_pow (absMomentum e), absMomentum_sq, et, ez]
  simp only [k] at hc3 ⊢
  generalize -((Reaction.twoBody r T Ex).gamma * (Reaction.twoBody r T Ex).pStar)
    / ((Reaction.twoBody r T Ex).gammaBeta * (Reaction.twoBody r T Ex).eStar) = c at *
  generalize (Reaction.twoBody r T Ex).gamma = g at *
  generalize (Reaction.twoBody r T Ex).gammaBeta = gb at *
  generalize (Reaction.twoBody r T Ex).pStar = pp at *
  generalize (Reaction.twoBody r T Ex).eStar = es at *
  generalize (Reaction.twoBody r T Ex).ejectile = m at *
  linear_combination (-pp ^ 2 * (gb * es * c + g * pp)) * hc3
    - (-pp ^ 2 * gb ^ 2 * (c ^ 2 - 1)) * he1 - pp ^ 4 * (c ^ 2 - 1) * hg1

/-- **C123.** If the ejectile is faster in the centre-of-mass frame than this frame in the laboratory, all
angles in the laboratory occur. -/
theorem C123_all_angles (h : ReactionOk r) (hT : 0 ≤ T) (hEx : 0 ≤ r.residual.mass + Ex)
    (ha : r.is_excitation_allowed T Ex = true) {polar₀ azimuthal₀ : ℝ} {res}
    (hc₀ : r.calculate T polar₀ azimuthal₀ Ex = .ok res)
    (hlt : (Reaction.twoBody r T Ex).ejectile * (Reaction.twoBody r T Ex).gammaBeta
      < (Reaction.twoBody r T Ex).pStar) (θ : ℝ) (hθ0 : 0 ≤ θ) (hθ : θ ≤ Real.pi) :
    ∃ polar, 0 ≤ polar ∧ polar ≤ Real.pi ∧ ∀ azimuthal, ∃ t p e q,
      r.calculate T polar azimuthal Ex = .ok (t, some p, some e, some q) ∧ AtAngle e θ := by
  obtain ⟨t0, p0, e0, q0, hc1⟩ := calculate_any h hT hEx ha hc₀ 0 0
  have f0 := labFacts h hT hEx ha 0 0 hc1
  set k := Reaction.twoBody r T Ex with hk
  have hback : k.gammaBeta * k.eStar < k.gamma * k.pStar := by
    refine lt_of_pow_lt_pow_left₀ 2 (mul_nonneg f0.g0 f0.p.le) ?_
    have h1 := f0.es
    have h2 := f0.g
    have hm : 0 ≤ k.ejectile := h.ejectile
    have h3 : (k.ejectile * k.gammaBeta) ^ 2 < k.pStar ^ 2 :=
      pow_lt_pow_left₀ hlt (mul_nonneg hm f0.gb) two_ne_zero
    rw [mul_pow, mul_pow, h1, h2]
    rw [mul_pow] at h3
    nlinarith
  have hfwd : 0 ≤ k.gammaBeta * k.eStar := mul_nonneg f0.gb f0.es0
  have hgp : 0 ≤ k.gamma * k.pStar := mul_nonneg f0.g0 f0.p.le
  -- the longitudinal and transverse momentum as functions of the angle in the centre of mass
  obtain ⟨polar, ⟨hp0, hp1⟩, hroot⟩ : ∃ x ∈ Set.Icc 0 Real.pi,
      k.pStar * Real.sin x * Real.cos θ
        - (k.gamma * (k.pStar * Real.cos x) + k.gammaBeta * k.eStar) * Real.sin θ = 0 := by
    have hcont : Continuous fun x => k.pStar * Real.sin x * Real.cos θ
        - (k.gamma * (k.pStar * Real.cos x) + k.gammaBeta * k.eStar) * Real.sin θ := by fun_prop
    have hs := Real.sin_nonneg_of_nonneg_of_le_pi hθ0 hθ
    have := intermediate_value_Icc Real.pi_pos.le hcont.continuousOn
    refine this ⟨?_, ?_⟩
    · simp only [Real.sin_zero, Real.cos_zero]
      nlinarith
    · simp only [Real.sin_pi, Real.cos_pi]
      nlinarith
  have hin : ∀ (x d : ℝ), 0 ≤ x → x ≤ Real.pi → 0 ≤ d →
      k.gamma * (k.pStar * Real.cos x) + k.gammaBeta * k.eStar = d * Real.cos θ →
      k.pStar * Real.sin x = d * Real.sin θ →
      ∀ azimuthal, ∃ t p e q,
        r.calculate T x azimuthal Ex = .ok (t, some p, some e, some q) ∧ AtAngle e θ := by
    intro x d hx0 hx1 hd hz ht azimuthal
    obtain ⟨t, p, e, q, hc⟩ := calculate_any h hT hEx ha hc₀ x azimuthal
    refine ⟨t, p, e, q, hc, ?_⟩
    have f := labFacts h hT hEx ha _ azimuthal hc
    have ez : e.pz = d * Real.cos θ := by rw [f.ez]; exact hz
    have htr : transverse e = d * Real.sin θ := by
      refine (pow_left_inj₀ (Real.sqrt_nonneg _) (mul_nonneg hd
        (Real.sin_nonneg_of_nonneg_of_le_pi hθ0 hθ)) two_ne_zero).1 ?_
      change transverse e ^ 2 = _
      rw [f.et, ← ht, mul_pow, Real.sin_sq]
    have hab : absMomentum e = d := by
      refine (pow_left_inj₀ (Real.sqrt_nonneg _) hd two_ne_zero).1 ?_
      change absMomentum e ^ 2 = _
      rw [absMomentum_sq, htr, ez]
      linear_combination d ^ 2 * Real.sin_sq_add_cos_sq θ
    exact ⟨by rw [hab, ez], by rw [hab, htr]⟩
  have hs := Real.sin_nonneg_of_nonneg_of_le_pi hθ0 hθ
  rcases hs.lt_or_eq with hspos | hs0
  · refine ⟨polar, hp0, hp1, hin polar ((k.gamma * (k.pStar * Real.cos polar)
      + k.gammaBeta * k.eStar) * Real.cos θ + k.pStar * Real.sin polar * Real.sin θ) hp0 hp1 ?_ ?_ ?_⟩
    · have h1 : ((k.gamma * (k.pStar * Real.cos polar) + k.gammaBeta * k.eStar) * Real.cos θ
          + k.pStar * Real.sin polar * Real.sin θ) * Real.sin θ = k.pStar * Real.sin polar := by
        linear_combination (-Real.cos θ) * hroot + k.pStar * Real.sin polar * Real.sin_sq_add_cos_sq θ
      have h2 : 0 ≤ k.pStar * Real.sin polar :=
        mul_nonneg f0.p.le (Real.sin_nonneg_of_nonneg_of_le_pi hp0 hp1)
      rw [← h1] at h2
      exact nonneg_of_mul_nonneg_left h2 hspos
    · linear_combination (-Real.sin θ) * hroot
        - (k.gamma * (k.pStar * Real.cos polar) + k.gammaBeta * k.eStar) * Real.sin_sq_add_cos_sq θ
    · linear_combination Real.cos θ * hroot - k.pStar * Real.sin polar * Real.sin_sq_add_cos_sq θ
  · rcases hθ.lt_or_eq with hlt' | rfl
    · have hθ' : θ = 0 := by
        rcases hθ0.lt_or_eq with h1 | h1
        · exact absurd hs0 (Real.sin_pos_of_pos_of_lt_pi h1 hlt').ne
        · exact h1.symm
      subst hθ'
      refine ⟨0, le_rfl, Real.pi_pos.le, hin 0 (k.gamma * k.pStar + k.gammaBeta * k.eStar) le_rfl
        Real.pi_pos.le (by linarith) (by simp) (by simp)⟩
    · refine ⟨Real.pi, Real.pi_pos.le, le_rfl, hin Real.pi (k.gamma * k.pStar - k.gammaBeta * k.eStar)
        Real.pi_pos.le le_rfl (by linarith) ?_ (by simp)⟩
      rw [Real.cos_pi]
      ring

/-- **C123.** In elastic scattering the target nucleus is never scattered backwards, and its kinetic energy
is determined by its angle `θ` in the laboratory:
`2 m P² cos² θ / (E² - P² cos² θ)` for a beam with momentum `P` and a total energy `E`. -/
theorem C123_elastic (h : ReactionOk r) (hT : 0 ≤ T) (he : r.ejectile.mass = r.target.mass)
    (hres : r.residual.mass = r.projectile.mass) (ha : r.is_excitation_allowed T 0 = true)
    (polar azimuthal : ℝ) {t p e q : Vec4}
    (hc : r.calculate T polar azimuthal 0 = .ok (t, some p, some e, some q)) :
    0 ≤ e.pz ∧
    (r.target.mass + r.projectile.mass + T) * (e.E - r.target.mass)
      = Real.sqrt (T * (T + 2 * r.projectile.mass)) * e.pz ∧
    ∀ θ, AtAngle e θ → r.target.mass < e.E →
      e.E - r.target.mass = 2 * r.target.mass * (T * (T + 2 * r.projectile.mass)) * Real.cos θ ^ 2
        / ((r.target.mass + r.projectile.mass + T) ^ 2
          - T * (T + 2 * r.projectile.mass) * Real.cos θ ^ 2) := by
  have hEx : 0 ≤ r.residual.mass + 0 := by rw [add_zero, hres]; exact h.projectile
  obtain ⟨hE, hps⟩ := C81_elastic h hT he hres ha polar azimuthal hc
  obtain ⟨hee, -⟩ := C81_closed_form h hT hEx ha polar azimuthal hc
  have f := labFacts h hT hEx ha polar azimuthal hc
  have hW := cmEnergy_pos h hT
  have hW2 := cmEnergy_sq h hT
  have hb := beam_sq h hT
  have hm := h.target
  have hmp := h.projectile
  have hg : (Reaction.twoBody r T 0).gamma = (r.target.mass + r.projectile.mass + T) / cmEnergy r T := rfl
  have hgb : (Reaction.twoBody r T 0).gammaBeta
      = Real.sqrt (T * (T + 2 * r.projectile.mass)) / cmEnergy r T := rfl
  have hm1 : (Reaction.twoBody r T 0).ejectile = r.target.mass := he
  have hpg : (Reaction.twoBody r T 0).pStar = r.target.mass * (Reaction.twoBody r T 0).gammaBeta := by
    rw [hps, hgb, mul_div_assoc]
  have hes : (Reaction.twoBody r T 0).eStar = r.target.mass * (Reaction.twoBody r T 0).gamma := by
    refine (pow_left_inj₀ f.es0 (mul_nonneg hm.le f.g0) two_ne_zero).1 ?_
    rw [f.es, hm1, hpg, mul_pow, mul_pow, f.g]
    ring
  have hc1 := Real.neg_one_le_cos polar
  have hz : e.pz = r.target.mass * (Reaction.twoBody r T 0).gamma
      * (Reaction.twoBody r T 0).gammaBeta * (1 + Real.cos polar) := by
    rw [f.ez, hes, hpg]; ring
  have hz0 : 0 ≤ e.pz := by
    rw [hz]
    exact mul_nonneg (mul_nonneg (mul_nonneg hm.le f.g0) f.gb) (by linarith)
  have hrel : (r.target.mass + r.projectile.mass + T) * (e.E - r.target.mass)
      = Real.sqrt (T * (T + 2 * r.projectile.mass)) * e.pz := by
    rw [hE, hz, hpg, hg, hgb]
    field_simp
  refine ⟨hz0, hrel, fun θ hθ hpos => ?_⟩
  -- the mass shell
  have hshell : absMomentum e ^ 2 = (e.E - r.target.mass) * (e.E - r.target.mass + 2 * r.target.mass) := by
    rw [absMomentum_sq, f.et, f.ez]
    have hEe : e.E = (Reaction.twoBody r T 0).gamma * (Reaction.twoBody r T 0).eStar
        + (Reaction.twoBody r T 0).gammaBeta * ((Reaction.twoBody r T 0).pStar * Real.cos polar) := by
      rw [hee]
    rw [hEe, hes, hpg]
    have := f.g
    generalize (Reaction.twoBody r T 0).gamma = g at *
    generalize (Reaction.twoBody r T 0).gammaBeta = gb at *
    generalize r.target.mass = m at *
    generalize Real.cos polar = c at *
    linear_combination m ^ 2 * (-g ^ 2 + gb ^ 2 * c ^ 2 - 1) * this
  rw [hθ.1] at hrel
  have hc2 : Real.cos θ ^ 2 ≤ 1 := Real.cos_sq_le_one θ
  have hden : 0 < (r.target.mass + r.projectile.mass + T) ^ 2
      - T * (T + 2 * r.projectile.mass) * Real.cos θ ^ 2 := by
    have h0 : 0 ≤ T * (T + 2 * r.projectile.mass) := by positivity
    nlinarith [mul_le_mul_of_nonneg_left hc2 h0, mul_pos hm hm, mul_nonneg hm.le hmp,
      mul_nonneg hm.le hT]
  rw [eq_div_iff hden.ne']
  have h3 : ((r.target.mass + r.projectile.mass + T) * (e.E - r.target.mass)) ^ 2
      = T * (T + 2 * r.projectile.mass) * (absMomentum e ^ 2 * Real.cos θ ^ 2) := by
    rw [hrel, mul_pow, hb, mul_pow]
  rw [hshell] at h3
  have hpos' : 0 < e.E - r.target.mass := by linarith
  refine mul_left_cancel₀ hpos'.ne' ?_
  linear_combination h3

/-- A heavy beam (mass 4) on a light target (mass 2), the ejectile being the scattered beam. -/
noncomputable def exInverse : Reaction :=
  { target := ⟨1, 2, 2, "2H"⟩, projectile := ⟨2, 4, 4, "4He"⟩, ejectile := ⟨2, 4, 4, "4He"⟩,
    residual := ⟨1, 2, 2, "2H"⟩ }

theorem exInverse_ok : ReactionOk exInverse := ⟨by norm_num [exInverse], by norm_num [exInverse],
  by norm_num [exInverse]⟩

theorem exInverse_cm : cmEnergy exInverse 7 = 8 := by
  unfold cmEnergy
  rw [show ((exInverse.target.mass + exInverse.projectile.mass) ^ 2 + 2 * exInverse.target.mass * 7)
    = (8 : ℝ) ^ 2 by norm_num [exInverse]]
  exact Real.sqrt_sq (by norm_num)

theorem exInverse_allowed : exInverse.is_excitation_allowed 7 0 = true := by
  rw [C42_reaction exInverse_ok (by norm_num), parent_M exInverse_ok (by norm_num), exInverse_cm]
  norm_num [exInverse]

theorem exInverse_calculate : ∃ res, exInverse.calculate 7 0 0 0 = .ok res := by
  obtain ⟨pp, -, -, hv⟩ := cmVector_some (m1 := exInverse.ejectile.mass)
    (m2 := exInverse.residual.mass + 0) (W := cmEnergy exInverse 7) 0 0
    (by norm_num [exInverse]) (by norm_num [exInverse]) (by rw [exInverse_cm]; norm_num)
    (by rw [exInverse_cm]; norm_num [exInverse])
  have hc := reaction_calculate exInverse_ok (T := 7) (by norm_num) 0 0 0
  rw [hv, if_neg (by norm_num [exInverse]), if_neg (by norm_num [exInverse])] at hc
  exact ⟨_, hc⟩

/-- The bound is met in this reaction: the beam is scattered by at most 30 degrees (`sin θ ≤ 1/2`), and
this angle occurs. -/
example : ∃ polar azimuthal t p e q, exInverse.calculate 7 polar azimuthal 0
    = .ok (t, some p, some e, some q) ∧ 0 < e.pz ∧ transverse e = absMomentum e * (1 / 2) := by
  obtain ⟨res, hc₀⟩ := exInverse_calculate
  have hEx : 0 ≤ exInverse.residual.mass + 0 := by norm_num [exInverse]
  have hp0 := (pStar_pos exInverse_ok (by norm_num) hEx exInverse_allowed).le
  have h105 : 0 < Real.sqrt 105 := Real.sqrt_pos.2 (by norm_num)
  have hp : (Reaction.twoBody exInverse 7 0).pStar = Real.sqrt 105 / 4 := by
    refine (pow_left_inj₀ hp0 (by positivity) two_ne_zero).1 ?_
    rw [(pStar_sq exInverse_ok (by norm_num) hEx (by rw [exInverse_cm]; norm_num [exInverse])).2,
      exInverse_cm, div_pow (Real.sqrt 105), Real.sq_sqrt (by norm_num)]
    norm_num [exInverse]
  have hgb : (Reaction.twoBody exInverse 7 0).gammaBeta = Real.sqrt 105 / 8 := by
    have : (Reaction.twoBody exInverse 7 0).gammaBeta
      = Real.sqrt (7 * (7 + 2 * exInverse.projectile.mass)) / cmEnergy exInverse 7 := rfl
    rw [this, exInverse_cm]
    norm_num [exInverse]
  have hm : (Reaction.twoBody exInverse 7 0).ejectile = 4 := rfl
  have hlt : (Reaction.twoBody exInverse 7 0).pStar
      < (Reaction.twoBody exInverse 7 0).ejectile * (Reaction.twoBody exInverse 7 0).gammaBeta := by
    rw [hp, hgb, hm]
    linarith
  obtain ⟨polar, -, -, hall⟩ := C123_attained exInverse_ok (by norm_num) hEx exInverse_allowed hc₀ hlt
  obtain ⟨t, p, e, q, hc, ht⟩ := hall 0
  refine ⟨polar, 0, t, p, e, q, hc, ((C123_focused exInverse_ok (by norm_num) hEx exInverse_allowed
    polar 0 hc).1 hlt).1, ?_⟩
  rw [ht, hp, hgb, hm]
  congr 1
  field_simp
  norm_num

/-- A light ejectile from the same collision. -/
noncomputable def exLight : Reaction :=
  { target := ⟨1, 2, 2, "2H"⟩, projectile := ⟨2, 4, 4, "4He"⟩, ejectile := ⟨1, 1, 1, "1H"⟩,
    residual := ⟨2, 5, 4, "5He"⟩ }

/-- The ejectile of this reaction comes out at every angle, for instance at 90 degrees. -/
example : ∃ polar azimuthal t p e q, exLight.calculate 7 polar azimuthal 0
    = .ok (t, some p, some e, some q) ∧ AtAngle e (Real.pi / 2) := by
  have hok : ReactionOk exLight := ⟨by norm_num [exLight], by norm_num [exLight], by norm_num [exLight]⟩
  have hcm : cmEnergy exLight 7 = 8 := by
    unfold cmEnergy
    rw [show ((exLight.target.mass + exLight.projectile.mass) ^ 2 + 2 * exLight.target.mass * 7)
      = (8 : ℝ) ^ 2 by norm_num [exLight]]
    exact Real.sqrt_sq (by norm_num)
  have hEx : 0 ≤ exLight.residual.mass + 0 := by norm_num [exLight]
  have ha : exLight.is_excitation_allowed 7 0 = true := by
    rw [C42_reaction hok (by norm_num), parent_M hok (by norm_num), hcm]
    norm_num [exLight]
  obtain ⟨pp, -, -, hv⟩ := cmVector_some (m1 := exLight.ejectile.mass)
    (m2 := exLight.residual.mass + 0) (W := cmEnergy exLight 7) 0 0
    (by norm_num [exLight]) (by norm_num [exLight]) (by rw [hcm]; norm_num)
    (by rw [hcm]; norm_num [exLight])
  have hc := reaction_calculate hok (T := 7) (by norm_num) 0 0 0
  rw [hv, if_neg (by norm_num [exLight]), if_neg (by norm_num [exLight])] at hc
  have hp0 := (pStar_pos hok (by norm_num) hEx ha).le
  have hlt : (Reaction.twoBody exLight 7 0).ejectile * (Reaction.twoBody exLight 7 0).gammaBeta
      < (Reaction.twoBody exLight 7 0).pStar := by
    have hgb : (Reaction.twoBody exLight 7 0).gammaBeta = Real.sqrt 105 / 8 := by
      have : (Reaction.twoBody exLight 7 0).gammaBeta
        = Real.sqrt (7 * (7 + 2 * exLight.projectile.mass)) / cmEnergy exLight 7 := rfl
      rw [this, hcm]
      norm_num [exLight]
    have hm : (Reaction.twoBody exLight 7 0).ejectile = 1 := rfl
    refine lt_of_pow_lt_pow_left₀ 2 hp0 ?_
    rw [(pStar_sq hok (by norm_num) hEx (by rw [hcm]; norm_num [exLight])).2, hcm, hgb, hm, one_mul,
      div_pow (Real.sqrt 105), Real.sq_sqrt (by norm_num)]
    norm_num [exLight]
  obtain ⟨polar, -, -, hall⟩ := C123_all_angles hok (by norm_num) hEx ha hc hlt (Real.pi / 2)
    (by positivity) (by linarith [Real.pi_pos])
  obtain ⟨t, p, e, q, hc, ht⟩ := hall 0
  exact ⟨polar, 0, t, p, e, q, hc, ht⟩

/-- The hypotheses of `C123_elastic` are met by `exElastic`: a nucleus that receives energy at all moves at
some angle for which the formula holds. -/
example : ∃ t p e q, exElastic.calculate 5 0 0 0 = .ok (t, some p, some e, some q) ∧
    AtAngle e 0 ∧ e.E - 2 = 2 * 2 * (5 * (5 + 2 * 2)) * Real.cos 0 ^ 2
      / ((2 + 2 + 5) ^ 2 - 5 * (5 + 2 * 2) * Real.cos 0 ^ 2) := by
  have ha : exElastic.is_excitation_allowed 5 0 = true := by
    rw [C42_reaction exElastic_ok (by norm_num), parent_M exElastic_ok (by norm_num), exElastic_cm]
    norm_num [exElastic]
  obtain ⟨pp, -, -, hv⟩ := cmVector_some (m1 := exElastic.ejectile.mass)
    (m2 := exElastic.residual.mass + 0) (W := cmEnergy exElastic 5) 0 0
    (by norm_num [exElastic]) (by norm_num [exElastic]) (by rw [exElastic_cm]; norm_num)
    (by rw [exElastic_cm]; norm_num [exElastic])
  have hc := reaction_calculate exElastic_ok (T := 5) (by norm_num) 0 0 0
  rw [hv, if_neg (by norm_num [exElastic]), if_neg (by norm_num [exElastic])] at hc
  obtain ⟨t, p, e, q, hc⟩ := calculate_any exElastic_ok (by norm_num) (by norm_num [exElastic]) ha hc 0 0
  refine ⟨t, p, e, q, hc, ?_⟩
  obtain ⟨hz, -, hθ⟩ := C123_elastic exElastic_ok (by norm_num) rfl rfl ha 0 0 hc
  obtain ⟨h1, -⟩ := C81_elastic exElastic_ok (by norm_num) rfl rfl ha 0 0 hc
  have f := labFacts exElastic_ok (by norm_num) (by norm_num [exElastic]) ha 0 0 hc
  have hm : exElastic.target.mass = 2 := rfl
  have hmp : exElastic.projectile.mass = 2 := rfl
  have hp := f.p
  have ht : transverse e = 0 := by
    have := f.et
    rw [Real.cos_zero] at this
    exact pow_eq_zero_iff two_ne_zero |>.1 (by rw [this]; ring)
  have hang : AtAngle e 0 := by
    have hab : absMomentum e = e.pz := by
      refine (pow_left_inj₀ (Real.sqrt_nonneg _) hz two_ne_zero).1 ?_
      change absMomentum e ^ 2 = _
      rw [absMomentum_sq, ht]
      ring
    exact ⟨by rw [hab, Real.cos_zero, mul_one], by rw [ht, Real.sin_zero, mul_zero]⟩
  rw [hm] at h1
  have hpos : exElastic.target.mass < e.E := by
    rw [hm]
    rw [Real.cos_zero] at h1
    nlinarith
  have := hθ 0 hang hpos
  rw [hm, hmp] at this
  exact ⟨hang, this⟩

end Verif.Props
