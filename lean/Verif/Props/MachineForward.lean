import Verif.Proofs.BoostNear64
import Verif.Props.MachineMass

/-! # C138: the computed four-momenta are near the exact ones -/

namespace Verif.Machine

open Verif.Kinematics

theorem size4_le {c : Vec4} {e : ℝ} (h : ∀ i : Component, |i.of c| ≤ e) : size4 c ≤ 4 * e := by
  have h1 := h .px
  have h2 := h .py
  have h3 := h .pz
  have h4 := h .E
  simp only [Component.of] at h1 h2 h3 h4
  unfold size4
  linarith

/-- A product in the laboratory. -/
theorem lab_near {k : Kin64} (hk : k.Accurate) {v q c' c w : Vec4} (hv : Slow v) (hq : q.Massive)
    (hu : ∀ i : Component, |i.of v / v.M - i.of q / q.M| ≤ 2e-14) (hb : ∀ i : Component, |i.of q / q.M| ≤ 2.25)
    {e η : ℝ} (he : 1 ≤ e) (hη : 5e-13 * e ≤ η) (hc : ∀ i : Component, |i.of c' - i.of c| ≤ η)
    (hcb : ∀ i : Component, |i.of c| ≤ e) (hmod : Moderate c') (hw : k.boost c' v = some w) (i : Component) :
    |i.of w - i.of (c.boost q)| ≤ 25 * η := by
  obtain ⟨hmv, hM, -, hpos, hcomp⟩ := hv.massive
  have hη0 : 0 ≤ η := (abs_nonneg _).trans (hc .E)
  have hb' : ∀ i : Component, |i.of v / v.M| ≤ 2.25 := by
    intro i
    rw [abs_div _ v.M, hM, abs_of_pos hpos, div_le_iff₀ hpos]
    refine (hcomp i).trans ?_
    norm_num
    linarith
  have hsize : size4 c ≤ 4 * e := by
    have h1 := hcb .px
    have h2 := hcb .py
    have h3 := hcb .pz
    have h4 := hcb .E
    simp only [Component.of] at h1 h2 h3 h4
    unfold size4
    linarith
  have of_sub : ∀ (i : Component) (a b : Vec4), i.of (a - b) = i.of a - i.of b := by
    intro i a b
    cases i <;> rfl
  have hsd : size4 (c' - c) ≤ 4 * η := by
    have h1 := hc .px
    have h2 := hc .py
    have h3 := hc .pz
    have h4 := hc .E
    rw [← of_sub] at h1 h2 h3 h4
    simp only [Component.of] at h1 h2 h3 h4
    unfold size4
    linarith
  have hsize' : |c'.E| + |c'.px| + |c'.py| + |c'.pz| ≤ 4 * e + 4 * η := by
    have key : ∀ i : Component, |i.of c'| ≤ e + η := by
      intro i
      have := abs_add_le (i.of c' - i.of c) (i.of c)
      rw [sub_add_cancel] at this
      linarith [hc i, hcb i]
    have h1 := key .px
    have h2 := key .py
    have h3 := key .pz
    have h4 := key .E
    simp only [Component.of] at h1 h2 h3 h4
    linarith
  have t1 := hk.back_near v c' w hv hmod hw i
  have t2 := boost_bound hmv (by rw [hM]; exact hv.gamma) (c' - c) i
  rw [boost_sub hmv, of_sub] at t2
  have t3 := boost_near hq hmv hu hb hb' c i
  generalize size4 c = S at *
  generalize size4 (c' - c) = D at *
  generalize |c'.E| + |c'.px| + |c'.py| + |c'.pz| = S' at *
  have b1 := abs_le.1 t1
  have b2 := abs_le.1 t2
  have b3 := abs_le.1 t3
  clear * - b1 b2 b3 hsize hsd hsize' he hη hη0
  rw [abs_le]
  constructor <;> norm_num at b1 b2 b3 hη ⊢ <;> linarith

/-- The vectors in the centre-of-mass frame. -/
theorem cm_vectors_near {k : Kin64} (hk : k.Accurate) {m1 m2 m2' e e' : ℝ} (l1 : 1 ≤ m1) (l2 : 1 ≤ m2)
    (he : e ≤ 1e8) (h2 : |m2' - m2| ≤ 3e-16 * m2) (he' : |e' - e| ≤ 1e-13 * e)
    (hmargin : 1e-12 * e ^ 3 ≤ (e - (m1 + m2)) * (m1 * m2)) (he0 : 1 ≤ e) (polar azimuthal : ℝ) :
    ∃ c' c, cmVector64 k m1 m2' e' polar azimuthal = some c' ∧ cmVector m1 m2 e polar azimuthal = some c ∧ Moderate c' ∧
      (∀ i : Component, |i.of c' - i.of c| ≤ 5.1e-13 * (e ^ 2 / productMomentum m1 m2 e)) ∧
      (∀ i : Component, |i.of c| ≤ e) ∧ e ≤ e ^ 2 / productMomentum m1 m2 e ∧
      e ^ 2 / productMomentum m1 m2 e ≤ 1e6 * e := by
  have ep : 0 < e := by linarith
  obtain ⟨-, q1, q2, q3, q4, q5⟩ := momentum_bounds l1 l2 ep hmargin
  obtain ⟨c', p', hc', hmod, hp0, n1, n2, hx, hy, hz⟩ := cmVector_near hk.toBoostOk l1 l2 he h2 he' hmargin ep polar azimuthal
  have hc : cmVector m1 m2 e polar azimuthal = some
      { px := productMomentum m1 m2 e * Real.sin polar * Real.cos azimuthal
        py := productMomentum m1 m2 e * Real.sin polar * Real.sin azimuthal
        pz := productMomentum m1 m2 e * Real.cos polar
        E := productEnergy m1 m2 e } := by
    unfold cmVector
    simp only
    have : npSqrt (((m1 ^ 2 - m2 ^ 2 + e ^ 2) / (2 * e)) ^ 2 - m1 ^ 2) = some (productMomentum m1 m2 e) := by
      exact if_neg (not_lt.2 q5)
    rw [this]
    rfl
  refine ⟨c', _, hc', hc, hmod, ?_⟩
  generalize productMomentum m1 m2 e = P at *
  generalize productEnergy m1 m2 e = E1 at *
  have hP0 : 0 < P := lt_of_lt_of_le (by positivity) q1
  have hQ : e ≤ e ^ 2 / P := by
    rw [le_div_iff₀ hP0]
    nlinarith
  have hQ2 : e ^ 2 / P ≤ 1e6 * e := by
    rw [div_le_iff₀ hP0]
    nlinarith
  rw [mul_div_assoc] at n2
  generalize e ^ 2 / P = Q at *
  have hp1 : p' ≤ 1.01 * e := by
    have := (abs_le.1 n2).2
    norm_num at this hQ2 ⊢
    linarith
  have fs := Real.abs_sin_le_one
  have fc := Real.abs_cos_le_one
  obtain ⟨-, cx⟩ := component_near hk.rounding hp0 hp1 he0 he (fs polar) (hk.sin_near polar) (fc azimuthal)
    (hk.cos_near azimuthal)
  obtain ⟨-, cy⟩ := component_near hk.rounding hp0 hp1 he0 he (fs polar) (hk.sin_near polar) (fs azimuthal)
    (hk.sin_near azimuthal)
  obtain ⟨cz, -⟩ := component_near hk.rounding hp0 hp1 he0 he (fc polar) (hk.cos_near polar) (fc azimuthal)
    (hk.cos_near azimuthal)
  rw [← hx] at cx
  rw [← hy] at cy
  rw [← hz] at cz
  have prod : ∀ a b : ℝ, |a| ≤ 1 → |b| ≤ 1 → |a * b| ≤ 1 := by
    intro a b ha hb
    rw [abs_mul a b]
    exact mul_le_one₀ ha (abs_nonneg _) hb
  have move : ∀ x u : ℝ, |u| ≤ 1 → |x - p' * u| ≤ 3e-15 * e → |x - P * u| ≤ 5.1e-13 * Q := by
    intro x u hu hx
    have h1 : |(p' - P) * u| ≤ 5e-13 * Q := by
      rw [abs_mul _ u]
      exact (mul_le_of_le_one_right (abs_nonneg _) hu).trans n2
    have b1 := abs_le.1 h1
    have b2 := abs_le.1 hx
    rw [abs_le]
    constructor <;> norm_num at b1 b2 ⊢ <;> linarith
  have size : ∀ u : ℝ, |u| ≤ 1 → |P * u| ≤ e := by
    intro u hu
    rw [abs_mul P u, abs_of_pos hP0]
    exact (mul_le_of_le_one_right hP0.le hu).trans q2
  have ux := prod _ _ (fs polar) (fc azimuthal)
  have uy := prod _ _ (fs polar) (fs azimuthal)
  refine ⟨?_, ?_, hQ, hQ2⟩
  · intro i
    cases i
    · simp only [Component.of]
      rw [mul_assoc] at cx ⊢
      exact move _ _ ux cx
    · simp only [Component.of]
      rw [mul_assoc] at cy ⊢
      exact move _ _ uy cy
    · simp only [Component.of]
      exact move _ _ (fc polar) (cz.trans (mul_le_mul_of_nonneg_right (by norm_num) ep.le))
    · simp only [Component.of]
      refine n1.trans ?_
      norm_num
      linarith
  · intro i
    cases i
    · simp only [Component.of]
      rw [mul_assoc]
      exact size _ ux
    · simp only [Component.of]
      rw [mul_assoc]
      exact size _ uy
    · exact size _ (fc polar)
    · simp only [Component.of]
      rw [abs_of_nonneg q3]
      exact q4

/-- The parent of a reaction, computed and exact. -/
theorem parent_velocity {rn : ℝ → ℝ} (h : Rounding rn) {t p T : ℝ} (ht : 1 ≤ t ∧ t ≤ 1e6) (hp : 1 ≤ p ∧ p ≤ 1e6)
    (hT : 1e-6 ≤ T) (hT2 : T ≤ t + p) {e : ℝ} (he : e = Real.sqrt ((t + p) ^ 2 + 2 * t * T)) {pz : ℝ}
    (hpz : npSqrt64 rn (rn (T * rn (T + rn (2 * p)))) = some pz) (hpm : pz ∈ Binary64) {q : Vec4}
    (hqv : q = ⟨0, 0, 0, t⟩ + ⟨0, 0, Real.sqrt (T * (T + 2 * p)), T + p⟩) :
    q.Massive ∧ q.M = e ∧ q.E ^ 2 ≤ 5 * q.M ^ 2 ∧
    (|pz - Real.sqrt (T * (T + 2 * p))| ≤ 1e-15 * e ∧ |rn (T + p) - (T + p)| ≤ 1e-15 * e) ∧ (∀ i : Component, |i.of q / q.M| ≤ 2.25) ∧
    (∀ i : Component, |i.of (add64 rn ⟨0, 0, 0, t⟩ ⟨0, 0, pz, rn (T + p)⟩) - i.of q| ≤ 1e-15 * e) ∧
    ∀ i : Component, |i.of (add64 rn ⟨0, 0, 0, t⟩ ⟨0, 0, pz, rn (T + p)⟩)
      / (add64 rn ⟨0, 0, 0, t⟩ ⟨0, 0, pz, rn (T + p)⟩).M - i.of q / q.M| ≤ 2e-14 := by
  have T0 : 0 < T := lt_of_lt_of_le (by norm_num) hT
  have T7 : T ≤ 1e7 := by
    have h1 := ht.2
    have h2 := hp.2
    norm_num at h1 h2 ⊢
    linarith
  obtain ⟨e0, e7, hex, hW4⟩ := cm_facts ht hp T0.le hT2 he
  obtain ⟨pz', hpz', hpz0, hn⟩ := beam_near h hT T7 hp.1 hp.2
  rw [hpz] at hpz'
  cases hpz'
  obtain ⟨w1, w3⟩ := parent_near h ht hp hT hT2 he hpz hpm
  obtain ⟨p1, p2⟩ := hp
  obtain ⟨t1, t2⟩ := ht
  obtain ⟨hmv, hM, -, hpos, hcomp⟩ := w1.massive
  have ep : 0 < e := by linarith
  have hA : 0 < T * (T + 2 * p) := by positivity
  have hAs : Real.sqrt (T * (T + 2 * p)) ^ 2 = T * (T + 2 * p) := Real.sq_sqrt hA.le
  have hA0 := Real.sqrt_nonneg (T * (T + 2 * p))
  have qx : q.px = 0 := by rw [hqv]; simp
  have qy : q.py = 0 := by rw [hqv]; simp
  have qz : q.pz = Real.sqrt (T * (T + 2 * p)) := by rw [hqv]; simp
  have qe : q.E = t + T + p := by rw [hqv]; simp; ring
  have hWe : t + T + p ≤ 2 * e := by
    refine abs_le_of_sq_le_sq' ?_ (by positivity) |>.2
    rw [mul_pow]
    norm_num
    exact hW4
  have hPe : Real.sqrt (T * (T + 2 * p)) ≤ 2 * e := by
    refine le_trans ?_ hWe
    refine abs_le_of_sq_le_sq' ?_ (by positivity) |>.2
    rw [hAs]
    nlinarith
  have e2 : 0 < e ^ 2 := by positivity
  have hqm : q.Massive := by
    refine ⟨?_, by rw [qe]; linarith⟩
    unfold Vec4.Boostable
    rw [qx, qy, qz, qe, hAs]
    nlinarith
  have hqM : q.M = e := by
    refine Vec4.M_of_M2 ep.le ?_
    unfold Vec4.M2
    rw [qx, qy, qz, qe, hAs, ← hex]
    ring
  have hqb : ∀ i : Component, |i.of q| ≤ 2 * e := by
    intro i
    cases i
    · change |q.px| ≤ _
      rw [qx, abs_zero]
      linarith
    · change |q.py| ≤ _
      rw [qy, abs_zero]
      linarith
    · change |q.pz| ≤ _
      rw [qz, abs_of_nonneg hA0]
      exact hPe
    · change |q.E| ≤ _
      rw [qe, abs_of_pos (by linarith)]
      exact hWe
  have hdiff : ∀ i : Component, |i.of (add64 rn ⟨0, 0, 0, t⟩ ⟨0, 0, pz, rn (T + p)⟩) - i.of q| ≤ 1e-15 * e := by
    intro i
    rw [of_add64]
    cases i
    · change |rn (0 + 0) - q.px| ≤ _
      rw [qx, add_zero, h.exact zero_mem, sub_zero, abs_zero]
      positivity
    · change |rn (0 + 0) - q.py| ≤ _
      rw [qy, add_zero, h.exact zero_mem, sub_zero, abs_zero]
      positivity
    · change |rn (0 + pz) - q.pz| ≤ _
      rw [qz, zero_add, h.exact hpm]
      refine hn.trans ?_
      norm_num
      linarith
    · change |rn (t + rn (T + p)) - q.E| ≤ _
      rw [qe]
      have s0 : |p - p| ≤ 0 * p := by simp
      have s1 := add_near h (by linarith) T0.le s0 le_rfl (by norm_num) (p1.trans' (by norm_num))
        (by norm_num at p2 T7 ⊢; linarith)
      have s2 := add_near h (by linarith) (by linarith : 0 ≤ t) s1 (by norm_num) (by norm_num)
        ((show (1 : ℝ) ≤ p + T by linarith).trans' (by norm_num)) (by norm_num at p2 t2 T7 ⊢; linarith)
      rw [show p + T + t = t + T + p by ring, show rn (p + T) + t = t + rn (T + p) by rw [add_comm p T]; ring] at s2
      refine s2.trans ?_
      norm_num
      linarith
  refine ⟨hqm, hqM, ?_, ⟨?_, ?_⟩, ?_, hdiff, ?_⟩
  · rw [hqM, qe]
    linarith
  · refine hn.trans ?_
    norm_num
    linarith
  · have s0 : |p - p| ≤ 0 * p := by simp
    have s1 := add_near h (by linarith) T0.le s0 le_rfl (by norm_num) (p1.trans' (by norm_num))
      (by norm_num at p2 T7 ⊢; linarith)
    rw [add_comm p T] at s1
    refine s1.trans ?_
    norm_num
    linarith
  · intro i
    rw [abs_div _ q.M, hqM, abs_of_pos ep, div_le_iff₀ ep]
    refine (hqb i).trans ?_
    norm_num
    linarith
  · intro i
    have d1 := hdiff i
    have d2 := hcomp i
    rw [hM, hqM]
    generalize i.of (add64 rn ⟨0, 0, 0, t⟩ ⟨0, 0, pz, rn (T + p)⟩) = a at *
    generalize invMass (add64 rn ⟨0, 0, 0, t⟩ ⟨0, 0, pz, rn (T + p)⟩) = m at *
    generalize i.of q = b at *
    have e1 : a / m - b / e = (a - b) / e - a * (m - e) / (m * e) := by
      field_simp
      ring
    rw [e1]
    refine (abs_sub _ _).trans ?_
    have t1 : |(a - b) / e| ≤ 1e-15 := by
      rw [abs_div _ e, abs_of_pos ep, div_le_iff₀ ep]
      exact d1
    have t2 : |a * (m - e) / (m * e)| ≤ 2.24 * 8e-15 := by
      rw [abs_div _ (m * e), abs_mul a _, abs_of_pos (by positivity : 0 < m * e), div_le_iff₀ (by positivity)]
      calc |a| * |m - e| ≤ 2.24 * m * (8e-15 * e) := mul_le_mul d2 w3 (abs_nonneg _) (by positivity)
        _ = _ := by ring
    norm_num at t1 t2 ⊢
    linarith

/-- The second product, which takes the rest. -/
theorem rest_near {rn : ℝ → ℝ} (h : Rounding rn) {v q w w0 : Vec4} {e Q : ℝ} (e1 : 1 ≤ e) (e8 : e ≤ 1e8)
    (hQ : e ≤ Q) (hQ2 : Q ≤ 1e6 * e) {i : Component} (hv : |i.of v - i.of q| ≤ 1e-15 * e) (hq : |i.of q| ≤ 2.25 * e)
    (hw0 : |i.of w0| ≤ 24 * e) (hw : |i.of w - i.of w0| ≤ 25 * (5.1e-13 * Q)) :
    |i.of (sub64 rn v w) - i.of (q - w0)| ≤ 1.4e-11 * Q := by
  have e0 : i.of (q - w0) = i.of q - i.of w0 := by cases i <;> rfl
  rw [of_sub64, e0]
  generalize i.of v = a at *
  generalize i.of q = b at *
  generalize i.of w = c at *
  generalize i.of w0 = d at *
  have d1 : |(a - c) - (b - d)| ≤ 1.2751e-11 * Q := by
    have b1 := abs_le.1 hv
    have b2 := abs_le.1 hw
    rw [abs_le]
    constructor <;> norm_num at b1 b2 ⊢ <;> linarith
  have d2 : |b - d| ≤ 27 * e := by
    refine (abs_sub _ _).trans ?_
    norm_num at hq hw0 ⊢
    linarith
  refine (h.absolute d1 (d2.trans ?_) ?_).trans ?_
  · norm_num at e8 ⊢
    linarith
  · norm_num at e8 hQ2 ⊢
    linarith
  · norm_num at d2 ⊢
    linarith

/-- **C138.** In float64 a reaction gives the four-momenta of exact arithmetic up to `1.4e-11 e^2/p`, where `e` is the
centre-of-mass energy and `p` the momentum of the products in that frame; nothing is NaN. -/
theorem C138_reaction {k : Kin64} (hk : k.Accurate) {r : Reaction} (hm : MassesOk r) {T ex polar azimuthal : ℝ}
    (hT : 1e-6 ≤ T) (hT2 : T ≤ r.target.mass + r.projectile.mass) (hx : 0 ≤ ex) (hx2 : ex ≤ 1e6)
    (hmargin : 1e-12 * cmEnergy r T ^ 3
      ≤ (cmEnergy r T - outMass r ex) * (r.ejectile.mass * (r.residual.mass + ex)))
    {res res0 : Vec4 × Option Vec4 × Option Vec4 × Option Vec4}
    (h : reaction_calculate64 k r T polar azimuthal ex = .ok res) (h0 : r.calculate T polar azimuthal ex = .ok res0) :
    ∃ t b e s b0 e0 s0, res = (t, some b, some e, some s) ∧ res0 = (t, some b0, some e0, some s0) ∧
      ∀ i : Component, |i.of b - i.of b0| ≤ 1e-15 * cmEnergy r T ∧
        |i.of e - i.of e0| ≤ 1.4e-11 * (cmEnergy r T ^ 2
          / productMomentum r.ejectile.mass (r.residual.mass + ex) (cmEnergy r T)) ∧
        |i.of s - i.of s0| ≤ 1.4e-11 * (cmEnergy r T ^ 2
          / productMomentum r.ejectile.mass (r.residual.mass + ex) (cmEnergy r T)) := by
  have hr := hk.rounding
  have T0 : 0 < T := lt_of_lt_of_le (by norm_num) hT
  have p1 := hm.projectile.1
  obtain ⟨pz, hpz, -⟩ := ecm_near hr hm.target hm.projectile hT hT2 (e := cmEnergy r T) rfl
  have hpm : pz ∈ Binary64 := by
    unfold npSqrt64 at hpz
    split_ifs at hpz
    cases hpz
    exact (hr _).1
  obtain ⟨e0, e7, -, -⟩ := cm_facts hm.target hm.projectile T0.le hT2 (e := cmEnergy r T) rfl
  obtain ⟨w1, w3⟩ := parent_near hr hm.target hm.projectile hT hT2 (e := cmEnergy r T) rfl hpz hpm
  obtain ⟨v1, v2, vg, ⟨vz, vE⟩, v3, v4, v5⟩ :=
    parent_velocity hr hm.target hm.projectile hT hT2 (e := cmEnergy r T) rfl hpz hpm rfl
  obtain ⟨cm, hcm, hcmE⟩ := hk.cm _ w1
  have hEcm : |cm.E - cmEnergy r T| ≤ 1e-13 * cmEnergy r T := by
    have a1 := abs_le.1 hcmE
    have a2 := abs_le.1 w3
    generalize cmEnergy r T = e at *
    generalize invMass (add64 k.rn ⟨0, 0, 0, r.target.mass⟩ ⟨0, 0, pz, k.rn (T + r.projectile.mass)⟩) = i at *
    rw [abs_le]
    constructor <;> norm_num at a1 a2 ⊢ <;> linarith
  have hm2 := rounded_mass hr hm.residual.1 hm.residual.2 hx hx2
  have hout : outMass r ex = r.ejectile.mass + (r.residual.mass + ex) := by unfold outMass; ring
  rw [hout] at hmargin
  obtain ⟨c', c, hc', hc, hmod, n1, n2, n3, n4⟩ := cm_vectors_near hk hm.ejectile.1 (by linarith [hm.residual.1])
    (e7.trans (by norm_num)) hm2 hEcm hmargin (by linarith) polar azimuthal
  obtain ⟨e, he⟩ := hk.back _ c' w1 hmod
  have hlab := lab_near hk w1 v1 v5 v3 (by linarith : 1 ≤ cmEnergy r T)
    (η := 5.1e-13 * (cmEnergy r T ^ 2 / productMomentum r.ejectile.mass (r.residual.mass + ex) (cmEnergy r T)))
    (by norm_num; linarith) n1 n2 hmod he
  have hbound := boost_bound v1 vg c
  have hsize : size4 c ≤ 4 * cmEnergy r T := size4_le n2
  have hs0 : npSqrt (T * (T + 2 * r.projectile.mass)) = some (Real.sqrt (T * (T + 2 * r.projectile.mass))) :=
    if_neg (not_lt.2 (by positivity))
  unfold reaction_calculate64 at h
  simp only [hpz, hcm, hc', he] at h
  split_ifs at h
  cases h
  unfold Reaction.calculate at h0
  simp only [hs0] at h0
  rw [Vec4.boostCM_self v1] at h0
  simp only [v2, hc] at h0
  rw [if_pos v1.boostable] at h0
  split_ifs at h0
  cases h0
  refine ⟨_, _, _, _, _, _, _, rfl, rfl, ?_⟩
  intro i
  have l := hlab i
  have d := v4 i
  have b := v3 i
  refine ⟨?_, ?_, ?_⟩
  · have z : (0 : ℝ) ≤ 1e-15 * cmEnergy r T := by
      norm_num
      linarith
    cases i
    · simpa [Component.of] using z
    · simpa [Component.of] using z
    · exact vz
    · exact vE
  · refine l.trans ?_
    norm_num
    linarith
  · refine rest_near hr (by linarith) (e7.trans (by norm_num)) n3 n4 d ?_ ?_ l
    · have ep : 0 < cmEnergy r T := by linarith
      rwa [abs_div _ (Vec4.M _), v2, abs_of_pos ep, div_le_iff₀ ep] at b
    · exact (hbound i).trans (by linarith)

/-- **C138.** The same for the products of a decay. -/
theorem C138_decay {k : Kin64} (hk : k.Accurate) {d : Decay} (h1 : 1 ≤ d.residual_1.mass)
    (h2 : 1 ≤ d.residual_2.mass) (h2' : d.residual_2.mass ≤ 1e6) {v : Vec4} {ex polar azimuthal : ℝ}
    (hv : Slow v) (hE : invMass v ≤ 1e7) (hx : 0 ≤ ex) (hx2 : ex ≤ 1e6)
    (hmargin : 1e-12 * invMass v ^ 3 ≤ (invMass v - (d.residual_1.mass + (d.residual_2.mass + ex)))
      * (d.residual_1.mass * (d.residual_2.mass + ex)))
    {res : Option Vec4 × Option Vec4} {res0 : Vec4 × Option Vec4 × Option Vec4}
    (h : decay_calculate64 k d v polar azimuthal ex = .ok res) (h0 : d.calculate v polar azimuthal ex = .ok res0) :
    ∃ a b a0 b0, res = (some a, some b) ∧ res0 = (v, some a0, some b0) ∧
      ∀ i : Component, |i.of a - i.of a0| ≤ 1.4e-11 * (invMass v ^ 2
          / productMomentum d.residual_1.mass (d.residual_2.mass + ex) (invMass v)) ∧
        |i.of b - i.of b0| ≤ 1.4e-11 * (invMass v ^ 2
          / productMomentum d.residual_1.mass (d.residual_2.mass + ex) (invMass v)) := by
  have hr := hk.rounding
  obtain ⟨cm, hcm, hcmE⟩ := hk.cm v hv
  obtain ⟨v1, v2, -, hpos, v3⟩ := hv.massive
  have hm2 := rounded_mass hr h2 h2' hx hx2
  have hM1 : 1 ≤ invMass v := by
    by_contra hc
    have : invMass v ^ 2 ≤ 1 := by nlinarith
    have h3 : 0 < (invMass v - (d.residual_1.mass + (d.residual_2.mass + ex)))
      * (d.residual_1.mass * (d.residual_2.mass + ex)) := lt_of_lt_of_le (by positivity) hmargin
    have h4 : 0 < d.residual_1.mass * (d.residual_2.mass + ex) := by
      have : 0 < d.residual_2.mass + ex := by linarith
      have : 0 < d.residual_1.mass := by linarith
      positivity
    have := (pos_iff_pos_of_mul_pos h3).2 h4
    linarith
  have hb : ∀ i : Component, |i.of v| ≤ 2.25 * invMass v := by
    intro i
    refine (v3 i).trans ?_
    norm_num
    linarith
  obtain ⟨c', c, hc', hc, hmod, n1, n2, n3, n4⟩ := cm_vectors_near hk h1 (by linarith)
    (hE.trans (by norm_num)) hm2 (hcmE.trans (mul_le_mul_of_nonneg_right (by norm_num) hpos.le)) hmargin hM1
    polar azimuthal
  obtain ⟨w, hw⟩ := hk.back _ c' hv hmod
  have hlab := lab_near hk hv v1 (fun i => by rw [sub_self, abs_zero]; norm_num) (fun i => by
      rw [abs_div _ v.M, v2, abs_of_pos hpos, div_le_iff₀ hpos]
      exact hb i) hM1
    (η := 5.1e-13 * (invMass v ^ 2 / productMomentum d.residual_1.mass (d.residual_2.mass + ex) (invMass v)))
    (by norm_num; linarith) n1 n2 hmod hw
  have hbound := boost_bound v1 (by rw [v2]; exact hv.gamma) c
  have hsize : size4 c ≤ 4 * invMass v := size4_le n2
  unfold decay_calculate64 at h
  simp only [hcm, hc', hw] at h
  split_ifs at h
  cases h
  unfold Decay.calculate at h0
  rw [Vec4.boostCM_self v1] at h0
  simp only [v2, hc] at h0
  rw [if_pos v1.boostable] at h0
  split_ifs at h0
  cases h0
  refine ⟨_, _, _, _, rfl, rfl, ?_⟩
  intro i
  have l := hlab i
  refine ⟨?_, ?_⟩
  · refine l.trans ?_
    norm_num
    linarith
  · refine rest_near hr hM1 (hE.trans (by norm_num)) n3 n4 ?_ (hb i) ?_ l
    · rw [sub_self, abs_zero]
      positivity
    · exact (hbound i).trans (by linarith)

/-- Elastic scattering at 10 MeV: the computed momenta are within a thousandth of a keV of those of exact arithmetic. -/
example : ∃ (k : Kin64) (t b e s b0 e0 s0 : Vec4), k.Accurate ∧
    reaction_calculate64 k exScatter 10 1 2 0 = .ok (t, some b, some e, some s) ∧
    exScatter.calculate 10 1 2 0 = .ok (t, some b0, some e0, some s0) ∧
    ∀ i : Component, |i.of e - i.of e0| ≤ 1e-5 ∧ |i.of s - i.of s0| ≤ 1e-5 := by
  obtain ⟨rn, h⟩ := exists_rounding
  have hk := exactKin_accurate h
  obtain ⟨b, e, s, hres⟩ := exScatter_ok h
  obtain ⟨e1, e2⟩ := exScatter_energy
  have hx : outMass exScatter 0 = 4665 := by norm_num [outMass, exScatter]
  have hex : ∃ res, exScatter.calculate 10 1 2 0 = .ok res := by
    rcases hc : exScatter.calculate 10 1 2 0 with err | res
    · exfalso
      unfold Reaction.calculate at hc
      have c1 : ¬ exScatter.ejectile.mass + exScatter.residual.mass - exScatter.projectile.mass = 0 := by
        norm_num [exScatter]
      have c2 : ¬ 10 < -(exScatter.target.mass + exScatter.projectile.mass
          - (exScatter.ejectile.mass + exScatter.residual.mass + 0)) * (exScatter.ejectile.mass + exScatter.residual.mass)
          / (exScatter.ejectile.mass + exScatter.residual.mass - exScatter.projectile.mass) := by
        norm_num [exScatter]
      simp only at hc
      rw [if_neg c1, if_neg c2] at hc
      split at hc
      · simp at hc
      · split_ifs at hc
        split at hc <;> simp at hc
    · exact ⟨res, rfl⟩
  obtain ⟨res0, hres0⟩ := hex
  have hmargin : 1e-12 * cmEnergy exScatter 10 ^ 3 ≤ (cmEnergy exScatter 10 - outMass exScatter 0)
      * (exScatter.ejectile.mass * (exScatter.residual.mass + 0)) := by
    rw [hx, show exScatter.ejectile.mass * (exScatter.residual.mass + 0) = 938 * 3727 by norm_num [exScatter]]
    have h3 := pow_le_pow_left₀ (by linarith : 0 ≤ cmEnergy exScatter 10) e2.le 3
    norm_num at h3 ⊢
    linarith
  obtain ⟨t, b, e, s, b0, e0, s0, r1, r2, near⟩ := C138_reaction hk exScatter_masses (by norm_num)
    (by norm_num [exScatter]) le_rfl (by norm_num) hmargin hres hres0
  refine ⟨exactKin rn, t, b, e, s, b0, e0, s0, hk, by rw [hres, r1], by rw [hres0, r2], fun i => ?_⟩
  have hm : exScatter.residual.mass + 0 = 3727 := by norm_num [exScatter]
  have hm1 : exScatter.ejectile.mass = 938 := rfl
  obtain ⟨-, n2, n3⟩ := near i
  rw [hm, hm1] at n2 n3
  have hsq : cmEnergy exScatter 10 ^ 2 = 21836765 := by
    unfold cmEnergy
    rw [Real.sq_sqrt (by norm_num [exScatter])]
    norm_num [exScatter]
  have hE : 944 ≤ productEnergy 938 3727 (cmEnergy exScatter 10) := by
    unfold productEnergy
    rw [hsq, le_div_iff₀ (by linarith)]
    linarith
  have hp : 100 ≤ productMomentum 938 3727 (cmEnergy exScatter 10) := by
    unfold productMomentum
    refine Real.le_sqrt_of_sq_le ?_
    nlinarith
  have hq : cmEnergy exScatter 10 ^ 2 / productMomentum 938 3727 (cmEnergy exScatter 10) ≤ 300000 := by
    rw [hsq, div_le_iff₀ (by linarith)]
    linarith
  constructor
  · refine n2.trans ?_
    norm_num at hq ⊢
    linarith
  · refine n3.trans ?_
    norm_num at hq ⊢
    linarith

/-- The decay of a resting parent of 4673 MeV: the products are within `1e-5` of those of exact arithmetic. -/
example : ∃ (k : Kin64) (v a b a0 b0 : Vec4), k.Accurate ∧ Slow v ∧
    decay_calculate64 k exBreakup v 1 2 0 = .ok (some a, some b) ∧
    exBreakup.calculate v 1 2 0 = .ok (v, some a0, some b0) ∧
    ∀ i : Component, |i.of a - i.of a0| ≤ 1e-5 ∧ |i.of b - i.of b0| ≤ 1e-5 := by
  obtain ⟨rn, h⟩ := exists_rounding
  have hk := exactKin_accurate h
  obtain ⟨hv, hinv, a, b, hres⟩ := exBreakup_ok h
  have hM := hv.massive.2.1
  rw [hinv] at hM
  have hex : ∃ res, exBreakup.calculate ⟨0, 0, 0, 4673⟩ 1 2 0 = .ok res := by
    rcases hc : exBreakup.calculate ⟨0, 0, 0, 4673⟩ 1 2 0 with err | res
    · exfalso
      unfold Decay.calculate at hc
      have c1 : ¬ Vec4.M ⟨0, 0, 0, 4673⟩ - (exBreakup.residual_1.mass + exBreakup.residual_2.mass + 0) < 0 := by
        rw [hM]
        norm_num [exBreakup]
      simp only at hc
      rw [if_neg c1] at hc
      split_ifs at hc
      split at hc <;> simp at hc
    · exact ⟨res, rfl⟩
  obtain ⟨res0, hres0⟩ := hex
  obtain ⟨a, b, a0, b0, r1, r2, near⟩ := C138_decay hk (by norm_num [exBreakup]) (by norm_num [exBreakup])
    (by norm_num [exBreakup]) hv (by rw [hinv]; norm_num) le_rfl (by norm_num)
    (by rw [hinv]; norm_num [exBreakup]) hres hres0
  refine ⟨exactKin rn, _, a, b, a0, b0, hk, hv, by rw [hres, r1], by rw [hres0, r2], fun i => ?_⟩
  have hm : exBreakup.residual_2.mass + 0 = 3727 := by norm_num [exBreakup]
  have hm1 : exBreakup.residual_1.mass = 938 := rfl
  obtain ⟨n2, n3⟩ := near i
  rw [hm, hm1, hinv] at n2 n3
  have hp : 100 ≤ productMomentum 938 3727 4673 := by
    unfold productMomentum productEnergy
    refine Real.le_sqrt_of_sq_le ?_
    norm_num
  have hq : (4673 : ℝ) ^ 2 / productMomentum 938 3727 4673 ≤ 300000 := by
    rw [div_le_iff₀ (by linarith)]
    linarith
  constructor
  · refine n2.trans ?_
    norm_num at hq ⊢
    linarith
  · refine n3.trans ?_
    norm_num at hq ⊢
    linarith

end Verif.Machine
