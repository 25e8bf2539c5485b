import Verif.Proofs.MassShell64
import Verif.Props.MachineThreshold

/-! # C137: the products have their masses in machine arithmetic -/

namespace Verif.Machine

open Verif.Kinematics

/-- What is assumed in addition about `np.sin`, `np.cos` and the boost of `vector`: errors below `1e-15` for the
functions and below `3e-14` of the size of the boosted vector (plus `1e-60`) for the boost. -/
structure Kin64.Accurate (k : Kin64) : Prop extends k.BoostOk where
  sin_near : ∀ x, |k.sin x - Real.sin x| ≤ 1e-15
  cos_near : ∀ x, |k.cos x - Real.cos x| ≤ 1e-15
  back_near : ∀ v c w : Vec4, Slow v → Moderate c → k.boost c v = some w →
    ∀ i : Component, |i.of w - i.of (c.boost v)| ≤ 3e-14 * (|c.E| + |c.px| + |c.py| + |c.pz|) + 1e-60

theorem Slow.massive {v : Vec4} (hv : Slow v) :
    v.Massive ∧ v.M = invMass v ∧ v.M2 = invMass v ^ 2 ∧ 0 < invMass v ∧ ∀ i : Component, |i.of v| ≤ 2.24 * invMass v := by
  have hγ := hv.gamma
  have hl := pow_le_pow_left₀ zero_le_one hv.low 2
  have h0 : 0 ≤ invMass v := Real.sqrt_nonneg _
  have hp : 0 ≤ v.E ^ 2 - (v.px ^ 2 + v.py ^ 2 + v.pz ^ 2) := by
    by_contra hc
    push Not at hc
    have : invMass v = 0 := Real.sqrt_eq_zero_of_nonpos hc.le
    rw [this] at hγ
    linarith
  have hsq : invMass v ^ 2 = v.E ^ 2 - (v.px ^ 2 + v.py ^ 2 + v.pz ^ 2) := Real.sq_sqrt hp
  have hM2 : v.M2 = invMass v ^ 2 := by
    rw [hsq]
    unfold Vec4.M2
    ring
  have hpos : 0 < invMass v := by
    refine lt_of_le_of_ne h0 fun hc => ?_
    rw [← hc] at hγ
    linarith
  have h2 : 0 < invMass v ^ 2 := by positivity
  have hu : ∀ x : ℝ, x ^ 2 ≤ v.E ^ 2 → |x| ≤ 2.24 * invMass v := by
    intro x hx
    refine abs_le_of_sq_le_sq ?_ (by positivity)
    rw [mul_pow]
    norm_num
    linarith
  have qx := sq_nonneg v.px
  have qy := sq_nonneg v.py
  have qz := sq_nonneg v.pz
  refine ⟨⟨?_, by linarith [hv.low]⟩, Vec4.M_of_M2 h0 hM2, hM2, hpos, ?_⟩
  · unfold Vec4.Boostable
    linarith
  · intro i
    cases i
    · exact hu v.px (by linarith)
    · exact hu v.py (by linarith)
    · exact hu v.pz (by linarith)
    · exact hu _ le_rfl

/-- The masses of the two products of a parent. -/
theorem products_mass {k : Kin64} (hk : k.Accurate) {v c w : Vec4} (hv : Slow v) {m1 m2 m2' e e' polar azimuthal : ℝ}
    (l1 : 1 ≤ m1) (l2 : 1 ≤ m2) (hsum : m1 + m2 ≤ e) (he : e ≤ 1e8) (h2 : |m2' - m2| ≤ 3e-16 * m2)
    (he' : |e' - e| ≤ 1e-13 * e) (hinv : |invMass v - e| ≤ 8e-15 * e)
    (hc : cmVector64 k m1 m2' e' polar azimuthal = some c) (hw : k.boost c v = some w) :
    |w.M2 - m1 ^ 2| ≤ 4e-11 * e ^ 2 ∧ |(sub64 k.rn v w).M2 - m2 ^ 2| ≤ 4e-11 * e ^ 2 := by
  have h := hk.rounding
  obtain ⟨n1, n2, -⟩ := cm_near h l1 l2 hsum he h2 he'
  have he0 : 0 < e := by linarith
  obtain ⟨hmv, hM, hM2, hpos, hcomp⟩ := hv.massive
  unfold cmVector64 at hc
  simp only at hc
  rw [if_neg n1] at hc
  have hE1 : |(m1 ^ 2 - m2 ^ 2 + e ^ 2) / (2 * e)| ≤ e := by
    rw [abs_of_nonneg (div_nonneg (by nlinarith) (by positivity)), div_le_iff₀ (by positivity)]
    nlinarith
  have he1m : k.rn (k.rn (k.rn (k.rn (m1 ^ 2) - k.rn (m2' ^ 2)) + k.rn (e' ^ 2)) / k.rn (2 * e')) ∈ Binary64 := (h _).1
  generalize k.rn (k.rn (k.rn (k.rn (m1 ^ 2) - k.rn (m2' ^ 2)) + k.rn (e' ^ 2)) / k.rn (2 * e')) = e1 at *
  obtain ⟨p, hp⟩ : ∃ p, npSqrt64 k.rn (k.rn (k.rn (e1 ^ 2) - k.rn (m1 ^ 2))) = some p := by
    revert hc
    cases npSqrt64 k.rn (k.rn (k.rn (e1 ^ 2) - k.rn (m1 ^ 2))) with
    | none => intro hc; cases hc
    | some p => intro _; exact ⟨p, rfl⟩
  rw [hp] at hc
  simp only [Option.some.injEq] at hc
  have hex : e ^ 2 - 2 * e * ((m1 ^ 2 - m2 ^ 2 + e ^ 2) / (2 * e)) + m1 ^ 2 = m2 ^ 2 := by
    field_simp
    ring
  generalize (m1 ^ 2 - m2 ^ 2 + e ^ 2) / (2 * e) = E1 at *
  have he1 : |e1| ≤ 1.001 * e := by
    have b1 := abs_le.1 n2
    have b2 := abs_le.1 hE1
    rw [abs_le]
    constructor <;> norm_num at b1 ⊢ <;> linarith
  obtain ⟨bx, by', bz, hshell⟩ := shell_near h (by linarith) he he1 (by linarith) (by linarith) hp (hk.sin_near polar)
    (hk.cos_near polar) (hk.sin_near azimuthal) (hk.cos_near azimuthal) (x := c.px) (y := c.py) (z := c.pz)
    (by rw [← hc]) (by rw [← hc]) (by rw [← hc])
  have hcE : c.E = e1 := by rw [← hc]
  have hcM : |c.M2 - m1 ^ 2| ≤ 2.5e-14 * e ^ 2 := by
    have : c.M2 = e1 ^ 2 - (c.px ^ 2 + c.py ^ 2 + c.pz ^ 2) := by
      rw [← hcE]
      unfold Vec4.M2
      ring
    rw [this]
    exact hshell
  have hmod : Moderate c := by
    refine ⟨?_, ?_⟩
    · intro i
      rw [← hc]
      cases i
      · exact (h _).1
      · exact (h _).1
      · exact (h _).1
      · exact he1m
    · have big : 1.02 * e ≤ 1e9 := by norm_num at he ⊢; linarith
      intro i
      cases i
      · exact bx.trans big
      · exact by'.trans big
      · exact bz.trans big
      · change |c.E| ≤ _
        rw [hcE]
        exact he1.trans (by norm_num at he ⊢; linarith)
  have hsize : |c.E| + |c.px| + |c.py| + |c.pz| ≤ 4.07 * e := by
    rw [hcE]
    norm_num at he1 bx by' bz ⊢
    linarith
  have hγ : v.E ^ 2 ≤ 5 * v.M ^ 2 := by rw [hM]; exact hv.gamma
  have hb0 : ∀ i : Component, |i.of (c.boost v)| ≤ 24.5 * e := by
    intro i
    have := boost_bound hmv hγ c i
    unfold size4 at this
    norm_num at hsize ⊢
    linarith
  have hd : ∀ i : Component, |i.of w - i.of (c.boost v)| ≤ 1.23e-13 * e := by
    intro i
    have := hk.back_near v c w hv hmod hw i
    have e2 : 2 ≤ e := by linarith
    norm_num at this hsize ⊢
    linarith
  have hQ : 0 < e ^ 2 := by positivity
  constructor
  · have t := M2_close hd hb0
    rw [Vec4.boost_M2 hmv] at t
    have t' : 4 * (1.23e-13 * e * (2 * (24.5 * e) + 1.23e-13 * e)) = 4 * (1.23e-13 * (49 + 1.23e-13)) * e ^ 2 := by ring
    rw [t'] at t
    generalize e ^ 2 = Q at *
    have b1 := abs_le.1 t
    have b2 := abs_le.1 hcM
    clear * - b1 b2 hQ
    rw [abs_le]
    constructor <;> norm_num at b1 b2 ⊢ <;> linarith
  · have hv' : ∀ i : Component, |i.of v| ≤ 2.25 * e := by
      intro i
      have b1 := hcomp i
      have b2 := (abs_le.1 hinv).2
      norm_num at b1 b2 ⊢
      linarith
    have hsubc : ∀ i : Component, i.of (v - c.boost v) = i.of v - i.of (c.boost v) := by
      intro i
      cases i <;> rfl
    have hb1 : ∀ i : Component, |i.of (v - c.boost v)| ≤ 27 * e := by
      intro i
      rw [hsubc]
      have b1 := hv' i
      have b2 := hb0 i
      have := abs_sub (i.of v) (i.of (c.boost v))
      norm_num at b1 b2 ⊢
      linarith
    have hd1 : ∀ i : Component, |i.of (sub64 k.rn v w) - i.of (v - c.boost v)| ≤ 1.3e-13 * e := by
      intro i
      rw [of_sub64]
      have d0 : |(i.of v - i.of w) - i.of (v - c.boost v)| ≤ 1.23e-13 * e := by
        rw [hsubc, show i.of v - i.of w - (i.of v - i.of (c.boost v)) = -(i.of w - i.of (c.boost v)) by ring, abs_neg]
        exact hd i
      have b1 := hb1 i
      have := h.absolute d0 (by norm_num at b1 he ⊢; linarith) (by norm_num at he ⊢; linarith)
      refine this.trans ?_
      have e1 : 2 ≤ e := by linarith
      norm_num at b1 ⊢
      linarith
    have t := M2_close hd1 hb1
    rw [rest_M2 hmv, hM] at t
    have t' : 4 * (1.3e-13 * e * (2 * (27 * e) + 1.3e-13 * e)) = 4 * (1.3e-13 * (54 + 1.3e-13)) * e ^ 2 := by ring
    rw [t'] at t
    have u1 : |invMass v ^ 2 - e ^ 2| ≤ 1.7e-14 * e ^ 2 := by
      have := sq_close (B := e) hinv (abs_of_pos he0).le
      refine this.trans ?_
      rw [show 8e-15 * e * (2 * e + 8e-15 * e) = 8e-15 * (2 + 8e-15) * e ^ 2 by ring]
      exact mul_le_mul_of_nonneg_right (by norm_num) hQ.le
    have u2 : |invMass v * e1 - e * E1| ≤ 2.3e-13 * e ^ 2 := by
      have e : invMass v * e1 - e * E1 = (invMass v - e) * e1 + e * (e1 - E1) := by ring
      rw [e]
      refine (abs_add_le _ _).trans ?_
      rw [abs_mul (invMass v - _) e1, abs_mul _ (e1 - E1), abs_of_pos he0]
      have h1 := mul_le_mul hinv he1 (abs_nonneg _) (by positivity)
      have h2 := mul_le_mul_of_nonneg_left n2 he0.le
      refine (add_le_add h1 h2).trans ?_
      clear * - hQ
      norm_num
      nlinarith
    rw [hcE] at t
    have b1 := abs_le.1 t
    have b2 := abs_le.1 hcM
    have b3 := abs_le.1 u1
    have b4 := abs_le.1 u2
    have hex' : e ^ 2 - 2 * (e * E1) + m1 ^ 2 = m2 ^ 2 := by linarith
    rw [show 2 * invMass v * e1 = 2 * (invMass v * e1) by ring] at b1
    generalize e ^ 2 = Q at *
    generalize invMass v * e1 = a at *
    generalize e * E1 = b at *
    clear * - b1 b2 b3 b4 hex' hQ
    rw [abs_le]
    constructor <;> norm_num at b1 b2 b3 b4 ⊢ <;> linarith

theorem rounded_mass {rn : ℝ → ℝ} (h : Rounding rn) {m ex : ℝ} (hm : 1 ≤ m) (hm6 : m ≤ 1e6) (hx : 0 ≤ ex) (hx2 : ex ≤ 1e6) :
    |rn (m + ex) - (m + ex)| ≤ 3e-16 * (m + ex) := by
  have s0 : |m - m| ≤ 0 * m := by simp
  have := add_near h (by linarith) hx s0 le_rfl (by norm_num) (hm.trans' (by norm_num)) (by norm_num at hm6 hx2 ⊢; linarith)
  exact this.trans (mul_le_mul_of_nonneg_right (by norm_num) (by linarith))

/-- **C137.** In float64 ejectile and residual have their masses: the squares of the invariant masses are those of the
nuclei, the residual with its excitation, up to `4e-11` of the squared centre-of-mass energy. -/
theorem C137_reaction {k : Kin64} (hk : k.Accurate) {r : Reaction} (hm : MassesOk r) {T ex polar azimuthal : ℝ}
    (hT : 1e-6 ≤ T) (hT2 : T ≤ r.target.mass + r.projectile.mass) (hx : 0 ≤ ex) (hx2 : ex ≤ 1e6)
    (hsum : outMass r ex ≤ cmEnergy r T) {t b e s : Vec4}
    (h : reaction_calculate64 k r T polar azimuthal ex = .ok (t, some b, some e, some s)) :
    |e.M2 - r.ejectile.mass ^ 2| ≤ 4e-11 * cmEnergy r T ^ 2 ∧
    |s.M2 - (r.residual.mass + ex) ^ 2| ≤ 4e-11 * cmEnergy r T ^ 2 := by
  have hr := hk.rounding
  obtain ⟨pz, hpz, -⟩ := ecm_near hr hm.target hm.projectile hT hT2 (e := cmEnergy r T) rfl
  have hpm : pz ∈ Binary64 := by
    unfold npSqrt64 at hpz
    split_ifs at hpz
    cases hpz
    exact (hr _).1
  obtain ⟨e0, e7, -, -⟩ := cm_facts hm.target hm.projectile (hT.trans' (by norm_num)) hT2 (e := cmEnergy r T) rfl
  obtain ⟨w1, w3⟩ := parent_near hr hm.target hm.projectile hT hT2 (e := cmEnergy r T) rfl hpz hpm
  obtain ⟨cm, hcm, hcmE⟩ := hk.cm _ w1
  have hEcm : |cm.E - cmEnergy r T| ≤ 1e-13 * cmEnergy r T := by
    have a1 := abs_le.1 hcmE
    have a2 := abs_le.1 w3
    generalize cmEnergy r T = e at *
    generalize invMass (add64 k.rn ⟨0, 0, 0, r.target.mass⟩ ⟨0, 0, pz, k.rn (T + r.projectile.mass)⟩) = i at *
    rw [abs_le]
    constructor <;> norm_num at a1 a2 ⊢ <;> linarith
  have hm2 := rounded_mass hr hm.residual.1 hm.residual.2 hx hx2
  have hout : outMass r ex = r.ejectile.mass + (r.residual.mass + ex) := by unfold outMass; ring
  rw [hout] at hsum
  unfold reaction_calculate64 at h
  simp only [hpz, hcm] at h
  split_ifs at h
  split at h
  · simp at h
  rename_i c hc
  split at h
  · simp at h
  rename_i w hw
  simp only [Except.ok.injEq, Prod.mk.injEq, Option.some.injEq] at h
  obtain ⟨rfl, rfl, rfl, rfl⟩ := h
  exact products_mass hk w1 hm.ejectile.1 (by linarith [hm.residual.1]) hsum (e7.trans (by norm_num)) hm2 hEcm w3 hc hw

/-- **C137.** The same for the products of a decay of a parent with `γ ≤ √5`, relative to its invariant mass. -/
theorem C137_decay {k : Kin64} (hk : k.Accurate) {d : Decay} (h1 : 1 ≤ d.residual_1.mass)
    (h2 : 1 ≤ d.residual_2.mass) (h2' : d.residual_2.mass ≤ 1e6) {v : Vec4} {ex polar azimuthal : ℝ}
    (hv : Slow v) (hE : invMass v ≤ 1e7) (hx : 0 ≤ ex) (hx2 : ex ≤ 1e6)
    (hsum : d.residual_1.mass + (d.residual_2.mass + ex) ≤ invMass v) {a b : Vec4}
    (h : decay_calculate64 k d v polar azimuthal ex = .ok (some a, some b)) :
    |a.M2 - d.residual_1.mass ^ 2| ≤ 4e-11 * invMass v ^ 2 ∧
    |b.M2 - (d.residual_2.mass + ex) ^ 2| ≤ 4e-11 * invMass v ^ 2 := by
  have hr := hk.rounding
  obtain ⟨cm, hcm, hcmE⟩ := hk.cm v hv
  have hpos := hv.massive.2.2.2.1
  have hm2 := rounded_mass hr h2 h2' hx hx2
  unfold decay_calculate64 at h
  simp only [hcm] at h
  split_ifs at h
  split at h
  · simp at h
  rename_i c hc
  split at h
  · simp at h
  rename_i w hw
  simp only [Except.ok.injEq, Prod.mk.injEq, Option.some.injEq] at h
  obtain ⟨rfl, rfl⟩ := h
  exact products_mass hk hv h1 (by linarith) hsum (hE.trans (by norm_num)) hm2
    (hcmE.trans (mul_le_mul_of_nonneg_right (by norm_num) hpos.le)) (by simpa using by positivity) hc hw

theorem invMass_near {v : Vec4} {m D : ℝ} (hm : 0 < m) (h : |v.M2 - m ^ 2| ≤ D) : |invMass v - m| ≤ D / m := by
  have e : v.E ^ 2 - (v.px ^ 2 + v.py ^ 2 + v.pz ^ 2) = v.M2 := by
    unfold Vec4.M2
    ring
  unfold invMass
  rw [e, le_div_iff₀ hm]
  refine le_trans ?_ h
  rcases le_or_gt 0 v.M2 with h0 | h0
  · have hs := Real.sqrt_nonneg v.M2
    have e2 : v.M2 - m ^ 2 = (Real.sqrt v.M2 - m) * (Real.sqrt v.M2 + m) := by
      calc v.M2 - m ^ 2 = Real.sqrt v.M2 ^ 2 - m ^ 2 := by rw [Real.sq_sqrt h0]
        _ = _ := by ring
    rw [e2, abs_mul _ (Real.sqrt v.M2 + m), abs_of_pos (by positivity : 0 < Real.sqrt v.M2 + m)]
    exact mul_le_mul_of_nonneg_left (by linarith) (abs_nonneg _)
  · rw [Real.sqrt_eq_zero_of_nonpos h0.le, zero_sub, abs_neg, abs_of_pos hm, abs_of_neg (by nlinarith)]
    nlinarith

/-- **C137.** As masses: the parent of the first decay has the mass of the residual plus its excitation. -/
theorem C137_mass {k : Kin64} (hk : k.Accurate) {r : Reaction} (hm : MassesOk r) {T ex polar azimuthal : ℝ}
    (hT : 1e-6 ≤ T) (hT2 : T ≤ r.target.mass + r.projectile.mass) (hx : 0 ≤ ex) (hx2 : ex ≤ 1e6)
    (hsum : outMass r ex ≤ cmEnergy r T) {t b e s : Vec4}
    (h : reaction_calculate64 k r T polar azimuthal ex = .ok (t, some b, some e, some s)) :
    |invMass e - r.ejectile.mass| ≤ 4e-11 * cmEnergy r T ^ 2 / r.ejectile.mass ∧
    |invMass s - (r.residual.mass + ex)| ≤ 4e-11 * cmEnergy r T ^ 2 / (r.residual.mass + ex) := by
  obtain ⟨h1, h2⟩ := C137_reaction hk hm hT hT2 hx hx2 hsum h
  exact ⟨invMass_near (by linarith [hm.ejectile.1]) h1, invMass_near (by linarith [hm.residual.1]) h2⟩

/-- Operations that are exact up to a final rounding meet the contract. -/
theorem exactKin_accurate {rn : ℝ → ℝ} (h : Rounding rn) : (exactKin rn).Accurate := by
  have unit : ∀ x : ℝ, |x| ≤ 1 → |rn x - x| ≤ 1e-15 := by
    intro x hx
    have k0 : |x - x| ≤ 0 := by simp
    have := h.absolute k0 (hx.trans (by norm_num)) (by norm_num)
    refine this.trans ?_
    norm_num
    linarith
  refine ⟨exactKin_boostOk h, fun x => unit _ (Real.abs_sin_le_one x), fun x => unit _ (Real.abs_cos_le_one x), ?_⟩
  intro v c w hv hc hw i
  simp only [exactKin, Option.some.injEq] at hw
  obtain ⟨hm, hM, -⟩ := hv.massive
  have hb := boost_bound hm (by rw [hM]; exact hv.gamma) c i
  have e : i.of w = rn (i.of (c.boost v)) := by
    rw [← hw]
    cases i <;> rfl
  rw [e]
  unfold size4 at hb
  have c1 := hc.bound .px
  have c2 := hc.bound .py
  have c3 := hc.bound .pz
  have c4 := hc.bound .E
  simp only [Component.of] at c1 c2 c3 c4
  generalize i.of (c.boost v) = x at *
  have k0 : |x - x| ≤ 0 := by simp
  have := h.absolute k0 (hb.trans (by norm_num at c1 c2 c3 c4 ⊢; linarith)) (by norm_num)
  refine this.trans ?_
  have p1 := abs_nonneg c.px
  have p2 := abs_nonneg c.py
  have p3 := abs_nonneg c.pz
  have p4 := abs_nonneg c.E
  norm_num at hb ⊢
  linarith

/-- Elastic scattering at 10 MeV: the computed residual has a mass of 3727 MeV to a thousandth of a keV. -/
example : ∃ (k : Kin64) (b e s : Vec4), k.Accurate ∧
    reaction_calculate64 k exScatter 10 1 2 0 = .ok (⟨0, 0, 0, 3727⟩, some b, some e, some s) ∧
    |invMass s - 3727| ≤ 1e-6 := by
  obtain ⟨rn, h⟩ := exists_rounding
  have hk := exactKin_accurate h
  obtain ⟨b, e, s, hres⟩ := exScatter_ok h
  refine ⟨exactKin rn, b, e, s, hk, hres, ?_⟩
  obtain ⟨e1, e2⟩ := exScatter_energy
  have hx : outMass exScatter 0 = 4665 := by norm_num [outMass, exScatter]
  have := (C137_mass hk exScatter_masses (by norm_num) (by norm_num [exScatter]) le_rfl (by norm_num)
    (by rw [hx]; linarith) hres).2
  have hm : exScatter.residual.mass + 0 = 3727 := by norm_num [exScatter]
  rw [hm] at this
  refine this.trans ?_
  have h2 := pow_le_pow_left₀ (by linarith : 0 ≤ cmEnergy exScatter 10) e2.le 2
  rw [div_le_iff₀ (by norm_num)]
  norm_num at h2 ⊢
  linarith

/-- The decay of a resting parent of 4673 MeV. -/
example : ∃ (k : Kin64) (v a b : Vec4), k.Accurate ∧ Slow v ∧
    decay_calculate64 k exBreakup v 1 2 0 = .ok (some a, some b) ∧ |b.M2 - 3727 ^ 2| ≤ 1e-3 := by
  obtain ⟨rn, h⟩ := exists_rounding
  have hk := exactKin_accurate h
  obtain ⟨hv, hinv, a, b, hres⟩ := exBreakup_ok h
  refine ⟨exactKin rn, _, a, b, hk, hv, hres, ?_⟩
  have := (C137_decay hk (by norm_num [exBreakup]) (by norm_num [exBreakup]) (by norm_num [exBreakup]) hv
    (by rw [hinv]; norm_num) le_rfl (by norm_num) (by rw [hinv]; norm_num [exBreakup]) hres).2
  rw [hinv] at this
  norm_num [exBreakup] at this ⊢
  linarith

end Verif.Machine
