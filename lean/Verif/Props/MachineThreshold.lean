import Verif.Proofs.Threshold64
import Verif.Props.MachineKinematics

/-! # C136: the energetic condition and the products near threshold in machine arithmetic -/

namespace Verif.Machine

open Verif.Kinematics

/-- Masses between 1 MeV and 1 TeV. -/
structure MassesOk (r : Reaction) : Prop where
  target : 1 ≤ r.target.mass ∧ r.target.mass ≤ 1e6
  projectile : 1 ≤ r.projectile.mass ∧ r.projectile.mass ≤ 1e6
  ejectile : 1 ≤ r.ejectile.mass ∧ r.ejectile.mass ≤ 1e6
  residual : 1 ≤ r.residual.mass ∧ r.residual.mass ≤ 1e6

/-- The energy of target and projectile in their centre-of-mass frame, for a projectile of kinetic energy `T`. -/
noncomputable def cmEnergy (r : Reaction) (T : ℝ) : ℝ :=
  Real.sqrt ((r.target.mass + r.projectile.mass) ^ 2 + 2 * r.target.mass * T)

/-- The mass of the products with the excitation of the residual. -/
noncomputable def outMass (r : Reaction) (ex : ℝ) : ℝ := r.ejectile.mass + r.residual.mass + ex

/-- The invariant mass of a four-momentum. -/
noncomputable def invMass (v : Vec4) : ℝ := Real.sqrt (v.E ^ 2 - (v.px ^ 2 + v.py ^ 2 + v.pz ^ 2))

theorem add_near {rn : ℝ → ℝ} (h : Rounding rn) {x X y a : ℝ} (hX : 0 < X) (hy : 0 ≤ y) (hx : |x - X| ≤ a * X)
    (ha : 0 ≤ a) (ha1 : a ≤ 1e-3) (l1 : 1e-40 ≤ X) (l2 : X + y ≤ 1e40) :
    |rn (x + y) - (X + y)| ≤ (a + 1.12e-16) * (X + y) := by
  refine h.pos (by linarith) ?_ ha1 (by linarith) l2
  rw [show x + y - (X + y) = x - X by ring]
  exact hx.trans (mul_le_mul_of_nonneg_left (by linarith) ha)

/-- The total energy. -/
theorem total_near {rn : ℝ → ℝ} (h : Rounding rn) {a b c : ℝ} (ha : 1 ≤ a) (ha2 : a ≤ 1e7) (hb : 0 ≤ b) (hb2 : b ≤ 1e7)
    (hc : 0 ≤ c) (hc2 : c ≤ 1e7) : |rn (rn (a + b) + c) - (a + b + c)| ≤ 2.24e-16 * (a + b + c) := by
  have s0 : |a - a| ≤ 0 * a := by simp
  have s1 := add_near h (by linarith) hb s0 le_rfl (by norm_num) (ha.trans' (by norm_num))
    (by norm_num at ha2 hb2 ⊢; linarith)
  have s2 := add_near h (by linarith) hc s1 (by norm_num) (by norm_num)
    ((show (1 : ℝ) ≤ a + b by linarith).trans' (by norm_num)) (by norm_num at ha2 hb2 hc2 ⊢; linarith)
  refine s2.trans (le_of_eq ?_)
  norm_num

theorem cm_facts {t p T : ℝ} (ht : 1 ≤ t ∧ t ≤ 1e6) (hp : 1 ≤ p ∧ p ≤ 1e6) (hT : 0 ≤ T) (hT2 : T ≤ t + p) {e : ℝ}
    (he : e = Real.sqrt ((t + p) ^ 2 + 2 * t * T)) :
    2 ≤ e ∧ e ≤ 1e7 ∧ (t + T + p) ^ 2 - T * (T + 2 * p) = e ^ 2 ∧ (t + T + p) ^ 2 ≤ 4 * e ^ 2 := by
  obtain ⟨a1, a2⟩ := ht
  obtain ⟨b1, b2⟩ := hp
  have hpos : 0 ≤ (t + p) ^ 2 + 2 * t * T := by positivity
  have hsq : e ^ 2 = (t + p) ^ 2 + 2 * t * T := by rw [he, Real.sq_sqrt hpos]
  have hex : (t + T + p) ^ 2 - T * (T + 2 * p) = e ^ 2 := by rw [hsq]; ring
  have htp : t + p ≤ e := by
    rw [he]
    refine Real.le_sqrt_of_sq_le ?_
    have : 0 ≤ 2 * t * T := by positivity
    linarith
  refine ⟨by linarith, ?_, hex, ?_⟩
  · rw [he]
    refine Real.sqrt_le_iff.2 ⟨by norm_num, ?_⟩
    have h1 : (t + p) ^ 2 ≤ (1e6 + 1e6) ^ 2 := pow_le_pow_left₀ (by linarith) (by linarith) 2
    have h2 : 2 * t * T ≤ 2 * 1e6 * (1e6 + 1e6) := by
      have : T ≤ 1e6 + 1e6 := by linarith
      gcongr
    norm_num at h1 h2 ⊢
    linarith
  · have h1 : t + T + p ≤ 2 * e := by linarith
    calc (t + T + p) ^ 2 ≤ (2 * e) ^ 2 := pow_le_pow_left₀ (by linarith) h1 2
      _ = 4 * e ^ 2 := by ring

/-- The invariant mass that `is_excitation_allowed` computes. -/
theorem ecm_near {rn : ℝ → ℝ} (h : Rounding rn) {t p T : ℝ} (ht : 1 ≤ t ∧ t ≤ 1e6) (hp : 1 ≤ p ∧ p ≤ 1e6) (hT : 1e-6 ≤ T)
    (hT2 : T ≤ t + p) {e : ℝ} (he : e = Real.sqrt ((t + p) ^ 2 + 2 * t * T)) :
    ∃ pz, npSqrt64 rn (rn (T * rn (T + rn (2 * p)))) = some pz ∧
      ∃ e', npSqrt64 rn (rn (rn (rn (rn (t + T) + p) ^ 2) - rn (pz ^ 2))) = some e' ∧ |e' - e| ≤ 8e-15 * e := by
  have T0 : 0 < T := lt_of_lt_of_le (by norm_num) hT
  have T7 : T ≤ 1e7 := by
    have h1 := ht.2
    have h2 := hp.2
    norm_num at h1 h2 ⊢
    linarith
  obtain ⟨e0, e7, hex, hW4⟩ := cm_facts ht hp T0.le hT2 he
  obtain ⟨pz, hpz, hpz0, hn⟩ := beam_near h hT T7 hp.1 hp.2
  refine ⟨pz, hpz, ?_⟩
  obtain ⟨p1, p2⟩ := hp
  obtain ⟨t1, t2⟩ := ht
  have hw := total_near h (a := t) (b := T) (c := p) t1 (t2.trans (by norm_num)) T0.le T7 (by linarith)
    (p2.trans (by norm_num))
  have hA : 0 < T * (T + 2 * p) := by positivity
  have hAs : Real.sqrt (T * (T + 2 * p)) ^ 2 = T * (T + 2 * p) := Real.sq_sqrt hA.le
  have hsA : 0 < Real.sqrt (T * (T + 2 * p)) := Real.sqrt_pos.2 hA
  have hA1 : 1e-6 ≤ T * (T + 2 * p) := by nlinarith
  have hWp : 0 < t + T + p := by linarith
  have hW1 : 1 ≤ (t + T + p) ^ 2 := by nlinarith
  have hW2 : (t + T + p) ^ 2 ≤ 1e15 := by
    have : e ^ 2 ≤ (1e7 : ℝ) ^ 2 := pow_le_pow_left₀ (by linarith) e7 2
    norm_num at this ⊢
    linarith
  have q1 := sq_relative hsA hn (by norm_num) (by norm_num)
  rw [hAs] at q1
  have q2 := sq_relative hWp hw (by norm_num) (by norm_num)
  have e2 : 0 < e ^ 2 := by positivity
  have hAW : T * (T + 2 * p) ≤ 1e15 := by linarith
  have r1 := h.pos hA q1 (by norm_num) (hA1.trans' (by norm_num)) (hAW.trans (by norm_num))
  have r2 := h.pos (by positivity) q2 (by norm_num) (hW1.trans' (by norm_num)) (hW2.trans (by norm_num))
  have r1' : |rn (pz ^ 2) - T * (T + 2 * p)| ≤ 1.06e-15 * (T * (T + 2 * p)) :=
    r1.trans (mul_le_mul_of_nonneg_right (by norm_num) hA.le)
  have r2' : |rn (rn (rn (t + T) + p) ^ 2) - (t + T + p) ^ 2| ≤ 1.06e-15 * (t + T + p) ^ 2 :=
    r2.trans (mul_le_mul_of_nonneg_right (by norm_num) (by positivity))
  have hi := invariant_near hWp (by rw [hex]; exact hW4) r2' r1'
  rw [hex] at hi
  have e4 : 4 ≤ e ^ 2 := by nlinarith
  have e14 : e ^ 2 ≤ 1e14 := by
    have : e ^ 2 ≤ (1e7 : ℝ) ^ 2 := pow_le_pow_left₀ (by linarith) e7 2
    exact this.trans (by norm_num)
  have hr := h.pos e2 hi (by norm_num) (e4.trans' (by norm_num)) (e14.trans (by norm_num))
  generalize rn (rn (rn (rn (t + T) + p) ^ 2) - rn (pz ^ 2)) = x at *
  have hx : 0 ≤ x := by
    have := (abs_le.1 hr).1
    norm_num at this
    linarith
  have hs := sqrt_relative e2 hx hr
  rw [Real.sqrt_sq (by linarith : 0 ≤ e)] at hs
  have hf := h.pos (by linarith : 0 < e) hs (by norm_num) (e0.trans' (by norm_num)) (e7.trans (by norm_num))
  refine ⟨rn (Real.sqrt x), ?_, hf.trans (mul_le_mul_of_nonneg_right (by norm_num) (by linarith))⟩
  unfold npSqrt64
  rw [if_neg (not_lt.2 hx)]

/-- **C136.** In float64 `is_excitation_allowed` decides as with exact numbers, unless the energy and the mass of the
products agree to one part in `10^14`. -/
theorem C136_allowed {k : Kin64} (h : Rounding k.rn) {r : Reaction} (hm : MassesOk r) {T ex : ℝ} (hT : 1e-6 ≤ T)
    (hT2 : T ≤ r.target.mass + r.projectile.mass) (hx : 0 ≤ ex) (hx2 : ex ≤ 1e6) :
    (outMass r ex * (1 + 1e-14) < cmEnergy r T → reaction_allowed64 k r T ex = true) ∧
    (cmEnergy r T * (1 + 1e-14) < outMass r ex → reaction_allowed64 k r T ex = false) := by
  obtain ⟨pz, h1, e', h2, h3⟩ := ecm_near h hm.target hm.projectile hT hT2 (e := cmEnergy r T) rfl
  have hM := total_near h hm.ejectile.1 (hm.ejectile.2.trans (by norm_num)) (by linarith [hm.residual.1])
    (hm.residual.2.trans (by norm_num)) hx (hx2.trans (by norm_num))
  have hall : reaction_allowed64 k r T ex = decide (k.rn (k.rn (r.ejectile.mass + r.residual.mass) + ex) < e') := by
    unfold reaction_allowed64
    simp only [h1, h2]
  rw [hall]
  have a1 := abs_le.1 h3
  have a2 := abs_le.1 hM
  have hM0 : 0 < outMass r ex := by
    unfold outMass
    linarith [hm.ejectile.1, hm.residual.1]
  unfold outMass at *
  generalize k.rn (k.rn (r.ejectile.mass + r.residual.mass) + ex) = M' at *
  generalize r.ejectile.mass + r.residual.mass + ex = M at *
  generalize cmEnergy r T = e at *
  simp only [decide_eq_true_eq, decide_eq_false_iff_not, not_lt]
  constructor <;> intro hlt <;> norm_num at a1 a2 hlt <;> linarith

/-- A parent of ordinary energy, at rest or not faster than `γ = √5`. -/
structure Slow (v : Vec4) : Prop where
  doubles : Doubles v
  low : 1 ≤ v.E
  up : v.E ≤ 1e8
  gamma : v.E ^ 2 ≤ 5 * invMass v ^ 2

/-- A vector of doubles without huge components. -/
structure Moderate (c : Vec4) : Prop where
  doubles : Doubles c
  bound : ∀ i : Component, |i.of c| ≤ 1e9

/-- What is assumed about `np.sin`, `np.cos` and the operations of `vector`: sine and cosine are at most 1; for a slow
parent `boostCM_of` and `M` give its invariant mass with an error below `9e-14`, and boosting a moderate vector with it
gives numbers. -/
structure Kin64.BoostOk (k : Kin64) : Prop where
  rounding : Rounding k.rn
  sin : ∀ x, |k.sin x| ≤ 1
  cos : ∀ x, |k.cos x| ≤ 1
  cm : ∀ v : Vec4, Slow v → ∃ c, k.boostCM_of v v = some c ∧ |c.E - invMass v| ≤ 9e-14 * invMass v
  mass : ∀ v : Vec4, Slow v → |k.M v - invMass v| ≤ 9e-14 * invMass v
  back : ∀ v c : Vec4, Slow v → Moderate c → ∃ w, k.boost c v = some w

theorem round_le {rn : ℝ → ℝ} (h : Rounding rn) {x : ℝ} (hx : |x| ≤ 1e9) : |rn x| ≤ 1e9 := by
  have hm : ((1000000000 : ℤ) : ℝ) ∈ Binary64 := int_mem (by norm_num)
  have e : ((1000000000 : ℤ) : ℝ) = 1e9 := by norm_num
  rw [e] at hm
  obtain ⟨h1, h2⟩ := abs_le.1 hx
  exact abs_le.2 ⟨h.ge_of_ge (neg_mem hm) h1, h.le_of_le hm h2⟩

theorem mul_le_bound {x y : ℝ} (hx : |x| ≤ 1e9) (hy : |y| ≤ 1) : |x * y| ≤ 1e9 := by
  rw [abs_mul x y]
  calc |x| * |y| ≤ 1e9 * 1 := mul_le_mul hx hy (abs_nonneg _) (by norm_num)
    _ = 1e9 := by norm_num

/-- The energy of the first of two products in the centre-of-mass frame. -/
noncomputable def productEnergy (m1 m2 e : ℝ) : ℝ := (m1 ^ 2 - m2 ^ 2 + e ^ 2) / (2 * e)

/-- The momentum of the products in the centre-of-mass frame. -/
noncomputable def productMomentum (m1 m2 e : ℝ) : ℝ := Real.sqrt (productEnergy m1 m2 e ^ 2 - m1 ^ 2)

theorem momentum_bounds {m1 m2 e : ℝ} (l1 : 1 ≤ m1) (l2 : 1 ≤ m2) (he0 : 0 < e)
    (hmargin : 1e-12 * e ^ 3 ≤ (e - (m1 + m2)) * (m1 * m2)) :
    m1 + m2 ≤ e ∧ 1e-6 * e ≤ productMomentum m1 m2 e ∧ productMomentum m1 m2 e ≤ e ∧
    0 ≤ productEnergy m1 m2 e ∧ productEnergy m1 m2 e ≤ e ∧ 0 ≤ productEnergy m1 m2 e ^ 2 - m1 ^ 2 := by
  have hsum : m1 + m2 ≤ e := by
    have h1 : 0 < m1 * m2 := by positivity
    have h3 : 0 ≤ 1e-12 * e ^ 3 := by positivity
    by_contra hc
    push Not at hc
    have := mul_neg_of_neg_of_pos (show e - (m1 + m2) < 0 by linarith) h1
    linarith
  have hlow := momentum_low (by linarith : 0 < m1) (by linarith : 0 < m2) hsum
  have hP : 1e-12 * e ^ 2 ≤ productEnergy m1 m2 e ^ 2 - m1 ^ 2 := by
    refine le_trans ?_ hlow
    rw [le_div_iff₀ he0]
    calc 1e-12 * e ^ 2 * e = 1e-12 * e ^ 3 := by ring
      _ ≤ _ := hmargin
  have h3 : productEnergy m1 m2 e ≤ e := by
    unfold productEnergy
    rw [div_le_iff₀ (by positivity)]
    nlinarith
  have h4 : 0 ≤ productEnergy m1 m2 e := by
    unfold productEnergy
    refine div_nonneg ?_ (by positivity)
    nlinarith
  have h5 := pow_le_pow_left₀ h4 h3 2
  have h6 := sq_nonneg m1
  unfold productMomentum
  refine ⟨hsum, Real.le_sqrt_of_sq_le ?_, Real.sqrt_le_iff.2 ⟨he0.le, by linarith⟩, h4, h3, le_trans (by positivity) hP⟩
  rw [mul_pow]
  norm_num at hP ⊢
  linarith

/-- The vector of the first product in the centre-of-mass frame: no NaN, and its energy and momentum. -/
theorem cmVector_near {k : Kin64} (hk : k.BoostOk) {m1 m2 m2' e e' : ℝ} (l1 : 1 ≤ m1) (l2 : 1 ≤ m2)
    (he : e ≤ 1e8) (h2 : |m2' - m2| ≤ 3e-16 * m2) (he' : |e' - e| ≤ 1e-13 * e)
    (hmargin : 1e-12 * e ^ 3 ≤ (e - (m1 + m2)) * (m1 * m2)) (he0 : 0 < e) (polar azimuthal : ℝ) :
    ∃ c p, cmVector64 k m1 m2' e' polar azimuthal = some c ∧ Moderate c ∧ 0 ≤ p ∧
      |c.E - productEnergy m1 m2 e| ≤ 2.1e-13 * e ∧
      |p - productMomentum m1 m2 e| ≤ 5e-13 * e ^ 2 / productMomentum m1 m2 e ∧
      c.px = k.rn (k.rn (p * k.sin polar) * k.cos azimuthal) ∧
      c.py = k.rn (k.rn (p * k.sin polar) * k.sin azimuthal) ∧ c.pz = k.rn (p * k.cos polar) := by
  have h := hk.rounding
  have hsum : m1 + m2 ≤ e := by
    have h1 : 0 < m1 * m2 := by positivity
    have h3 : 0 ≤ 1e-12 * e ^ 3 := by positivity
    by_contra hc
    push Not at hc
    have := mul_neg_of_neg_of_pos (show e - (m1 + m2) < 0 by linarith) h1
    linarith
  obtain ⟨n1, n2, n3⟩ := cm_near h l1 l2 hsum he h2 he'
  have hlow := momentum_low (by linarith : 0 < m1) (by linarith : 0 < m2) hsum
  have hP : 1e-12 * e ^ 2 ≤ productEnergy m1 m2 e ^ 2 - m1 ^ 2 := by
    refine le_trans ?_ hlow
    rw [le_div_iff₀ he0]
    calc 1e-12 * e ^ 2 * e = 1e-12 * e ^ 3 := by ring
      _ ≤ _ := hmargin
  have hPup : productEnergy m1 m2 e ^ 2 - m1 ^ 2 ≤ e ^ 2 := by
    have h3 : productEnergy m1 m2 e ≤ e := by
      unfold productEnergy
      rw [div_le_iff₀ (by positivity)]
      nlinarith
    have h4 : 0 ≤ productEnergy m1 m2 e := by
      unfold productEnergy
      refine div_nonneg ?_ (by positivity)
      nlinarith
    have := pow_le_pow_left₀ h4 h3 2
    have := sq_nonneg m1
    linarith
  have hE1 : |productEnergy m1 m2 e| ≤ e := by
    unfold productEnergy
    rw [abs_of_nonneg (div_nonneg (by nlinarith) (by positivity)), div_le_iff₀ (by positivity)]
    nlinarith
  change |_ - (productEnergy m1 m2 e ^ 2 - m1 ^ 2)| ≤ _ at n3
  change |_ - productEnergy m1 m2 e| ≤ _ at n2
  unfold productMomentum
  unfold cmVector64
  simp only
  rw [if_neg n1]
  have he1m : k.rn (k.rn (k.rn (k.rn (m1 ^ 2) - k.rn (m2' ^ 2)) + k.rn (e' ^ 2)) / k.rn (2 * e')) ∈ Binary64 := (h _).1
  generalize k.rn (k.rn (k.rn (k.rn (m1 ^ 2) - k.rn (m2' ^ 2)) + k.rn (e' ^ 2)) / k.rn (2 * e')) = e1 at *
  generalize productEnergy m1 m2 e ^ 2 - m1 ^ 2 = P at *
  generalize productEnergy m1 m2 e = E1 at *
  generalize k.rn (k.rn (e1 ^ 2) - k.rn (m1 ^ 2)) = x at *
  have e2 : 0 < e ^ 2 := by positivity
  have hPp : 0 < P := lt_of_lt_of_le (by positivity) hP
  have hx : 0 ≤ x := by
    have := (abs_le.1 n3).1
    norm_num at this hP
    linarith
  have hsq : npSqrt64 k.rn x = some (k.rn (Real.sqrt x)) := by
    unfold npSqrt64
    rw [if_neg (not_lt.2 hx)]
  rw [hsq]
  have hs : 0 < Real.sqrt P := Real.sqrt_pos.2 hPp
  have hrel : |x - P| ≤ (4.5e-13 * e ^ 2 / P) * P := by
    rw [div_mul_cancel₀ _ hPp.ne']
    exact n3
  have h5 := sqrt_relative hPp hx hrel
  have h6 : 4.5e-13 * e ^ 2 / P * Real.sqrt P = 4.5e-13 * e ^ 2 / Real.sqrt P := by
    rw [div_mul_eq_mul_div, div_eq_div_iff hPp.ne' hs.ne', mul_assoc, Real.mul_self_sqrt hPp.le]
  rw [h6] at h5
  have hse : Real.sqrt P ≤ e := Real.sqrt_le_iff.2 ⟨he0.le, hPup⟩
  have hsl : 1e-6 * e ≤ Real.sqrt P := by
    refine Real.le_sqrt_of_sq_le ?_
    rw [mul_pow]
    norm_num at hP ⊢
    linarith
  have hquot : Real.sqrt P ≤ e ^ 2 / Real.sqrt P := by
    rw [le_div_iff₀ hs, Real.mul_self_sqrt hPp.le]
    exact hPup
  have hq2 : e ^ 2 / Real.sqrt P ≤ 1e6 * e := by
    rw [div_le_iff₀ hs]
    nlinarith
  have e1' : 1 ≤ e := by linarith
  rw [mul_div_assoc] at h5 ⊢
  generalize e ^ 2 / Real.sqrt P = Q at *
  have h7 := h.absolute h5 (by rw [abs_of_pos hs]; exact hse.trans (he.trans (by norm_num)))
    (by norm_num at he hq2 ⊢; linarith)
  have h8 : |k.rn (Real.sqrt x) - Real.sqrt P| ≤ 5e-13 * Q := by
    refine h7.trans ?_
    rw [abs_of_pos hs]
    norm_num
    linarith
  have hpb : |k.rn (Real.sqrt x)| ≤ 1e9 := by
    have b := abs_le.1 h8
    rw [abs_le]
    constructor <;> norm_num at b he hq2 ⊢ <;> linarith
  have heb : |e1| ≤ 1e9 := by
    have b := abs_le.1 n2
    have c := abs_le.1 hE1
    rw [abs_le]
    constructor <;> norm_num at b he ⊢ <;> linarith
  refine ⟨_, k.rn (Real.sqrt x), rfl, ⟨?_, ?_⟩, h.nonneg (Real.sqrt_nonneg x), n2, h8, rfl, rfl, rfl⟩
  · intro i
    cases i
    · exact (h _).1
    · exact (h _).1
    · exact (h _).1
    · exact he1m
  · have b1 : |k.rn (k.rn (Real.sqrt x) * k.sin polar)| ≤ 1e9 := round_le h (mul_le_bound hpb (hk.sin _))
    intro i
    cases i
    · exact round_le h (mul_le_bound b1 (hk.cos _))
    · exact round_le h (mul_le_bound b1 (hk.sin _))
    · exact round_le h (mul_le_bound hpb (hk.cos _))
    · exact heb

/-- The parent of a reaction: its invariant mass is the centre-of-mass energy. -/
theorem parent_near {rn : ℝ → ℝ} (h : Rounding rn) {t p T : ℝ} (ht : 1 ≤ t ∧ t ≤ 1e6) (hp : 1 ≤ p ∧ p ≤ 1e6)
    (hT : 1e-6 ≤ T) (hT2 : T ≤ t + p) {e : ℝ} (he : e = Real.sqrt ((t + p) ^ 2 + 2 * t * T)) {pz : ℝ}
    (hpz : npSqrt64 rn (rn (T * rn (T + rn (2 * p)))) = some pz) (hpm : pz ∈ Binary64) :
    Slow (add64 rn ⟨0, 0, 0, t⟩ ⟨0, 0, pz, rn (T + p)⟩) ∧
    |invMass (add64 rn ⟨0, 0, 0, t⟩ ⟨0, 0, pz, rn (T + p)⟩) - e| ≤ 8e-15 * e := by
  have T0 : 0 < T := lt_of_lt_of_le (by norm_num) hT
  have T7 : T ≤ 1e7 := by
    have h1 := ht.2
    have h2 := hp.2
    norm_num at h1 h2 ⊢
    linarith
  obtain ⟨e0, e7, hex, hW4⟩ := cm_facts ht hp T0.le hT2 he
  obtain ⟨pz', hpz', hpz0, hn⟩ := beam_near h hT T7 hp.1 hp.2
  rw [hpz] at hpz'
  cases hpz'
  obtain ⟨p1, p2⟩ := hp
  obtain ⟨t1, t2⟩ := ht
  have hd : Doubles (add64 rn ⟨0, 0, 0, t⟩ ⟨0, 0, pz, rn (T + p)⟩) := by
    intro i
    cases i <;> exact (h _).1
  suffices hgoal : 1 ≤ (add64 rn ⟨0, 0, 0, t⟩ ⟨0, 0, pz, rn (T + p)⟩).E ∧
      (add64 rn ⟨0, 0, 0, t⟩ ⟨0, 0, pz, rn (T + p)⟩).E ≤ 1e8 ∧
      (add64 rn ⟨0, 0, 0, t⟩ ⟨0, 0, pz, rn (T + p)⟩).E ^ 2
        ≤ 5 * invMass (add64 rn ⟨0, 0, 0, t⟩ ⟨0, 0, pz, rn (T + p)⟩) ^ 2 ∧
      |invMass (add64 rn ⟨0, 0, 0, t⟩ ⟨0, 0, pz, rn (T + p)⟩) - e| ≤ 8e-15 * e from
    ⟨⟨hd, hgoal.1, hgoal.2.1, hgoal.2.2.1⟩, hgoal.2.2.2⟩
  clear hd
  unfold add64 invMass
  simp only [add_zero, zero_add]
  rw [h.exact zero_mem, h.exact hpm]
  have s0 : |p - p| ≤ 0 * p := by simp
  have s1 := add_near h (by linarith) T0.le s0 le_rfl (by norm_num) (p1.trans' (by norm_num))
    (by norm_num at p2 T7 ⊢; linarith)
  have s2 := add_near h (by linarith) (by linarith : 0 ≤ t) s1 (by norm_num) (by norm_num)
    ((show (1 : ℝ) ≤ p + T by linarith).trans' (by norm_num)) (by norm_num at p2 t2 T7 ⊢; linarith)
  rw [show p + T + t = t + T + p by ring, show rn (p + T) + t = t + rn (T + p) by rw [add_comm p T]; ring] at s2
  have hw : |rn (t + rn (T + p)) - (t + T + p)| ≤ 2.24e-16 * (t + T + p) := s2.trans (le_of_eq (by norm_num))
  generalize rn (t + rn (T + p)) = w at *
  have hA : 0 < T * (T + 2 * p) := by positivity
  have hAs : Real.sqrt (T * (T + 2 * p)) ^ 2 = T * (T + 2 * p) := Real.sq_sqrt hA.le
  have hsA : 0 < Real.sqrt (T * (T + 2 * p)) := Real.sqrt_pos.2 hA
  have hWp : 0 < t + T + p := by linarith
  have q1 := sq_relative hsA hn (by norm_num) (by norm_num)
  rw [hAs] at q1
  have q2 := sq_relative hWp hw (by norm_num) (by norm_num)
  have r1' : |pz ^ 2 - T * (T + 2 * p)| ≤ 1e-15 * (T * (T + 2 * p)) :=
    q1.trans (mul_le_mul_of_nonneg_right (by norm_num) hA.le)
  have r2' : |w ^ 2 - (t + T + p) ^ 2| ≤ 1e-15 * (t + T + p) ^ 2 :=
    q2.trans (mul_le_mul_of_nonneg_right (by norm_num) (by positivity))
  have hi := invariant_near hWp (by rw [hex]; exact hW4) r2' r1'
  rw [hex] at hi
  have e2 : 0 < e ^ 2 := by positivity
  have z : (0 : ℝ) ^ 2 = 0 := by norm_num
  rw [z, zero_add, zero_add]
  have hx : 0 ≤ w ^ 2 - pz ^ 2 := by
    have := (abs_le.1 hi).1
    norm_num at this
    linarith
  have hs := sqrt_relative e2 hx hi
  rw [Real.sqrt_sq (by linarith : 0 ≤ e)] at hs
  refine ⟨?_, ?_, ?_, hs.trans (mul_le_mul_of_nonneg_right (by norm_num) (by linarith))⟩
  · have := (abs_le.1 hw).1
    norm_num at this
    linarith
  · have := (abs_le.1 hw).2
    norm_num at this p2 t2 T7 ⊢
    linarith
  · rw [Real.sq_sqrt hx]
    have b1 := abs_le.1 hi
    have b2 := abs_le.1 r2'
    norm_num at b1 b2
    linarith

/-- **C136.** In float64 an accepted sample gives numbers, not NaN, when the energy above the mass of the products is at
least `1e-12 · e^3 / (m1 m2)` (below a millionth of an MeV for light beams). Energy and momentum of the ejectile in the
centre-of-mass frame are then accurate, and the residual takes the rest. -/
theorem C136_finite {k : Kin64} (hk : k.BoostOk) {r : Reaction} (hm : MassesOk r) {T ex polar azimuthal : ℝ}
    (hT : 1e-6 ≤ T) (hT2 : T ≤ r.target.mass + r.projectile.mass) (hx : 0 ≤ ex) (hx2 : ex ≤ 1e6)
    (hmargin : 1e-12 * cmEnergy r T ^ 3
      ≤ (cmEnergy r T - outMass r ex) * (r.ejectile.mass * (r.residual.mass + ex)))
    {res : Vec4 × Option Vec4 × Option Vec4 × Option Vec4}
    (h : reaction_calculate64 k r T polar azimuthal ex = .ok res) :
    ∃ b e s c p, res = (⟨0, 0, 0, r.target.mass⟩, some b, some e, some s) ∧
      k.boost c (add64 k.rn ⟨0, 0, 0, r.target.mass⟩ b) = some e ∧
      s = sub64 k.rn (add64 k.rn ⟨0, 0, 0, r.target.mass⟩ b) e ∧
      |c.E - productEnergy r.ejectile.mass (r.residual.mass + ex) (cmEnergy r T)| ≤ 2.1e-13 * cmEnergy r T ∧
      |p - productMomentum r.ejectile.mass (r.residual.mass + ex) (cmEnergy r T)|
        ≤ 5e-13 * cmEnergy r T ^ 2 / productMomentum r.ejectile.mass (r.residual.mass + ex) (cmEnergy r T) ∧
      c.px = k.rn (k.rn (p * k.sin polar) * k.cos azimuthal) ∧
      c.py = k.rn (k.rn (p * k.sin polar) * k.sin azimuthal) ∧ c.pz = k.rn (p * k.cos polar) := by
  have hr := hk.rounding
  obtain ⟨pz, hpz, -⟩ := ecm_near hr hm.target hm.projectile hT hT2 (e := cmEnergy r T) rfl
  have hpm : pz ∈ Binary64 := by
    unfold npSqrt64 at hpz
    split_ifs at hpz
    cases hpz
    exact (hr _).1
  obtain ⟨e0, e7, -, -⟩ := cm_facts hm.target hm.projectile (hT.trans' (by norm_num)) hT2 (e := cmEnergy r T) rfl
  obtain ⟨w1, w3⟩ := parent_near hr hm.target hm.projectile hT hT2 (e := cmEnergy r T) rfl hpz hpm
  obtain ⟨cm, hcm, hcmE⟩ := hk.cm _ w1
  have hEcm : |cm.E - cmEnergy r T| ≤ 1e-13 * cmEnergy r T := by
    have a1 := abs_le.1 hcmE
    have a2 := abs_le.1 w3
    generalize cmEnergy r T = e at *
    generalize invMass (add64 k.rn ⟨0, 0, 0, r.target.mass⟩ ⟨0, 0, pz, k.rn (T + r.projectile.mass)⟩) = i at *
    rw [abs_le]
    constructor <;> norm_num at a1 a2 ⊢ <;> linarith
  have hm2 : |k.rn (r.residual.mass + ex) - (r.residual.mass + ex)| ≤ 3e-16 * (r.residual.mass + ex) := by
    have s0 : |r.residual.mass - r.residual.mass| ≤ 0 * r.residual.mass := by simp
    have b1 := hm.residual.1
    have b2 := hm.residual.2
    have := add_near hr (by linarith) hx s0 le_rfl (by norm_num) (b1.trans' (by norm_num))
      (by norm_num at b2 hx2 ⊢; linarith)
    exact this.trans (mul_le_mul_of_nonneg_right (by norm_num) (by linarith))
  have hout : outMass r ex = r.ejectile.mass + (r.residual.mass + ex) := by unfold outMass; ring
  rw [hout] at hmargin
  obtain ⟨c, p, hc, hmod, -, n1, n2, n3⟩ := cmVector_near hk hm.ejectile.1 (by linarith [hm.residual.1])
    (e7.trans (by norm_num)) hm2 hEcm hmargin (by linarith) polar azimuthal
  obtain ⟨e, he⟩ := hk.back _ c w1 hmod
  refine ⟨⟨0, 0, pz, k.rn (T + r.projectile.mass)⟩, e, _, c, p, ?_, he, rfl, n1, n2, n3⟩
  unfold reaction_calculate64 at h
  simp only [hpz, hcm, hc, he] at h
  split_ifs at h
  cases h
  rfl

/-- **C136.** The same for decays of a parent that is not faster than `γ = √5`: the test decides as with exact numbers
unless mass and energy agree to two parts in `10^13`. -/
theorem C136_decay_allowed {k : Kin64} (hk : k.BoostOk) {d : Decay} (h1 : 1 ≤ d.residual_1.mass)
    (h1' : d.residual_1.mass ≤ 1e6) (h2 : 1 ≤ d.residual_2.mass) (h2' : d.residual_2.mass ≤ 1e6) {v : Vec4} {ex : ℝ}
    (hv : Slow v) (hx : 0 ≤ ex) (hx2 : ex ≤ 1e6) :
    ((d.residual_1.mass + d.residual_2.mass + ex) * (1 + 2e-13) < invMass v → decay_allowed64 k d v ex = true) ∧
    (invMass v * (1 + 2e-13) < d.residual_1.mass + d.residual_2.mass + ex → decay_allowed64 k d v ex = false) := by
  have h := hk.rounding
  have hM := hk.mass v hv
  have ho := total_near h h1 (h1'.trans (by norm_num)) (by linarith) (h2'.trans (by norm_num)) hx
    (hx2.trans (by norm_num))
  have a1 := abs_le.1 hM
  have a2 := abs_le.1 ho
  have hout : 2 ≤ d.residual_1.mass + d.residual_2.mass + ex := by linarith
  unfold decay_allowed64
  simp only [gt_iff_lt, decide_eq_true_eq, decide_eq_false_iff_not, not_lt]
  generalize k.rn (k.rn (d.residual_1.mass + d.residual_2.mass) + ex) = o' at *
  generalize d.residual_1.mass + d.residual_2.mass + ex = o at *
  generalize k.M v = m' at *
  generalize invMass v = m at *
  constructor
  · intro hlt
    have hp : (2 : ℝ) ^ (-50 : ℤ) ∈ Binary64 := mem_of_eq 1 (-50) (by norm_num) (by norm_num) (by norm_num) (by simp)
    refine lt_of_lt_of_le (by positivity) (h.ge_of_ge hp ?_)
    norm_num at a1 a2 hlt ⊢
    linarith
  · intro hlt
    refine h.nonpos ?_
    norm_num at a1 a2 hlt
    linarith

/-- **C136.** A decay gives numbers, not NaN, with the same margin. -/
theorem C136_decay_finite {k : Kin64} (hk : k.BoostOk) {d : Decay} (h1 : 1 ≤ d.residual_1.mass)
    (h2 : 1 ≤ d.residual_2.mass) (h2' : d.residual_2.mass ≤ 1e6) {v : Vec4} {ex polar azimuthal : ℝ}
    (hv : Slow v) (hE : invMass v ≤ 1e7) (hx : 0 ≤ ex) (hx2 : ex ≤ 1e6)
    (hmargin : 1e-12 * invMass v ^ 3 ≤ (invMass v - (d.residual_1.mass + (d.residual_2.mass + ex)))
      * (d.residual_1.mass * (d.residual_2.mass + ex)))
    {res : Option Vec4 × Option Vec4} (h : decay_calculate64 k d v polar azimuthal ex = .ok res) :
    ∃ r1 r2 c p, res = (some r1, some r2) ∧ k.boost c v = some r1 ∧ r2 = sub64 k.rn v r1 ∧
      |c.E - productEnergy d.residual_1.mass (d.residual_2.mass + ex) (invMass v)| ≤ 2.1e-13 * invMass v ∧
      |p - productMomentum d.residual_1.mass (d.residual_2.mass + ex) (invMass v)|
        ≤ 5e-13 * invMass v ^ 2 / productMomentum d.residual_1.mass (d.residual_2.mass + ex) (invMass v) ∧
      c.px = k.rn (k.rn (p * k.sin polar) * k.cos azimuthal) ∧
      c.py = k.rn (k.rn (p * k.sin polar) * k.sin azimuthal) ∧ c.pz = k.rn (p * k.cos polar) := by
  have hr := hk.rounding
  obtain ⟨cm, hcm, hcmE⟩ := hk.cm v hv
  have hpos : 0 < invMass v := by
    refine lt_of_le_of_ne (Real.sqrt_nonneg _) fun hc => ?_
    have hγ := hv.gamma
    rw [← hc] at hγ
    have := pow_le_pow_left₀ zero_le_one hv.low 2
    linarith
  have hm2 : |k.rn (d.residual_2.mass + ex) - (d.residual_2.mass + ex)| ≤ 3e-16 * (d.residual_2.mass + ex) := by
    have s0 : |d.residual_2.mass - d.residual_2.mass| ≤ 0 * d.residual_2.mass := by simp
    have := add_near hr (by linarith) hx s0 le_rfl (by norm_num) (h2.trans' (by norm_num))
      (by norm_num at h2' hx2 ⊢; linarith)
    exact this.trans (mul_le_mul_of_nonneg_right (by norm_num) (by linarith))
  obtain ⟨c, p, hc, hmod, -, n1, n2, n3⟩ := cmVector_near hk h1 (by linarith) (hE.trans (by norm_num)) hm2
    (hcmE.trans (mul_le_mul_of_nonneg_right (by norm_num) hpos.le)) hmargin hpos polar azimuthal
  obtain ⟨e, he⟩ := hk.back v c hv hmod
  refine ⟨e, _, c, p, ?_, he, rfl, n1, n2, n3⟩
  unfold decay_calculate64 at h
  simp only [hcm, hc, he] at h
  split_ifs at h
  cases h
  rfl

/-- Operations that are exact up to a final rounding meet the contract. -/
theorem exactKin_boostOk {rn : ℝ → ℝ} (h : Rounding rn) : (exactKin rn).BoostOk := by
  have unit : ∀ x, |x| ≤ 1 → |rn x| ≤ 1 := by
    intro x hx
    have hm : (1 : ℝ) ∈ Binary64 := by simpa using int_mem (n := 1) (by norm_num)
    obtain ⟨h1, h2⟩ := abs_le.1 hx
    exact abs_le.2 ⟨h.ge_of_ge (neg_mem hm) h1, h.le_of_le hm h2⟩
  have massive : ∀ v : Vec4, Slow v → v.Massive ∧ v.M = invMass v ∧ |rn (invMass v) - invMass v| ≤ 9e-14 * invMass v := by
    intro v hv
    have hγ := hv.gamma
    have hl := pow_le_pow_left₀ zero_le_one hv.low 2
    have hu := pow_le_pow_left₀ (by linarith [hv.low]) hv.up 2
    have h0 : 0 ≤ invMass v := Real.sqrt_nonneg _
    have hp : 0 ≤ v.E ^ 2 - (v.px ^ 2 + v.py ^ 2 + v.pz ^ 2) := by
      by_contra hc
      push Not at hc
      have : invMass v = 0 := Real.sqrt_eq_zero_of_nonpos hc.le
      rw [this] at hγ
      linarith
    have hsq : invMass v ^ 2 = v.E ^ 2 - (v.px ^ 2 + v.py ^ 2 + v.pz ^ 2) := Real.sq_sqrt hp
    have hM2 : v.M2 = invMass v ^ 2 := by
      rw [hsq]
      unfold Vec4.M2
      ring
    have low : 1e-1 ≤ invMass v := by
      by_contra hc
      push Not at hc
      have := pow_le_pow_left₀ h0 hc.le 2
      norm_num at this
      linarith
    have up : invMass v ≤ 1e8 := by
      refine Real.sqrt_le_iff.2 ⟨by norm_num, ?_⟩
      have : 0 ≤ v.px ^ 2 + v.py ^ 2 + v.pz ^ 2 := by positivity
      linarith
    have hr := h.pos (x := invMass v) (X := invMass v) (a := 0) (by linarith) (by simp) (by norm_num)
      (low.trans' (by norm_num)) (up.trans (by norm_num))
    refine ⟨⟨?_, by linarith [hv.low]⟩, Vec4.M_of_M2 h0 hM2, hr.trans (mul_le_mul_of_nonneg_right (by norm_num) h0)⟩
    have : 0 < invMass v ^ 2 := by positivity
    unfold Vec4.Boostable
    linarith
  refine ⟨h, fun x => unit _ (Real.abs_sin_le_one x), fun x => unit _ (Real.abs_cos_le_one x), ?_, ?_, ?_⟩
  · intro v hv
    obtain ⟨hm, hM, hr⟩ := massive v hv
    refine ⟨_, rfl, ?_⟩
    rw [Vec4.boostCM_self hm]
    simpa [round4, hM] using hr
  · intro v hv
    obtain ⟨hm, hM, hr⟩ := massive v hv
    simpa [exactKin, hM] using hr
  · intro v c _ _
    exact ⟨_, rfl⟩

/-- A proton-like beam on an alpha-like target, in whole MeV. -/
def exScatter : Reaction := ⟨⟨2, 4, 3727, "t"⟩, ⟨1, 1, 938, "p"⟩, ⟨1, 1, 938, "p"⟩, ⟨2, 4, 3727, "t"⟩⟩

theorem exScatter_masses : MassesOk exScatter := by
  constructor <;> norm_num [exScatter]

theorem exScatter_energy : 4672 < cmEnergy exScatter 10 ∧ cmEnergy exScatter 10 < 4673 := by
  unfold cmEnergy exScatter
  norm_num
  constructor
  · exact Real.lt_sqrt_of_sq_lt (by norm_num)
  · rw [Real.sqrt_lt' (by norm_num)]
    norm_num

theorem exScatter_ok {rn : ℝ → ℝ} (h : Rounding rn) :
    ∃ b e s, reaction_calculate64 (exactKin rn) exScatter 10 1 2 0 = .ok (⟨0, 0, 0, 3727⟩, some b, some e, some s) := by
  obtain ⟨e1, e2⟩ := exScatter_energy
  have hk := exactKin_boostOk h
  have hT2 : (10 : ℝ) ≤ exScatter.target.mass + exScatter.projectile.mass := by norm_num [exScatter]
  have i1 : ∀ n : ℤ, |n| < 2 ^ 53 → rn (n : ℝ) = n := fun n hn => h.int hn
  have r1 : rn 4665 = 4665 := by simpa using i1 4665 (by norm_num)
  have r2 : rn 3727 = 3727 := by simpa using i1 3727 (by norm_num)
  have r0 : rn 0 = 0 := by simpa using i1 0 (by norm_num)
  have hok : ∃ res, reaction_calculate64 (exactKin rn) exScatter 10 1 2 0 = .ok res := by
    unfold reaction_calculate64
    simp only [exactKin, exScatter]
    norm_num [r1, r2, r0]
    repeat' split
    all_goals exact ⟨_, _, _, _, rfl⟩
  obtain ⟨res, hres⟩ := hok
  obtain ⟨b, e, s, -, -, rfl, -⟩ := C136_finite hk exScatter_masses (by norm_num) hT2 le_rfl (by norm_num) (by
    have hx : outMass exScatter 0 = 4665 := by norm_num [outMass, exScatter]
    have hy : exScatter.ejectile.mass * (exScatter.residual.mass + 0) = 3495926 := by norm_num [exScatter]
    rw [hx, hy]
    have := pow_le_pow_left₀ (by linarith : 0 ≤ cmEnergy exScatter 10) e2.le 3
    norm_num at this ⊢
    linarith) hres
  exact ⟨b, e, s, hres⟩

/-- An excitation of 5 MeV is allowed at 10 MeV, one of 20 MeV is not, and the elastic scattering is computed without
NaN. -/
example : ∃ k : Kin64, k.BoostOk ∧ reaction_allowed64 k exScatter 10 5 = true ∧
    reaction_allowed64 k exScatter 10 20 = false ∧
    ∃ b e s, reaction_calculate64 k exScatter 10 1 2 0 = .ok (⟨0, 0, 0, 3727⟩, some b, some e, some s) := by
  obtain ⟨rn, h⟩ := exists_rounding
  obtain ⟨e1, e2⟩ := exScatter_energy
  have hT2 : (10 : ℝ) ≤ exScatter.target.mass + exScatter.projectile.mass := by norm_num [exScatter]
  refine ⟨exactKin rn, exactKin_boostOk h, ?_, ?_, exScatter_ok h⟩
  · refine (C136_allowed h exScatter_masses (by norm_num) hT2 (by norm_num) (by norm_num)).1 (lt_trans ?_ e1)
    norm_num [outMass, exScatter]
  · refine (C136_allowed h exScatter_masses (by norm_num) hT2 (by norm_num) (by norm_num)).2 ?_
    have : outMass exScatter 20 = 4685 := by norm_num [outMass, exScatter]
    rw [this]
    norm_num
    linarith

/-- A decay into a proton-like and an alpha-like product. -/
def exBreakup : Decay := ⟨⟨3, 5, 4665, "x"⟩, ⟨1, 1, 938, "p"⟩, ⟨2, 4, 3727, "t"⟩⟩

theorem exBreakup_ok {rn : ℝ → ℝ} (h : Rounding rn) : Slow ⟨0, 0, 0, 4673⟩ ∧ invMass ⟨0, 0, 0, 4673⟩ = 4673 ∧
    ∃ a b, decay_calculate64 (exactKin rn) exBreakup ⟨0, 0, 0, 4673⟩ 1 2 0 = .ok (some a, some b) := by
  have hk := exactKin_boostOk h
  have hinv : invMass ⟨0, 0, 0, 4673⟩ = 4673 := by
    unfold invMass
    rw [show ((4673 : ℝ) ^ 2 - (0 ^ 2 + 0 ^ 2 + 0 ^ 2)) = 4673 ^ 2 by norm_num]
    exact Real.sqrt_sq (by norm_num)
  have hv : Slow ⟨0, 0, 0, 4673⟩ := by
    refine ⟨?_, by norm_num, by norm_num, by rw [hinv]; norm_num⟩
    intro i
    cases i
    · exact zero_mem
    · exact zero_mem
    · exact zero_mem
    · simpa [Component.of] using int_mem (n := 4673) (by norm_num)
  refine ⟨hv, hinv, ?_⟩
  have i1 : ∀ n : ℤ, |n| < 2 ^ 53 → rn (n : ℝ) = n := fun n hn => h.int hn
  have r1 : rn 4665 = 4665 := by simpa using i1 4665 (by norm_num)
  have r3 : rn 4673 = 4673 := by simpa using i1 4673 (by norm_num)
  have r8 : rn 8 = 8 := by simpa using i1 8 (by norm_num)
  have hM : (exactKin rn).M ⟨0, 0, 0, 4673⟩ = 4673 := by
    have : (⟨0, 0, 0, 4673⟩ : Vec4).M = 4673 := Vec4.M_of_M2 (by norm_num) (by norm_num [Vec4.M2])
    simp only [exactKin, this, r3]
  have hok : ∃ res, decay_calculate64 (exactKin rn) exBreakup ⟨0, 0, 0, 4673⟩ 1 2 0 = .ok res := by
    unfold decay_calculate64 exBreakup
    simp only [hM]
    have hr : (exactKin rn).rn = rn := rfl
    rw [hr]
    norm_num [r1, r8]
    repeat' split
    all_goals exact ⟨_, _, rfl⟩
  obtain ⟨res, hres⟩ := hok
  obtain ⟨a, b, -, -, rfl, -⟩ := C136_decay_finite hk (by norm_num [exBreakup]) (by norm_num [exBreakup])
    (by norm_num [exBreakup]) hv (by rw [hinv]; norm_num) le_rfl (by norm_num) (by rw [hinv]; norm_num [exBreakup]) hres
  exact ⟨a, b, hres⟩

/-- A resting parent, 8 MeV above the mass of the products: it decays with an excitation of 5 MeV, not with 20 MeV. -/
example : ∃ (k : Kin64) (v : Vec4), k.BoostOk ∧ Slow v ∧ decay_allowed64 k exBreakup v 5 = true ∧
    decay_allowed64 k exBreakup v 20 = false ∧
    ∃ a b, decay_calculate64 k exBreakup v 1 2 0 = .ok (some a, some b) := by
  obtain ⟨rn, h⟩ := exists_rounding
  have hk := exactKin_boostOk h
  obtain ⟨hv, hinv, hd⟩ := exBreakup_ok h
  refine ⟨exactKin rn, ⟨0, 0, 0, 4673⟩, hk, hv, ?_, ?_, hd⟩
  · refine (C136_decay_allowed hk (by norm_num [exBreakup]) (by norm_num [exBreakup]) (by norm_num [exBreakup])
      (by norm_num [exBreakup]) hv (by norm_num) (by norm_num)).1 ?_
    rw [hinv]
    norm_num [exBreakup]
  · refine (C136_decay_allowed hk (by norm_num [exBreakup]) (by norm_num [exBreakup]) (by norm_num [exBreakup])
      (by norm_num [exBreakup]) hv (by norm_num) (by norm_num)).2 ?_
    rw [hinv]
    norm_num [exBreakup]

end Verif.Machine
