import Verif.Machine.Template
import Verif.Proofs.RelError
import Verif.Props.MachineWriter
import Verif.Props.Signal

/-! # C132: the response template in machine arithmetic -/

namespace Verif.Machine

open Verif.Detector Verif.Spec Verif.Props

/-- What the theorems assume about the float64 operations: rounding to a nearest double, and errors of at most
`2^-50` (eight units in the last place): relative for `np.exp` of numbers that are not positive, with a margin for
results that underflow, and for the third power, absolute for `np.sin`. -/
structure NumpyMath.Ok (m : NumpyMath) : Prop where
  rounding : Rounding m.rn
  exp : ∀ x, x ≤ 0 → |m.exp x - Real.exp x| ≤ 2 ^ (-50 : ℤ) * Real.exp x + 2 ^ (-1000 : ℤ)
  cube : ∀ x, 0 ≤ x → x ≤ 1e10 → |m.cube x - x ^ 3| ≤ 2 ^ (-50 : ℤ) * x ^ 3
  sin : ∀ x, 0 ≤ x → x ≤ 1e10 → |m.sin x - Real.sin x| ≤ 2 ^ (-50 : ℤ)

/-- The shaping time in time buckets. -/
noncomputable def shapingBuckets (e : ElectronicsParams) : ℝ :=
  (e.shaping_time : ℝ) * e.clock_freq * 0.001

/-- The settings of the theorems: a gain of at most 1e9, and a shaping time between a tenth of a bucket and 1e9
buckets. -/
structure TemplateOk (e : ElectronicsParams) : Prop where
  gain : 1 ≤ e.amp_gain
  gain_le : e.amp_gain ≤ 10 ^ 9
  shaping : 0.1 ≤ shapingBuckets e
  shaping_le : shapingBuckets e ≤ 1e9

theorem counts_near {m : NumpyMath} (hm : m.Ok) {e : ElectronicsParams} (he : TemplateOk e) :
    |m.rn (m.rn (m.rn (4095 * m.rn E_CHARGE) / (e.amp_gain : ℝ)) / m.rn 1e-15) - countsPerElectron e|
      ≤ 5.7e-16 * countsPerElectron e ∧ 6e-10 ≤ countsPerElectron e ∧ countsPerElectron e ≤ 0.66 := by
  have h := hm.rounding
  have hg1 : (1 : ℝ) ≤ (e.amp_gain : ℝ) := by exact_mod_cast he.gain
  have hg2 : (e.amp_gain : ℝ) ≤ 1e9 := by
    have : (e.amp_gain : ℝ) ≤ ((10 ^ 9 : ℤ) : ℝ) := by exact_mod_cast he.gain_le
    refine this.trans (by norm_num)
  unfold countsPerElectron E_CHARGE
  generalize (e.amp_gain : ℝ) = g at *
  have hg0 : 0 < g := by linarith
  have i1 : 1e-9 ≤ 1 / g := by
    rw [le_div_iff₀ hg0]
    linarith
  have i2 : 1 / g ≤ 1 := by
    rw [div_le_one hg0]
    exact hg1
  have e1 := h.relative (x := 1.602176634e-19) (X := 1.602176634e-19) (a := 0) (by simp) (by norm_num)
    (by norm_num [abs_of_pos]) (by norm_num [abs_of_pos])
  have e2 := h.relative (mul_relative (x := 4095) (X := 4095) (a := 0) (by simp) e1) (by norm_num)
    (by norm_num [abs_of_pos]) (by norm_num [abs_of_pos])
  have hX : |(4095 : ℝ) * 1.602176634e-19 / g| = 4095 * 1.602176634e-19 * (1 / g) := by
    rw [abs_of_pos (by positivity)]
    ring
  have e3 := h.relative (div_relative (y := g) (Y := g) (b := 0) hg0.ne' e2 (by simp) (by norm_num) (by norm_num)
    (by norm_num)) (by norm_num) (by rw [hX]; norm_num at i1 ⊢; linarith) (by rw [hX]; norm_num at i2 ⊢; linarith)
  have e4 := h.relative (x := 1e-15) (X := 1e-15) (a := 0) (by simp) (by norm_num)
    (by norm_num [abs_of_pos]) (by norm_num [abs_of_pos])
  have hY : |(4095 : ℝ) * 1.602176634e-19 / g / 1e-15| = 4095 * 1.602176634e-19 / 1e-15 * (1 / g) := by
    rw [abs_of_pos (by positivity)]
    ring
  have hZ : (4095 : ℝ) * 1.602176634e-19 / g / 1e-15 = 4095 * 1.602176634e-19 / 1e-15 * (1 / g) := by
    ring
  have e5 := h.relative (div_relative (by norm_num) e3 e4 (by norm_num) (by norm_num)
    (by norm_num)) (by norm_num) (by rw [hY]; norm_num at i1 ⊢; linarith) (by rw [hY]; norm_num at i2 ⊢; linarith)
  rw [abs_of_pos (a := 4095 * 1.602176634e-19 / g / 1e-15) (by positivity)] at e5
  refine ⟨e5.trans (mul_le_mul_of_nonneg_right (by norm_num) (by positivity)), ?_, ?_⟩
  · rw [hZ]
    norm_num at i1 ⊢
    linarith
  · rw [hZ]
    norm_num at i2 ⊢
    linarith

/-- The times of the samples, in shaping times. -/
theorem argument_near {m : NumpyMath} (hm : m.Ok) {e : ElectronicsParams} (he : TemplateOk e) {t t' : ℝ}
    (ht : |t' - t| ≤ 2.3e-16 * t) (h1 : 1 ≤ t) (h2 : t ≤ 513) :
    |m.rn (t' / m.rn (m.rn ((e.shaping_time : ℝ) * e.clock_freq) * m.rn 0.001)) - t / shapingBuckets e|
      ≤ 7e-16 * (t / shapingBuckets e) ∧ 1e-10 ≤ t / shapingBuckets e ∧ t / shapingBuckets e ≤ 5130 := by
  have h := hm.rounding
  have hs1 := he.shaping
  have hs2 := he.shaping_le
  unfold shapingBuckets at *
  generalize (e.shaping_time : ℝ) * e.clock_freq = p at *
  have hp1 : 100 ≤ p := by norm_num at hs1 ⊢; linarith
  have hp2 : p ≤ 1e12 := by norm_num at hs2 ⊢; linarith
  have hp0 : 0 < p := by linarith
  have e1 := h.relative (x := p) (X := p) (a := 0) (by simp) (by norm_num)
    (by rw [abs_of_pos hp0]; norm_num; linarith) (by rw [abs_of_pos hp0]; norm_num at hp2 ⊢; linarith)
  have e2 := h.relative (x := 0.001) (X := 0.001) (a := 0) (by simp) (by norm_num)
    (by norm_num [abs_of_pos]) (by norm_num [abs_of_pos])
  have e3 := h.relative (mul_relative e1 e2) (by norm_num)
    (by rw [abs_of_pos (by positivity)]; norm_num at hs1 ⊢; linarith)
    (by rw [abs_of_pos (by positivity)]; norm_num at hs2 ⊢; linarith)
  have hs0 : 0 < p * 0.001 := by positivity
  generalize p * 0.001 = s at *
  have ht0 : 0 < t := by linarith
  have l1 : 1e-10 ≤ t / s := by
    rw [le_div_iff₀ hs0]
    norm_num at hs2 ⊢
    linarith
  have l2 : t / s ≤ 5130 := by
    rw [div_le_iff₀ hs0]
    norm_num at hs1 ⊢
    linarith
  have hpos : 0 < t / s := div_pos ht0 hs0
  have e4 := h.relative (div_relative (a := 2.3e-16) hs0.ne' (by rw [abs_of_pos ht0]; exact ht) e3 (by norm_num)
    (by norm_num) (by norm_num)) (by norm_num) (by rw [abs_of_pos hpos]; norm_num at l1 ⊢; linarith)
    (by rw [abs_of_pos hpos]; norm_num; linarith)
  rw [abs_of_pos hpos] at e4
  exact ⟨e4.trans (mul_le_mul_of_nonneg_right (by norm_num) hpos.le), l1, l2⟩

theorem mul_exp_neg_le (y : ℝ) : y * Real.exp (-y) ≤ 0.368 := by
  have h1 : y ≤ Real.exp (y - 1) := by linarith [Real.add_one_le_exp (y - 1)]
  have h2 : y * Real.exp (-y) ≤ Real.exp (y - 1) * Real.exp (-y) :=
    mul_le_mul_of_nonneg_right h1 (Real.exp_pos _).le
  rw [← Real.exp_add, show y - 1 + -y = -1 by ring] at h2
  refine h2.trans ?_
  rw [Real.exp_neg, inv_le_comm₀ (Real.exp_pos _) (by norm_num)]
  have := Real.exp_one_gt_d9
  norm_num at this ⊢
  linarith

/-- The envelope of the response, and the envelope times the time. -/
theorem envelope_le {x : ℝ} (hx : 0 ≤ x) :
    Real.exp (-3 * x) * x ^ 3 ≤ 0.05 ∧ Real.exp (-3 * x) * x ^ 3 * x ≤ 0.06 := by
  constructor
  · have e : Real.exp (-3 * x) * x ^ 3 = (x * Real.exp (-x)) ^ 3 := by
      rw [mul_pow, ← Real.exp_nat_mul, mul_comm]
      congr 2
      push_cast
      ring
    rw [e]
    calc (x * Real.exp (-x)) ^ 3 ≤ 0.368 ^ 3 :=
          pow_le_pow_left₀ (mul_nonneg hx (Real.exp_pos _).le) (mul_exp_neg_le x) 3
      _ ≤ _ := by norm_num
  · have e : Real.exp (-3 * x) * x ^ 3 * x = (4 / 3) ^ 4 * (3 / 4 * x * Real.exp (-(3 / 4 * x))) ^ 4 := by
      rw [mul_pow (3 / 4 * x), ← Real.exp_nat_mul]
      have : ((4 : ℕ) : ℝ) * -(3 / 4 * x) = -3 * x := by push_cast; ring
      rw [this]
      ring
    rw [e]
    calc (4 / 3 : ℝ) ^ 4 * (3 / 4 * x * Real.exp (-(3 / 4 * x))) ^ 4 ≤ (4 / 3) ^ 4 * 0.368 ^ 4 := by
          apply mul_le_mul_of_nonneg_left _ (by norm_num)
          exact pow_le_pow_left₀ (mul_nonneg (by positivity) (Real.exp_pos _).le) (mul_exp_neg_le _) 4
      _ ≤ _ := by norm_num

theorem exponential_near {m : NumpyMath} (hm : m.Ok) {x x' : ℝ} (hx : |x' - x| ≤ 7e-16 * x) (l1 : 1e-10 ≤ x)
    (l2 : x ≤ 5130) :
    |m.exp (m.rn (-3 * x')) - Real.exp (-3 * x)| ≤ (2.6e-15 * x + 9e-16) * Real.exp (-3 * x) + 1e-60 := by
  have h := hm.rounding
  have hx0 : 0 < x := by linarith
  have habs : |(-3 : ℝ) * x| = 3 * x := by rw [abs_mul, abs_of_pos hx0]; norm_num
  have hx0' : 0 ≤ x' := by
    have := (abs_le.1 hx).1
    linarith
  have e1 := h.relative (mul_relative (x := -3) (X := -3) (a := 0) (by simp)
    (by rw [abs_of_pos hx0]; exact hx : |x' - x| ≤ 7e-16 * |x|)) (by norm_num)
    (by rw [habs]; norm_num at l1 ⊢; linarith) (by rw [habs]; norm_num; linarith)
  rw [habs] at e1
  have hy : m.rn (-3 * x') ≤ 0 := h.nonpos (by linarith)
  have e2 := hm.exp _ hy
  generalize m.rn (-3 * x') = y at *
  have e3 : |y - -3 * x| ≤ 2.5e-15 * x := by
    refine e1.trans ?_
    norm_num
    linarith
  have e4 := exp_near e3 (by norm_num; linarith)
  have ht : (2 : ℝ) ^ (-1000 : ℤ) ≤ 1e-60 := by
    refine (zpow_le_zpow_right₀ (n := -200) (by norm_num) (by norm_num)).trans ?_
    norm_num
  have h50 : (2 : ℝ) ^ (-50 : ℤ) ≤ 8.9e-16 := by norm_num
  have hE := Real.exp_pos (-3 * x)
  have hEy := Real.exp_pos y
  generalize (2 : ℝ) ^ (-1000 : ℤ) = tiny at *
  generalize (2 : ℝ) ^ (-50 : ℤ) = w at *
  generalize Real.exp (-3 * x) = E at *
  generalize Real.exp y = Ey at *
  generalize m.exp y = a at *
  have h1 : 1.001 * (2.5e-15 * x) * E ≤ 2.51e-15 * x * E := by
    apply mul_le_mul_of_nonneg_right _ hE.le
    norm_num
    linarith
  have h2 : 2.51e-15 * x * E ≤ 1e-3 * E := by
    apply mul_le_mul_of_nonneg_right _ hE.le
    norm_num
    linarith
  have h3 : Ey ≤ 1.001 * E := by
    have := (abs_le.1 e4).2
    linarith
  have h4 : w * Ey ≤ 8.9e-16 * (1.001 * E) := mul_le_mul h50 h3 hEy.le (by norm_num)
  have : a - E = (a - Ey) + (Ey - E) := by ring
  rw [this]
  refine (abs_add_le _ _).trans ?_
  have h5 : 0 ≤ x * E := by positivity
  have e5 : (2.6e-15 * x + 9e-16) * E = 2.6e-15 * (x * E) + 9e-16 * E := by ring
  have e6 : 2.51e-15 * x * E = 2.51e-15 * (x * E) := by ring
  rw [e5]
  rw [e6] at h1
  norm_num at *
  linarith

theorem cube_near {m : NumpyMath} (hm : m.Ok) {x x' : ℝ} (hx : |x' - x| ≤ 7e-16 * x) (l1 : 1e-10 ≤ x)
    (l2 : x ≤ 5130) : |m.cube x' - x ^ 3| ≤ 3.2e-15 * x ^ 3 := by
  have hx0 : 0 < x := by linarith
  have hx' := abs_le.1 hx
  have h1 : 0 ≤ x' := by linarith
  have h2 : x' ≤ 5131 := by norm_num at *; linarith
  have e1 := hm.cube x' h1 (by norm_num; linarith)
  have hxa : |x' - x| ≤ 7e-16 * |x| := by rwa [abs_of_pos hx0]
  have e2 := mul_relative (mul_relative hxa hxa) hxa
  have e3 : |x' ^ 3 - x ^ 3| ≤ 2.2e-15 * x ^ 3 := by
    rw [show x' ^ 3 = x' * x' * x' by ring, show x ^ 3 = x * x * x by ring]
    refine e2.trans ?_
    rw [abs_of_pos (by positivity)]
    apply mul_le_mul_of_nonneg_right _ (by positivity)
    norm_num
  have hX : 0 < x ^ 3 := by positivity
  have hX' : 0 ≤ x' ^ 3 := by positivity
  have h50 : (2 : ℝ) ^ (-50 : ℤ) ≤ 8.9e-16 := by norm_num
  generalize (2 : ℝ) ^ (-50 : ℤ) = w at *
  generalize x ^ 3 = X at *
  generalize x' ^ 3 = X' at *
  have h3 : X' ≤ 1.001 * X := by
    have := (abs_le.1 e3).2
    norm_num at *
    linarith
  have h4 : w * X' ≤ 8.9e-16 * (1.001 * X) := mul_le_mul h50 h3 hX' (by norm_num)
  have : m.cube x' - X = (m.cube x' - X') + (X' - X) := by ring
  rw [this]
  refine (abs_add_le _ _).trans ?_
  norm_num at *
  linarith

theorem sine_near {m : NumpyMath} (hm : m.Ok) {x x' : ℝ} (hx : |x' - x| ≤ 7e-16 * x) (l1 : 1e-10 ≤ x)
    (l2 : x ≤ 5130) : |m.sin x' - Real.sin x| ≤ 7e-16 * x + 9e-16 := by
  have hx0 : 0 < x := by linarith
  have hx' := abs_le.1 hx
  have h1 : 0 ≤ x' := by linarith
  have h2 : x' ≤ 5131 := by norm_num at *; linarith
  have e1 := hm.sin x' h1 (by norm_num; linarith)
  have e2 := (sin_near x' x).trans hx
  have h50 : (2 : ℝ) ^ (-50 : ℤ) ≤ 9e-16 := by norm_num
  replace e1 := e1.trans h50
  have : m.sin x' - Real.sin x = (m.sin x' - Real.sin x') + (Real.sin x' - Real.sin x) := by ring
  rw [this]
  refine (abs_add_le _ _).trans ?_
  linarith

/-- The product of the four factors. -/
theorem sample_product {rn : ℝ → ℝ} (h : Rounding rn) {C E X S c a q s x : ℝ} (hC1 : 6e-10 ≤ C) (hC2 : C ≤ 0.66)
    (hE0 : 0 < E) (hE1 : E ≤ 1) (hX0 : 0 < X) (hX1 : X ≤ 1.4e11) (hS : |S| ≤ 1) (hx0 : 0 ≤ x) (hx1 : x ≤ 5130)
    (hEX : E * X ≤ 0.05) (hEXx : E * X * x ≤ 0.06) (hc : |c - C| ≤ 5.7e-16 * C)
    (ha : |a - E| ≤ (2.6e-15 * x + 9e-16) * E + 1e-60) (hq : |q - X| ≤ 3.2e-15 * X)
    (hs : |s - S| ≤ 7e-16 * x + 9e-16) :
    |rn (rn (rn (c * a) * q) * s) - C * E * X * S| ≤ 1e-15 * C := by
  have hC0 : 0 < C := by linarith
  -- first product
  have p1 : |c * a - C * E| ≤ (2.61e-15 * x + 1.48e-15) * (C * E) + 1e-60 := by
    have e : c * a - C * E = (c - C) * E + C * (a - E) + (c - C) * (a - E) := by ring
    rw [e]
    refine (abs_add_le _ _).trans ?_
    refine (add_le_add_left (abs_add_le _ _) _).trans ?_
    rw [abs_mul, abs_mul, abs_mul, abs_of_pos hE0, abs_of_pos hC0]
    have h1 : |c - C| * E ≤ 5.7e-16 * C * E := mul_le_mul_of_nonneg_right hc hE0.le
    have h2 : C * |a - E| ≤ C * ((2.6e-15 * x + 9e-16) * E + 1e-60) := mul_le_mul_of_nonneg_left ha hC0.le
    have h3 : |c - C| * |a - E| ≤ 5.7e-16 * C * ((2.6e-15 * x + 9e-16) * E + 1e-60) :=
      mul_le_mul hc ha (abs_nonneg _) (by positivity)
    have h4 : 0 < C * E := mul_pos hC0 hE0
    have h5 : 0 ≤ x * (C * E) := mul_nonneg hx0 h4.le
    have r1 : 5.7e-16 * C * E = 5.7e-16 * (C * E) := by ring
    have r2 : C * ((2.6e-15 * x + 9e-16) * E + 1e-60) = 2.6e-15 * (x * (C * E)) + 9e-16 * (C * E) + 1e-60 * C := by
      ring
    have r3 : 5.7e-16 * C * ((2.6e-15 * x + 9e-16) * E + 1e-60)
        = 5.7e-16 * (2.6e-15 * (x * (C * E)) + 9e-16 * (C * E) + 1e-60 * C) := by ring
    have r4 : (2.61e-15 * x + 1.48e-15) * (C * E) = 2.61e-15 * (x * (C * E)) + 1.48e-15 * (C * E) := by ring
    rw [r1] at h1
    rw [r2] at h2
    rw [r3] at h3
    rw [r4]
    generalize x * (C * E) = u at *
    generalize C * E = v at *
    norm_num at *
    linarith
  have hCE0 : 0 < C * E := mul_pos hC0 hE0
  have hCE1 : C * E ≤ 1 := by
    calc C * E ≤ 0.66 * 1 := mul_le_mul hC2 hE1 hE0.le (by norm_num)
      _ ≤ 1 := by norm_num
  have hxk : 2.61e-15 * x + 1.48e-15 ≤ 1e-3 := by norm_num; linarith
  have hxk0 : 0 ≤ 2.61e-15 * x + 1.48e-15 := by positivity
  have d1 : (2.61e-15 * x + 1.48e-15) * (C * E) + 1e-60 ≤ 1e-3 * (C * E) + 1e-60 := by
    have := mul_le_mul_of_nonneg_right hxk hCE0.le
    linarith
  have b1 := h.absolute p1 (by rw [abs_of_pos hCE0]; norm_num; linarith) (by norm_num at *; linarith)
  rw [abs_of_pos hCE0] at b1
  have b1' : |rn (c * a) - C * E| ≤ (2.61e-15 * x + 1.6e-15) * (C * E) + 3e-60 := by
    refine b1.trans ?_
    generalize C * E = v at *
    have : (2.61e-15 * x + 1.6e-15) * v = (2.61e-15 * x + 1.48e-15) * v + 1.2e-16 * v := by ring
    rw [this]
    generalize (2.61e-15 * x + 1.48e-15) * v = w at *
    norm_num at *
    linarith
  generalize rn (c * a) = r1 at *
  -- second product
  have p2 : |r1 * q - C * E * X| ≤ (2.62e-15 * x + 4.81e-15) * (C * E * X) + 1e-48 := by
    have e : r1 * q - C * E * X = (r1 - C * E) * X + C * E * (q - X) + (r1 - C * E) * (q - X) := by ring
    rw [e]
    refine (abs_add_le _ _).trans ?_
    refine (add_le_add_left (abs_add_le _ _) _).trans ?_
    rw [abs_mul, abs_mul (C * E), abs_mul (r1 - C * E), abs_of_pos hX0, abs_of_pos hCE0]
    have h1 := mul_le_mul_of_nonneg_right b1' hX0.le
    have h2 : C * E * |q - X| ≤ C * E * (3.2e-15 * X) := mul_le_mul_of_nonneg_left hq hCE0.le
    have h3 : |r1 - C * E| * |q - X| ≤ ((2.61e-15 * x + 1.6e-15) * (C * E) + 3e-60) * (3.2e-15 * X) :=
      mul_le_mul b1' hq (abs_nonneg _) (by positivity)
    have h4 : 0 < C * E * X := mul_pos hCE0 hX0
    have h5 : 0 ≤ x * (C * E * X) := mul_nonneg hx0 h4.le
    have r0 : ((2.61e-15 * x + 1.6e-15) * (C * E) + 3e-60) * X
        = 2.61e-15 * (x * (C * E * X)) + 1.6e-15 * (C * E * X) + 3e-60 * X := by ring
    have r2 : C * E * (3.2e-15 * X) = 3.2e-15 * (C * E * X) := by ring
    have r3 : ((2.61e-15 * x + 1.6e-15) * (C * E) + 3e-60) * (3.2e-15 * X)
        = 3.2e-15 * (2.61e-15 * (x * (C * E * X)) + 1.6e-15 * (C * E * X) + 3e-60 * X) := by ring
    have r4 : (2.62e-15 * x + 4.81e-15) * (C * E * X)
        = 2.62e-15 * (x * (C * E * X)) + 4.81e-15 * (C * E * X) := by ring
    rw [r0] at h1
    rw [r2] at h2
    rw [r3] at h3
    rw [r4]
    generalize x * (C * E * X) = u at *
    generalize C * E * X = v at *
    norm_num at *
    linarith
  have hA0 : 0 < C * E * X := mul_pos hCE0 hX0
  have hA1 : C * E * X ≤ 0.05 * C := by
    have := mul_le_mul_of_nonneg_left hEX hC0.le
    linarith
  have hA2 : x * (C * E * X) ≤ 0.06 * C := by
    have := mul_le_mul_of_nonneg_left hEXx hC0.le
    have e : x * (C * E * X) = C * (E * X * x) := by ring
    rw [e]
    linarith
  generalize C * E * X = A at *
  have hx2 : 0 ≤ x * A := mul_nonneg hx0 hA0.le
  have e2 : (2.62e-15 * x + 4.81e-15) * A = 2.62e-15 * (x * A) + 4.81e-15 * A := by ring
  rw [e2] at p2
  have b2 := h.absolute p2 (by rw [abs_of_pos hA0]; norm_num at *; linarith) (by norm_num at *; linarith)
  rw [abs_of_pos hA0] at b2
  have b2' : |rn (r1 * q) - A| ≤ 4.6e-16 * C := by
    refine b2.trans ?_
    generalize x * A = u at *
    norm_num at *
    linarith
  generalize rn (r1 * q) = r2 at *
  -- last product
  have hs1 : |s| ≤ 1.001 := by
    have := abs_add_le (s - S) S
    rw [sub_add_cancel] at this
    norm_num at *
    linarith
  have p3 : |r2 * s - A * S| ≤ 5.6e-16 * C := by
    have e : r2 * s - A * S = (r2 - A) * s + A * (s - S) := by ring
    rw [e]
    refine (abs_add_le _ _).trans ?_
    rw [abs_mul, abs_mul, abs_of_pos hA0]
    have h1 : |r2 - A| * |s| ≤ 4.6e-16 * C * 1.001 := mul_le_mul b2' hs1 (abs_nonneg _) (by positivity)
    have h2 : A * |s - S| ≤ A * (7e-16 * x + 9e-16) := mul_le_mul_of_nonneg_left hs hA0.le
    have e3 : A * (7e-16 * x + 9e-16) = 7e-16 * (x * A) + 9e-16 * A := by ring
    rw [e3] at h2
    generalize x * A = u at *
    norm_num at *
    linarith
  have hAS : |A * S| ≤ 0.05 * C := by
    rw [abs_mul, abs_of_pos hA0]
    exact (mul_le_of_le_one_right hA0.le hS).trans hA1
  have b3 := h.absolute p3 (by norm_num at *; linarith) (by norm_num at *; linarith)
  refine b3.trans ?_
  norm_num at *
  linarith

/-- One sample, before negative values are replaced. -/
theorem sample_near {m : NumpyMath} (hm : m.Ok) {e : ElectronicsParams} (he : TemplateOk e) {t t' : ℝ}
    (ht : |t' - t| ≤ 2.3e-16 * t) (h1 : 1 ≤ t) (h2 : t ≤ 513) :
    |response_at64 m e t' - response_at e t| ≤ 1e-15 * countsPerElectron e := by
  obtain ⟨c1, c2, c3⟩ := counts_near hm he
  obtain ⟨a1, a2, a3⟩ := argument_near hm he ht h1 h2
  unfold response_at64 response_at
  simp only
  change |_ - countsPerElectron e * Real.exp (-3 * (t / shapingBuckets e)) * (t / shapingBuckets e) ^ 3
    * Real.sin (t / shapingBuckets e)| ≤ _
  generalize t / shapingBuckets e = x at *
  have hx0 : 0 < x := by linarith
  obtain ⟨v1, v2⟩ := envelope_le hx0.le
  refine sample_product hm.rounding c2 c3 (Real.exp_pos _) (Real.exp_le_one_iff.2 (by linarith)) (by positivity)
    ?_ (Real.abs_sin_le_one x) hx0.le a3 v1 v2 c1 (exponential_near hm a1 a2 a3) (cube_near hm a1 a2 a3)
    (sine_near hm a1 a2 a3)
  calc x ^ 3 ≤ 5130 ^ 3 := pow_le_pow_left₀ hx0.le a3 3
    _ ≤ _ := by norm_num

/-- The times of the samples. -/
theorem bucket_near {rn : ℝ → ℝ} (h : Rounding rn) {i : ℕ} (hi : i < 512) (h1 : 1 ≤ i) {t' : ℝ}
    (ht : (time_buckets64 rn)[i]? = some t') :
    |t' - (i : ℝ) * (512 / 511)| ≤ 2.3e-16 * ((i : ℝ) * (512 / 511)) := by
  have hN : (NUM_TB : ℝ) = 512 := by norm_num [NUM_TB]
  have hi1 : (1 : ℝ) ≤ i := by exact_mod_cast h1
  have hi2 : (i : ℝ) ≤ 511 := by exact_mod_cast (by omega : i ≤ 511)
  have hi0 : (0 : ℝ) < i := by linarith
  unfold time_buckets64 at ht
  rw [List.getElem?_map, List.getElem?_range (by unfold NUM_TB; exact hi)] at ht
  simp only [Option.map_some, Option.some.injEq, hN] at ht
  split_ifs at ht with hlast
  · have : i = 511 := by
      unfold NUM_TB at hlast
      omega
    subst this
    rw [← ht]
    norm_num
  · rw [← ht]
    have hI : (512 : ℝ) ∈ Binary64 := by simpa using int_mem (n := 512) (by norm_num)
    rw [sub_zero, h.exact hI, add_zero, h.exact (h _).1, show (512 : ℝ) - 1 = 511 by norm_num]
    have e1 := h.relative (x := 512 / 511) (X := 512 / 511) (a := 0) (by simp) (by norm_num)
      (by norm_num [abs_of_pos]) (by norm_num [abs_of_pos])
    have hpos : (0 : ℝ) < i * (512 / 511) := by positivity
    have e2 := h.relative (mul_relative (x := i) (X := i) (a := 0) (by simp) e1) (by norm_num)
      (by rw [abs_of_pos hpos]; norm_num; linarith) (by rw [abs_of_pos hpos]; norm_num; linarith)
    rw [abs_of_pos hpos] at e2
    exact e2.trans (mul_le_mul_of_nonneg_right (by norm_num) hpos.le)

theorem clamp_near {a b d : ℝ} (h : |a - b| ≤ d) :
    0 ≤ (if a < 0 then 0 else a) ∧ |(if a < 0 then 0 else a) - (if b < 0 then 0 else b)| ≤ d := by
  have := abs_le.1 h
  have hd : 0 ≤ d := (abs_nonneg _).trans h
  split_ifs with h1 h2 h2
  · simpa using hd
  · refine ⟨le_rfl, abs_le.2 ⟨by linarith, by linarith⟩⟩
  · refine ⟨by linarith, abs_le.2 ⟨by linarith, by linarith⟩⟩
  · exact ⟨by linarith, h⟩

/-- **C132.** The template computed in float64 has 512 samples, starts with 0 and is never negative, and every sample
agrees with the analytic response to the fraction 1e-15 of the counts per electron. -/
theorem C132_template {m : NumpyMath} (hm : m.Ok) {config : Config} (he : TemplateOk config.elec_params) :
    (get_response64 m config).length = 512 ∧ (get_response64 m config)[0]? = some 0 ∧
    List.Forall₂ (fun r' r => 0 ≤ r' ∧ |r' - r| ≤ 1e-15 * countsPerElectron config.elec_params)
      (get_response64 m config) (get_response config) := by
  have hlen : (get_response64 m config).length = 512 := by
    simp [get_response64, time_buckets64, NUM_TB]
  have hN : (NUM_TB : ℝ) = 512 := by norm_num [NUM_TB]
  have hC : 0 ≤ countsPerElectron config.elec_params := by
    have := (counts_near hm he).2.1
    linarith
  have hzero : response_at64 m config.elec_params 0 = 0 := by
    have hcube : m.cube 0 = 0 := by
      have := hm.cube 0 le_rfl (by norm_num)
      simpa using this
    unfold response_at64
    simp only [zero_div, hm.rounding.exact zero_mem, hcube, mul_zero, zero_mul]
  have h64 : ∀ i : ℕ, i < 512 → ∃ t', (time_buckets64 m.rn)[i]? = some t' ∧
      (get_response64 m config)[i]? = some (if response_at64 m config.elec_params t' < 0 then 0
        else response_at64 m config.elec_params t') ∧ (i = 0 → t' = 0) := by
    intro i hi
    refine ⟨_, by rw [time_buckets64, List.getElem?_map, List.getElem?_range (by unfold NUM_TB; exact hi),
      Option.map_some], ?_, ?_⟩
    · unfold get_response64 time_buckets64
      simp only [List.getElem?_map, List.getElem?_range (show i < NUM_TB by unfold NUM_TB; exact hi),
        Option.map_some]
    · intro hi0
      rw [hi0]
      have : ¬ (0 + 1 = NUM_TB) := by unfold NUM_TB; norm_num
      rw [if_neg this]
      simp only [Nat.cast_zero, zero_mul, add_zero, hm.rounding.exact zero_mem]
  have hex : ∀ i : ℕ, i < 512 → (get_response config)[i]? = some (if response_at config.elec_params
      ((i : ℝ) * (512 / 511)) < 0 then 0 else response_at config.elec_params ((i : ℝ) * (512 / 511))) := by
    intro i hi
    unfold get_response linspace
    simp only [List.getElem?_map, List.getElem?_range (show i < NUM_TB by unfold NUM_TB; exact hi),
      Option.map_some, hN, zero_add, sub_zero]
    norm_num
  refine ⟨hlen, ?_, ?_⟩
  · obtain ⟨t', -, h2, h3⟩ := h64 0 (by norm_num)
    rw [h2, h3 rfl, hzero]
    simp
  · rw [List.forall₂_iff_get]
    refine ⟨by rw [hlen, get_response_length], ?_⟩
    intro i hi1 hi2
    have hi : i < 512 := by rw [hlen] at hi1; exact hi1
    obtain ⟨t', g1, g2, g3⟩ := h64 i hi
    have g4 := hex i hi
    rw [List.getElem?_eq_getElem hi1, Option.some.injEq] at g2
    rw [List.getElem?_eq_getElem hi2, Option.some.injEq] at g4
    rw [List.get_eq_getElem, List.get_eq_getElem, g2, g4]
    apply clamp_near
    rcases Nat.eq_zero_or_pos i with rfl | hpos
    · rw [g3 rfl, hzero]
      unfold response_at
      simp only [Nat.cast_zero, zero_mul, zero_div]
      norm_num
      exact hC
    · have hb := bucket_near hm.rounding hi hpos g1
      have hi1 : (1 : ℝ) ≤ i := by exact_mod_cast hpos
      have hi2 : (i : ℝ) ≤ 511 := by exact_mod_cast (by omega : i ≤ 511)
      exact sample_near hm he hb (by linarith) (by linarith)

theorem npMax_near {d : ℝ} {l' l : List ℝ} (hne : l ≠ []) (h : List.Forall₂ (fun r' r => |r' - r| ≤ d) l' l) :
    |npMax l' - npMax l| ≤ d := by
  have hne' : l' ≠ [] := by
    rintro rfl
    cases h
    exact hne rfl
  obtain ⟨m1, m2⟩ := npMax_isMax l hne
  obtain ⟨n1, n2⟩ := npMax_isMax l' hne'
  rw [List.forall₂_iff_get] at h
  obtain ⟨hlen, hget⟩ := h
  rw [abs_le]
  constructor
  · obtain ⟨i, hi, he⟩ := List.mem_iff_getElem.1 m1
    have hi' : i < l'.length := by rw [hlen]; exact hi
    have h1 := (abs_le.1 (hget i hi' hi)).1
    have h2 := n2 _ (List.getElem_mem hi')
    rw [List.get_eq_getElem, List.get_eq_getElem, he] at h1
    linarith
  · obtain ⟨i, hi, he⟩ := List.mem_iff_getElem.1 n1
    have hi' : i < l.length := by rw [← hlen]; exact hi
    have h1 := (abs_le.1 (hget i hi hi')).2
    have h2 := m2 _ (List.getElem_mem hi')
    rw [List.get_eq_getElem, List.get_eq_getElem, he] at h1
    linarith

theorem sum_near {d : ℝ} : ∀ {l' l : List ℝ}, List.Forall₂ (fun r' r => |r' - r| ≤ d) l' l →
    |l'.sum - l.sum| ≤ l.length * d
  | _, _, .nil => by simp
  | _, _, .cons (a := a) (b := b) (l₁ := l₁) (l₂ := l₂) h hs => by
    have := sum_near hs
    rw [List.sum_cons, List.sum_cons, List.length_cons]
    have e : a + l₁.sum - (b + l₂.sum) = (a - b) + (l₁.sum - l₂.sum) := by ring
    rw [e]
    refine (abs_add_le _ _).trans ?_
    push_cast
    linarith

theorem clipped_near {a b d : ℝ} (h : |a - b| ≤ d) : |min a 4095 - min b 4095| ≤ d :=
  ((abs_min_sub_min_le_max a 4095 b 4095).trans (by simp)).trans h

/-- Signals of templates that are near each other. -/
theorem signal_near {d e : ℝ} (he : 0 ≤ e) {R' R : List ℝ} (hne : R ≠ [])
    (h : List.Forall₂ (fun r' r => |r' - r| ≤ d) R' R) :
    |(apply_response R' e).1 - (apply_response R e).1| ≤ d * e ∧
    |(apply_response R' e).2 - (apply_response R e).2| ≤ R.length * (d * e) := by
  have hs : List.Forall₂ (fun r' r => |r' - r| ≤ d * e) (R'.map fun r => min (r * e) 4095)
      (R.map fun r => min (r * e) 4095) := by
    rw [List.forall₂_map_left_iff, List.forall₂_map_right_iff]
    refine h.imp fun r' r hr => ?_
    apply clipped_near
    rw [← sub_mul, abs_mul, abs_of_nonneg he]
    exact mul_le_mul_of_nonneg_right hr he
  rw [apply_response_eq, apply_response_eq]
  refine ⟨npMax_near (by simpa using hne) hs, ?_⟩
  have := sum_near hs
  rwa [List.length_map] at this

/-- **C132.** Amplitude and integral of a signal computed in float64 with the template computed in float64, against
the exact signal with the analytic template. -/
theorem C132_signal {m : NumpyMath} (hm : m.Ok) {config : Config} (hc : TemplateOk config.elec_params) {e : ℝ}
    (he : 0 ≤ e) :
    |(apply_response64 m.rn (get_response64 m config) e).1 - (apply_response (get_response config) e).1|
      ≤ 1.1e-15 * (countsPerElectron config.elec_params * e)
        + 2e-16 * (apply_response (get_response config) e).1 + 2 ^ (-1075 : ℤ) ∧
    |(apply_response64 m.rn (get_response64 m config) e).2 - (apply_response (get_response config) e).2|
      ≤ 5.2e-13 * (countsPerElectron config.elec_params * e)
        + 2e-13 * (apply_response (get_response config) e).2 + 1536 * 2 ^ (-1075 : ℤ) := by
  obtain ⟨hlen, -, hall⟩ := C132_template hm hc
  have hC : 0 < countsPerElectron config.elec_params := by
    have := (counts_near hm hc).2.1
    linarith
  have hlen' := get_response_length config
  have hne : get_response config ≠ [] := by
    intro h
    rw [h] at hlen'
    simp at hlen'
  have hne' : get_response64 m config ≠ [] := by
    intro h
    rw [h] at hlen
    simp at hlen
  have hnn : ∀ r ∈ get_response64 m config, 0 ≤ r := by
    intro r hr
    obtain ⟨i, hi, rfl⟩ := List.mem_iff_getElem.1 hr
    have hi' : i < (get_response config).length := by rw [hlen', ← hlen]; exact hi
    exact (List.Forall₂.get hall hi hi').1
  obtain ⟨s1, s2⟩ := signal_near he hne (hall.imp fun r' r h => h.2)
  obtain ⟨-, -, a1⟩ := C109_amplitude hm.rounding hne' hnn he
  obtain ⟨-, -, i1⟩ := C109_integral hm.rounding (by rw [hlen]; rfl) hnn he
  rw [hlen'] at s2
  have hCe : 0 ≤ countsPerElectron config.elec_params * e := mul_nonneg hC.le he
  have e1 : 1e-15 * countsPerElectron config.elec_params * e = 1e-15 * (countsPerElectron config.elec_params * e) := by
    ring
  rw [e1] at s1 s2
  have h53 : (2 : ℝ) ^ (-53 : ℤ) ≤ 1.2e-16 := by norm_num
  have hη : (0 : ℝ) < 2 ^ (-1075 : ℤ) := by positivity
  have hamp0 : 0 ≤ (apply_response (get_response64 m config) e).1 := by
    rw [amplitude_eq hne' he]
    exact le_min (mul_nonneg (hnn _ (npMax_isMax _ hne').1) he) (by norm_num)
  have hw : (2 : ℝ) ^ (-53 : ℤ) * (apply_response (get_response64 m config) e).1
      ≤ 1.2e-16 * (apply_response (get_response64 m config) e).1 := mul_le_mul_of_nonneg_right h53 hamp0
  have hamp1 : 0 ≤ (apply_response (get_response config) e).1 := by
    rw [amplitude_eq hne he]
    exact le_min (mul_nonneg (get_response_nonneg config _ (npMax_isMax _ hne).1) he) (by norm_num)
  generalize countsPerElectron config.elec_params * e = K at *
  generalize (apply_response (get_response64 m config) e).1 = A' at *
  generalize (apply_response (get_response64 m config) e).2 = I' at *
  generalize (apply_response (get_response config) e).1 = A at *
  generalize (apply_response (get_response config) e).2 = I at *
  generalize (apply_response64 m.rn (get_response64 m config) e).1 = A64 at *
  generalize (apply_response64 m.rn (get_response64 m config) e).2 = I64 at *
  generalize (2 : ℝ) ^ (-1075 : ℤ) = η at *
  generalize (2 : ℝ) ^ (-53 : ℤ) * A' = w at *
  have k1 := (abs_le.1 s1).2
  have k2 := (abs_le.1 s2).2
  constructor
  · have : A64 - A = (A64 - A') + (A' - A) := by ring
    rw [this]
    refine (abs_add_le _ _).trans ?_
    norm_num at *
    linarith
  · have : I64 - I = (I64 - I') + (I' - I) := by ring
    rw [this]
    refine (abs_add_le _ _).trans ?_
    norm_num at *
    linarith

/-- **C132.** A point is kept by the threshold exactly if it is kept with exact numbers, unless its exact amplitude is
as near to the threshold as the errors above. -/
theorem C132_threshold {m : NumpyMath} (hm : m.Ok) {config : Config} (hc : TemplateOk config.elec_params) {e thr : ℝ}
    (he : 0 ≤ e) (hd : 1.1e-15 * (countsPerElectron config.elec_params * e)
        + 2e-16 * (apply_response (get_response config) e).1 + 2 ^ (-1075 : ℤ)
      < |(apply_response (get_response config) e).1 - thr|) :
    (apply_response64 m.rn (get_response64 m config) e).1 > thr ↔ (apply_response (get_response config) e).1 > thr := by
  have h := (C132_signal hm hc he).1.trans_lt hd
  generalize (apply_response64 m.rn (get_response64 m config) e).1 = a at *
  generalize (apply_response (get_response config) e).1 = b at *
  constructor
  · intro hgt
    by_contra hcon
    push Not at hcon
    rw [abs_of_nonpos (by linarith : b - thr ≤ 0)] at h
    have := (abs_lt.1 h).2
    linarith
  · intro hgt
    rw [abs_of_pos (by linarith : 0 < b - thr)] at h
    have := (abs_lt.1 h).1
    linarith

/-- Elementary functions without error. -/
noncomputable def exactNumpy (rn : ℝ → ℝ) : NumpyMath := ⟨rn, Real.exp, Real.sin, fun x => x ^ 3⟩

theorem exactNumpy_ok {rn : ℝ → ℝ} (h : Rounding rn) : (exactNumpy rn).Ok where
  rounding := h
  exp x _ := by
    simp only [exactNumpy, sub_self, abs_zero]
    have := Real.exp_pos x
    positivity
  cube x hx _ := by
    simp only [exactNumpy, sub_self, abs_zero]
    positivity
  sin x _ _ := by
    simp only [exactNumpy, sub_self, abs_zero]
    positivity

theorem default_template : TemplateOk ⟨6.25, 900, 1000, 10, 560, 40⟩ := by
  constructor <;> norm_num [shapingBuckets]

/-- With these settings an electron gives a signal of at least 0.0000235 counts. -/
theorem default_peak (config : Config) (hc : config.elec_params = ⟨6.25, 900, 1000, 10, 560, 40⟩) :
    (0.0000235 : ℝ) ≤ npMax (get_response config) := by
  have hlen := get_response_length config
  have hne : get_response config ≠ [] := by
    intro h
    rw [h] at hlen
    simp at hlen
  refine le_trans ?_ ((npMax_isMax _ hne).2 (get_response config)[6] (List.getElem_mem _))
  have h6 : (get_response config)[6]? = some (get_response config)[6] := List.getElem?_eq_getElem _
  rw [(C26_samples config ⟨by rw [hc]; norm_num, by rw [hc]; norm_num, by rw [hc]; norm_num⟩ 6 (by norm_num)).2,
    Option.some.injEq, hc] at h6
  rw [← h6]
  refine le_trans ?_ (le_max_right _ _)
  simp only
  have hx : ((6 : ℕ) : ℝ) * (512 / 511) / (((1000 : ℤ) : ℝ) * 6.25 * 0.001) = 12288 / 12775 := by norm_num
  rw [hx]
  have hsin := Real.sin_gt_sub_cube (x := 12288 / 12775) (by norm_num)
  have hexp : (1 / 21 : ℝ) ≤ Real.exp (-3 * (12288 / 12775)) := by
    have h1 : Real.exp (-3) ≤ Real.exp (-3 * (12288 / 12775)) := Real.exp_le_exp.2 (by norm_num)
    refine le_trans ?_ h1
    have h2 : Real.exp (-3) = (Real.exp 1 ^ 3)⁻¹ := by
      rw [← Real.exp_nat_mul, ← Real.exp_neg]
      norm_num
    rw [h2, one_div]
    apply inv_anti₀ (by positivity)
    calc Real.exp 1 ^ 3 ≤ 2.7182818286 ^ 3 :=
          pow_le_pow_left₀ (Real.exp_pos _).le Real.exp_one_lt_d9.le 3
      _ ≤ 21 := by norm_num
  have hs : (0.81 : ℝ) ≤ Real.sin (12288 / 12775) := by
    refine le_trans ?_ hsin.le
    norm_num
  have h1 : (4095 : ℝ) * 1.602176634e-19 / ((900 : ℤ) : ℝ) / 1e-15 * (1 / 21) * (12288 / 12775) ^ 3 * 0.81
      ≤ 4095 * 1.602176634e-19 / ((900 : ℤ) : ℝ) / 1e-15 * Real.exp (-3 * (12288 / 12775)) * (12288 / 12775) ^ 3
        * Real.sin (12288 / 12775) := by
    gcongr
  refine le_trans ?_ h1
  norm_num

/-- With a gain of 900 fC, a shaping time of 1000 ns and a clock of 6.25 MHz, three million electrons exceed the
threshold of 40 in machine arithmetic. -/
example {rn : ℝ → ℝ} (h : Rounding rn) (config : Config) (hc : config.elec_params = ⟨6.25, 900, 1000, 10, 560, 40⟩) :
    (apply_response64 rn (get_response64 (exactNumpy rn) config) 3000000).1 > 40 := by
  have ht : TemplateOk config.elec_params := by rw [hc]; exact default_template
  have hlen := get_response_length config
  have hne : get_response config ≠ [] := by
    intro h
    rw [h] at hlen
    simp at hlen
  have hpk := default_peak config hc
  have hamp : 70 ≤ (apply_response (get_response config) 3000000).1 := by
    rw [amplitude_eq hne (by norm_num)]
    refine le_min ?_ (by norm_num)
    norm_num at hpk ⊢
    linarith
  have hamp1 : (apply_response (get_response config) 3000000).1 ≤ 4095 := by
    rw [amplitude_eq hne (by norm_num)]
    exact min_le_right _ _
  refine (C132_threshold (exactNumpy_ok h) ht (by norm_num) ?_).2 (by linarith)
  have hC : countsPerElectron config.elec_params ≤ 1 := by
    rw [hc]
    norm_num [countsPerElectron]
  have hη := tiny_lt_uro.trans uro_le
  generalize (apply_response (get_response config) 3000000).1 = A at *
  generalize countsPerElectron config.elec_params = K at *
  generalize (2 : ℝ) ^ (-1075 : ℤ) = η at *
  rw [abs_of_pos (by linarith)]
  norm_num at *
  linarith

end Verif.Machine
