import Verif.Machine.Kinematics
import Verif.Proofs.RelError

/-! # Rounding errors of the centre-of-mass energy and momentum -/

namespace Verif.Machine

open Verif.Kinematics

/-- A relative error of the square is a relative error of the root. -/
theorem sqrt_relative {x X a : ℝ} (hX : 0 < X) (hx : 0 ≤ x) (h : |x - X| ≤ a * X) :
    |Real.sqrt x - Real.sqrt X| ≤ a * Real.sqrt X := by
  have hs : 0 < Real.sqrt X := Real.sqrt_pos.2 hX
  have hs' := Real.sqrt_nonneg x
  have e : x - X = (Real.sqrt x - Real.sqrt X) * (Real.sqrt x + Real.sqrt X) := by
    have h1 := Real.mul_self_sqrt hx
    have h2 := Real.mul_self_sqrt hX.le
    linarith
  have h2 : a * X = a * Real.sqrt X * Real.sqrt X := by rw [mul_assoc, Real.mul_self_sqrt hX.le]
  rw [e, abs_mul, abs_of_pos (by linarith : 0 < Real.sqrt x + Real.sqrt X), h2] at h
  have h3 : |Real.sqrt x - Real.sqrt X| * Real.sqrt X ≤ a * Real.sqrt X * Real.sqrt X :=
    le_trans (mul_le_mul_of_nonneg_left (by linarith) (abs_nonneg _)) h
  exact le_of_mul_le_mul_right h3 hs

/-- Relative errors of positive numbers. -/
theorem Rounding.pos {rn : ℝ → ℝ} (h : Rounding rn) {x X a : ℝ} (hX : 0 < X) (hx : |x - X| ≤ a * X) (ha : a ≤ 1e-3)
    (l1 : 1e-40 ≤ X) (l2 : X ≤ 1e40) : |rn x - X| ≤ (a + 1.12e-16) * X := by
  have := h.relative (X := X) (by rw [abs_of_pos hX]; exact hx) ha (by rw [abs_of_pos hX]; exact l1)
    (by rw [abs_of_pos hX]; exact l2)
  rwa [abs_of_pos hX] at this

theorem sq_relative {x X a : ℝ} (hX : 0 < X) (h : |x - X| ≤ a * X) (ha0 : 0 ≤ a) (ha : a ≤ 1e-3) :
    |x ^ 2 - X ^ 2| ≤ 2.001 * a * X ^ 2 := by
  have h1 := abs_le.1 h
  have hax : a * X ≤ 1e-3 * X := mul_le_mul_of_nonneg_right ha hX.le
  have e : x ^ 2 - X ^ 2 = (x - X) * (x + X) := by ring
  rw [e, abs_mul]
  have h2 : |x + X| ≤ 2.001 * X := by
    rw [abs_le]
    constructor <;> norm_num at * <;> linarith
  calc |x - X| * |x + X| ≤ (a * X) * (2.001 * X) := mul_le_mul h h2 (abs_nonneg _) (by positivity)
    _ = _ := by ring

/-- The square of the beam momentum, `T (T + 2 m)`, and the beam momentum. -/
theorem beam_near {rn : ℝ → ℝ} (h : Rounding rn) {T m : ℝ} (hT : 1e-6 ≤ T) (hT2 : T ≤ 1e7) (hm : 1 ≤ m) (hm2 : m ≤ 1e6) :
    ∃ pz, npSqrt64 rn (rn (T * rn (T + rn (2 * m)))) = some pz ∧ 0 ≤ pz ∧
      |pz - Real.sqrt (T * (T + 2 * m))| ≤ 4.7e-16 * Real.sqrt (T * (T + 2 * m)) := by
  have T0 : 0 < T := lt_of_lt_of_le (by norm_num) hT
  have m0 : 0 < m := by linarith
  have s1 : |rn (2 * m) - 2 * m| ≤ (0 + 1.12e-16) * (2 * m) :=
    h.pos (by positivity) (by simp) (by norm_num) (by norm_num at *; linarith) (by norm_num at *; linarith)
  have s2 : |rn (T + rn (2 * m)) - (T + 2 * m)| ≤ (1.12e-16 + 1.12e-16) * (T + 2 * m) := by
    refine h.pos (by positivity) ?_ (by norm_num) (by norm_num at *; linarith) (by norm_num at *; linarith)
    rw [show T + rn (2 * m) - (T + 2 * m) = rn (2 * m) - 2 * m by ring]
    refine s1.trans ?_
    rw [zero_add]
    exact mul_le_mul_of_nonneg_left (by linarith) (by norm_num)
  have hA : 0 < T * (T + 2 * m) := by positivity
  have hA1 : 1e-6 ≤ T * (T + 2 * m) := by nlinarith
  have hA2 : T * (T + 2 * m) ≤ 1e15 := by
    calc T * (T + 2 * m) ≤ 1e7 * (1e7 + 2 * 1e6) := by gcongr
      _ ≤ 1e15 := by norm_num
  have s3 : |rn (T * rn (T + rn (2 * m))) - T * (T + 2 * m)|
      ≤ (1.12e-16 + 1.12e-16 + 1.12e-16) * (T * (T + 2 * m)) := by
    refine h.pos hA ?_ (by norm_num) (by norm_num at *; linarith) (by norm_num at *; linarith)
    rw [← mul_sub, abs_mul, abs_of_pos T0]
    calc T * |rn (T + rn (2 * m)) - (T + 2 * m)| ≤ T * ((1.12e-16 + 1.12e-16) * (T + 2 * m)) :=
          mul_le_mul_of_nonneg_left s2 T0.le
      _ = _ := by ring
  generalize T * (T + 2 * m) = A at *
  generalize rn (T * rn (T + rn (2 * m))) = x at *
  have hx : 0 ≤ x := by
    have := (abs_le.1 s3).1
    norm_num at *
    linarith
  have s4 := sqrt_relative hA hx s3
  have hsA : 0 < Real.sqrt A := Real.sqrt_pos.2 hA
  have r1 : (1e-6 : ℝ) ≤ Real.sqrt A := by
    refine Real.le_sqrt_of_sq_le ?_
    refine le_trans ?_ hA1
    norm_num
  have r2 : Real.sqrt A ≤ 1e15 := by
    refine Real.sqrt_le_iff.2 ⟨by norm_num, hA2.trans (by norm_num)⟩
  have s5 : |rn (Real.sqrt x) - Real.sqrt A| ≤ (1.12e-16 + 1.12e-16 + 1.12e-16 + 1.12e-16) * Real.sqrt A :=
    h.pos hsA s4 (by norm_num) (r1.trans' (by norm_num)) (r2.trans (by norm_num))
  refine ⟨rn (Real.sqrt x), ?_, h.nonneg (Real.sqrt_nonneg x), s5.trans ?_⟩
  · unfold npSqrt64
    rw [if_neg (not_lt.2 hx)]
  · exact mul_le_mul_of_nonneg_right (by norm_num) hsA.le

/-- The invariant mass from a total energy and a momentum with small relative errors. -/
theorem invariant_near {W A w p ε : ℝ} (hW : 0 < W) (he : W ^ 2 ≤ 4 * (W ^ 2 - A))
    (hw : |w - W ^ 2| ≤ ε * W ^ 2) (hp : |p - A| ≤ ε * A) :
    |(w - p) - (W ^ 2 - A)| ≤ 7 * ε * (W ^ 2 - A) := by
  have h1 := abs_le.1 hw
  have h2 := abs_le.1 hp
  have hW2 : 0 < W ^ 2 := by positivity
  have hε : 0 ≤ ε := by
    by_contra hc
    push Not at hc
    have := (abs_nonneg _).trans hw
    nlinarith
  have h3 : ε * W ^ 2 + ε * A ≤ 7 * ε * (W ^ 2 - A) := by
    have : W ^ 2 + A ≤ 7 * (W ^ 2 - A) := by linarith
    have := mul_le_mul_of_nonneg_left this hε
    linarith
  rw [abs_le]
  constructor <;> linarith

/-- The numerator of the centre-of-mass energy; `a`, `c`, `q` are the squares of the masses and of the energy. -/
theorem numerator_near {rn : ℝ → ℝ} (h : Rounding rn) {a c q a' c' q' : ℝ} (ha : 0 ≤ a) (hc : 0 ≤ c) (hq : a + c ≤ q)
    (hq1 : 1 ≤ q) (hq2 : q ≤ 1e16) (s1 : |a' - a| ≤ 1.12e-16 * a) (s2 : |c' - c| ≤ 7.2e-16 * c)
    (s3 : |q' - q| ≤ 2.003e-13 * q) : |rn (rn (a' - c') + q') - (a - c + q)| ≤ 2.02e-13 * q := by
  have a1 := abs_le.1 s1
  have a2 := abs_le.1 s2
  have a3 := abs_le.1 s3
  have hd : |a' - c' - (a - c)| ≤ 7.2e-16 * q := by
    rw [abs_le]
    constructor <;> norm_num at a1 a2 ⊢ <;> linarith
  have hX : |a - c| ≤ q := by
    rw [abs_le]
    constructor <;> linarith
  have s5 := h.absolute hd (hX.trans (hq2.trans (by norm_num))) (by norm_num at hq2 ⊢; linarith)
  have s5' : |rn (a' - c') - (a - c)| ≤ 9e-16 * q := by
    refine s5.trans ?_
    generalize |a - c| = d at *
    norm_num
    linarith
  have a5 := abs_le.1 s5'
  generalize rn (a' - c') = y at *
  have hd2 : |y + q' - (a - c + q)| ≤ 2.013e-13 * q := by
    rw [abs_le]
    constructor <;> norm_num at a3 a5 ⊢ <;> linarith
  have hX2 : |a - c + q| ≤ 2 * q := by
    rw [abs_le]
    constructor <;> linarith
  have s6 := h.absolute hd2 (hX2.trans (by norm_num at hq2 ⊢; linarith)) (by norm_num at hq2 ⊢; linarith)
  refine s6.trans ?_
  generalize |a - c + q| = d at *
  norm_num
  linarith

/-- The quotient. -/
theorem quotient_near {rn : ℝ → ℝ} (h : Rounding rn) {N N' D' E : ℝ} (E0 : 2 ≤ E) (hE : E ≤ 1e8)
    (hN : |N| ≤ 2 * E ^ 2) (s6 : |N' - N| ≤ 2.02e-13 * E ^ 2) (s4 : |D' - 2 * E| ≤ 1.002e-13 * (2 * E)) :
    0 < D' ∧ |N / (2 * E)| ≤ E ∧ |rn (N' / D') - N / (2 * E)| ≤ 2.1e-13 * E := by
  have Ep : 0 < E := by linarith
  have d1 := abs_le.1 s4
  have hDlow : 1.999 * E ≤ D' := by norm_num at d1 ⊢; linarith
  have hD : 0 < D' := lt_of_lt_of_le (by positivity) hDlow
  have E2 : (0 : ℝ) < 2 * E := by positivity
  have hX : |N / (2 * E)| ≤ E := by
    rw [abs_div, abs_of_pos E2, div_le_iff₀ E2]
    nlinarith
  refine ⟨hD, hX, ?_⟩
  have t1 : |N' / D' - N / (2 * E)| ≤ 2.03e-13 * E := by
    have e : N' / D' - N / (2 * E) = ((N' - N) * (2 * E) - N * (D' - 2 * E)) / (D' * (2 * E)) := by
      field_simp
      ring
    rw [e, abs_div, abs_of_pos (by positivity : 0 < D' * (2 * E)), div_le_iff₀ (by positivity)]
    have k1 : |(N' - N) * (2 * E) - N * (D' - 2 * E)|
        ≤ 2.02e-13 * E ^ 2 * (2 * E) + 2 * E ^ 2 * (1.002e-13 * (2 * E)) := by
      refine (abs_sub _ _).trans ?_
      rw [abs_mul _ (2 * E), abs_mul N, abs_of_pos E2]
      exact add_le_add (mul_le_mul_of_nonneg_right s6 (by positivity)) (mul_le_mul hN s4 (abs_nonneg _) (by positivity))
    have k2 : 1.999 * E * (2 * E) * E ≤ D' * (2 * E) * E :=
      mul_le_mul_of_nonneg_right (mul_le_mul_of_nonneg_right hDlow (by positivity)) Ep.le
    have k3 : 0 < E ^ 3 := by positivity
    have k5 : 1.999 * E * (2 * E) * E = 3.998 * E ^ 3 := by ring
    rw [k5] at k2
    have k6 : 2.03e-13 * E * (D' * (2 * E)) = 2.03e-13 * (D' * (2 * E) * E) := by ring
    have k7 : 2.02e-13 * E ^ 2 * (2 * E) + 2 * E ^ 2 * (1.002e-13 * (2 * E))
        = (2.02e-13 * 2 + 4 * 1.002e-13) * E ^ 3 := by ring
    rw [k6]
    rw [k7] at k1
    refine k1.trans ?_
    have := mul_le_mul_of_nonneg_left k2 (show (0 : ℝ) ≤ 2.03e-13 by norm_num)
    refine le_trans ?_ this
    rw [← mul_assoc]
    exact mul_le_mul_of_nonneg_right (by norm_num) k3.le
  have := h.absolute t1 (hX.trans (hE.trans (by norm_num))) (by norm_num at hE ⊢; linarith)
  refine this.trans ?_
  generalize |N / (2 * E)| = d at *
  norm_num
  linarith

/-- The squared momentum. -/
theorem momentum_near {rn : ℝ → ℝ} (h : Rounding rn) {e1 e1' a a' E : ℝ} (E0 : 2 ≤ E) (hE : E ≤ 1e8) (hX : |e1| ≤ E)
    (t2 : |e1' - e1| ≤ 2.1e-13 * E) (ha : 0 ≤ a) (ha2 : a ≤ E ^ 2) (s1 : |a' - a| ≤ 1.12e-16 * a) :
    |rn (rn (e1' ^ 2) - a') - (e1 ^ 2 - a)| ≤ 4.5e-13 * E ^ 2 := by
  have Ep : 0 < E := by linarith
  have b4 : E ^ 2 ≤ 1e16 := by
    calc E ^ 2 ≤ (1e8 : ℝ) ^ 2 := pow_le_pow_left₀ Ep.le hE 2
      _ ≤ 1e16 := by norm_num
  have b3 : 4 ≤ E ^ 2 := by nlinarith
  have t3 : |e1' ^ 2 - e1 ^ 2| ≤ 4.21e-13 * E ^ 2 := by
    have e : e1' ^ 2 - e1 ^ 2 = (e1' - e1) * (e1' + e1) := by ring
    rw [e, abs_mul]
    have k1 : |e1' + e1| ≤ 2.001 * E := by
      have a1 := abs_le.1 t2
      have a2 := abs_le.1 hX
      rw [abs_le]
      constructor <;> norm_num at a1 ⊢ <;> linarith
    calc |e1' - e1| * |e1' + e1| ≤ (2.1e-13 * E) * (2.001 * E) := mul_le_mul t2 k1 (abs_nonneg _) (by positivity)
      _ = 2.1e-13 * 2.001 * E ^ 2 := by ring
      _ ≤ _ := mul_le_mul_of_nonneg_right (by norm_num) (by positivity)
  have hsq : |e1 ^ 2| ≤ E ^ 2 := by
    rw [abs_pow]
    exact pow_le_pow_left₀ (abs_nonneg _) hX 2
  have hsq0 : 0 ≤ e1 ^ 2 := sq_nonneg _
  generalize e1 ^ 2 = y at *
  generalize e1' ^ 2 = y' at *
  generalize E ^ 2 = q at *
  have t4 : |rn y' - y| ≤ 4.23e-13 * q := by
    have := h.absolute t3 (hsq.trans (b4.trans (by norm_num))) (by norm_num at b4 ⊢; linarith)
    refine this.trans ?_
    generalize |y| = d at *
    norm_num
    linarith
  have t5 : |rn y' - a' - (y - a)| ≤ 4.25e-13 * q := by
    have a1 := abs_le.1 t4
    have a2 := abs_le.1 s1
    rw [abs_le]
    constructor <;> norm_num at a1 a2 ⊢ <;> linarith
  have hfin : |y - a| ≤ q := by
    have a1 := abs_le.1 hsq
    rw [abs_le]
    constructor <;> linarith
  have := h.absolute t5 (hfin.trans (b4.trans (by norm_num))) (by norm_num at b4 ⊢; linarith)
  refine this.trans ?_
  generalize |y - a| = d at *
  norm_num
  linarith

/-- The centre-of-mass energy and momentum of the first product. -/
theorem cm_near {rn : ℝ → ℝ} (h : Rounding rn) {m1 m2 m2' E E' : ℝ} (l1 : 1 ≤ m1) (l2 : 1 ≤ m2) (hsum : m1 + m2 ≤ E)
    (hE : E ≤ 1e8) (h2 : |m2' - m2| ≤ 3e-16 * m2) (hE' : |E' - E| ≤ 1e-13 * E) :
    rn (2 * E') ≠ 0 ∧
    |rn (rn (rn (rn (m1 ^ 2) - rn (m2' ^ 2)) + rn (E' ^ 2)) / rn (2 * E')) - (m1 ^ 2 - m2 ^ 2 + E ^ 2) / (2 * E)|
      ≤ 2.1e-13 * E ∧
    |rn (rn (rn (rn (rn (rn (m1 ^ 2) - rn (m2' ^ 2)) + rn (E' ^ 2)) / rn (2 * E')) ^ 2) - rn (m1 ^ 2))
      - (((m1 ^ 2 - m2 ^ 2 + E ^ 2) / (2 * E)) ^ 2 - m1 ^ 2)| ≤ 4.5e-13 * E ^ 2 := by
  have E0 : 2 ≤ E := by linarith
  have Ep : 0 < E := by linarith
  have q1 : m1 ^ 2 + m2 ^ 2 ≤ E ^ 2 := by nlinarith
  have b1 : 1 ≤ m1 ^ 2 := by nlinarith
  have b2 : 1 ≤ m2 ^ 2 := by nlinarith
  have b3 : 1 ≤ E ^ 2 := by nlinarith
  have b4 : E ^ 2 ≤ 1e16 := by
    calc E ^ 2 ≤ (1e8 : ℝ) ^ 2 := pow_le_pow_left₀ Ep.le hE 2
      _ ≤ 1e16 := by norm_num
  have c1 : m1 ^ 2 ≤ 1e40 := (show m1 ^ 2 ≤ E ^ 2 by linarith).trans (b4.trans (by norm_num))
  have c2 : m2 ^ 2 ≤ 1e40 := (show m2 ^ 2 ≤ E ^ 2 by linarith).trans (b4.trans (by norm_num))
  have s1 : |rn (m1 ^ 2) - m1 ^ 2| ≤ (0 + 1.12e-16) * m1 ^ 2 :=
    h.pos (by positivity) (by simp) (by norm_num) (b1.trans' (by norm_num)) c1
  have s2 : |rn (m2' ^ 2) - m2 ^ 2| ≤ (2.001 * 3e-16 + 1.12e-16) * m2 ^ 2 :=
    h.pos (by positivity) (sq_relative (by linarith) h2 (by norm_num) (by norm_num)) (by norm_num)
      (b2.trans' (by norm_num)) c2
  have s3 : |rn (E' ^ 2) - E ^ 2| ≤ (2.001 * 1e-13 + 1.12e-16) * E ^ 2 :=
    h.pos (by positivity) (sq_relative Ep hE' (by norm_num) (by norm_num)) (by norm_num)
      (b3.trans' (by norm_num)) (b4.trans (by norm_num))
  have s4 : |rn (2 * E') - 2 * E| ≤ (1e-13 + 1.12e-16) * (2 * E) := by
    refine h.pos (by positivity) ?_ (by norm_num) (by norm_num; linarith) (by norm_num at hE ⊢; linarith)
    rw [← mul_sub, abs_mul, abs_of_pos (by norm_num : (0 : ℝ) < 2)]
    linarith
  rw [zero_add] at s1
  have s2' : |rn (m2' ^ 2) - m2 ^ 2| ≤ 7.2e-16 * m2 ^ 2 :=
    s2.trans (mul_le_mul_of_nonneg_right (by norm_num) (by positivity))
  have s3' : |rn (E' ^ 2) - E ^ 2| ≤ 2.003e-13 * E ^ 2 :=
    s3.trans (mul_le_mul_of_nonneg_right (by norm_num) (by positivity))
  have s4' : |rn (2 * E') - 2 * E| ≤ 1.002e-13 * (2 * E) :=
    s4.trans (mul_le_mul_of_nonneg_right (by norm_num) (by positivity))
  have s6 := numerator_near h (by positivity) (by positivity) q1 b3 b4 s1 s2' s3'
  have hN : |m1 ^ 2 - m2 ^ 2 + E ^ 2| ≤ 2 * E ^ 2 := by
    rw [abs_le]
    constructor <;> linarith
  obtain ⟨hD, hX, t2⟩ := quotient_near h E0 hE hN s6 s4'
  exact ⟨hD.ne', t2, momentum_near h E0 hE hX t2 (by positivity) (by linarith) s1⟩

/-- The exact squared momentum is at least `(E - m1 - m2) m1 m2 / E`. -/
theorem momentum_low {m1 m2 E : ℝ} (l1 : 0 < m1) (l2 : 0 < m2) (hE : m1 + m2 ≤ E) :
    (E - (m1 + m2)) * (m1 * m2) / E ≤ ((m1 ^ 2 - m2 ^ 2 + E ^ 2) / (2 * E)) ^ 2 - m1 ^ 2 := by
  have Ep : 0 < E := by linarith
  have e : ((m1 ^ 2 - m2 ^ 2 + E ^ 2) / (2 * E)) ^ 2 - m1 ^ 2
      = (E - (m1 + m2)) * (E + (m1 + m2)) * (E ^ 2 - (m1 - m2) ^ 2) / (4 * E ^ 2) := by
    field_simp
    ring
  rw [e, div_le_div_iff₀ Ep (by positivity)]
  have h1 : 4 * (m1 * m2) ≤ E ^ 2 - (m1 - m2) ^ 2 := by nlinarith
  have h2 : E ≤ E + (m1 + m2) := by linarith
  have h3 : E * (4 * (m1 * m2)) ≤ (E + (m1 + m2)) * (E ^ 2 - (m1 - m2) ^ 2) :=
    mul_le_mul h2 h1 (by positivity) (by positivity)
  have h4 := mul_le_mul_of_nonneg_left h3 (mul_nonneg (sub_nonneg.2 hE) Ep.le)
  calc (E - (m1 + m2)) * (m1 * m2) * (4 * E ^ 2)
      = (E - (m1 + m2)) * E * (E * (4 * (m1 * m2))) := by ring
    _ ≤ _ := h4
    _ = _ := by ring

end Verif.Machine
