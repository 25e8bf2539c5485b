import Verif.Machine.Electrons
import Verif.Proofs.Diffusion64

/-! # Error analysis of the kinetic energies in binary64 -/

namespace Verif.Machine

open Verif.Detector

/-- `a` agrees with `x` up to `k` factors `1 - 2^-53`. -/
structure Wn (k : ℕ) (a x : ℝ) : Prop where
  low : x * (1 - uro) ^ k ≤ a
  up : a * (1 - uro) ^ k ≤ x

theorem omu_pos : 0 < 1 - uro := by linarith [uro_lt]

theorem omu_le : 1 - uro ≤ 1 := by linarith [uro_pos]

theorem Wn.refl {x : ℝ} : Wn 0 x x := ⟨by simp, by simp⟩

theorem Wn.pos {k : ℕ} {a x : ℝ} (h : Wn k a x) (hx : 0 < x) : 0 < a :=
  lt_of_lt_of_le (mul_pos hx (pow_pos omu_pos k)) h.low

theorem Wn.mono {j k : ℕ} {a x : ℝ} (h : Wn j a x) (hx : 0 ≤ x) (ha : 0 ≤ a) (hjk : j ≤ k) : Wn k a x := by
  have := pow_le_pow_of_le_one omu_pos.le omu_le hjk
  exact ⟨(mul_le_mul_of_nonneg_left this hx).trans h.low, (mul_le_mul_of_nonneg_left this ha).trans h.up⟩

theorem Wn.trans {j k : ℕ} {a b x : ℝ} (h : Wn j a b) (h' : Wn k b x) : Wn (j + k) a x := by
  have pj := pow_pos omu_pos j
  have pk := pow_pos omu_pos k
  constructor
  · calc x * (1 - uro) ^ (j + k) = x * (1 - uro) ^ k * (1 - uro) ^ j := by ring
      _ ≤ b * (1 - uro) ^ j := by gcongr; exact h'.low
      _ ≤ a := h.low
  · calc a * (1 - uro) ^ (j + k) = a * (1 - uro) ^ j * (1 - uro) ^ k := by ring
      _ ≤ b * (1 - uro) ^ k := by gcongr; exact h.up
      _ ≤ x := h'.up

theorem Wn.symm {k : ℕ} {a x : ℝ} (h : Wn k a x) : Wn k x a := ⟨h.up, h.low⟩

theorem Wn.mul {j k : ℕ} {a b x y : ℝ} (h : Wn j a x) (h' : Wn k b y) (ha : 0 ≤ a) (hb : 0 ≤ b)
    (hx : 0 ≤ x) (hy : 0 ≤ y) : Wn (j + k) (a * b) (x * y) := by
  have pj := pow_pos omu_pos j
  have pk := pow_pos omu_pos k
  constructor
  · calc x * y * (1 - uro) ^ (j + k) = (x * (1 - uro) ^ j) * (y * (1 - uro) ^ k) := by ring
      _ ≤ a * b := mul_le_mul h.low h'.low (by positivity) ha
  · calc a * b * (1 - uro) ^ (j + k) = (a * (1 - uro) ^ j) * (b * (1 - uro) ^ k) := by ring
      _ ≤ x * y := mul_le_mul h.up h'.up (by positivity) hx

theorem Wn.inv {k : ℕ} {a x : ℝ} (h : Wn k a x) (ha : 0 < a) (hx : 0 < x) : Wn k a⁻¹ x⁻¹ := by
  have pk := pow_pos omu_pos k
  constructor
  · rw [inv_mul_le_iff₀ hx, ← div_eq_mul_inv, le_div_iff₀ ha, mul_comm]
    exact h.up
  · rw [inv_mul_le_iff₀ ha, ← div_eq_mul_inv, le_div_iff₀ hx, mul_comm]
    exact h.low

theorem Wn.div {j k : ℕ} {a b x y : ℝ} (h : Wn j a x) (h' : Wn k b y) (ha : 0 ≤ a) (hb : 0 < b)
    (hx : 0 ≤ x) (hy : 0 < y) : Wn (j + k) (a / b) (x / y) := by
  rw [div_eq_mul_inv, div_eq_mul_inv]
  exact h.mul (h'.inv hb hy) ha (inv_nonneg.2 hb.le) hx (inv_nonneg.2 hy.le)

theorem Wn.sqrt {k : ℕ} {a x : ℝ} (h : Wn (2 * k) a x) : Wn k (Real.sqrt a) (Real.sqrt x) := by
  have pk := (pow_pos omu_pos k).le
  have e : Real.sqrt ((1 - uro) ^ (2 * k)) = (1 - uro) ^ k := by
    rw [mul_comm, pow_mul, Real.sqrt_sq pk]
  constructor
  · rw [← e, ← Real.sqrt_mul' _ (pow_pos omu_pos _).le]
    exact Real.sqrt_le_sqrt h.low
  · rw [← e, ← Real.sqrt_mul' _ (pow_pos omu_pos _).le]
    exact Real.sqrt_le_sqrt h.up

theorem Wn.one_add {k : ℕ} {a x : ℝ} (h : Wn k a x) : Wn k (1 + a) (1 + x) := by
  have p1 : (1 - uro) ^ k ≤ 1 := pow_le_one₀ omu_pos.le omu_le
  constructor
  · rw [add_mul, one_mul]
    exact add_le_add p1 h.low
  · rw [add_mul, one_mul]
    exact add_le_add p1 h.up

theorem Wn.add_right {k : ℕ} {a x c : ℝ} (h : Wn k a x) (hc : 0 ≤ c) : Wn k (c + a) (c + x) := by
  have p1 : c * (1 - uro) ^ k ≤ c := mul_le_of_le_one_right hc (pow_le_one₀ omu_pos.le omu_le)
  constructor
  · rw [add_mul]
    exact add_le_add p1 h.low
  · rw [add_mul]
    exact add_le_add p1 h.up

/-- Rounding adds one factor. -/
theorem Wn.round {rn : ℝ → ℝ} (h : Rounding rn) {k : ℕ} {a x : ℝ} (hw : Wn k a x) (h1 : 1e-50 ≤ a)
    (h2 : a ≤ 1e50) : Wn (k + 1) (rn a) x := by
  have pk := pow_pos omu_pos k
  have ha : 0 < a := by linarith
  have lo := h.ge_low (x := a) le_rfl (tiny_le h1) (big_ge h2)
  have hi := h.le_up (x := a) le_rfl (tiny_le h1) (big_ge h2)
  have hu := uro_pos
  have : Wn 1 (rn a) a := by
    refine ⟨by rw [pow_one]; exact lo, ?_⟩
    rw [pow_one]
    have := mul_le_mul_of_nonneg_right hi omu_pos.le
    nlinarith [mul_pos ha (mul_pos hu hu)]
  rw [add_comm]
  exact this.trans hw

/-- From factors to a relative error. -/
theorem Wn.error {k : ℕ} (hk : k ≤ 20) {a x : ℝ} (h : Wn k a x) (hx : 0 ≤ x) :
    |a - x| ≤ (k + 1) * uro * x := by
  have hu := uro_pos
  have hu1 := uro_lt
  have hb : 1 - k * uro ≤ (1 - uro) ^ k := by
    have := one_add_mul_le_pow (a := -uro) (by linarith) k
    rw [show 1 + (k : ℝ) * -uro = 1 - k * uro by ring, show 1 + -uro = 1 - uro by ring] at this
    exact this
  have hk1 : (k : ℝ) ≤ 20 := by exact_mod_cast hk
  have hk0 : (0 : ℝ) ≤ k := Nat.cast_nonneg k
  have hku : (k : ℝ) * uro ≤ 20 * uro := by gcongr
  rw [abs_le]
  constructor
  · have := (mul_le_mul_of_nonneg_left hb hx).trans h.low
    nlinarith [mul_nonneg hu.le hx]
  · have pk := pow_pos omu_pos k
    rcases le_or_gt a 0 with ha | ha
    · have : 0 ≤ (k + 1) * uro * x := by positivity
      linarith
    have h3 := (mul_le_mul_of_nonneg_left hb ha.le).trans h.up
    have h4 : a ≤ 2 * x := by nlinarith
    have h5 : a - x ≤ k * uro * a := by linarith
    -- a ≤ x + k u a, hence k u a ≤ k u x + (k u)^2 a ≤ k u x + u x
    have h6 : k * uro * a ≤ k * uro * (x + k * uro * a) := by
      have : 0 ≤ (k : ℝ) * uro := by positivity
      exact mul_le_mul_of_nonneg_left (by linarith) this
    have h7 : (k * uro) * (k * uro * a) ≤ uro * x := by
      have e1 : (k * uro) * (k * uro) ≤ uro * (1 / 2) := by
        have : (k * uro) * (k * uro) ≤ (20 * uro) * (20 * uro) :=
          mul_le_mul hku hku (by positivity) (by positivity)
        nlinarith
      calc (k * uro) * (k * uro * a) = (k * uro) * (k * uro) * a := by ring
        _ ≤ uro * (1 / 2) * (2 * x) := mul_le_mul e1 h4 ha.le (by positivity)
        _ = uro * x := by ring
    nlinarith

/-- Neighbouring doubles. -/
theorem spacing {f : ℝ} (hf : f ∈ Binary64) {m e : ℤ} (hm : 2 ^ 52 < m) (hd : |f - (m : ℝ) * (2 : ℝ) ^ e| < (2 : ℝ) ^ e) :
    f = (m : ℝ) * (2 : ℝ) ^ e := by
  obtain ⟨n, e', hn, -, -, rfl⟩ := hf
  have he : (0 : ℝ) < (2 : ℝ) ^ e := by positivity
  rcases le_or_gt e e' with hle | hlt
  · obtain ⟨j, hj⟩ := Int.eq_ofNat_of_zero_le (sub_nonneg.2 hle)
    have e1 : (n : ℝ) * (2 : ℝ) ^ e' = ((n * 2 ^ j : ℤ) : ℝ) * (2 : ℝ) ^ e := by
      rw [show e' = (j : ℤ) + e by omega, zpow_add₀ (by norm_num), zpow_natCast]
      push_cast
      ring
    rw [e1] at hd ⊢
    rw [← sub_mul, abs_mul, abs_of_pos he] at hd
    have h1 : |((n * 2 ^ j : ℤ) : ℝ) - (m : ℝ)| < 1 := by
      by_contra hc
      push Not at hc
      have := mul_le_mul_of_nonneg_right hc he.le
      linarith
    have h2 : |n * 2 ^ j - m| < 1 := by
      have : ((|n * 2 ^ j - m| : ℤ) : ℝ) < ((1 : ℤ) : ℝ) := by
        rw [Int.cast_abs]
        push_cast at h1 ⊢
        exact h1
      exact_mod_cast this
    have h3 : n * 2 ^ j - m = 0 := Int.abs_lt_one_iff.1 h2
    rw [sub_eq_zero.1 h3]
  · exfalso
    have hn' : (n : ℝ) ≤ 2 ^ 53 := by
      have := (abs_lt.1 hn).2.le
      exact_mod_cast this
    have hm' : (2 : ℝ) ^ 52 + 1 ≤ m := by exact_mod_cast hm
    have h1 : (n : ℝ) * (2 : ℝ) ^ e' ≤ 2 ^ 52 * (2 : ℝ) ^ e := by
      have p : (2 : ℝ) ^ e' ≤ (2 : ℝ) ^ (e - 1) := zpow_le_zpow_right₀ (by norm_num) (by omega)
      calc (n : ℝ) * (2 : ℝ) ^ e' ≤ 2 ^ 53 * (2 : ℝ) ^ e' := by gcongr
        _ ≤ 2 ^ 53 * (2 : ℝ) ^ (e - 1) := by gcongr
        _ = 2 ^ 52 * (2 : ℝ) ^ e := by rw [zpow_sub₀ (by norm_num)]; norm_num; ring
    have h2 := (abs_lt.1 hd).1
    nlinarith

/-- A positive double in the normal range with a full mantissa. -/
theorem normal_form {x : ℝ} (hx : x ∈ Binary64) (h1 : (2 : ℝ) ^ (-1022 : ℤ) ≤ x) :
    ∃ m e : ℤ, 2 ^ 52 ≤ m ∧ m < 2 ^ 53 ∧ x = (m : ℝ) * (2 : ℝ) ^ e := by
  have h0 : 0 < x := lt_of_lt_of_le (by positivity) h1
  obtain ⟨n, e, hn, he1, he2, rfl⟩ := hx
  set j := Int.log 2 ((n : ℝ) * (2 : ℝ) ^ e) with hj
  have j1 : (2 : ℝ) ^ j ≤ (n : ℝ) * (2 : ℝ) ^ e := by
    have := Int.zpow_log_le_self (b := 2) (by norm_num) h0
    exact_mod_cast this
  have j2 : (n : ℝ) * (2 : ℝ) ^ e < (2 : ℝ) ^ (j + 1) := by
    have := Int.lt_zpow_succ_log_self (R := ℝ) (b := 2) (by norm_num) ((n : ℝ) * (2 : ℝ) ^ e)
    exact_mod_cast this
  have hn' : (n : ℝ) < 2 ^ 53 := by
    have := (abs_lt.1 hn).2
    exact_mod_cast this
  have hje : j - 52 ≤ e := by
    have : (2 : ℝ) ^ j < (2 : ℝ) ^ (53 + e) := by
      refine j1.trans_lt ?_
      rw [zpow_add₀ (by norm_num)]
      have he : (0 : ℝ) < (2 : ℝ) ^ e := by positivity
      have := mul_lt_mul_of_pos_right hn' he
      norm_num at this ⊢
      exact this
    have := (zpow_lt_zpow_iff_right₀ (by norm_num : (1 : ℝ) < 2)).1 this
    omega
  obtain ⟨k, hk⟩ := Int.eq_ofNat_of_zero_le (sub_nonneg.2 hje)
  have hk' : e = (k : ℤ) + (j - 52) := by
    omega
  have e1 : (n : ℝ) * (2 : ℝ) ^ e = ((n * 2 ^ k : ℤ) : ℝ) * (2 : ℝ) ^ (j - 52) := by
    rw [hk', zpow_add₀ (by norm_num), zpow_natCast]
    push_cast
    ring
  have hp : (0 : ℝ) < (2 : ℝ) ^ (j - 52) := by positivity
  refine ⟨n * 2 ^ k, j - 52, ?_, ?_, e1⟩
  · rw [e1, show j = 52 + (j - 52) by ring, zpow_add₀ (by norm_num),
      show 52 + (j - 52) - 52 = j - 52 by ring] at j1
    have := le_of_mul_le_mul_right j1 hp
    have h3 : ((2 ^ 52 : ℤ) : ℝ) ≤ ((n * 2 ^ k : ℤ) : ℝ) := by push_cast at this ⊢; norm_num at this ⊢; exact this
    exact_mod_cast h3
  · rw [e1, show j + 1 = 53 + (j - 52) by ring, zpow_add₀ (by norm_num)] at j2
    have := lt_of_mul_lt_mul_right j2 hp.le
    have h3 : ((n * 2 ^ k : ℤ) : ℝ) < ((2 ^ 53 : ℤ) : ℝ) := by push_cast at this ⊢; norm_num at this ⊢; exact this
    exact_mod_cast h3

/-- The rounded square root of the rounded square of a double is that double. -/
theorem sqrt_square {rn : ℝ → ℝ} (h : Rounding rn) {x : ℝ} (hx : x ∈ Binary64) (h1 : 1e-20 ≤ x)
    (h2 : x ≤ 1e20) : rn (Real.sqrt (rn (x ^ 2))) = x := by
  have hx0 : 0 < x := by linarith
  have hu := uro_pos
  have hu1 := uro_lt
  obtain ⟨m, e, hm1, hm2, he⟩ := normal_form hx (tiny_le (by linarith))
  have hp : (0 : ℝ) < (2 : ℝ) ^ e := by positivity
  rcases hm1.eq_or_lt with heq | hlt
  · -- a power of two: the square is a double
    have hsq : x ^ 2 ∈ Binary64 := by
      have e52 : x = (2 : ℝ) ^ (52 + e) := by
        rw [he, ← heq, zpow_add₀ (by norm_num)]
        norm_num
      have b1 : (2 : ℝ) ^ (-100 : ℤ) ≤ (2 : ℝ) ^ (52 + e) := by
        rw [← e52]; exact le_trans (by norm_num) h1
      have b2 : (2 : ℝ) ^ (52 + e) ≤ (2 : ℝ) ^ (100 : ℤ) := by
        rw [← e52]; exact h2.trans (by norm_num)
      have c1 := (zpow_le_zpow_iff_right₀ (by norm_num : (1 : ℝ) < 2)).1 b1
      have c2 := (zpow_le_zpow_iff_right₀ (by norm_num : (1 : ℝ) < 2)).1 b2
      refine mem_of_eq 1 ((52 + e) * 2) (by norm_num) (by omega) (by omega) ?_
      rw [e52, zpow_mul, Int.cast_one, one_mul]
      norm_cast
    rw [h.exact hsq, Real.sqrt_sq hx0.le, h.exact hx]
  · have hrel := h.rel (x := x ^ 2) (tiny_le (by rw [abs_of_pos (by positivity)]; nlinarith))
      (big_ge (by rw [abs_of_pos (by positivity)]; nlinarith))
    rw [abs_of_pos (a := x ^ 2) (by positivity)] at hrel
    change |rn (x ^ 2) - x ^ 2| ≤ uro * x ^ 2 at hrel
    obtain ⟨r1, r2⟩ := abs_le.1 hrel
    set y := Real.sqrt (rn (x ^ 2)) with hy
    have hr0 : 0 ≤ rn (x ^ 2) := h.nonneg (by positivity)
    have hyy : y * y = rn (x ^ 2) := Real.mul_self_sqrt hr0
    have hy0 : 0 ≤ y := Real.sqrt_nonneg _
    -- |y - x| (y + x) = |rn (x^2) - x^2|
    have hmR : (m : ℝ) ≤ 2 ^ 53 - 1 := by
      have : m ≤ 2 ^ 53 - 1 := by omega
      exact_mod_cast this
    have hm0 : (2 : ℝ) ^ 52 ≤ m := by exact_mod_cast hm1
    have hux : uro * x ≤ (2 : ℝ) ^ e * (1 - uro) := by
      rw [he]
      have : uro * (m : ℝ) ≤ 1 - uro := by
        have : uro * (m : ℝ) ≤ uro * (2 ^ 53 - 1) := by gcongr
        have e1 : uro * 2 ^ 53 = 1 := by unfold uro; norm_num
        linarith
      calc uro * ((m : ℝ) * (2 : ℝ) ^ e) = uro * m * (2 : ℝ) ^ e := by ring
        _ ≤ (1 - uro) * (2 : ℝ) ^ e := by gcongr
        _ = _ := by ring
    have hclose : |y - x| < (2 : ℝ) ^ e / 2 := by
      rw [abs_lt]
      constructor
      · -- if y ≤ x - 2^e/2 then y^2 is too small
        by_contra hc
        push Not at hc
        have h3 : y ≤ x - (2 : ℝ) ^ e / 2 := by linarith
        have h4 : (2 : ℝ) ^ e ≤ x / 2 ^ 52 := by
          rw [he, le_div_iff₀ (by positivity)]
          nlinarith
        have h5 : 0 ≤ x - (2 : ℝ) ^ e / 2 := by
          have : x / 2 ^ 52 ≤ x := div_le_self hx0.le (by norm_num)
          linarith
        have h6 : y * y ≤ (x - (2 : ℝ) ^ e / 2) * (x - (2 : ℝ) ^ e / 2) := mul_le_mul h3 h3 hy0 h5
        -- x^2 - u x^2 ≤ x^2 - x 2^e + 4^e/4
        have h7 : uro * x * x ≤ (2 : ℝ) ^ e * (1 - uro) * x := mul_le_mul_of_nonneg_right hux hx0.le
        -- need x 2^e - 4^e / 4 > u x²
        have h8 : (2 : ℝ) ^ e * (2 : ℝ) ^ e ≤ (2 : ℝ) ^ e * (x / 2 ^ 52) := by gcongr
        have e52 : x / 2 ^ 52 = 2 * uro * x := by unfold uro; norm_num; ring
        rw [e52] at h8
        have h9 : 0 < (2 : ℝ) ^ e * (uro * x) := by positivity
        nlinarith
      · by_contra hc
        push Not at hc
        have h3 : x + (2 : ℝ) ^ e / 2 ≤ y := by linarith
        have h6 : (x + (2 : ℝ) ^ e / 2) * (x + (2 : ℝ) ^ e / 2) ≤ y * y :=
          mul_le_mul h3 h3 (by positivity) hy0
        have h7 : uro * x * x ≤ (2 : ℝ) ^ e * (1 - uro) * x := mul_le_mul_of_nonneg_right hux hx0.le
        have h9 : 0 < (2 : ℝ) ^ e * (uro * x) := by positivity
        have h10 : 0 < (2 : ℝ) ^ e * (2 : ℝ) ^ e := by positivity
        nlinarith
    have h3 := (h y).2 x hx
    have h4 : |rn y - x| < (2 : ℝ) ^ e := by
      have : rn y - x = (rn y - y) + (y - x) := by ring
      rw [this]
      refine (abs_add_le _ _).trans_lt ?_
      rw [abs_sub_comm x y] at h3
      linarith
    rw [he] at h4 ⊢
    rw [he] at hy
    exact spacing (h y).1 hlt h4

end Verif.Machine
