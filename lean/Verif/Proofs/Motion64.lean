import Verif.Proofs.RelError
import Verif.Proofs.Electrons64

/-! # Errors relative to the size of a vector -/

namespace Verif.Machine

/-- `x` is `X` up to `a` times the size `S` and a tiny rest `t`. -/
structure Nr (a S t x X : ℝ) : Prop where
  size : |X| ≤ S
  near : |x - X| ≤ a * S + t

theorem Nr.S_nonneg {a S t x X : ℝ} (h : Nr a S t x X) : 0 ≤ S := (abs_nonneg _).trans h.size

/-- Rounding. -/
theorem Nr.round {rn : ℝ → ℝ} (h : Rounding rn) {a S t x X : ℝ} (hn : Nr a S t x X) (hS : S ≤ 1e40) (_ha0 : 0 ≤ a)
    (ha : a ≤ 1e-6) (ht : t ≤ 1) (ht0 : 0 ≤ t) : Nr (a + 1.12e-16) S (2 * t + 1e-60) (rn x) X := by
  refine ⟨hn.size, ?_⟩
  have S0 := hn.S_nonneg
  have hup : |x| ≤ S + (a * S + t) := by
    have := abs_add_le (x - X) X
    rw [sub_add_cancel] at this
    linarith [hn.size, hn.near]
  have aS : a * S ≤ 1e-6 * S := mul_le_mul_of_nonneg_right ha S0
  have hr := h.err (x := x) (big_ge (by norm_num at hS aS ⊢; linarith))
  change |rn x - x| ≤ uro * |x| + _ at hr
  have hT : (2 : ℝ) ^ (-1075 : ℤ) ≤ 1e-60 := by
    refine (zpow_le_zpow_right₀ (n := -200) (by norm_num) (by norm_num)).trans ?_
    norm_num
  have h1 : uro * |x| ≤ 1.111e-16 * (S + (1e-6 * S + t)) :=
    mul_le_mul uro_le (by linarith) (abs_nonneg _) (by norm_num)
  have : rn x - X = (rn x - x) + (x - X) := by ring
  rw [this]
  refine (abs_add_le _ _).trans ?_
  have := hn.near
  generalize (2 : ℝ) ^ (-1075 : ℤ) = η at *
  norm_num at h1 hT ⊢
  linarith

/-- The product with a value known up to a relative error. -/
theorem Nr.mul {a b S t x X y Y : ℝ} (h : Nr a S t x X) (hy : |y - Y| ≤ b * |Y|) (ha0 : 0 ≤ a) (ha : a ≤ 1e-6)
    (hb0 : 0 ≤ b) (hb : b ≤ 1e-12) (ht : 0 ≤ t) : Nr (a + 1.000001 * b) (S * |Y|) (2 * t * |Y|) (x * y) (X * Y) := by
  have S0 := h.S_nonneg
  have Y0 := abs_nonneg Y
  refine ⟨?_, ?_⟩
  · rw [abs_mul]
    exact mul_le_mul_of_nonneg_right h.size Y0
  have e : x * y - X * Y = (x - X) * Y + X * (y - Y) + (x - X) * (y - Y) := by ring
  rw [e]
  refine (abs_add_le _ _).trans ?_
  refine (add_le_add_left (abs_add_le _ _) _).trans ?_
  rw [abs_mul (x - X) Y, abs_mul X _, abs_mul (x - X) (y - Y)]
  have h1 : |x - X| * |Y| ≤ (a * S + t) * |Y| := mul_le_mul_of_nonneg_right h.near Y0
  have h2 : |X| * |y - Y| ≤ S * (b * |Y|) := mul_le_mul h.size hy (abs_nonneg _) S0
  have h3 : |x - X| * |y - Y| ≤ (a * S + t) * (b * |Y|) :=
    mul_le_mul h.near hy (abs_nonneg _) (by positivity)
  have h4 : (a * S + t) * (b * |Y|) ≤ 1e-6 * b * (S * |Y|) + t * |Y| := by
    have k1 : a * S * (b * |Y|) ≤ 1e-6 * S * (b * |Y|) := by gcongr
    have k2 : t * (b * |Y|) ≤ t * (1 * |Y|) := by gcongr; linarith
    nlinarith
  have h5 : 0 ≤ t * |Y| := by positivity
  nlinarith

/-- The quotient by a value known up to a relative error. -/
theorem inv_relative {y Y b : ℝ} (hY : Y ≠ 0) (hy : |y - Y| ≤ b * |Y|) (hb0 : 0 ≤ b) (hb : b ≤ 1e-13) :
    |y⁻¹ - Y⁻¹| ≤ 1.000001 * b * |Y⁻¹| := by
  have hY0 : 0 < |Y| := abs_pos.2 hY
  have hy0 : (1 - b) * |Y| ≤ |y| := by
    have := abs_sub_abs_le_abs_sub Y y
    rw [abs_sub_comm Y y] at this
    linarith
  have hy1 : 0 < |y| := lt_of_lt_of_le (mul_pos (by linarith) hY0) hy0
  have hyne : y ≠ 0 := abs_pos.1 hy1
  have e : y⁻¹ - Y⁻¹ = (Y - y) * (y⁻¹ * Y⁻¹) := by field_simp
  rw [e, abs_mul (Y - y) _, abs_mul y⁻¹ Y⁻¹, abs_sub_comm, ← mul_assoc]
  refine mul_le_mul_of_nonneg_right ?_ (abs_nonneg _)
  rw [abs_inv y, ← div_eq_mul_inv, div_le_iff₀ hy1]
  refine hy.trans ?_
  have h1 : 1.000001 * b * ((1 - b) * |Y|) ≤ 1.000001 * b * |y| := mul_le_mul_of_nonneg_left hy0 (by positivity)
  have h2 : 0 ≤ b * |Y| := by positivity
  have h3 : b * |Y| * (1.000001 * (1 - b)) ≥ b * |Y| * 1 := mul_le_mul_of_nonneg_left (by norm_num; norm_num at hb; linarith) h2
  linarith

theorem Nr.div {a b S t x X y Y : ℝ} (h : Nr a S t x X) (hY : Y ≠ 0) (hy : |y - Y| ≤ b * |Y|) (ha0 : 0 ≤ a)
    (ha : a ≤ 1e-6) (hb0 : 0 ≤ b) (hb : b ≤ 1e-13) (ht : 0 ≤ t) :
    Nr (a + 1.00001 * b) (S / |Y|) (2 * t / |Y|) (x / y) (X / Y) := by
  have h1 := h.mul (inv_relative hY hy hb0 hb) ha0 ha (by positivity) (by norm_num at hb ⊢; linarith) ht
  have S0 := h.S_nonneg
  rw [abs_inv, ← div_eq_mul_inv, ← div_eq_mul_inv, ← div_eq_mul_inv, ← div_eq_mul_inv] at h1
  refine ⟨h1.size, h1.near.trans ?_⟩
  have : 0 ≤ S / |Y| := by positivity
  have : (a + 1.000001 * (1.000001 * b)) * (S / |Y|) ≤ (a + 1.00001 * b) * (S / |Y|) :=
    mul_le_mul_of_nonneg_right (by linarith) this
  linarith

theorem Nr.mono {a a' S t t' x X : ℝ} (h : Nr a S t x X) (ha : a ≤ a') (ht : t ≤ t') : Nr a' S t' x X :=
  ⟨h.size, h.near.trans (add_le_add (mul_le_mul_of_nonneg_right ha h.S_nonneg) ht)⟩

theorem Nr.sub {a S S' t x X y Y : ℝ} (h : Nr a S t x X) (h' : Nr a S' t y Y) :
    Nr a (S + S') (2 * t) (x - y) (X - Y) := by
  refine ⟨(abs_sub _ _).trans (add_le_add h.size h'.size), ?_⟩
  have : x - y - (X - Y) = (x - X) - (y - Y) := by ring
  rw [this]
  refine (abs_sub _ _).trans ?_
  have h1 := h.near
  have h2 := h'.near
  linarith

end Verif.Machine
