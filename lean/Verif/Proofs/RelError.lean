import Verif.Proofs.Diffusion64
import Mathlib.Analysis.SpecialFunctions.Trigonometric.Bounds

/-! # Relative errors of rounded products and quotients -/

namespace Verif.Machine

open Verif.Detector Verif.Spec

theorem uro_le : uro ≤ 1.111e-16 := by unfold uro; norm_num

/-- Rounding a value that is known up to a relative error. -/
theorem Rounding.relative {rn : ℝ → ℝ} (h : Rounding rn) {x X a : ℝ} (hx : |x - X| ≤ a * |X|) (ha : a ≤ 1e-3)
    (l1 : 1e-40 ≤ |X|) (l2 : |X| ≤ 1e40) : |rn x - X| ≤ (a + 1.12e-16) * |X| := by
  have hX : 0 < |X| := lt_of_lt_of_le (by norm_num) l1
  have ha1 : a * |X| ≤ 1e-3 * |X| := mul_le_mul_of_nonneg_right ha hX.le
  have hup : |x| ≤ |X| + a * |X| := by
    have := abs_add_le (x - X) X
    rw [sub_add_cancel] at this
    linarith
  have hlo : |X| - a * |X| ≤ |x| := by
    have := abs_sub_abs_le_abs_sub X x
    rw [abs_sub_comm X x] at this
    linarith
  have hr := h.rel (x := x) (tiny_le (by linarith)) (big_ge (by linarith))
  change |rn x - x| ≤ uro * |x| at hr
  have hu := uro_pos
  have hu1 := uro_le
  have h1 : uro * |x| ≤ 1.111e-16 * (1.001 * |X|) :=
    mul_le_mul hu1 (by linarith) (abs_nonneg _) (by norm_num)
  have : rn x - X = (rn x - x) + (x - X) := by ring
  rw [this]
  refine (abs_add_le _ _).trans ?_
  rw [add_mul]
  linarith

/-- A product of two values known up to relative errors. -/
theorem mul_relative {x X y Y a b : ℝ} (hx : |x - X| ≤ a * |X|) (hy : |y - Y| ≤ b * |Y|) :
    |x * y - X * Y| ≤ (a + b + a * b) * |X * Y| := by
  have e : x * y - X * Y = (x - X) * Y + X * (y - Y) + (x - X) * (y - Y) := by ring
  rw [e, abs_mul X Y]
  refine (abs_add_le _ _).trans ?_
  refine (add_le_add_left (abs_add_le _ _) _).trans ?_
  rw [abs_mul, abs_mul, abs_mul]
  have h1 : |x - X| * |Y| ≤ a * |X| * |Y| := mul_le_mul_of_nonneg_right hx (abs_nonneg _)
  have h2 : |X| * |y - Y| ≤ |X| * (b * |Y|) := mul_le_mul_of_nonneg_left hy (abs_nonneg _)
  have h3 : |x - X| * |y - Y| ≤ a * |X| * (b * |Y|) :=
    mul_le_mul hx hy (abs_nonneg _) ((abs_nonneg _).trans hx)
  linarith

/-- A quotient of two values known up to relative errors. -/
theorem div_relative {x X y Y a b : ℝ} (hY : Y ≠ 0) (hx : |x - X| ≤ a * |X|) (hy : |y - Y| ≤ b * |Y|)
    (ha : 0 ≤ a) (hb0 : 0 ≤ b) (hb : b ≤ 1e-3) : |x / y - X / Y| ≤ ((a + b) * (1 + 2 * b)) * |X / Y| := by
  have hY0 : 0 < |Y| := abs_pos.2 hY
  have hy0 : (1 - b) * |Y| ≤ |y| := by
    have := abs_sub_abs_le_abs_sub Y y
    rw [abs_sub_comm Y y] at this
    linarith
  have hy1 : 0 < |y| := lt_of_lt_of_le (mul_pos (by linarith) hY0) hy0
  have hyne : y ≠ 0 := abs_pos.1 hy1
  have e : x / y - X / Y = ((x - X) * Y - X * (y - Y)) / (y * Y) := by
    field_simp
    ring
  rw [e, abs_div, abs_div, abs_mul y Y, div_le_iff₀ (mul_pos hy1 hY0)]
  have h1 : |(x - X) * Y - X * (y - Y)| ≤ (a + b) * (|X| * |Y|) := by
    refine (abs_sub _ _).trans ?_
    rw [abs_mul, abs_mul]
    have h1 : |x - X| * |Y| ≤ a * |X| * |Y| := mul_le_mul_of_nonneg_right hx (abs_nonneg _)
    have h2 : |X| * |y - Y| ≤ |X| * (b * |Y|) := mul_le_mul_of_nonneg_left hy (abs_nonneg _)
    linarith
  refine h1.trans ?_
  have h2 : 1 ≤ (1 + 2 * b) * (1 - b) := by nlinarith
  have h3 : |Y| ≤ (1 + 2 * b) * |y| := by
    calc |Y| ≤ (1 + 2 * b) * (1 - b) * |Y| := le_mul_of_one_le_left hY0.le h2
      _ = (1 + 2 * b) * ((1 - b) * |Y|) := by ring
      _ ≤ (1 + 2 * b) * |y| := mul_le_mul_of_nonneg_left hy0 (by linarith)
  have e2 : (a + b) * (1 + 2 * b) * (|X| / |Y|) * (|y| * |Y|) = (a + b) * (|X| * ((1 + 2 * b) * |y|)) := by
    field_simp
  rw [e2]
  apply mul_le_mul_of_nonneg_left _ (by linarith)
  exact mul_le_mul_of_nonneg_left h3 (abs_nonneg _)

/-- Rounding with a margin for the smallest doubles. -/
theorem Rounding.absolute {rn : ℝ → ℝ} (h : Rounding rn) {x X d : ℝ} (hx : |x - X| ≤ d) (hX : |X| ≤ 1e20)
    (hd : d ≤ 1e20) : |rn x - X| ≤ d + 1.12e-16 * (|X| + d) + 1e-60 := by
  have hup : |x| ≤ |X| + d := by
    have := abs_add_le (x - X) X
    rw [sub_add_cancel] at this
    linarith
  have hr := h.err (x := x) (big_ge (by linarith))
  change |rn x - x| ≤ uro * |x| + _ at hr
  have ht : (2 : ℝ) ^ (-1075 : ℤ) ≤ 1e-60 := by
    refine (zpow_le_zpow_right₀ (n := -200) (by norm_num) (by norm_num)).trans ?_
    norm_num
  have h1 : uro * |x| ≤ 1.12e-16 * (|X| + d) :=
    mul_le_mul (uro_le.trans (by norm_num)) hup (abs_nonneg _) (by norm_num)
  have : rn x - X = (rn x - x) + (x - X) := by ring
  rw [this]
  refine (abs_add_le _ _).trans ?_
  linarith

/-- How a small change of the exponent changes the exponential. -/
theorem exp_near {x X d : ℝ} (h : |x - X| ≤ d) (hd : d ≤ 1e-3) :
    |Real.exp x - Real.exp X| ≤ 1.001 * d * Real.exp X := by
  have hd0 : 0 ≤ d := (abs_nonneg _).trans h
  have e : Real.exp x - Real.exp X = Real.exp X * (Real.exp (x - X) - 1) := by
    rw [mul_sub, ← Real.exp_add]
    congr 2 <;> ring_nf
  rw [e, abs_mul, abs_of_pos (Real.exp_pos _), mul_comm]
  apply mul_le_mul_of_nonneg_right _ (Real.exp_pos _).le
  have h1 := Real.abs_exp_sub_one_sub_id_le (x := x - X) (h.trans (by linarith))
  have h2 : (x - X) ^ 2 ≤ 1e-3 * d := by
    rw [← sq_abs, sq]
    exact mul_le_mul (h.trans hd) h (abs_nonneg _) (by norm_num)
  have h3 : Real.exp (x - X) - 1 = (Real.exp (x - X) - 1 - (x - X)) + (x - X) := by ring
  rw [h3]
  refine (abs_add_le _ _).trans ?_
  linarith

theorem sin_near (x X : ℝ) : |Real.sin x - Real.sin X| ≤ |x - X| := by
  have := Real.abs_sin_sub_sin_le x X
  exact this

end Verif.Machine
