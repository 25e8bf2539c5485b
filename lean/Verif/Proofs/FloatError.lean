import Verif.Proofs.Float
import Mathlib.Data.Int.Log
import Mathlib.Algebra.Order.Round

/-! # Error bounds of binary64 rounding -/

namespace Verif.Machine

/-- A multiple of `2^e` with a quotient of at most `2^53` is a double. -/
theorem mem_of_le {m e : ℤ} (hm : |m| ≤ 2 ^ 53) (h1 : -1074 ≤ e) (h2 : e ≤ 970) :
    (m : ℝ) * (2 : ℝ) ^ e ∈ Binary64 := by
  rcases hm.lt_or_eq with h | h
  · exact mem_of_eq m e h h1 (by omega) rfl
  · rcases abs_eq (by norm_num : (0 : ℤ) ≤ 2 ^ 53) |>.1 h with rfl | rfl
    · refine mem_of_eq (2 ^ 52) (e + 1) (by norm_num) (by omega) (by omega) ?_
      rw [zpow_add₀ (by norm_num)]; push_cast; ring
    · refine mem_of_eq (-2 ^ 52) (e + 1) (by norm_num) (by omega) (by omega) ?_
      rw [zpow_add₀ (by norm_num)]; push_cast; ring

/-- In the normal range the relative error of a rounding is at most `2^-53`. -/
theorem Rounding.rel {rn : ℝ → ℝ} (h : Rounding rn) {x : ℝ} (h1 : (2 : ℝ) ^ (-1022 : ℤ) ≤ |x|)
    (h2 : |x| ≤ 2 ^ (1000 : ℤ)) : |rn x - x| ≤ 2 ^ (-53 : ℤ) * |x| := by
  have hx : 0 < |x| := lt_of_lt_of_le (by positivity) h1
  set j := Int.log 2 |x| with hj
  have j1 : (2 : ℝ) ^ j ≤ |x| := by
    have := Int.zpow_log_le_self (b := 2) (by norm_num) hx
    exact_mod_cast this
  have j2 : |x| < (2 : ℝ) ^ (j + 1) := by
    have := Int.lt_zpow_succ_log_self (R := ℝ) (b := 2) (by norm_num) |x|
    exact_mod_cast this
  have k1 : -1022 < j + 1 := (zpow_lt_zpow_iff_right₀ (by norm_num : (1 : ℝ) < 2)).1 (h1.trans_lt j2)
  have k2 : j ≤ 1000 := (zpow_le_zpow_iff_right₀ (by norm_num : (1 : ℝ) < 2)).1 (j1.trans h2)
  have hp : (0 : ℝ) < (2 : ℝ) ^ (j - 52) := by positivity
  set y := x / (2 : ℝ) ^ (j - 52) with hy
  have hxy : x = y * (2 : ℝ) ^ (j - 52) := by rw [hy]; field_simp
  have hya : |y| < 2 ^ 53 := by
    rw [hy, abs_div, abs_of_pos hp, div_lt_iff₀ hp]
    refine j2.trans_eq ?_
    rw [show j + 1 = 53 + (j - 52) by ring, zpow_add₀ (by norm_num)]
    norm_num
  have hm : |round y| ≤ 2 ^ 53 := by
    rw [abs_le]
    rw [abs_lt] at hya
    constructor
    · have : round ((-(2 ^ 53) : ℤ) : ℝ) ≤ round y := by
        rw [round_eq, round_eq]
        apply Int.floor_le_floor
        push_cast
        linarith
      rw [round_intCast] at this
      exact this
    · have : round y ≤ round (((2 ^ 53) : ℤ) : ℝ) := by
        rw [round_eq, round_eq]
        apply Int.floor_le_floor
        push_cast
        linarith
      rw [round_intCast] at this
      exact this
  have hmem : (round y : ℝ) * (2 : ℝ) ^ (j - 52) ∈ Binary64 := by
    rcases le_or_gt j 1000 with hle | hgt
    · exact mem_of_le hm (by omega) (by omega)
    · omega
  refine ((h x).2 _ hmem).trans ?_
  have e1 : (round y : ℝ) * (2 : ℝ) ^ (j - 52) - x = (round y - y) * (2 : ℝ) ^ (j - 52) := by
    conv_lhs => rw [hxy]
    ring
  rw [e1, abs_mul, abs_of_pos hp, abs_sub_comm]
  have := abs_sub_round y
  calc _ ≤ 1 / 2 * (2 : ℝ) ^ (j - 52) := by gcongr
    _ = 2 ^ (-53 : ℤ) * (2 : ℝ) ^ j := by
      rw [show j - 52 = 1 + (-53 + j) by ring, zpow_add₀ (by norm_num), zpow_add₀ (by norm_num)]
      ring
    _ ≤ _ := by gcongr

/-- The error of a rounding, for all magnitudes up to `2^1000`. -/
theorem Rounding.err {rn : ℝ → ℝ} (h : Rounding rn) {x : ℝ} (h2 : |x| ≤ 2 ^ (1000 : ℤ)) :
    |rn x - x| ≤ 2 ^ (-53 : ℤ) * |x| + 2 ^ (-1075 : ℤ) := by
  rcases le_or_gt ((2 : ℝ) ^ (-1022 : ℤ)) |x| with h1 | h1
  · have : (0 : ℝ) < 2 ^ (-1075 : ℤ) := by positivity
    linarith [h.rel h1 h2]
  have hp : (0 : ℝ) < (2 : ℝ) ^ (-1074 : ℤ) := by positivity
  set y := x / (2 : ℝ) ^ (-1074 : ℤ) with hy
  have hxy : x = y * (2 : ℝ) ^ (-1074 : ℤ) := by rw [hy]; field_simp
  have hya : |y| < 2 ^ 52 := by
    rw [hy, abs_div, abs_of_pos hp, div_lt_iff₀ hp]
    refine h1.trans_eq ?_
    rw [show (-1022 : ℤ) = 52 + (-1074) by norm_num, zpow_add₀ (by norm_num)]
    norm_cast
  have hm : |round y| ≤ 2 ^ 53 := by
    have h3 := abs_sub_round y
    have : |(round y : ℝ)| ≤ 2 ^ 53 := by
      calc |(round y : ℝ)| = |y - (y - round y)| := by ring_nf
        _ ≤ |y| + |y - round y| := abs_sub _ _
        _ ≤ 2 ^ 52 + 1 / 2 := by linarith
        _ ≤ _ := by norm_num
    have : ((|round y| : ℤ) : ℝ) ≤ ((2 ^ 53 : ℤ) : ℝ) := by push_cast; norm_num at this ⊢; exact this
    exact_mod_cast this
  refine ((h x).2 _ (mem_of_le (e := -1074) hm (by norm_num) (by norm_num))).trans ?_
  have e1 : (round y : ℝ) * (2 : ℝ) ^ (-1074 : ℤ) - x = (round y - y) * (2 : ℝ) ^ (-1074 : ℤ) := by
    conv_lhs => rw [hxy]
    ring
  rw [e1, abs_mul, abs_of_pos hp, abs_sub_comm]
  have := abs_sub_round y
  have h0 : 0 ≤ 2 ^ (-53 : ℤ) * |x| := by positivity
  calc _ ≤ 1 / 2 * (2 : ℝ) ^ (-1074 : ℤ) := by gcongr
    _ = 2 ^ (-1075 : ℤ) := by
      rw [show (-1074 : ℤ) = 1 + (-1075) by norm_num, zpow_add₀ (by norm_num)]
      ring
    _ ≤ _ := by linarith

/-- Doubles are symmetric. -/
theorem neg_mem {x : ℝ} (h : x ∈ Binary64) : -x ∈ Binary64 := by
  obtain ⟨m, e, hm, h1, h2, rfl⟩ := h
  exact ⟨-m, e, by rwa [abs_neg], h1, h2, by push_cast; ring⟩

theorem zero_mem : (0 : ℝ) ∈ Binary64 := by simpa using int_mem (n := 0) (by norm_num)

end Verif.Machine
