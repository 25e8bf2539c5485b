import Verif.Spec.Overflow
import Verif.Proofs.FloatError
import Mathlib.Analysis.Real.Sqrt

/-! # Magnitudes in binary64 arithmetic as powers of two -/

namespace Verif.Machine

/-- Powers of two up to `2^1023` are doubles. -/
theorem pow_mem {k : ℕ} (hk : k ≤ 1023) : (2 : ℝ) ^ k ∈ Binary64 := by
  rcases le_or_gt k 971 with h | h
  · exact mem_of_eq 1 k (by norm_num) (by omega) (by omega) (by simp)
  · refine mem_of_eq (2 ^ (k - 971)) 971 ?_ (by norm_num) (by norm_num) ?_
    · rw [abs_of_nonneg (by positivity)]
      exact pow_lt_pow_right₀ (by norm_num) (by omega)
    · push_cast
      rw [show (971 : ℤ) = ((971 : ℕ) : ℤ) from rfl, zpow_natCast, ← pow_add]
      congr 1
      omega

/-- Negative powers of two down to `2^-1074` are doubles. -/
theorem pow_neg_mem {k : ℕ} (hk : k ≤ 1074) : (2 : ℝ) ^ (-(k : ℤ)) ∈ Binary64 :=
  mem_of_eq 1 (-(k : ℤ)) (by norm_num) (by omega) (by omega) (by simp)

/-- `a` and `b` are the same number, of magnitude at most `2^k`. -/
def Same (k : ℕ) (a b : ℝ) : Prop := a = b ∧ |b| ≤ 2 ^ k

/-- `a` and `b` are the same number, of magnitude at least `2^-k`. -/
def Away (k : ℕ) (a b : ℝ) : Prop := a = b ∧ (2 : ℝ) ^ (-(k : ℤ)) ≤ |b|

namespace Same

variable {k l : ℕ} {a b c d : ℝ}

theorem of (h : |a| ≤ 2 ^ k) : Same k a a := ⟨rfl, h⟩

theorem mono (h : Same k a b) (hkl : k ≤ l) : Same l a b :=
  ⟨h.1, h.2.trans (pow_le_pow_right₀ (by norm_num) hkl)⟩

theorem neg (h : Same k a b) : Same k (-a) (-b) := ⟨by rw [h.1], by rw [abs_neg]; exact h.2⟩

theorem abs (h : Same k a b) : Same k |a| |b| := ⟨by rw [h.1], by rw [abs_abs]; exact h.2⟩

theorem mul (h : Same k a b) (h' : Same l c d) : Same (k + l) (a * c) (b * d) := by
  refine ⟨by rw [h.1, h'.1], ?_⟩
  rw [abs_mul, pow_add]
  exact mul_le_mul h.2 h'.2 (abs_nonneg _) (by positivity)

theorem sq (h : Same k a b) : Same (k + k) (a ^ 2) (b ^ 2) := by
  rw [_root_.sq, _root_.sq]; exact h.mul h

theorem add (h : Same k a b) (h' : Same l c d) : Same (max k l + 1) (a + c) (b + d) := by
  refine ⟨by rw [h.1, h'.1], (abs_add_le _ _).trans ?_⟩
  have h1 := (h.mono (le_max_left k l)).2
  have h2 := (h'.mono (le_max_right k l)).2
  rw [pow_succ]
  linarith

theorem sub (h : Same k a b) (h' : Same l c d) : Same (max k l + 1) (a - c) (b - d) := by
  rw [sub_eq_add_neg, sub_eq_add_neg]
  exact h.add h'.neg

theorem div (h : Same k a b) (h' : Away l c d) : Same (k + l) (a / c) (b / d) := by
  refine ⟨by rw [h.1, h'.1], ?_⟩
  have hp : (0 : ℝ) < 2 ^ (-(l : ℤ)) := by positivity
  rw [abs_div, div_le_iff₀ (hp.trans_le h'.2)]
  refine h.2.trans ?_
  calc (2 : ℝ) ^ k = 2 ^ (k + l) * 2 ^ (-(l : ℤ)) := by
        rw [zpow_neg, zpow_natCast, pow_add]; field_simp
    _ ≤ _ := by gcongr; exact h'.2

theorem sqrt (h : Same k a b) : Same k (√a) (√b) := by
  refine ⟨by rw [h.1], ?_⟩
  rw [abs_of_nonneg (Real.sqrt_nonneg _)]
  have h1 : (1 : ℝ) ≤ 2 ^ k := one_le_pow₀ (by norm_num)
  rw [Real.sqrt_le_left (by positivity)]
  nlinarith [le_abs_self b, h.2]

theorem round {rn f : ℝ → ℝ} (hr : Rounding rn) (hf : SameBelow rn f) (hk : k ≤ 1023) (h : Same k a b) :
    Same k (f a) (rn b) := by
  refine ⟨by rw [h.1, hf _ (h.2.trans (pow_le_pow_right₀ (by norm_num) hk))], ?_⟩
  rw [abs_le]
  obtain ⟨h1, h2⟩ := abs_le.1 h.2
  exact ⟨hr.ge_of_ge (neg_mem (pow_mem hk)) h1, hr.le_of_le (pow_mem hk) h2⟩

end Same

namespace Away

variable {k l : ℕ} {a b c d : ℝ}

theorem of (h : (2 : ℝ) ^ (-(k : ℤ)) ≤ |a|) : Away k a a := ⟨rfl, h⟩

theorem ne (h : Away k a b) : b ≠ 0 := by
  have hp : (0 : ℝ) < 2 ^ (-(k : ℤ)) := by positivity
  exact abs_pos.1 (hp.trans_le h.2)

theorem mono (h : Away k a b) (hkl : k ≤ l) : Away l a b :=
  ⟨h.1, le_trans (zpow_le_zpow_right₀ (by norm_num) (by omega)) h.2⟩

theorem mul (h : Away k a b) (h' : Away l c d) : Away (k + l) (a * c) (b * d) := by
  refine ⟨by rw [h.1, h'.1], ?_⟩
  rw [abs_mul]
  calc (2 : ℝ) ^ (-((k + l : ℕ) : ℤ)) = 2 ^ (-(k : ℤ)) * 2 ^ (-(l : ℤ)) := by
        rw [← zpow_add₀ (by norm_num)]; congr 1; push_cast; ring
    _ ≤ _ := mul_le_mul h.2 h'.2 (by positivity) (abs_nonneg _)

theorem sq (h : Away k a b) : Away (k + k) (a ^ 2) (b ^ 2) := by
  rw [_root_.sq, _root_.sq]; exact h.mul h

theorem div (h : Away k a b) (h' : Same l c d) (hd : d ≠ 0) : Away (k + l) (a / c) (b / d) := by
  refine ⟨by rw [h.1, h'.1], ?_⟩
  have hp : 0 < |d| := abs_pos.2 hd
  rw [abs_div, le_div_iff₀ hp]
  refine le_trans ?_ h.2
  calc (2 : ℝ) ^ (-((k + l : ℕ) : ℤ)) * |d| ≤ 2 ^ (-((k + l : ℕ) : ℤ)) * 2 ^ l := by gcongr; exact h'.2
    _ = _ := by
      rw [show (2 : ℝ) ^ l = 2 ^ (l : ℤ) by simp, ← zpow_add₀ (by norm_num)]; congr 1; push_cast; ring

theorem sqrt (h : Away k a b) (hb : 0 ≤ b) : Away k (√a) (√b) := by
  refine ⟨by rw [h.1], ?_⟩
  rw [abs_of_nonneg (Real.sqrt_nonneg _)]
  have h0 : (0 : ℝ) < 2 ^ (-(k : ℤ)) := by positivity
  have h1 : (2 : ℝ) ^ (-(k : ℤ)) ≤ 1 := by
    calc (2 : ℝ) ^ (-(k : ℤ)) ≤ 2 ^ (0 : ℤ) := zpow_le_zpow_right₀ (by norm_num) (by omega)
      _ = 1 := by simp
  apply Real.le_sqrt_of_sq_le
  have := h.2
  rw [abs_of_nonneg hb] at this
  nlinarith

/-- A rounding does not go below a power of two, provided the number itself is in range. -/
theorem round {rn f : ℝ → ℝ} (hr : Rounding rn) (hf : SameBelow rn f) (hk : k ≤ 1074) (h : Away k a b)
    {l : ℕ} (hb : |b| ≤ 2 ^ l) (hl : l ≤ 1023) : Away k (f a) (rn b) := by
  refine ⟨by rw [h.1, hf _ (hb.trans (pow_le_pow_right₀ (by norm_num) hl))], ?_⟩
  have h2 := h.2
  rcases le_total 0 b with h0 | h0
  · rw [abs_of_nonneg h0] at h2
    exact (hr.ge_of_ge (pow_neg_mem hk) h2).trans (le_abs_self _)
  · rw [abs_of_nonpos h0] at h2
    have := hr.le_of_le (neg_mem (pow_neg_mem hk)) (show b ≤ -2 ^ (-(k : ℤ)) by linarith)
    exact (show (2 : ℝ) ^ (-(k : ℤ)) ≤ -rn b by linarith).trans (neg_le_abs _)

end Away

end Verif.Machine
