import Verif.Proofs.RelError

/-! # Nearest doubles -/

namespace Verif.Machine

/-- A real number that is closer than half a unit in the last place to a double is rounded to it. -/
theorem Rounding.nearest {rn : ℝ → ℝ} (h : Rounding rn) {x : ℝ} {m e : ℤ} (h1 : 2 ^ 52 < m) (h2 : m < 2 ^ 53)
    (h3 : -1074 ≤ e) (h4 : e ≤ 971) (hx : |x - m * (2 : ℝ) ^ e| < (2 : ℝ) ^ (e - 1)) :
    rn x = m * (2 : ℝ) ^ e := by
  have hp : (0 : ℝ) < (2 : ℝ) ^ e := by positivity
  have hhalf : (2 : ℝ) ^ (e - 1) = (2 : ℝ) ^ e / 2 := by
    rw [zpow_sub_one₀ (by norm_num)]
    ring
  have hmem : (m : ℝ) * (2 : ℝ) ^ e ∈ Binary64 := mem_of_eq m e (by rw [abs_of_pos (by linarith)]; exact h2) h3 h4 rfl
  have hn := (h x).2 _ hmem
  rw [abs_sub_comm ((m : ℝ) * (2 : ℝ) ^ e)] at hn
  have hd : |rn x - m * (2 : ℝ) ^ e| < (2 : ℝ) ^ e := by
    have e1 : rn x - m * (2 : ℝ) ^ e = (rn x - x) + (x - m * (2 : ℝ) ^ e) := by ring
    rw [e1]
    refine (abs_add_le _ _).trans_lt ?_
    rw [hhalf] at hx
    linarith
  obtain ⟨m', e', hm', -, -, hr⟩ := (h x).1
  rcases le_or_gt e e' with hle | hgt
  · obtain ⟨k, rfl⟩ := Int.exists_add_of_le hle
    have hr2 : rn x = ((m' * 2 ^ k : ℤ) : ℝ) * (2 : ℝ) ^ e := by
      rw [hr, zpow_add₀ (by norm_num)]
      push_cast
      rw [zpow_natCast]
      ring
    rw [hr2, ← sub_mul, abs_mul, abs_of_pos hp] at hd
    have hlt : |((m' * 2 ^ k : ℤ) : ℝ) - (m : ℝ)| < 1 := by
      by_contra hc
      push Not at hc
      have := mul_le_mul_of_nonneg_right hc hp.le
      linarith
    have hz : |m' * 2 ^ k - m| < 1 := by exact_mod_cast hlt
    have : m' * 2 ^ k = m := by
      have := Int.abs_lt_one_iff.1 hz
      omega
    rw [hr2, this]
  · exfalso
    have h5 : (2 : ℝ) ^ (52 : ℕ) * (2 : ℝ) ^ e < rn x := by
      have h6 := (abs_lt.1 hd).1
      have h7 : ((2 ^ 52 + 1 : ℤ) : ℝ) ≤ (m : ℝ) := by exact_mod_cast h1
      have h8 := mul_le_mul_of_nonneg_right h7 hp.le
      norm_num at h8 ⊢
      linarith
    have h9 : rn x < (2 : ℝ) ^ (53 : ℕ) * (2 : ℝ) ^ (e - 1) := by
      rw [hr]
      have a1 : (m' : ℝ) < ((2 ^ 53 : ℤ) : ℝ) := by exact_mod_cast (lt_of_abs_lt hm')
      have a2 : (2 : ℝ) ^ e' ≤ (2 : ℝ) ^ (e - 1) := zpow_le_zpow_right₀ (by norm_num) (by omega)
      have a3 : (0 : ℝ) < (2 : ℝ) ^ e' := by positivity
      push_cast at a1
      calc (m' : ℝ) * (2 : ℝ) ^ e' < 2 ^ 53 * (2 : ℝ) ^ e' := mul_lt_mul_of_pos_right (by norm_num; exact a1) a3
        _ ≤ _ := mul_le_mul_of_nonneg_left a2 (by positivity)
    rw [hhalf] at h9
    linarith [pow_succ (2 : ℝ) 52]

/-- A double times a number below 1 (by at least `2^-53`) is rounded to less than the double. -/
theorem Rounding.mul_lt {rn : ℝ → ℝ} (h : Rounding rn) {r u : ℝ} (hr : r ∈ Binary64) (h1 : (2 : ℝ) ^ (-1021 : ℤ) ≤ r)
    (hu : u ≤ 1 - 2 ^ (-53 : ℤ)) : rn (r * u) < r := by
  have hr0 : 0 < r := lt_of_lt_of_le (by positivity) h1
  obtain ⟨j, hj⟩ : ∃ j, j = Int.log 2 r := ⟨_, rfl⟩
  have j1 : (2 : ℝ) ^ j ≤ r := by
    have := Int.zpow_log_le_self (b := 2) (by norm_num) hr0
    rw [hj]
    exact_mod_cast this
  have j2 : r < (2 : ℝ) ^ (j + 1) := by
    have := Int.lt_zpow_succ_log_self (R := ℝ) (b := 2) (by norm_num) r
    rw [hj]
    exact_mod_cast this
  have k1 : -1021 < j + 1 := (zpow_lt_zpow_iff_right₀ (by norm_num : (1 : ℝ) < 2)).1 (h1.trans_lt j2)
  have hmem := hr
  obtain ⟨m, e, hm, he1, he2, hrm⟩ := hr
  have hlt : (2 : ℝ) ^ j < (2 : ℝ) ^ (53 + e) := by
    refine j1.trans_lt ?_
    rw [hrm, zpow_add₀ (by norm_num)]
    have a1 : (m : ℝ) < ((2 ^ 53 : ℤ) : ℝ) := by exact_mod_cast (lt_of_abs_lt hm)
    have a3 : (0 : ℝ) < (2 : ℝ) ^ e := by positivity
    refine mul_lt_mul_of_pos_right ?_ a3
    norm_num at a1 ⊢
    exact a1
  have hej : j - 52 ≤ e := by
    have := (zpow_lt_zpow_iff_right₀ (by norm_num : (1 : ℝ) < 2)).1 hlt
    omega
  obtain ⟨n, hn⟩ := Int.exists_add_of_le hej
  obtain ⟨k, hk⟩ : ∃ k : ℤ, k = m * 2 ^ n := ⟨_, rfl⟩
  have hp : (0 : ℝ) < (2 : ℝ) ^ (j - 53) := by positivity
  have h52 : (2 : ℝ) ^ (j - 52) = 2 * (2 : ℝ) ^ (j - 53) := by
    rw [show j - 52 = 1 + (j - 53) by ring, zpow_add₀ (by norm_num)]
    norm_num
  have hrk : r = (k : ℝ) * (2 * (2 : ℝ) ^ (j - 53)) := by
    rw [hrm, hn, zpow_add₀ (by norm_num), hk, h52]
    push_cast
    rw [zpow_natCast]
    ring
  have hjj : (2 : ℝ) ^ j = 2 ^ 53 * (2 : ℝ) ^ (j - 53) := by
    rw [show (2 : ℝ) ^ j = (2 : ℝ) ^ (53 + (j - 53)) by congr 1; ring, zpow_add₀ (by norm_num)]
    norm_num
  have hj1 : (2 : ℝ) ^ (j + 1) = 2 ^ 54 * (2 : ℝ) ^ (j - 53) := by
    rw [show (2 : ℝ) ^ (j + 1) = (2 : ℝ) ^ (54 + (j - 53)) by congr 1; ring, zpow_add₀ (by norm_num)]
    norm_num
  have hgap : 2 ^ (-53 : ℤ) * r ≤ r - r * u := by
    have := mul_le_mul_of_nonneg_left hu hr0.le
    linarith
  by_contra hc
  push Not at hc
  have hup : rn (r * u) ≤ r := by
    refine h.le_of_le hmem ?_
    have : (0 : ℝ) < 2 ^ (-53 : ℤ) * r := by positivity
    linarith
  have heq : rn (r * u) = r := le_antisymm hup hc
  have hnear := (h (r * u)).2
  rw [heq] at hnear
  have hpos : (0 : ℝ) < 2 ^ (-53 : ℤ) * r := by positivity
  have hru : |r - r * u| = r - r * u := abs_of_pos (by linarith)
  rw [hru] at hnear
  -- the mantissa
  have hk1 : (2 ^ 52 : ℤ) ≤ k := by
    rw [hrk, hjj] at j1
    have : (2 : ℝ) ^ 53 ≤ k * 2 := by
      by_contra hcc
      push Not at hcc
      have := mul_lt_mul_of_pos_right hcc hp
      linarith
    have : ((2 ^ 52 : ℤ) : ℝ) ≤ k := by push_cast; linarith [pow_succ (2 : ℝ) 52]
    exact_mod_cast this
  have hk2 : k < 2 ^ 53 := by
    rw [hrk, hj1] at j2
    have : (k : ℝ) * 2 < 2 ^ 54 := by
      by_contra hcc
      push Not at hcc
      have := mul_le_mul_of_nonneg_right hcc hp.le
      linarith
    have : (k : ℝ) < ((2 ^ 53 : ℤ) : ℝ) := by push_cast; linarith [pow_succ (2 : ℝ) 53]
    exact_mod_cast this
  have hu53 : (2 : ℝ) ^ (-53 : ℤ) * 2 ^ 53 = 1 := by norm_num
  rcases hk1.eq_or_lt with hk0 | hk0
  · -- a power of two
    have hf : ((2 ^ 53 - 1 : ℤ) : ℝ) * (2 : ℝ) ^ (j - 53) ∈ Binary64 := by
      have hj971 : j - 53 ≤ 971 := by omega
      exact mem_of_eq _ _ (by norm_num) (by omega) hj971 rfl
    have hr' : r = 2 ^ 53 * (2 : ℝ) ^ (j - 53) := by
      rw [hrk, ← hk0]
      push_cast
      ring
    have hfr : ((2 ^ 53 - 1 : ℤ) : ℝ) * (2 : ℝ) ^ (j - 53) = r - 2 ^ (-53 : ℤ) * r := by
      have : 2 ^ (-53 : ℤ) * r = (2 : ℝ) ^ (j - 53) := by
        rw [hr', ← mul_assoc, hu53, one_mul]
      rw [this, hr']
      push_cast
      ring
    have := hnear _ hf
    rw [hfr, abs_of_nonneg (by linarith)] at this
    linarith
  · have hf : ((k - 1 : ℤ) : ℝ) * (2 : ℝ) ^ (j - 52) ∈ Binary64 := by
      have hj971 : j - 52 ≤ 971 := by omega
      exact mem_of_eq _ _ (by rw [abs_of_pos (by linarith)]; linarith) (by omega) hj971 rfl
    have hfr : ((k - 1 : ℤ) : ℝ) * (2 : ℝ) ^ (j - 52) = r - 2 * (2 : ℝ) ^ (j - 53) := by
      rw [hrk, h52]
      push_cast
      ring
    have h8 := hnear _ hf
    rw [hfr] at h8
    have h9 : (2 : ℝ) ^ (j - 53) < 2 ^ (-53 : ℤ) * r := by
      have a1 : ((2 ^ 52 : ℤ) : ℝ) < (k : ℝ) := by exact_mod_cast hk0
      have a2 : 2 ^ (-53 : ℤ) * r = (k : ℝ) * 2 ^ (-52 : ℤ) * (2 : ℝ) ^ (j - 53) := by
        rw [hrk]
        have : (2 : ℝ) ^ (-52 : ℤ) = 2 ^ (-53 : ℤ) * 2 := by norm_num
        rw [this]
        ring
      rw [a2]
      have a3 : 1 < (k : ℝ) * 2 ^ (-52 : ℤ) := by
        have : ((2 ^ 52 : ℤ) : ℝ) * 2 ^ (-52 : ℤ) < (k : ℝ) * 2 ^ (-52 : ℤ) :=
          mul_lt_mul_of_pos_right a1 (by positivity)
        refine lt_of_eq_of_lt ?_ this
        norm_num
      calc (2 : ℝ) ^ (j - 53) = 1 * (2 : ℝ) ^ (j - 53) := (one_mul _).symm
        _ < _ := mul_lt_mul_of_pos_right a3 hp
    rcases abs_cases (r - 2 * (2 : ℝ) ^ (j - 53) - r * u) with ⟨h10, -⟩ | ⟨h10, -⟩ <;> rw [h10] at h8 <;> linarith

end Verif.Machine
