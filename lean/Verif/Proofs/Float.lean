import Verif.Machine.Float
import Verif.Machine.Int64
import Verif.Machine.Pairing
import Verif.Machine.Grid
import Verif.Proofs.Points
import Mathlib.Analysis.Real.Sqrt

/-! # Lemmas on binary64 rounding and int64 wrapping -/

namespace Verif.Machine

open Verif.Detector Verif.Spec

/-- A double exists, so a nearest one always exists: roundings exist. -/
theorem exists_rounding : ∃ rn, Rounding rn := by
  have hfin : Binary64.Finite := by
    have : Binary64 ⊆ (fun p : ℤ × ℤ => (p.1 : ℝ) * (2 : ℝ) ^ p.2) ''
        ((Set.Ioo (-(2 : ℤ) ^ 53) (2 ^ 53)) ×ˢ (Set.Icc (-1074 : ℤ) 971)) := by
      rintro x ⟨m, e, hm, h1, h2, rfl⟩
      rw [abs_lt] at hm
      exact ⟨(m, e), ⟨hm, h1, h2⟩, rfl⟩
    exact (((Set.finite_Ioo _ _).prod (Set.finite_Icc _ _)).image _).subset this
  have hne : Binary64.Nonempty := ⟨0, 0, 0, by norm_num, by norm_num, by norm_num, by norm_num⟩
  have : ∀ x : ℝ, ∃ f ∈ Binary64, ∀ g ∈ Binary64, |f - x| ≤ |g - x| := fun x =>
    Set.exists_min_image Binary64 (fun f => |f - x|) hfin hne
  choose rn h1 h2 using this
  exact ⟨rn, fun x => ⟨h1 x, h2 x⟩⟩

/-- Membership from an explicit mantissa and exponent; a mantissa of `±2^53` is allowed. -/
theorem mem_of_eq {x : ℝ} (m e : ℤ) (hm : |m| < 2 ^ 53) (h1 : -1074 ≤ e) (h2 : e ≤ 971)
    (h : x = (m : ℝ) * (2 : ℝ) ^ e) : x ∈ Binary64 := ⟨m, e, hm, h1, h2, h⟩

theorem int_mem {n : ℤ} (h : |n| < 2 ^ 53) : (n : ℝ) ∈ Binary64 :=
  mem_of_eq n 0 h (by norm_num) (by norm_num) (by simp)

/-- Rounding leaves doubles alone. -/
theorem Rounding.exact {rn : ℝ → ℝ} (h : Rounding rn) {x : ℝ} (hx : x ∈ Binary64) : rn x = x := by
  have := (h x).2 x hx
  simp only [sub_self, abs_zero] at this
  have := abs_nonpos_iff.1 this
  linarith

/-- Rounding is monotone. -/
theorem Rounding.mono {rn : ℝ → ℝ} (h : Rounding rn) {x y : ℝ} (hxy : x ≤ y) : rn x ≤ rn y := by
  rcases hxy.eq_or_lt with rfl | hlt
  · exact le_rfl
  by_contra hc
  push Not at hc
  have h1 := (h x).2 (rn y) (h y).1
  have h2 := (h y).2 (rn x) (h x).1
  rcases abs_cases (rn x - x) with a | a <;> rcases abs_cases (rn y - x) with b | b <;>
    rcases abs_cases (rn y - y) with c | c <;> rcases abs_cases (rn x - y) with d | d <;> linarith

theorem Rounding.le_of_le {rn : ℝ → ℝ} (h : Rounding rn) {x f : ℝ} (hf : f ∈ Binary64)
    (hx : x ≤ f) : rn x ≤ f := by
  have := h.mono hx; rwa [h.exact hf] at this

theorem Rounding.ge_of_ge {rn : ℝ → ℝ} (h : Rounding rn) {x f : ℝ} (hf : f ∈ Binary64)
    (hx : f ≤ x) : f ≤ rn x := by
  have := h.mono hx; rwa [h.exact hf] at this

theorem Rounding.int {rn : ℝ → ℝ} (h : Rounding rn) {n : ℤ} (hn : |n| < 2 ^ 53) :
    rn (n : ℝ) = n := h.exact (int_mem hn)

/-- Just below an integer `n ≤ 2^a` there is a double `n - 2^-b` whenever `a + b ≤ 53`. -/
theorem pred_mem {n : ℤ} (a b : ℕ) (hn : 1 ≤ n) (ha : n ≤ 2 ^ a) (hab : a + b ≤ 53) :
    (n : ℝ) - (2 : ℝ) ^ (-(b : ℤ)) ∈ Binary64 := by
  refine mem_of_eq (n * 2 ^ b - 1) (-(b : ℤ)) ?_ (by omega) (by omega) ?_
  · have h1 : n * 2 ^ b ≤ 2 ^ a * 2 ^ b := by gcongr
    have h2 : (2 : ℤ) ^ a * 2 ^ b ≤ 2 ^ 53 := by
      rw [← pow_add]; exact pow_le_pow_right₀ (by norm_num) hab
    have h3 : 1 ≤ n * 2 ^ b := by
      have : (1 : ℤ) ≤ 2 ^ b := one_le_pow₀ (by norm_num)
      nlinarith
    rw [abs_lt]; constructor <;> linarith
  · push_cast
    rw [zpow_neg, zpow_natCast, sub_mul, mul_assoc, mul_inv_cancel₀ (by positivity)]
    ring

/-- Two doubles in the same binade `[2^j, ∞)` differ by at least one unit in the last place. -/
theorem gap {j : ℤ} (hj : j ≤ 52) {n : ℤ} {f : ℝ} (hf : f ∈ Binary64) (hlow : (2 : ℝ) ^ j ≤ f)
    (hlt : f < n) : f ≤ n - (2 : ℝ) ^ (j - 52) := by
  obtain ⟨m, e, hm, -, -, rfl⟩ := hf
  have hp : (0 : ℝ) < (2 : ℝ) ^ e := by positivity
  have hm0 : (m : ℝ) < 2 ^ 53 := by
    have := (abs_lt.1 hm).2
    exact_mod_cast this
  have he : j - 52 ≤ e := by
    have h1 : (2 : ℝ) ^ j < (2 : ℝ) ^ (53 + e) := by
      rw [zpow_add₀ (by norm_num)]
      calc _ ≤ (m : ℝ) * 2 ^ e := hlow
        _ < 2 ^ 53 * 2 ^ e := by gcongr
        _ = _ := by norm_num
    have := (zpow_lt_zpow_iff_right₀ (by norm_num : (1 : ℝ) < 2)).1 h1
    omega
  obtain ⟨a, ha⟩ := Int.eq_ofNat_of_zero_le (sub_nonneg.2 he)
  obtain ⟨c, hc⟩ := Int.eq_ofNat_of_zero_le (sub_nonneg.2 hj)
  have hu : (0 : ℝ) < (2 : ℝ) ^ (j - 52) := by positivity
  have e1 : (m : ℝ) * 2 ^ e = ((m * 2 ^ a : ℤ) : ℝ) * 2 ^ (j - 52) := by
    have : e = (a : ℤ) + (j - 52) := by omega
    rw [this, zpow_add₀ (by norm_num)]; push_cast; rw [zpow_natCast]; ring
  have e2 : (n : ℝ) = ((n * 2 ^ c : ℤ) : ℝ) * 2 ^ (j - 52) := by
    have : j - 52 = -(c : ℤ) := by omega
    rw [this, zpow_neg, zpow_natCast]; push_cast
    rw [mul_assoc, mul_inv_cancel₀ (by positivity), mul_one]
  rw [e1, e2] at hlt
  rw [e1]
  have h3 : (m * 2 ^ a : ℤ) < n * 2 ^ c := by
    have := lt_of_mul_lt_mul_right hlt hu.le
    exact_mod_cast this
  have h4 : (((m * 2 ^ a : ℤ) : ℝ)) ≤ ((n * 2 ^ c : ℤ) : ℝ) - 1 := by
    have : m * 2 ^ a ≤ n * 2 ^ c - 1 := by omega
    exact_mod_cast this
  calc _ ≤ (((n * 2 ^ c : ℤ) : ℝ) - 1) * 2 ^ (j - 52) := by gcongr
    _ = _ := by rw [sub_mul, one_mul, ← e2]

/-- In-range integers are unchanged by wrapping. -/
theorem wrap64_eq {n : ℤ} (h1 : -2 ^ 63 ≤ n) (h2 : n < 2 ^ 63) : wrap64 n = n := by
  unfold wrap64
  rw [Int.emod_eq_of_lt] <;> omega

theorem pair64_eq {tb pad : ℤ} (h1 : tb < 2 ^ 31) (h2 : pad < 2 ^ 31) :
    pair64 tb pad = pair tb pad := by
  unfold pair64 pair
  split
  · rfl
  rename_i h
  push Not at h
  have a1 : tb * tb < 2 ^ 62 := by nlinarith
  have a2 : pad * pad < 2 ^ 62 := by nlinarith
  have b1 : 0 ≤ tb * tb := by nlinarith
  have b2 : 0 ≤ pad * pad := by nlinarith
  split
  · rw [wrap64_eq (n := tb * tb), wrap64_eq (n := tb * tb + tb), wrap64_eq] <;> omega
  · rw [wrap64_eq (n := pad * pad), wrap64_eq] <;> omega

/-- The floor of the rounded square root is the integer square root for ids below `2^52`. -/
theorem floor_sqrt {rn : ℝ → ℝ} (h : Rounding rn) {id : ℤ} (h0 : 0 ≤ id) (h1 : id < 2 ^ 52) :
    ⌊rn (Real.sqrt (id : ℝ))⌋ = (Nat.sqrt id.toNat : ℤ) := by
  obtain ⟨k, rfl⟩ := Int.eq_ofNat_of_zero_le h0
  simp only [Int.toNat_natCast, Int.cast_natCast]
  set r := Nat.sqrt k with hr
  have l1 : r * r ≤ k := Nat.sqrt_le k
  have l2 : k < (r + 1) * (r + 1) := Nat.lt_succ_sqrt k
  have hrb : r < 2 ^ 26 := by
    have : k < 2 ^ 52 := by exact_mod_cast h1
    by_contra hc
    push Not at hc
    nlinarith
  rw [Int.floor_eq_iff]
  have c1 : ((r : ℤ) : ℝ) ≤ Real.sqrt k := by
    apply Real.le_sqrt_of_sq_le
    have : ((r * r : ℕ) : ℝ) ≤ k := by exact_mod_cast l1
    push_cast at this ⊢; nlinarith
  constructor
  · apply h.ge_of_ge (int_mem _) c1
    rw [abs_lt]; constructor <;> omega
  · have hm := pred_mem (n := (r : ℤ) + 1) 26 27 (by omega) (by exact_mod_cast hrb) (by norm_num)
    have hle : Real.sqrt (k : ℝ) ≤ (((r : ℤ) + 1 : ℤ) : ℝ) - (2 : ℝ) ^ (-((27 : ℕ) : ℤ)) := by
      have hR : (r : ℝ) + 1 ≤ 2 ^ 26 := by exact_mod_cast hrb
      have hR0 : (0 : ℝ) ≤ r := by positivity
      have hk : (k : ℝ) ≤ ((r : ℝ) + 1) * (r + 1) - 1 := by
        have : k + 1 ≤ (r + 1) * (r + 1) := l2
        have : ((k + 1 : ℕ) : ℝ) ≤ (((r + 1) * (r + 1) : ℕ) : ℝ) := by exact_mod_cast this
        push_cast at this; linarith
      rw [zpow_neg, zpow_natCast]
      push_cast
      apply Real.sqrt_le_iff.2
      constructor
      · have : ((2 : ℝ) ^ 27)⁻¹ ≤ 1 := by norm_num
        linarith
      · have : ((2 : ℝ) ^ 27)⁻¹ = 1 / 134217728 := by norm_num
        rw [this]
        norm_num at hR
        nlinarith
    have := h.le_of_le hm hle
    have hp : (0 : ℝ) < (2 : ℝ) ^ (-((27 : ℕ) : ℤ)) := by positivity
    push_cast at this hp ⊢
    linarith [this, hp]

end Verif.Machine
