import Verif.Machine.Transport
import Verif.Proofs.FloatError
import Verif.Proofs.Mesh

/-! # Error analysis of the transverse diffusion in binary64 -/

namespace Verif.Machine

open Verif.Detector Verif.Spec

/-- What the theorems assume about the float64 operations: rounding to a nearest double, `np.pi` is
accurate to `2^-50`, and `np.exp` has a relative error of at most `2^-50` on `[-100, 0]`. -/
structure Math64.Ok (m : Math64) : Prop where
  rounding : Rounding m.rn
  pi : |m.pi - Real.pi| ≤ 2 ^ (-50 : ℤ)
  exp_nonneg : ∀ x, 0 ≤ m.exp x
  exp_zero : m.exp 0 = 1
  exp : ∀ x, -100 ≤ x → x ≤ 0 → |m.exp x - Real.exp x| ≤ 2 ^ (-50 : ℤ) * Real.exp x

/-- The unit roundoff, `2^-53`. -/
noncomputable def uro : ℝ := 2 ^ (-53 : ℤ)

theorem uro_pos : 0 < uro := by unfold uro; positivity

theorem uro_lt : uro < 1e-15 := by unfold uro; norm_num

theorem Rounding.le_up {rn : ℝ → ℝ} (h : Rounding rn) {x X : ℝ} (hx : x ≤ X)
    (h1 : (2 : ℝ) ^ (-1022 : ℤ) ≤ X) (h2 : X ≤ 2 ^ (1000 : ℤ)) : rn x ≤ X * (1 + uro) := by
  have h0 : 0 < X := lt_of_lt_of_le (by positivity) h1
  have := h.rel (x := X) (by rwa [abs_of_pos h0]) (by rwa [abs_of_pos h0])
  rw [abs_of_pos h0, abs_le] at this
  have h3 := h.mono hx
  unfold uro
  linarith [this.2]

theorem Rounding.ge_low {rn : ℝ → ℝ} (h : Rounding rn) {x X : ℝ} (hx : X ≤ x)
    (h1 : (2 : ℝ) ^ (-1022 : ℤ) ≤ X) (h2 : X ≤ 2 ^ (1000 : ℤ)) : X * (1 - uro) ≤ rn x := by
  have h0 : 0 < X := lt_of_lt_of_le (by positivity) h1
  have := h.rel (x := X) (by rwa [abs_of_pos h0]) (by rwa [abs_of_pos h0])
  rw [abs_of_pos h0, abs_le] at this
  have h3 := h.mono hx
  unfold uro
  linarith [this.1]

theorem Rounding.nonneg {rn : ℝ → ℝ} (h : Rounding rn) {x : ℝ} (hx : 0 ≤ x) : 0 ≤ rn x :=
  h.ge_of_ge zero_mem hx

theorem Rounding.nonpos {rn : ℝ → ℝ} (h : Rounding rn) {x : ℝ} (hx : x ≤ 0) : rn x ≤ 0 :=
  h.le_of_le zero_mem hx

theorem tiny_lt_uro : (2 : ℝ) ^ (-1075 : ℤ) ≤ uro := by
  unfold uro
  exact zpow_le_zpow_right₀ (by norm_num) (by norm_num)

theorem big_ge {K : ℝ} (hK : K ≤ 1e50) : K ≤ (2 : ℝ) ^ (1000 : ℤ) := by
  refine hK.trans ?_
  have : (2 : ℝ) ^ (200 : ℤ) ≤ (2 : ℝ) ^ (1000 : ℤ) := zpow_le_zpow_right₀ (by norm_num) (by norm_num)
  refine le_trans ?_ this
  norm_num

theorem tiny_le {K : ℝ} (hK : 1e-50 ≤ K) : (2 : ℝ) ^ (-1022 : ℤ) ≤ K := by
  refine le_trans ?_ hK
  have : (2 : ℝ) ^ (-1022 : ℤ) ≤ (2 : ℝ) ^ (-200 : ℤ) := zpow_le_zpow_right₀ (by norm_num) (by norm_num)
  refine this.trans ?_
  norm_num

/-- Absolute error of one operation whose exact result is at most `K`. -/
theorem Rounding.abs {rn : ℝ → ℝ} (h : Rounding rn) {x K : ℝ} (hx : |x| ≤ K) (h1 : 1 ≤ K)
    (hK : K ≤ 2000) : |rn x - x| ≤ 2 * uro * K := by
  have h3 := h.err (x := x) (big_ge (by linarith))
  have h4 := tiny_lt_uro
  have h5 := uro_pos
  change |rn x - x| ≤ uro * |x| + _ at h3
  have : uro * |x| ≤ uro * K := by gcongr
  nlinarith

/-- Errors of absolute size add up. -/
theorem Rounding.near {rn : ℝ → ℝ} (h : Rounding rn) {x y d K : ℝ} (hx : |x - y| ≤ d) (hy : |x| ≤ K)
    (h1 : 1 ≤ K) (hK : K ≤ 2000) : |rn x - y| ≤ d + 2 * uro * K := by
  have := h.abs hy h1 hK
  calc |rn x - y| = |(rn x - x) + (x - y)| := by congr 1; ring
    _ ≤ |rn x - x| + |x - y| := abs_add_le _ _
    _ ≤ _ := by linarith

/-- One coordinate of the mesh: lower and upper limit, and the step. -/
theorem linspace_position {rn : ℝ → ℝ} (h : Rounding rn) {c s : ℝ} (hc : |c| ≤ 1) (h0 : 0 ≤ s) (h1 : s ≤ 1)
    {i : ℕ} (hi : i < 10) {x : ℝ}
    (hx : x = if i + 1 = STEPS then rn (c + rn (3 * s)) else
      rn (rn (c - rn (3 * s)) + rn ((i : ℝ) *
        rn (rn (rn (c + rn (3 * s)) - rn (c - rn (3 * s))) / ((STEPS : ℝ) - 1))))) :
    |x - (c + meshOffset i * s)| ≤ 2 * uro * 64 := by
  have hu := uro_pos
  have hu1 := uro_lt
  have hw : (2 : ℝ) ^ (-45 : ℤ) = 256 * uro := by unfold uro; norm_num
  rw [abs_le] at hc
  have a3 : |rn (3 * s) - 3 * s| ≤ 0 + 2 * uro * 3 :=
    h.near (by simp) (by rw [abs_le]; constructor <;> linarith) (by norm_num) (by norm_num)
  have b3 := abs_le.1 a3
  have alo : |rn (c - rn (3 * s)) - (c - 3 * s)| ≤ 2 * uro * 3 + 2 * uro * 5 :=
    h.near (by rw [abs_le]; constructor <;> linarith [b3.1, b3.2])
      (by rw [abs_le]; constructor <;> linarith [b3.1, b3.2]) (by norm_num) (by norm_num)
  have ahi : |rn (c + rn (3 * s)) - (c + 3 * s)| ≤ 2 * uro * 3 + 2 * uro * 5 :=
    h.near (by rw [abs_le]; constructor <;> linarith [b3.1, b3.2])
      (by rw [abs_le]; constructor <;> linarith [b3.1, b3.2]) (by norm_num) (by norm_num)
  have blo := abs_le.1 alo
  have bhi := abs_le.1 ahi
  generalize rn (c - rn (3 * s)) = lo at *
  generalize rn (c + rn (3 * s)) = hi' at *
  have ad : |rn (hi' - lo) - 6 * s| ≤ 2 * uro * 16 + 2 * uro * 7 :=
    h.near (by rw [abs_le]; constructor <;> linarith [blo.1, blo.2, bhi.1, bhi.2])
      (by rw [abs_le]; constructor <;> linarith [blo.1, blo.2, bhi.1, bhi.2]) (by norm_num) (by norm_num)
  have bd := abs_le.1 ad
  generalize rn (hi' - lo) = delta at *
  have hS : ((STEPS : ℝ) - 1) = 9 := by norm_num [STEPS]
  rw [hS] at hx
  have as : |rn (delta / 9) - 2 / 3 * s| ≤ 2 * uro * 3 + 2 * uro * 1 :=
    h.near (by rw [abs_le]; constructor <;> linarith [bd.1, bd.2])
      (by rw [abs_le]; constructor <;> linarith [bd.1, bd.2]) (by norm_num) (by norm_num)
  have bs := abs_le.1 as
  generalize rn (delta / 9) = step at *
  have hi0 : (0 : ℝ) ≤ i := by positivity
  have hi9 : (i : ℝ) ≤ 9 := by
    have : i ≤ 9 := by omega
    exact_mod_cast this
  · by_cases h9 : i + 1 = STEPS
    · rw [if_pos h9] at hx
      have : i = 9 := by unfold STEPS at h9; omega
      rw [hx, this]
      rw [show meshOffset 9 = 3 by unfold meshOffset; norm_num]
      linarith
    · rw [if_neg h9] at hx
      have e1 : |(i : ℝ) * step - i * (2 / 3 * s)| ≤ 2 * uro * 36 := by
        rw [← mul_sub, abs_mul, abs_of_nonneg hi0]
        nlinarith [abs_nonneg (step - 2 / 3 * s)]
      have b1 := abs_le.1 e1
      have hp : (i : ℝ) * (2 / 3 * s) ≤ 6 := by nlinarith
      have hp0 : 0 ≤ (i : ℝ) * (2 / 3 * s) := by positivity
      have e2 : |rn ((i : ℝ) * step) - i * (2 / 3 * s)| ≤ 2 * uro * 36 + 2 * uro * 7 :=
        h.near e1 (by rw [abs_le]; constructor <;> linarith [b1.1, b1.2]) (by norm_num) (by norm_num)
      have b2 := abs_le.1 e2
      have hm : meshOffset i * s = -3 * s + i * (2 / 3 * s) := by unfold meshOffset; ring
      have e3 : |rn (lo + rn ((i : ℝ) * step)) - (c + meshOffset i * s)| ≤
          2 * uro * 51 + 2 * uro * 12 :=
        h.near (by rw [abs_le, hm]; constructor <;> linarith [b2.1, b2.2, blo.1, blo.2])
          (by rw [abs_le]; constructor <;> linarith [b2.1, b2.2, blo.1, blo.2])
          (by norm_num) (by norm_num)
      rw [hx]
      linarith

/-- The distance of a mesh line from the centre. -/
theorem linspace_near {rn : ℝ → ℝ} (h : Rounding rn) {c s : ℝ} (hc : |c| ≤ 1) (h0 : 0 ≤ s) (h1 : s ≤ 1)
    {i : ℕ} (hi : i < 10) {x : ℝ}
    (hx : x = if i + 1 = STEPS then rn (c + rn (3 * s)) else
      rn (rn (c - rn (3 * s)) + rn ((i : ℝ) *
        rn (rn (rn (c + rn (3 * s)) - rn (c - rn (3 * s))) / ((STEPS : ℝ) - 1))))) :
    |rn (x - c) - meshOffset i * s| ≤ 2 ^ (-45 : ℤ) := by
  have hu := uro_pos
  have hu1 := uro_lt
  have hw : (2 : ℝ) ^ (-45 : ℤ) = 256 * uro := by unfold uro; norm_num
  have bx := abs_le.1 (linspace_position h hc h0 h1 hi hx)
  have hi9 : (i : ℝ) ≤ 9 := by
    have : i ≤ 9 := by omega
    exact_mod_cast this
  have ho : |meshOffset i * s| ≤ 3 := by
    have hm : meshOffset i * s = -3 * s + i * (2 / 3 * s) := by unfold meshOffset; ring
    have hp : (i : ℝ) * (2 / 3 * s) ≤ 6 * s := by nlinarith
    have hp0 : 0 ≤ (i : ℝ) * (2 / 3 * s) := by positivity
    rw [hm, abs_le]
    constructor <;> linarith
  have bo := abs_le.1 ho
  have := h.near (x := x - c) (y := meshOffset i * s) (d := 2 * uro * 64) (K := 4)
    (by rw [abs_le]; constructor <;> linarith [bx.1, bx.2])
    (by rw [abs_le]; constructor <;> linarith [bx.1, bx.2, bo.1, bo.2]) (by norm_num) (by norm_num)
  linarith

/-- The squared distance in units of the spread. -/
theorem square_near {s o d : ℝ} (hs : (2 : ℝ) ^ (-30 : ℤ) ≤ s) (h1 : s ≤ 1) (ho : |o| ≤ 3)
    (hd : |d - o * s| ≤ 2 ^ (-45 : ℤ)) :
    s ^ 2 * (o ^ 2 - 1.84e-4) ≤ d ^ 2 ∧ d ^ 2 ≤ s ^ 2 * (o ^ 2 + 1.84e-4) := by
  have h0 : 0 < s := lt_of_lt_of_le (by positivity) hs
  obtain ⟨t, rfl⟩ : ∃ t, d = o * s + t * s := ⟨(d - o * s) / s, by field_simp; ring⟩
  have ht : |t| ≤ 2 ^ (-15 : ℤ) := by
    have : o * s + t * s - o * s = t * s := by ring
    rw [this, abs_mul, abs_of_pos h0] at hd
    by_contra hc
    push Not at hc
    have h2 : (2 : ℝ) ^ (-45 : ℤ) = 2 ^ (-15 : ℤ) * 2 ^ (-30 : ℤ) := by norm_num
    have : (2 : ℝ) ^ (-15 : ℤ) * 2 ^ (-30 : ℤ) < |t| * s :=
      mul_lt_mul hc hs (by positivity) (abs_nonneg _)
    linarith
  have e : (o * s + t * s) ^ 2 = s ^ 2 * (o ^ 2 + (2 * o * t + t ^ 2)) := by ring
  have hot : |o * t| ≤ 3 * 2 ^ (-15 : ℤ) := by
    rw [abs_mul]; exact mul_le_mul ho ht (abs_nonneg _) (by norm_num)
  have htt : t ^ 2 ≤ 2 ^ (-15 : ℤ) * 2 ^ (-15 : ℤ) := by
    rw [← sq_abs, sq]; exact mul_le_mul ht ht (abs_nonneg _) (by positivity)
  rw [abs_le] at hot
  norm_num at hot htt
  rw [e]
  have hs2 : 0 ≤ s ^ 2 := by positivity
  constructor
  · apply mul_le_mul_of_nonneg_left _ hs2
    norm_num
    nlinarith [sq_nonneg t, hot.1]
  · apply mul_le_mul_of_nonneg_left _ hs2
    norm_num
    nlinarith [sq_nonneg t, hot.2]

theorem meshOffset_abs {i : ℕ} (hi : i < 10) : |meshOffset i| ≤ 3 := by
  have hi0 : (0 : ℝ) ≤ i := by positivity
  have hi9 : (i : ℝ) ≤ 9 := by
    have : i ≤ 9 := by omega
    exact_mod_cast this
  unfold meshOffset
  rw [abs_le]
  constructor <;> linarith

theorem Rounding.negated {rn : ℝ → ℝ} (h : Rounding rn) : Rounding fun x => -rn (-x) := by
  intro x
  refine ⟨neg_mem (h (-x)).1, fun f hf => ?_⟩
  have := (h (-x)).2 (-f) (neg_mem hf)
  rw [← abs_neg (-rn (-x) - x), ← abs_neg (f - x)]
  convert this using 2 <;> ring

/-- Both bounds of `le_up` and `ge_low` at once, with a common margin. -/
theorem Rounding.within {rn : ℝ → ℝ} (h : Rounding rn) {x X a b : ℝ} (hX : 0 < X) (h1 : X * (1 - a) ≤ x)
    (h2 : x ≤ X * (1 + b)) (ha : a ≤ 1 / 2) (ha0 : 0 ≤ a) (hb : b ≤ 1) (hb0 : 0 ≤ b)
    (l1 : 1e-40 ≤ X) (l2 : X ≤ 1e40) :
    X * (1 - (a + uro)) ≤ rn x ∧ rn x ≤ X * (1 + (b + 2 * uro)) := by
  have hu := uro_pos
  constructor
  · have := h.ge_low h1 (tiny_le (by nlinarith)) (big_ge (by nlinarith))
    refine le_trans ?_ this
    rw [mul_assoc]
    apply mul_le_mul_of_nonneg_left _ hX.le
    nlinarith [mul_nonneg ha0 hu.le]
  · have := h.le_up h2 (tiny_le (by nlinarith)) (big_ge (by nlinarith))
    refine le_trans this ?_
    rw [mul_assoc]
    apply mul_le_mul_of_nonneg_left _ hX.le
    nlinarith

theorem half_mem : (1 / 2 : ℝ) ∈ Binary64 := ⟨1, -1, by norm_num, by norm_num, by norm_num, by norm_num⟩

theorem neg_half_mem : (-1 / 2 : ℝ) ∈ Binary64 :=
  ⟨-1, -1, by norm_num, by norm_num, by norm_num, by norm_num⟩

theorem sq_spread {rn : ℝ → ℝ} (h : Rounding rn) {s : ℝ} (hs : (2 : ℝ) ^ (-30 : ℤ) ≤ s) (h1 : s ≤ 1) :
    s ^ 2 * (1 - 1e-15) ≤ rn (s ^ 2) ∧ rn (s ^ 2) ≤ s ^ 2 * (1 + 1e-15) ∧ 1e-20 ≤ s ^ 2 ∧ s ^ 2 ≤ 1 := by
  have h0 : 0 < s := lt_of_lt_of_le (by positivity) hs
  have hs2 : (1e-20 : ℝ) ≤ s ^ 2 := by
    calc (1e-20 : ℝ) ≤ ((2 : ℝ) ^ (-30 : ℤ)) ^ 2 := by norm_num
      _ ≤ s ^ 2 := by gcongr
  have hs1 : s ^ 2 ≤ 1 := by nlinarith
  have hu := uro_pos
  have hu1 : uro < 2e-16 := by unfold uro; norm_num
  have := h.within (x := s ^ 2) (X := s ^ 2) (a := 0) (b := 0) (by positivity) (by simp) (by simp)
    (by norm_num) le_rfl (by norm_num) le_rfl (by linarith) (by linarith)
  refine ⟨le_trans ?_ this.1, le_trans this.2 ?_, hs2, hs1⟩
  · apply mul_le_mul_of_nonneg_left _ (by positivity)
    linarith
  · apply mul_le_mul_of_nonneg_left _ (by positivity)
    linarith

theorem scaled_near {rn : ℝ → ℝ} (h : Rounding rn) {S o d a b : ℝ} (hS : 1e-20 ≤ S) (hS1 : S ≤ 1)
    (ho : 1 / 10 ≤ o) (ho2 : o ≤ 19) (ha0 : 0 ≤ a) (ha : a ≤ 1e-3) (hb : a + 1e-14 ≤ b)
    (h1 : S * (o - a) ≤ d) (h2 : d ≤ S * (o + a)) : S * (o - b) ≤ rn d ∧ rn d ≤ S * (o + b) := by
  have hu := uro_pos
  have hu1 : uro < 2e-16 := by unfold uro; norm_num
  have hS0 : 0 < S := by linarith
  have q1 : S * (o - a) ≤ 1 * 20 := mul_le_mul hS1 (by linarith) (by linarith) (by norm_num)
  have q2 : (1e-20 : ℝ) * (1 / 20) ≤ S * (o - a) :=
    mul_le_mul hS (by linarith) (by norm_num) hS0.le
  have q3 : S * (o + a) ≤ 1 * 20 := mul_le_mul hS1 (by linarith) (by linarith) (by norm_num)
  have q4 : (1e-20 : ℝ) * (1 / 20) ≤ S * (o + a) :=
    mul_le_mul hS (by linarith) (by norm_num) hS0.le
  constructor
  · refine le_trans ?_ (h.ge_low h1 (tiny_le (by linarith)) (big_ge (by linarith)))
    rw [mul_assoc]
    apply mul_le_mul_of_nonneg_left _ hS0.le
    have : (o - a) * uro ≤ 20 * 2e-16 := mul_le_mul (by linarith) hu1.le hu.le (by norm_num)
    linarith
  · refine le_trans (h.le_up h2 (tiny_le (by linarith)) (big_ge (by linarith))) ?_
    rw [mul_assoc]
    apply mul_le_mul_of_nonneg_left _ hS0.le
    have : (o + a) * uro ≤ 20 * 2e-16 := mul_le_mul (by linarith) hu1.le hu.le (by norm_num)
    linarith

theorem inv_spread {rn : ℝ → ℝ} (h : Rounding rn) {S T : ℝ} (hS : 1e-20 ≤ S) (hS1 : S ≤ 1)
    (s1 : S * (1 - 1e-15) ≤ T) (s2 : T ≤ S * (1 + 1e-15)) :
    (1 / (2 * S)) * (1 - 3e-15) ≤ rn (1 / 2 / T) ∧ rn (1 / 2 / T) ≤ (1 / (2 * S)) * (1 + 3e-15) := by
  have hu := uro_pos
  have hu1 : uro < 2e-16 := by unfold uro; norm_num
  have hS0 : 0 < S := by linarith
  have hT : 0 < T := by linarith
  have b0 := h.within (x := 1 / 2 / T) (X := 1 / (2 * S)) (a := 2e-15) (b := 2e-15)
    (by positivity)
    (by
      rw [le_div_iff₀ hT, div_mul_eq_mul_div, div_mul_eq_mul_div, div_le_iff₀ (by positivity)]
      linarith)
    (by
      rw [div_le_iff₀ hT, div_mul_eq_mul_div, div_mul_eq_mul_div, le_div_iff₀ (by positivity)]
      linarith)
    (by norm_num) (by norm_num) (by norm_num) (by norm_num)
    (by rw [le_div_iff₀ (by positivity)]; linarith)
    (by rw [div_le_iff₀ (by positivity)]; linarith)
  exact ⟨le_trans (mul_le_mul_of_nonneg_left (by linarith) (by positivity)) b0.1,
    le_trans b0.2 (mul_le_mul_of_nonneg_left (by linarith) (by positivity))⟩

theorem product_near {rn : ℝ → ℝ} (h : Rounding rn) {S R B D : ℝ} (hS : 0 < S)
    (hR1 : 2 / 9 ≤ R) (hR2 : R ≤ 18)
    (hB1 : (1 / (2 * S)) * (1 - 3e-15) ≤ B) (hB2 : B ≤ (1 / (2 * S)) * (1 + 3e-15))
    (d1 : S * (R - 3.8e-4) ≤ D) (d2 : D ≤ S * (R + 3.8e-4)) :
    R / 2 - 2e-4 ≤ rn (B * D) ∧ 0 ≤ rn (B * D) ∧ rn (B * D) ≤ R / 2 + 2e-4 := by
  have hu := uro_pos
  have hu1 : uro < 2e-16 := by unfold uro; norm_num
  have hD0 : 0 < D := lt_of_lt_of_le (mul_pos hS (by linarith)) d1
  have hi : (1 / (2 * S)) * S = 1 / 2 := by field_simp
  have hB0 : 0 < B := lt_of_lt_of_le (by positivity) hB1
  have p1 : 1 / 2 * (R - 3.9e-4) ≤ B * D := by
    calc 1 / 2 * (R - 3.9e-4) ≤ 1 / 2 * ((1 - 3e-15) * (R - 3.8e-4)) := by linarith
      _ = ((1 / (2 * S)) * (1 - 3e-15)) * (S * (R - 3.8e-4)) := by
        rw [← hi]; ring
      _ ≤ B * D := mul_le_mul hB1 d1 (mul_nonneg hS.le (by linarith)) hB0.le
  have p2 : B * D ≤ 1 / 2 * (R + 3.9e-4) := by
    calc B * D ≤ ((1 / (2 * S)) * (1 + 3e-15)) * (S * (R + 3.8e-4)) :=
        mul_le_mul hB2 d2 hD0.le (by positivity)
      _ = 1 / 2 * ((1 + 3e-15) * (R + 3.8e-4)) := by rw [← hi]; ring
      _ ≤ 1 / 2 * (R + 3.9e-4) := by linarith
  have f1 := h.ge_low p1 (tiny_le (by linarith)) (big_ge (by linarith))
  have f2 := h.le_up p2 (tiny_le (by linarith)) (big_ge (by linarith))
  have f4 : 1 / 2 * (R + 3.9e-4) * uro ≤ 10 * 2e-16 :=
    mul_le_mul (by linarith) hu1.le hu.le (by norm_num)
  have f3 : 1 / 2 * (R - 3.9e-4) * uro ≤ 9 * 2e-16 :=
    mul_le_mul (by linarith) hu1.le hu.le (by norm_num)
  refine ⟨by linarith, h.nonneg (mul_pos hB0 hD0).le, by linarith⟩

/-- The exponent of the density. -/
theorem exponent_near {rn : ℝ → ℝ} (h : Rounding rn) {s p q dx dy : ℝ} (hs : (2 : ℝ) ^ (-30 : ℤ) ≤ s)
    (h1 : s ≤ 1) (hp : |p| ≤ 3) (hq : |q| ≤ 3) (hp1 : 1 / 9 ≤ p ^ 2) (hq1 : 1 / 9 ≤ q ^ 2)
    (hx : |dx - p * s| ≤ 2 ^ (-45 : ℤ)) (hy : |dy - q * s| ≤ 2 ^ (-45 : ℤ)) :
    rn (rn (rn (-1 / 2) / rn (s ^ 2)) * rn (rn (dx ^ 2) + rn (dy ^ 2)))
      ≤ -(p ^ 2 + q ^ 2) / 2 + 2e-4 ∧
    rn (rn (rn (-1 / 2) / rn (s ^ 2)) * rn (rn (dx ^ 2) + rn (dy ^ 2))) ≤ 0 ∧
    -(p ^ 2 + q ^ 2) / 2 - 2e-4 ≤ rn (rn (rn (-1 / 2) / rn (s ^ 2)) * rn (rn (dx ^ 2) + rn (dy ^ 2))) := by
  obtain ⟨s1, s2, hs2, hs1⟩ := sq_spread h hs h1
  obtain ⟨x1, x2⟩ := square_near hs h1 hp hx
  obtain ⟨y1, y2⟩ := square_near hs h1 hq hy
  have hp9 : p ^ 2 ≤ 9 := by
    rw [← sq_abs]; nlinarith [abs_nonneg p]
  have hq9 : q ^ 2 ≤ 9 := by
    rw [← sq_abs]; nlinarith [abs_nonneg q]
  rw [h.exact neg_half_mem]
  have hS : 0 < s ^ 2 := by linarith
  obtain ⟨x3, x4⟩ := scaled_near h hs2 hs1 (b := 1.85e-4) (by linarith) (by linarith) (by norm_num)
    (by norm_num) (by norm_num) x1 x2
  obtain ⟨y3, y4⟩ := scaled_near h hs2 hs1 (b := 1.85e-4) (by linarith) (by linarith) (by norm_num)
    (by norm_num) (by norm_num) y1 y2
  obtain ⟨d1, d2⟩ := scaled_near h hs2 hs1 (o := p ^ 2 + q ^ 2) (a := 3.7e-4) (b := 3.8e-4)
    (d := rn (dx ^ 2) + rn (dy ^ 2)) (by linarith)
    (by linarith) (by norm_num) (by norm_num) (by norm_num)
    (le_trans (le_of_eq (by ring)) (add_le_add x3 y3))
    (le_trans (add_le_add x4 y4) (le_of_eq (by ring)))
  have hn := h.negated
  obtain ⟨b1, b2⟩ := inv_spread hn hs2 hs1 s1 s2
  rw [show -(1 / 2 / rn (s ^ 2)) = -1 / 2 / rn (s ^ 2) by ring] at b1 b2
  obtain ⟨f1, f2, f3⟩ := product_near hn hS (R := p ^ 2 + q ^ 2) (by linarith) (by linarith) b1 b2 d1 d2
  simp only [neg_mul, neg_neg] at f1 f2 f3
  exact ⟨by linarith, by linarith, by linarith⟩

/-- Upper bound of a rounded product of positive factors, with the margins collected. -/
theorem Rounding.mul_up {rn : ℝ → ℝ} (h : Rounding rn) {x y X Y a b c : ℝ} (hx0 : 0 ≤ x)
    (hX0 : 0 < X) (hY0 : 0 < Y) (hx : x ≤ X * (1 + a)) (hy : y ≤ Y * (1 + b)) (ha : 0 ≤ a) (hb : 0 ≤ b)
    (hy0 : 0 ≤ y)
    (l1 : 1e-50 ≤ X * Y) (l2 : X * Y ≤ 1e49) (hc : (1 + a) * (1 + b) * (1 + 2e-16) ≤ 1 + c)
    (hc1 : (1 + a) * (1 + b) ≤ 10) :
    0 ≤ rn (x * y) ∧ rn (x * y) ≤ X * Y * (1 + c) := by
  have hu := uro_pos
  have hu1 : uro < 2e-16 := by unfold uro; norm_num
  refine ⟨h.nonneg (mul_nonneg hx0 hy0), ?_⟩
  have hXY : 0 < X * Y := mul_pos hX0 hY0
  have e : x * y ≤ X * Y * ((1 + a) * (1 + b)) := by
    calc x * y ≤ (X * (1 + a)) * (Y * (1 + b)) :=
        mul_le_mul hx hy hy0 (mul_nonneg hX0.le (by linarith))
      _ = _ := by ring
  have hab : 1 ≤ (1 + a) * (1 + b) := by nlinarith
  have f1 : X * Y * 1 ≤ X * Y * ((1 + a) * (1 + b)) := mul_le_mul_of_nonneg_left hab hXY.le
  have f2 : X * Y * ((1 + a) * (1 + b)) ≤ 1e49 * 10 :=
    mul_le_mul l2 hc1 (by linarith) (by norm_num)
  refine le_trans (h.le_up e (tiny_le (by linarith)) (big_ge (by linarith))) ?_
  rw [mul_assoc]
  apply mul_le_mul_of_nonneg_left _ hXY.le
  refine le_trans ?_ hc
  apply mul_le_mul_of_nonneg_left _ (by linarith)
  linarith

/-- Lower bound of a rounded product of positive factors, with the margins collected. -/
theorem Rounding.mul_low {rn : ℝ → ℝ} (h : Rounding rn) {x y X Y a b c : ℝ}
    (hX0 : 0 < X) (hY0 : 0 < Y) (hx : X * (1 - a) ≤ x) (hy : Y * (1 - b) ≤ y) (ha : a ≤ 1) (hb : b ≤ 1)
    (l1 : 1e-49 ≤ X * Y) (l2 : X * Y ≤ 1e49) (hc : 1 - c ≤ (1 - a) * (1 - b) * (1 - 2e-16))
    (hc1 : 1 / 10 ≤ (1 - a) * (1 - b)) (hc2 : (1 - a) * (1 - b) ≤ 10) : X * Y * (1 - c) ≤ rn (x * y) := by
  have hu := uro_pos
  have hu1 : uro < 2e-16 := by unfold uro; norm_num
  have hXY : 0 < X * Y := mul_pos hX0 hY0
  have e : X * Y * ((1 - a) * (1 - b)) ≤ x * y := by
    calc X * Y * ((1 - a) * (1 - b)) = (X * (1 - a)) * (Y * (1 - b)) := by ring
      _ ≤ x * y := mul_le_mul hx hy (mul_nonneg hY0.le (by linarith))
          (le_trans (mul_nonneg hX0.le (by linarith)) hx)
  have f1 : (1e-49 : ℝ) * (1 / 10) ≤ X * Y * ((1 - a) * (1 - b)) := mul_le_mul l1 hc1 (by norm_num) hXY.le
  have f2 : X * Y * ((1 - a) * (1 - b)) ≤ 1e49 * 10 := mul_le_mul l2 hc2 (by linarith) (by norm_num)
  refine le_trans ?_ (h.ge_low e (tiny_le (le_trans (by norm_num) f1)) (big_ge (f2.trans (by norm_num))))
  rw [mul_assoc (X * Y) _ (1 - uro)]
  apply mul_le_mul_of_nonneg_left _ hXY.le
  refine hc.trans ?_
  apply mul_le_mul_of_nonneg_left _ (by linarith)
  linarith

/-- The prefactor of the density. -/
theorem prefactor_near {m : Math64} (h : m.Ok) {S T : ℝ} (hS : 1e-20 ≤ S) (hS1 : S ≤ 1)
    (s1 : S * (1 - 1e-15) ≤ T) (s2 : T ≤ S * (1 + 1e-15)) :
    0 ≤ m.rn (m.rn (m.rn (1 / 2) / m.pi) / T) ∧
    m.rn (m.rn (m.rn (1 / 2) / m.pi) / T) ≤ 1 / (2 * Real.pi * S) * (1 + 1e-14) ∧
    1 / (2 * Real.pi * S) * (1 - 1e-14) ≤ m.rn (m.rn (m.rn (1 / 2) / m.pi) / T) := by
  have hu := uro_pos
  have hu1 : uro < 2e-16 := by unfold uro; norm_num
  have hr := h.rounding
  have p1 := Real.pi_gt_three
  have p2 := Real.pi_lt_four
  have hpi := abs_le.1 h.pi
  have hq : Real.pi * (1 - 1e-15) ≤ m.pi := by
    have : (-1e-15 : ℝ) ≤ m.pi - Real.pi := le_trans (by norm_num) hpi.1
    linarith
  have hq' : m.pi ≤ Real.pi * (1 + 1e-15) := by
    have : m.pi - Real.pi ≤ 1e-15 := le_trans hpi.2 (by norm_num)
    linarith
  have hq0 : 0 < m.pi := by linarith
  have hS0 : 0 < S := by linarith
  have hT : 0 < T := by linarith
  rw [hr.exact half_mem]
  have e1 : 1 / 2 / m.pi ≤ 1 / (2 * Real.pi) * (1 + 2e-15) := by
    rw [div_le_iff₀ hq0, div_mul_eq_mul_div, div_mul_eq_mul_div, le_div_iff₀ (by positivity)]
    linarith
  have l1 : (1 / 8 : ℝ) ≤ 1 / (2 * Real.pi) := by
    rw [div_le_div_iff₀ (by norm_num) (by positivity)]; linarith
  have l2 : 1 / (2 * Real.pi) ≤ (1 / 6 : ℝ) := by
    rw [div_le_div_iff₀ (by positivity) (by norm_num)]; linarith
  have e2 := hr.le_up e1 (tiny_le (by linarith)) (big_ge (by linarith))
  have e1' : 1 / (2 * Real.pi) * (1 - 2e-15) ≤ 1 / 2 / m.pi := by
    rw [le_div_iff₀ hq0, div_mul_eq_mul_div, div_mul_eq_mul_div, div_le_iff₀ (by positivity)]
    linarith
  have e3' : 1 / (2 * Real.pi) * (1 - 3e-15) ≤ m.rn (1 / 2 / m.pi) := by
    refine le_trans ?_ (hr.ge_low e1' (tiny_le (by linarith)) (big_ge (by linarith)))
    rw [mul_assoc]
    apply mul_le_mul_of_nonneg_left _ (by positivity)
    linarith
  have e0 : 0 ≤ m.rn (1 / 2 / m.pi) := hr.nonneg (by positivity)
  have e3 : m.rn (1 / 2 / m.pi) ≤ 1 / (2 * Real.pi) * (1 + 3e-15) := by
    refine e2.trans ?_
    rw [mul_assoc]
    apply mul_le_mul_of_nonneg_left _ (by positivity)
    linarith
  generalize m.rn (1 / 2 / m.pi) = k at *
  have e4 : k / T ≤ 1 / (2 * Real.pi * S) * (1 + 5e-15) := by
    rw [div_le_iff₀ hT]
    have : 1 / (2 * Real.pi * S) * (1 + 5e-15) * T =
        1 / (2 * Real.pi) * ((1 + 5e-15) * (T / S)) := by field_simp
    rw [this]
    refine e3.trans ?_
    apply mul_le_mul_of_nonneg_left _ (by positivity)
    have : 1 - 1e-15 ≤ T / S := by rw [le_div_iff₀ hS0]; linarith
    linarith
  have e4' : 1 / (2 * Real.pi * S) * (1 - 5e-15) ≤ k / T := by
    rw [le_div_iff₀ hT]
    have : 1 / (2 * Real.pi * S) * (1 - 5e-15) * T =
        1 / (2 * Real.pi) * ((1 - 5e-15) * (T / S)) := by field_simp
    rw [this]
    refine le_trans ?_ e3'
    apply mul_le_mul_of_nonneg_left _ (by positivity)
    have : T / S ≤ 1 + 1e-15 := by rw [div_le_iff₀ hS0]; linarith
    linarith
  have l3 : (1 / 8 : ℝ) ≤ 1 / (2 * Real.pi * S) := by
    refine l1.trans ?_
    apply one_div_le_one_div_of_le (by positivity)
    nlinarith
  have l4 : 1 / (2 * Real.pi * S) ≤ 1e20 := by
    rw [div_le_iff₀ (by positivity)]
    nlinarith
  refine ⟨hr.nonneg (by positivity), ?_, ?_⟩
  · refine le_trans (hr.le_up e4 (tiny_le (by linarith)) (big_ge (by linarith))) ?_
    rw [mul_assoc]
    apply mul_le_mul_of_nonneg_left _ (by positivity)
    linarith
  · refine le_trans ?_ (hr.ge_low e4' (tiny_le (by linarith)) (big_ge (by linarith)))
    rw [mul_assoc _ _ (1 - uro)]
    apply mul_le_mul_of_nonneg_left _ (by positivity)
    linarith

/-- The area of one mesh cell. -/
theorem area_near {rn : ℝ → ℝ} (h : Rounding rn) {s : ℝ} (hs : (2 : ℝ) ^ (-30 : ℤ) ≤ s) (h1 : s ≤ 1) :
    0 ≤ rn (rn (rn (2 * 3 * s) / ((STEPS : ℝ) - 1)) * rn (rn (2 * 3 * s) / ((STEPS : ℝ) - 1))) ∧
    rn (rn (rn (2 * 3 * s) / ((STEPS : ℝ) - 1)) * rn (rn (2 * 3 * s) / ((STEPS : ℝ) - 1)))
      ≤ 2 / 3 * s * (2 / 3 * s) * (1 + 1e-14) ∧
    2 / 3 * s * (2 / 3 * s) * (1 - 1e-14) ≤
      rn (rn (rn (2 * 3 * s) / ((STEPS : ℝ) - 1)) * rn (rn (2 * 3 * s) / ((STEPS : ℝ) - 1))) := by
  have hu := uro_pos
  have hu1 : uro < 2e-16 := by unfold uro; norm_num
  have hS : ((STEPS : ℝ) - 1) = 9 := by norm_num [STEPS]
  replace hs : (1e-10 : ℝ) ≤ s := le_trans (by norm_num) hs
  have h0 : 0 < s := by linarith
  rw [hS]
  have e1 := h.le_up (x := 2 * 3 * s) (X := 2 * 3 * s) le_rfl (tiny_le (by linarith)) (big_ge (by linarith))
  have e1' := h.ge_low (x := 2 * 3 * s) (X := 2 * 3 * s) le_rfl (tiny_le (by linarith)) (big_ge (by linarith))
  have e0 : 0 ≤ rn (2 * 3 * s) := h.nonneg (by positivity)
  generalize rn (2 * 3 * s) = k at *
  have e2 : k / 9 ≤ 2 / 3 * s * (1 + 2e-16) := by nlinarith
  have e3 := h.le_up e2 (tiny_le (by linarith)) (big_ge (by linarith))
  have e4 : rn (k / 9) ≤ 2 / 3 * s * (1 + 1e-15) := by
    refine e3.trans ?_
    rw [mul_assoc]
    apply mul_le_mul_of_nonneg_left _ (by positivity)
    linarith
  have e2' : 2 / 3 * s * (1 - 2e-16) ≤ k / 9 := by nlinarith
  have e4' : 2 / 3 * s * (1 - 1e-15) ≤ rn (k / 9) := by
    refine le_trans ?_ (h.ge_low e2' (tiny_le (by linarith)) (big_ge (by linarith)))
    rw [mul_assoc _ _ (1 - uro)]
    apply mul_le_mul_of_nonneg_left _ (by positivity)
    linarith
  have e5 : 0 ≤ rn (k / 9) := h.nonneg (by positivity)
  generalize rn (k / 9) = d at *
  have q1 : (1e-10 : ℝ) * 1e-10 ≤ s * s := mul_le_mul (by linarith) (by linarith) (by norm_num) h0.le
  have q2 : s * s ≤ 1 := by nlinarith
  obtain ⟨r1, r2⟩ := h.mul_up e5 (by positivity) (by positivity) e4 e4 (by norm_num) (by norm_num) e5
    (by nlinarith) (by nlinarith) (c := 1e-14) (by norm_num) (by norm_num)
  exact ⟨r1, r2, h.mul_low (by positivity) (by positivity) e4' e4' (by norm_num) (by norm_num) (by nlinarith)
    (by nlinarith) (by norm_num) (by norm_num) (by norm_num)⟩

theorem exp_small : Real.exp 2e-4 ≤ 1 + 2.01e-4 := by
  have h := Real.add_one_le_exp (-2e-4 : ℝ)
  rw [Real.exp_neg] at h
  have hp := Real.exp_pos (2e-4 : ℝ)
  have h2 : (-2e-4 + 1) * Real.exp 2e-4 ≤ 1 := by
    have := mul_le_mul_of_nonneg_right h hp.le
    rwa [inv_mul_cancel₀ hp.ne'] at this
  nlinarith

theorem exp_nine : (1e-5 : ℝ) ≤ Real.exp (-9) := by
  rw [Real.exp_neg, show (9 : ℝ) = ((9 : ℕ) : ℝ) * 1 by norm_num, Real.exp_nat_mul]
  have h : Real.exp 1 < 3 := by linarith [Real.exp_one_lt_d9]
  have h0 := Real.exp_pos 1
  rw [le_inv_comm₀ (by norm_num) (by positivity)]
  calc Real.exp 1 ^ 9 ≤ 3 ^ 9 := by gcongr
    _ ≤ _ := by norm_num

set_option maxHeartbeats 1000000 in
/-- The number of electrons of one pixel before truncation. -/
theorem pixel_value_near {m : Math64} (h : m.Ok) {s : ℝ} (hs : (2 : ℝ) ^ (-30 : ℤ) ≤ s) (h1 : s ≤ 1)
    {i j : ℕ} (hi : i < 10) (hj : j < 10) {pixel center : ℝ × ℝ}
    (hx : |m.rn (pixel.1 - center.1) - meshOffset i * s| ≤ 2 ^ (-45 : ℤ))
    (hy : |m.rn (pixel.2 - center.2) - meshOffset j * s| ≤ 2 ^ (-45 : ℤ))
    {e : ℤ} (he : 0 ≤ e) (he2 : e < 2 ^ 53) :
    0 ≤ pixel_electrons64 m center s e pixel ∧
    (pixel_electrons64 m center s e pixel : ℝ) ≤ meshWeight i j * e * (1 + 3e-4) ∧
    meshWeight i j * e * (1 - 3e-4) - 1 ≤ pixel_electrons64 m center s e pixel := by
  have hr := h.rounding
  have off : ∀ {i : ℕ}, i < 10 → 1 / 9 ≤ meshOffset i ^ 2 := by
    intro i hi
    unfold meshOffset
    interval_cases i <;> norm_num
  have ee : m.rn (e : ℝ) = e := hr.int (by rw [abs_lt]; constructor <;> omega)
  have hpi := Real.pi_pos
  have p2 := Real.pi_lt_four
  have p3 := Real.pi_gt_three
  obtain ⟨s1, s2, hs2, hs1⟩ := sq_spread hr hs h1
  obtain ⟨x1, x2, x3'⟩ := exponent_near hr hs h1 (meshOffset_abs hi) (meshOffset_abs hj) (off hi) (off hj)
    hx hy
  obtain ⟨c0, c1, c1'⟩ := prefactor_near h hs2 hs1 s1 s2
  obtain ⟨a0, a1, a1'⟩ := area_near hr hs h1
  have hR : meshOffset i ^ 2 + meshOffset j ^ 2 ≤ 18 := by
    have h9 : ∀ {i : ℕ}, i < 10 → meshOffset i ^ 2 ≤ 9 := by
      intro i hi
      rw [← sq_abs]; nlinarith [abs_nonneg (meshOffset i), meshOffset_abs hi]
    linarith [h9 hi, h9 hj]
  unfold pixel_electrons64 bivariate_normal_pdf64
  simp only
  rw [ee]
  generalize m.rn (m.rn (m.rn (-1 / 2) / m.rn (s ^ 2)) * m.rn (m.rn (m.rn (pixel.1 - center.1) ^ 2)
    + m.rn (m.rn (pixel.2 - center.2) ^ 2))) = c2 at *
  generalize m.rn (m.rn (m.rn (1 / 2) / m.pi) / m.rn (s ^ 2)) = k1 at *
  generalize m.rn (m.rn (m.rn (2 * 3 * s) / ((STEPS : ℝ) - 1)) * m.rn (m.rn (2 * 3 * s)
    / ((STEPS : ℝ) - 1))) = ar at *
  have x3 : -100 ≤ c2 := by linarith
  have hex := abs_le.1 (h.exp c2 x3 x2)
  have h50 : (2 : ℝ) ^ (-50 : ℤ) ≤ 1e-15 := by norm_num
  generalize hRR : meshOffset i ^ 2 + meshOffset j ^ 2 = R at *
  have hE : m.exp c2 ≤ Real.exp (-R / 2) * (1 + 2.1e-4) := by
    have hc : Real.exp c2 ≤ Real.exp (-R / 2) * (1 + 2.01e-4) := by
      calc Real.exp c2 ≤ Real.exp (-R / 2 + 2e-4) := Real.exp_le_exp.2 x1
        _ = Real.exp (-R / 2) * Real.exp 2e-4 := Real.exp_add _ _
        _ ≤ _ := mul_le_mul_of_nonneg_left exp_small (Real.exp_pos _).le
    have hp := Real.exp_pos c2
    have hp2 := Real.exp_pos (-R / 2)
    have t1 : (2 : ℝ) ^ (-50 : ℤ) * Real.exp c2 ≤ 1e-15 * Real.exp c2 :=
      mul_le_mul_of_nonneg_right h50 hp.le
    have t2 := hex.2.trans t1
    linarith
  have hE' : Real.exp (-R / 2) * (1 - 2.1e-4) ≤ m.exp c2 := by
    have hc : Real.exp (-R / 2) * (1 - 2e-4) ≤ Real.exp c2 := by
      calc Real.exp (-R / 2) * (1 - 2e-4) ≤ Real.exp (-R / 2) * Real.exp (-2e-4) :=
            mul_le_mul_of_nonneg_left (by linarith [Real.add_one_le_exp (-2e-4 : ℝ)]) (Real.exp_pos _).le
        _ = Real.exp (-R / 2 - 2e-4) := by rw [← Real.exp_add]; rfl
        _ ≤ Real.exp c2 := Real.exp_le_exp.2 x3'
    have hp := Real.exp_pos c2
    have hp2 := Real.exp_pos (-R / 2)
    have t1 : (2 : ℝ) ^ (-50 : ℤ) * Real.exp c2 ≤ 1e-15 * Real.exp c2 :=
      mul_le_mul_of_nonneg_right h50 hp.le
    have t2 := (neg_le_neg t1).trans hex.1
    linarith
  have hEl : (1e-5 : ℝ) ≤ Real.exp (-R / 2) :=
    exp_nine.trans (Real.exp_le_exp.2 (by linarith))
  have hR0 : 0 ≤ R := by rw [← hRR]; positivity
  have hEu : Real.exp (-R / 2) ≤ 1 := Real.exp_le_one_iff.2 (by linarith)
  have hE0 : 0 < Real.exp (-R / 2) := Real.exp_pos _
  have hS0 : 0 < s ^ 2 := by linarith
  have hW : meshWeight i j = 1 / (2 * Real.pi * s ^ 2) * Real.exp (-R / 2) * (2 / 3 * s * (2 / 3 * s)) := by
    unfold meshWeight
    rw [hRR]
    have : s ≠ 0 := by intro h0; rw [h0] at hS0; norm_num at hS0
    field_simp
  replace hs : (1e-10 : ℝ) ≤ s := le_trans (by norm_num) hs
  have hs0 : 0 < s := by linarith
  generalize hK : 1 / (2 * Real.pi * s ^ 2) = K at *
  have hK1 : (1 / 8 : ℝ) ≤ K := by
    rw [← hK, div_le_div_iff₀ (by norm_num) (by positivity)]; nlinarith
  have hK2 : K ≤ 1e20 := by
    rw [← hK, div_le_iff₀ (by positivity)]; nlinarith
  generalize Real.exp (-R / 2) = X at *
  have hK0 : 0 < K := by linarith
  have f1l : (1 / 8 : ℝ) * 1e-5 ≤ K * X := mul_le_mul hK1 hEl (by norm_num) hK0.le
  have f1u : K * X ≤ 1e20 * 1 := mul_le_mul hK2 hEu hE0.le (by norm_num)
  obtain ⟨q0, q1⟩ := hr.mul_up (c := 2.11e-4) c0 hK0 hE0 c1 hE (by norm_num) (by norm_num)
    (h.exp_nonneg _) (by linarith) (by linarith) (by norm_num) (by norm_num)
  have q1' := hr.mul_low (c := 2.11e-4) hK0 hE0 c1' hE' (by norm_num) (by norm_num) (by linarith) (by linarith)
    (by norm_num) (by norm_num) (by norm_num)
  generalize m.rn (k1 * m.exp c2) = pd at *
  have ss1 : (1e-10 : ℝ) * 1e-10 ≤ s * s := mul_le_mul (by linarith) (by linarith) (by norm_num) hs0.le
  have ss2 : s * s ≤ 1 := by nlinarith
  have w1 : (1e-40 : ℝ) ≤ K * X * (2 / 3 * s * (2 / 3 * s)) := by
    calc (1e-40 : ℝ) ≤ (1 / 8 * 1e-5) * (4 / 9 * (1e-10 * 1e-10)) := by norm_num
      _ ≤ K * X * (2 / 3 * s * (2 / 3 * s)) :=
        mul_le_mul f1l (by linarith) (by norm_num) (mul_pos hK0 hE0).le
  have w2 : K * X * (2 / 3 * s * (2 / 3 * s)) ≤ 1e20 := by
    calc K * X * (2 / 3 * s * (2 / 3 * s)) ≤ 1e20 * 1 :=
        mul_le_mul (by linarith) (by linarith) (by positivity) (by norm_num)
      _ ≤ _ := by norm_num
  obtain ⟨v0, v1⟩ := hr.mul_up (c := 2.12e-4) q0 (mul_pos hK0 hE0) (by positivity) q1 a1 (by norm_num)
    (by norm_num) a0 (by linarith) (by linarith) (by norm_num) (by norm_num)
  have v1' := hr.mul_low (c := 2.12e-4) (mul_pos hK0 hE0) (by positivity) q1' a1' (by norm_num) (by norm_num)
    (by linarith) (by linarith) (by norm_num) (by norm_num) (by norm_num)
  generalize m.rn (pd * ar) = fr at *
  rw [← hW] at v1 v1' w1 w2
  have hw0 := meshWeight_pos i j
  rcases he.eq_or_lt with rfl | hpos
  · rw [Int.cast_zero, mul_zero, hr.exact zero_mem]
    simp [pyInt]
  · have e1 : (1 : ℝ) ≤ e := by exact_mod_cast hpos
    have e2 : (e : ℝ) ≤ 2 ^ 53 := by exact_mod_cast he2.le
    have w3 : meshWeight i j * (e : ℝ) ≤ 1e20 * 2 ^ 53 :=
      mul_le_mul w2 e2 (by linarith) (by norm_num)
    have w4 : (1e-40 : ℝ) * 1 ≤ meshWeight i j * (e : ℝ) := mul_le_mul w1 e1 (by norm_num) hw0.le
    obtain ⟨z0, z1⟩ := hr.mul_up (y := (e : ℝ)) (Y := (e : ℝ)) (b := 0) (c := 3e-4) v0 hw0 (by linarith) v1
      (by simp) (by norm_num) le_rfl (by linarith) (le_trans (by norm_num) w4)
      (le_trans w3 (by norm_num)) (by norm_num) (by norm_num)
    have z2 := hr.mul_low (y := (e : ℝ)) (Y := (e : ℝ)) (b := 0) (c := 3e-4) hw0 (by linarith) v1'
      (by simp) (by norm_num) (by norm_num) (le_trans (by norm_num) w4) (le_trans w3 (by norm_num))
      (by norm_num) (by norm_num) (by norm_num)
    refine ⟨pyInt_nonneg z0, (pyInt_le z0).trans z1, ?_⟩
    rw [pyInt_of_nonneg z0]
    linarith [Int.lt_floor_add_one (m.rn (fr * (e : ℝ)))]

end Verif.Machine
