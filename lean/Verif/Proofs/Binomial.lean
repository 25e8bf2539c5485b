import Mathlib.Probability.Moments.SubGaussian
import Mathlib.RingTheory.Polynomial.Bernstein
import Mathlib.MeasureTheory.Integral.DominatedConvergence

/-! # Bounds on the tails of the binomial distribution -/

namespace Verif.Props

open MeasureTheory ProbabilityTheory

/-- The probability of `m` successes in `n` trials. -/
noncomputable def binomTerm (n : ℕ) (r : ℝ) (m : ℕ) : ℝ := n.choose m * r ^ m * (1 - r) ^ (n - m)

theorem binomTerm_nonneg {n : ℕ} {r : ℝ} (h0 : 0 ≤ r) (h1 : r ≤ 1) (m : ℕ) : 0 ≤ binomTerm n r m := by
  have : 0 ≤ 1 - r := by linarith
  unfold binomTerm
  positivity

theorem binomTerm_mean (n : ℕ) (r : ℝ) : ∑ m ∈ Finset.range (n + 1), (m : ℝ) * binomTerm n r m = n * r := by
  have h := congrArg (Polynomial.eval r) (bernsteinPolynomial.sum_smul ℝ n)
  simpa [Polynomial.eval_finset_sum, bernsteinPolynomial, binomTerm] using h

theorem binomTerm_variance (n : ℕ) (r : ℝ) :
    ∑ m ∈ Finset.range (n + 1), ((m : ℝ) - n * r) ^ 2 * binomTerm n r m = n * r * (1 - r) := by
  have h := congrArg (Polynomial.eval r) (bernsteinPolynomial.variance ℝ n)
  simp only [Polynomial.eval_finset_sum, bernsteinPolynomial, Polynomial.eval_mul, Polynomial.eval_pow,
    Polynomial.eval_sub, Polynomial.eval_X, Polynomial.eval_natCast,
    Polynomial.eval_one, nsmul_eq_mul] at h
  rw [← h]
  refine Finset.sum_congr rfl fun m _ => ?_
  unfold binomTerm
  ring

open Classical in
theorem binom_chebyshev {n : ℕ} (hn : 0 < n) {r : ℝ} (h0 : 0 ≤ r) (h1 : r ≤ 1) {ε : ℝ} (hε : 0 < ε) :
    ∑ m ∈ (Finset.range (n + 1)).filter (fun m : ℕ => ε ≤ |(m : ℝ) / n - r|), binomTerm n r m
      ≤ r * (1 - r) / (n * ε ^ 2) := by
  have hnR : (0 : ℝ) < n := by exact_mod_cast hn
  have h2 : ∑ m ∈ (Finset.range (n + 1)).filter (fun m : ℕ => ε ≤ |(m : ℝ) / n - r|),
      (n * ε) ^ 2 * binomTerm n r m ≤ n * r * (1 - r) := by
    rw [← binomTerm_variance n r]
    refine (Finset.sum_le_sum fun m hm => ?_).trans
      (Finset.sum_le_sum_of_subset_of_nonneg (Finset.filter_subset _ _) fun m _ _ =>
        mul_nonneg (sq_nonneg _) (binomTerm_nonneg h0 h1 m))
    refine mul_le_mul_of_nonneg_right ?_ (binomTerm_nonneg h0 h1 m)
    have h3 := (Finset.mem_filter.1 hm).2
    have h4 : (m : ℝ) - n * r = n * ((m : ℝ) / n - r) := by field_simp
    rw [h4, mul_pow, mul_pow]
    refine mul_le_mul_of_nonneg_left ?_ (by positivity)
    rw [← sq_abs ((m : ℝ) / n - r)]
    exact pow_le_pow_left₀ hε.le h3 2
  rw [← Finset.mul_sum] at h2
  rw [le_div_iff₀ (by positivity)]
  nlinarith

/-- Hoeffding's lemma for one trial. -/
theorem mgf_trial {r : ℝ} (h0 : 0 ≤ r) (h1 : r ≤ 1) (t : ℝ) :
    r * Real.exp (t * (1 - r)) + (1 - r) * Real.exp (t * -r) ≤ Real.exp (t ^ 2 / 8) := by
  have h1' : 0 ≤ 1 - r := by linarith
  let ν : Measure ℝ := ENNReal.ofReal r • Measure.dirac 1 + ENNReal.ofReal (1 - r) • Measure.dirac 0
  have hν : IsProbabilityMeasure ν := ⟨by
    simp only [ν, Measure.coe_add, Measure.coe_smul, Pi.add_apply, Pi.smul_apply, measure_univ, smul_eq_mul,
      mul_one]
    rw [← ENNReal.ofReal_add h0 h1']
    simp⟩
  have hint : ∀ f : ℝ → ℝ, ∫ x, f x ∂ν = r * f 1 + (1 - r) * f 0 := by
    intro f
    have hd : ∀ a : ℝ, Integrable f (Measure.dirac a) := fun a => integrable_dirac (by simp)
    simp only [ν]
    rw [integral_add_measure ((hd 1).smul_measure ENNReal.ofReal_ne_top)
      ((hd 0).smul_measure ENNReal.ofReal_ne_top), integral_smul_measure, integral_smul_measure,
      integral_dirac, integral_dirac, ENNReal.toReal_ofReal h0, ENNReal.toReal_ofReal h1']
    rfl
  have hb : ∀ᵐ x ∂ν, x ∈ Set.Icc (0 : ℝ) 1 := by
    simp only [ν]
    rw [ae_add_measure_iff]
    constructor
    · exact Measure.ae_smul_measure (by simp) _
    · exact Measure.ae_smul_measure (by simp) _
  have h := (hasSubgaussianMGF_of_mem_Icc (X := fun x : ℝ => x) (μ := ν) aemeasurable_id hb).mgf_le t
  rw [mgf, hint, hint] at h
  simp only [mul_one, mul_zero, add_zero, zero_sub] at h
  refine h.trans (le_of_eq ?_)
  congr 1
  simp
  ring

open Classical in
theorem binom_upper {n : ℕ} (hn : 0 < n) {r : ℝ} (h0 : 0 ≤ r) (h1 : r ≤ 1) {ε : ℝ} (hε : 0 ≤ ε) :
    ∑ m ∈ (Finset.range (n + 1)).filter (fun m : ℕ => ε ≤ (m : ℝ) / n - r), binomTerm n r m
      ≤ Real.exp (-2 * n * ε ^ 2) := by
  have hnR : (0 : ℝ) < n := by exact_mod_cast hn
  have h1' : 0 ≤ 1 - r := by linarith
  have hsum : ∑ m ∈ Finset.range (n + 1), Real.exp (4 * ε * (m - n * r)) * binomTerm n r m
      = (r * Real.exp (4 * ε * (1 - r)) + (1 - r) * Real.exp (4 * ε * -r)) ^ n := by
    rw [add_pow]
    refine Finset.sum_congr rfl fun m hm => ?_
    have hm := Nat.lt_succ_iff.1 (Finset.mem_range.1 hm)
    unfold binomTerm
    rw [mul_pow, mul_pow, ← Real.exp_nat_mul, ← Real.exp_nat_mul]
    have : Real.exp (4 * ε * (m - n * r)) = Real.exp (m * (4 * ε * (1 - r)))
        * Real.exp (((n - m : ℕ) : ℝ) * (4 * ε * -r)) := by
      rw [← Real.exp_add, Nat.cast_sub hm]
      congr 1
      ring
    rw [this]
    ring
  have h2 : ∑ m ∈ (Finset.range (n + 1)).filter (fun m : ℕ => ε ≤ (m : ℝ) / n - r),
      Real.exp (4 * ε * (n * ε)) * binomTerm n r m ≤ Real.exp ((4 * ε) ^ 2 / 8) ^ n := by
    refine le_trans ?_ (pow_le_pow_left₀ (by positivity) (mgf_trial h0 h1 (4 * ε)) n)
    rw [← hsum]
    refine (Finset.sum_le_sum fun m hm => ?_).trans
      (Finset.sum_le_sum_of_subset_of_nonneg (Finset.filter_subset _ _) fun m _ _ =>
        mul_nonneg (Real.exp_pos _).le (binomTerm_nonneg h0 h1 m))
    refine mul_le_mul_of_nonneg_right (Real.exp_le_exp.2 ?_) (binomTerm_nonneg h0 h1 m)
    have h3 := (Finset.mem_filter.1 hm).2
    have h4 : (m : ℝ) - n * r = n * ((m : ℝ) / n - r) := by field_simp
    rw [h4]
    exact mul_le_mul_of_nonneg_left (mul_le_mul_of_nonneg_left h3 hnR.le) (by positivity)
  rw [← Finset.mul_sum, ← Real.exp_nat_mul] at h2
  rw [show -2 * (n : ℝ) * ε ^ 2 = n * ((4 * ε) ^ 2 / 8) - 4 * ε * (n * ε) by ring, Real.exp_sub,
    le_div_iff₀ (Real.exp_pos _), mul_comm]
  exact h2

open Classical in
theorem binom_lower {n : ℕ} (hn : 0 < n) {r : ℝ} (h0 : 0 ≤ r) (h1 : r ≤ 1) {ε : ℝ} (hε : 0 ≤ ε) :
    ∑ m ∈ (Finset.range (n + 1)).filter (fun m : ℕ => ε ≤ r - (m : ℝ) / n), binomTerm n r m
      ≤ Real.exp (-2 * n * ε ^ 2) := by
  refine le_trans (le_of_eq ?_) (binom_upper hn (r := 1 - r) (by linarith) (by linarith) hε)
  have hnR : (0 : ℝ) < n := by exact_mod_cast hn
  refine Finset.sum_bij' (fun m _ => n - m) (fun m _ => n - m) ?_ ?_ ?_ ?_ ?_
  · intro m hm
    obtain ⟨h2, h3⟩ := Finset.mem_filter.1 hm
    have h2 := Nat.lt_succ_iff.1 (Finset.mem_range.1 h2)
    refine Finset.mem_filter.2 ⟨Finset.mem_range.2 (by omega), ?_⟩
    rw [Nat.cast_sub h2, sub_div, div_self hnR.ne']
    linarith
  · intro m hm
    obtain ⟨h2, h3⟩ := Finset.mem_filter.1 hm
    have h2 := Nat.lt_succ_iff.1 (Finset.mem_range.1 h2)
    refine Finset.mem_filter.2 ⟨Finset.mem_range.2 (by omega), ?_⟩
    rw [Nat.cast_sub h2, sub_div, div_self hnR.ne']
    linarith
  · intro m hm
    have := Finset.mem_range.1 (Finset.mem_filter.1 hm).1
    omega
  · intro m hm
    have := Finset.mem_range.1 (Finset.mem_filter.1 hm).1
    omega
  · intro m hm
    have h2 := Nat.lt_succ_iff.1 (Finset.mem_range.1 (Finset.mem_filter.1 hm).1)
    unfold binomTerm
    rw [Nat.choose_symm h2, show n - (n - m) = m by omega, sub_sub_cancel]
    ring

open Classical in
theorem binom_hoeffding {n : ℕ} (hn : 0 < n) {r : ℝ} (h0 : 0 ≤ r) (h1 : r ≤ 1) {ε : ℝ} (hε : 0 ≤ ε) :
    ∑ m ∈ (Finset.range (n + 1)).filter (fun m : ℕ => ε ≤ |(m : ℝ) / n - r|), binomTerm n r m
      ≤ 2 * Real.exp (-2 * n * ε ^ 2) := by
  have hsub : (Finset.range (n + 1)).filter (fun m : ℕ => ε ≤ |(m : ℝ) / n - r|)
      ⊆ (Finset.range (n + 1)).filter (fun m : ℕ => ε ≤ (m : ℝ) / n - r)
        ∪ (Finset.range (n + 1)).filter (fun m : ℕ => ε ≤ r - (m : ℝ) / n) := by
    intro m hm
    obtain ⟨h2, h3⟩ := Finset.mem_filter.1 hm
    rw [Finset.mem_union, Finset.mem_filter, Finset.mem_filter]
    rcases le_abs.1 h3 with h4 | h4
    · exact .inl ⟨h2, h4⟩
    · exact .inr ⟨h2, by linarith⟩
  have h3 := Finset.sum_union_inter (s₁ := (Finset.range (n + 1)).filter (fun m : ℕ => ε ≤ (m : ℝ) / n - r))
    (s₂ := (Finset.range (n + 1)).filter (fun m : ℕ => ε ≤ r - (m : ℝ) / n)) (f := binomTerm n r)
  have h4 : 0 ≤ ∑ m ∈ (Finset.range (n + 1)).filter (fun m : ℕ => ε ≤ (m : ℝ) / n - r)
      ∩ (Finset.range (n + 1)).filter (fun m : ℕ => ε ≤ r - (m : ℝ) / n), binomTerm n r m :=
    Finset.sum_nonneg fun m _ => binomTerm_nonneg h0 h1 m
  have h5 := Finset.sum_le_sum_of_subset_of_nonneg (f := binomTerm n r) hsub
    fun m _ _ => binomTerm_nonneg h0 h1 m
  have h6 := binom_upper hn h0 h1 hε
  have h7 := binom_lower hn h0 h1 hε
  linarith

end Verif.Props
