import Verif.Props.Distributions
import Mathlib.Probability.Distributions.Gaussian.Real
import Mathlib.Analysis.Complex.ExponentialBounds

/-! # C74: the width of `ExcitationGaussian` -/

namespace Verif.Props

open Verif.Kinematics MeasureTheory ProbabilityTheory

variable {σ : Type}

/-- The generator in a random state: `normal(m, sd)` follows the normal distribution with mean `m` and
standard deviation `sd`. -/
structure NormalGen [MeasurableSpace σ] (rng : Gen σ) (μ : Measure σ) : Prop where
  measurable : ∀ m sd, Measurable fun s => (rng.normal m sd s).1
  law : ∀ (m : ℝ) (sd : NNReal), μ.map (fun s => (rng.normal m sd s).1) = gaussianReal m (sd ^ 2)

/-- The full width at half maximum of a density with its maximum at `c` is `w`, up to a relative error of
`tol` in the density: the density is largest at `c`, and half as large at `c - w/2` and `c + w/2`. -/
structure HasFWHM (f : ℝ → ℝ) (c w tol : ℝ) : Prop where
  peak : ∀ x, f x ≤ f c
  left : |f (c - w / 2) / f c - 1 / 2| ≤ tol
  right : |f (c + w / 2) / f c - 1 / 2| ≤ tol

/-- `exp(-2.355²/8)` is one half, up to 0.00006. -/
theorem exp_half : |Real.exp (-(2.355 ^ 2 / 8)) - 1 / 2| ≤ 0.00006 := by
  have h1 := Real.log_two_gt_d9
  have h2 := Real.log_two_lt_d9
  have e : Real.exp (-(2.355 ^ 2 / 8 : ℝ)) = 1 / 2 * Real.exp (Real.log 2 - 2.355 ^ 2 / 8) := by
    rw [Real.exp_sub, Real.exp_log two_pos, Real.exp_neg]
    ring
  have hl := Real.add_one_le_exp (Real.log 2 - 2.355 ^ 2 / 8)
  have hu : Real.exp (Real.log 2 - 2.355 ^ 2 / 8) ≤ 1 := by
    rw [Real.exp_le_one_iff]
    norm_num at h2 ⊢
    linarith
  have hd : -(0.00012 : ℝ) ≤ Real.log 2 - 2.355 ^ 2 / 8 := by
    norm_num at h1 ⊢
    linarith
  rw [e, abs_le]
  constructor
  · norm_num at hd hl ⊢
    linarith
  · linarith

/-- The density of a normal distribution relative to its peak. -/
theorem gaussian_ratio {m : ℝ} {v : NNReal} (hv : v ≠ 0) (x : ℝ) :
    gaussianPDFReal m v x / gaussianPDFReal m v m = Real.exp (-(x - m) ^ 2 / (2 * v)) := by
  have h : (0 : ℝ) < v := by positivity
  unfold gaussianPDFReal
  have : (Real.sqrt (2 * Real.pi * v))⁻¹ ≠ 0 := by positivity
  rw [mul_div_mul_left _ _ this]
  simp

/-- **C74.** The excitation energies of `ExcitationGaussian(centroid, width)` follow a normal
distribution centred at the centroid whose full width at half maximum is the given width (the density
there is one half of the peak up to 0.00006). -/
theorem C74_fwhm [MeasurableSpace σ] {rng : Gen σ} {μ : Measure σ} (hr : NormalGen rng μ)
    (centroid : ℝ) {width : ℝ} (hw : 0 < width) :
    ∃ (X : σ → ℝ) (next : σ → σ) (v : NNReal), Measurable X ∧
      (∀ s, (mkExcitationGaussian centroid width).sample rng s = .ok (X s, next s)) ∧
      μ.map X = volume.withDensity (fun x => ENNReal.ofReal (gaussianPDFReal centroid v x)) ∧
      HasFWHM (gaussianPDFReal centroid v) centroid width 0.00006 := by
  have hs : 0 < width / 2.355 := by positivity
  set sd : NNReal := ⟨width / 2.355, hs.le⟩ with hsd
  have hsd0 : sd ≠ 0 := by
    intro h
    have : (sd : ℝ) = 0 := by rw [h]; rfl
    exact hs.ne' this
  have hv : sd ^ 2 ≠ 0 := pow_ne_zero 2 hsd0
  refine ⟨fun s => (rng.normal centroid sd s).1, fun s => (rng.normal centroid sd s).2, sd ^ 2,
    hr.measurable _ _, ?_, ?_, ?_⟩
  · intro s
    unfold ExcitationGaussian.sample mkExcitationGaussian
    simp only
    rw [if_neg (not_lt.2 hs.le)]
    rfl
  · rw [hr.law, gaussianReal_of_var_ne_zero _ hv]
    rfl
  · have hpos := gaussianPDFReal_pos centroid (sd ^ 2) centroid hv
    have hval : ((sd ^ 2 : NNReal) : ℝ) = (width / 2.355) ^ 2 := by
      rw [NNReal.coe_pow]
      rfl
    have hexp : -(width / 2) ^ 2 / (2 * ((sd ^ 2 : NNReal) : ℝ)) = -(2.355 ^ 2 / 8) := by
      rw [hval]
      field_simp
      norm_num
    refine ⟨fun x => ?_, ?_, ?_⟩
    · have := gaussian_ratio (m := centroid) hv x
      rw [div_eq_iff hpos.ne'] at this
      rw [this]
      have h1 : Real.exp (-(x - centroid) ^ 2 / (2 * ((sd ^ 2 : NNReal) : ℝ))) ≤ 1 := by
        rw [Real.exp_le_one_iff]
        apply div_nonpos_of_nonpos_of_nonneg
        · simp [sq_nonneg]
        · positivity
      exact mul_le_of_le_one_left hpos.le h1
    · rw [gaussian_ratio hv, show centroid - width / 2 - centroid = -(width / 2) by ring, neg_sq, hexp]
      exact exp_half
    · rw [gaussian_ratio hv, show centroid + width / 2 - centroid = width / 2 by ring, hexp]
      exact exp_half

/-- A generator whose state is a standard normal number. -/
noncomputable def gaussGen : Gen ℝ :=
  { normal := fun m sd s => (m + sd * s, s), uniform := fun a _ s => (a, s) }

/-- C74 applies to it. -/
theorem gaussGen_normal : NormalGen gaussGen (gaussianReal 0 1) where
  measurable := fun m sd => by
    show Measurable fun s => m + sd * s
    fun_prop
  law := fun m sd => by
    show (gaussianReal 0 1).map (fun s => m + sd * s) = _
    have h := gaussianReal_map_const_mul (μ := 0) (v := 1) (sd : ℝ)
    have h2 : (fun s : ℝ => m + sd * s) = (fun y => m + y) ∘ fun s => (sd : ℝ) * s := rfl
    rw [h2, ← Measure.map_map (by fun_prop) (by fun_prop), h, gaussianReal_map_const_add]
    congr 1
    · ring
    · ext
      simp

end Verif.Props
