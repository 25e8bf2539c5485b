import Verif.Spec.Sampling
import Mathlib.Probability.Distributions.Gaussian.Real
import Mathlib.Probability.Moments.Variance
import Mathlib.Probability.Independence.Basic
import Mathlib.MeasureTheory.Function.Floor

/-! # The distribution of truncated normal numbers -/

namespace Verif.Props

open MeasureTheory ProbabilityTheory Verif.Spec Verif.Kinematics

/-! ## Truncation -/

/-- What truncation removes. -/
noncomputable def cut (x : ℝ) : ℝ := x - pyInt x

theorem pyInt_neg (x : ℝ) : pyInt (-x) = -pyInt x := by
  unfold pyInt
  rcases lt_trichotomy x 0 with h | rfl | h
  · rw [if_pos (by linarith), if_neg (by linarith), Int.floor_neg]
  · simp
  · rw [if_neg (by linarith), if_pos h.le, Int.ceil_neg]

theorem cut_neg (x : ℝ) : cut (-x) = -cut x := by
  unfold cut
  rw [pyInt_neg]
  push_cast
  ring

theorem cut_of_nonneg {x : ℝ} (h : 0 ≤ x) : 0 ≤ cut x ∧ cut x < 1 := by
  unfold cut pyInt
  rw [if_pos h]
  have h1 := Int.floor_le x
  have h2 := Int.lt_floor_add_one x
  constructor <;> linarith

theorem cut_abs (x : ℝ) : |cut x| ≤ 1 := by
  rcases le_total 0 x with h | h
  · have := cut_of_nonneg h
    rw [abs_of_nonneg this.1]; exact this.2.le
  · have := cut_of_nonneg (x := -x) (by linarith)
    rw [← abs_neg, ← cut_neg, abs_of_nonneg this.1]; exact this.2.le

theorem cut_unit {x : ℝ} (h0 : 0 < x) (h1 : x < 1) : cut x = x := by
  unfold cut pyInt
  rw [if_pos h0.le, Int.floor_eq_zero_iff.2 ⟨h0.le, h1⟩]
  simp

theorem measurable_pyInt : Measurable pyInt :=
  Measurable.ite measurableSet_Ici Int.measurable_floor Int.measurable_ceil

theorem measurable_cut : Measurable cut :=
  measurable_id.sub ((measurable_from_top (f := fun n : ℤ => (n : ℝ))).comp measurable_pyInt)

theorem integrable_cut {Ω : Type} [MeasurableSpace Ω] {P : Measure Ω} [IsFiniteMeasure P] {X : Ω → ℝ}
    (hX : Measurable X) : Integrable (fun ω => cut (X ω)) P :=
  Integrable.of_bound (measurable_cut.comp hX).aestronglyMeasurable 1
    (ae_of_all _ fun ω => cut_abs (X ω))

/-! ## The bias -/

theorem pdf_lt {m x : ℝ} {v : NNReal} (hv : v ≠ 0) (hm : 0 < m) (hx : 0 < x) :
    gaussianPDFReal m v (-x) < gaussianPDFReal m v x := by
  have hv' : (0 : ℝ) < v := by positivity
  unfold gaussianPDFReal
  apply mul_lt_mul_of_pos_left _ (by positivity)
  rw [Real.exp_lt_exp]
  apply div_lt_div_of_pos_right _ (by positivity)
  nlinarith [mul_pos hm hx]

theorem pdf_le {m x : ℝ} {v : NNReal} (hm : 0 ≤ m) (hx : 0 ≤ x) :
    gaussianPDFReal m v (-x) ≤ gaussianPDFReal m v x := by
  unfold gaussianPDFReal
  apply mul_le_mul_of_nonneg_left _ (by positivity)
  rw [Real.exp_le_exp]
  apply div_le_div_of_nonneg_right _ (by positivity)
  nlinarith [mul_nonneg hm hx]

theorem integrable_pdf_cut (m : ℝ) (v : NNReal) :
    Integrable fun x => gaussianPDFReal m v x * cut x := by
  refine ((integrable_gaussianPDFReal m v).norm).mono'
    ((measurable_gaussianPDFReal m v).mul measurable_cut).aestronglyMeasurable (ae_of_all _ fun x => ?_)
  rw [norm_mul]
  exact mul_le_of_le_one_right (norm_nonneg _) (cut_abs x)

theorem integral_cut (m : ℝ) {v : NNReal} (hv : v ≠ 0) :
    2 * ∫ x, cut x ∂gaussianReal m v
      = ∫ x, (gaussianPDFReal m v x - gaussianPDFReal m v (-x)) * cut x := by
  have h1 : ∫ x, cut x ∂gaussianReal m v = ∫ x, gaussianPDFReal m v x * cut x := by
    rw [integral_gaussianReal_eq_integral_smul hv]
    rfl
  have h2 : ∫ x, gaussianPDFReal m v (-x) * cut x = -∫ x, gaussianPDFReal m v x * cut x := by
    rw [← integral_neg_eq_self, ← integral_neg]
    refine integral_congr_ae (ae_of_all _ fun x => ?_)
    simp only [neg_neg, cut_neg, mul_neg]
  have hi : Integrable fun x => gaussianPDFReal m v (-x) * cut x := by
    have := (integrable_pdf_cut m v).comp_neg
    refine this.neg.congr (ae_of_all _ fun x => ?_)
    simp [cut_neg]
  have h3 : ∫ x, (gaussianPDFReal m v x - gaussianPDFReal m v (-x)) * cut x
      = (∫ x, gaussianPDFReal m v x * cut x) - ∫ x, gaussianPDFReal m v (-x) * cut x := by
    rw [← integral_sub (integrable_pdf_cut m v) hi]
    refine integral_congr_ae (ae_of_all _ fun x => ?_)
    simp only [sub_mul]
  rw [h3, h2, h1]
  ring

theorem bias_nonneg {m : ℝ} (hm : 0 ≤ m) {v : NNReal} (x : ℝ) :
    0 ≤ (gaussianPDFReal m v x - gaussianPDFReal m v (-x)) * cut x := by
  rcases le_total 0 x with h | h
  · exact mul_nonneg (sub_nonneg.2 (pdf_le hm h)) (cut_of_nonneg h).1
  · have h1 := pdf_le (v := v) hm (x := -x) (by linarith)
    have h2 := (cut_of_nonneg (x := -x) (by linarith)).1
    rw [neg_neg] at h1
    rw [cut_neg] at h2
    exact mul_nonneg_of_nonpos_of_nonpos (by linarith) (by linarith)

theorem integral_cut_nonneg {m : ℝ} (hm : 0 ≤ m) (v : NNReal) : 0 ≤ ∫ x, cut x ∂gaussianReal m v := by
  by_cases hv : v = 0
  · subst hv
    rw [gaussianReal_zero_var, integral_dirac]
    exact (cut_of_nonneg hm).1
  · have h1 := integral_cut m hv
    have h2 : 0 ≤ ∫ x, (gaussianPDFReal m v x - gaussianPDFReal m v (-x)) * cut x :=
      integral_nonneg fun x => bias_nonneg hm x
    rw [← h1] at h2
    linarith

theorem integral_cut_pos {m : ℝ} (hm : 0 < m) {v : NNReal} (hv : v ≠ 0) :
    0 < ∫ x, cut x ∂gaussianReal m v := by
  have hi : Integrable fun x => (gaussianPDFReal m v x - gaussianPDFReal m v (-x)) * cut x := by
    have h1 := (integrable_pdf_cut m v).comp_neg
    refine ((integrable_pdf_cut m v).add h1).congr (ae_of_all _ fun x => ?_)
    simp only [Pi.add_apply, cut_neg]
    ring
  have hp : 0 < ∫ x, (gaussianPDFReal m v x - gaussianPDFReal m v (-x)) * cut x := by
    rw [integral_pos_iff_support_of_nonneg (bias_nonneg hm.le) hi]
    refine lt_of_lt_of_le (b := volume (Set.Ioo (0 : ℝ) 1)) (by simp) (measure_mono fun x hx => ?_)
    rw [Function.mem_support, cut_unit hx.1 hx.2]
    exact (mul_pos (sub_pos.2 (pdf_lt hv hm hx.1)) hx.1).ne'
  rw [← integral_cut m hv] at hp
  linarith

/-! ## Moments of truncated numbers -/

theorem sd_add {Ω : Type} [MeasurableSpace Ω] {P : Measure Ω} [IsFiniteMeasure P] {X Y : Ω → ℝ}
    (hX : MemLp X 2 P) (hY : MemLp Y 2 P) :
    √(Var[X + Y; P]) ≤ √(Var[X; P]) + √(Var[Y; P]) := by
  have h0 : ∀ t : ℝ, 0 ≤ Var[Y; P] * (t * t) + 2 * cov[X, Y; P] * t + Var[X; P] := by
    intro t
    have h1 := variance_nonneg (X + t • Y) P
    rw [variance_add hX (hY.const_smul t), variance_smul, covariance_smul_right] at h1
    linarith
  have hd := discrim_le_zero h0
  unfold discrim at hd
  have hx := variance_nonneg X P
  have hy := variance_nonneg Y P
  have hc : cov[X, Y; P] ≤ √(Var[X; P]) * √(Var[Y; P]) := by
    rw [← Real.sqrt_mul hx]
    apply Real.le_sqrt_of_sq_le
    nlinarith
  apply Real.sqrt_le_iff.2 ⟨by positivity, ?_⟩
  rw [variance_add hX hY, add_sq, Real.sq_sqrt hx, Real.sq_sqrt hy]
  linarith

variable {Ω : Type} [MeasurableSpace Ω] {P : Measure Ω} [IsProbabilityMeasure P]

theorem trunc_moments {X : Ω → ℝ} (hX : Measurable X) (h2 : MemLp X 2 P) :
    MemLp (fun ω => (pyInt (X ω) : ℝ)) 2 P ∧
    (∫ ω, (pyInt (X ω) : ℝ) ∂P = (∫ ω, X ω ∂P) - ∫ ω, cut (X ω) ∂P) ∧
    |(∫ ω, (pyInt (X ω) : ℝ) ∂P) - ∫ ω, X ω ∂P| ≤ 1 ∧
    |√(Var[fun ω => (pyInt (X ω) : ℝ); P]) - √(Var[X; P])| ≤ 1 := by
  have hc2 : MemLp (fun ω => cut (X ω)) 2 P :=
    MemLp.of_bound (measurable_cut.comp hX).aestronglyMeasurable 1 (ae_of_all _ fun ω => cut_abs (X ω))
  have he : (fun ω => (pyInt (X ω) : ℝ)) = X + fun ω => -cut (X ω) := by
    funext ω
    simp [cut]
  have he' : X = (fun ω => (pyInt (X ω) : ℝ)) + fun ω => cut (X ω) := by
    funext ω
    simp [cut]
  have hp : MemLp (fun ω => (pyInt (X ω) : ℝ)) 2 P := by
    rw [he]; exact h2.add hc2.neg
  have hm : ∫ ω, (pyInt (X ω) : ℝ) ∂P = (∫ ω, X ω ∂P) - ∫ ω, cut (X ω) ∂P := by
    rw [← integral_sub (h2.integrable (by norm_num)) (integrable_cut hX)]
    refine integral_congr_ae (ae_of_all _ fun ω => ?_)
    simp [cut]
  have hvc : √(Var[fun ω => cut (X ω); P]) ≤ 1 := by
    refine Real.sqrt_le_iff.2 ⟨by norm_num, ?_⟩
    refine (variance_le_sq_of_bounded (a := -1) (b := 1) (ae_of_all _ fun ω => ?_)
      (measurable_cut.comp hX).aemeasurable).trans (by norm_num)
    exact abs_le.1 (cut_abs (X ω))
  refine ⟨hp, hm, ?_, ?_⟩
  · rw [hm]
    have : |∫ ω, cut (X ω) ∂P| ≤ 1 := by
      have := norm_integral_le_of_norm_le_const (μ := P) (f := fun ω => cut (X ω)) (C := 1)
        (ae_of_all _ fun ω => cut_abs (X ω))
      simpa using this
    rw [sub_sub_cancel_left, abs_neg]
    exact this
  · rw [abs_le]
    constructor
    · have := sd_add hp hc2
      rw [← he'] at this
      linarith
    · have := sd_add h2 hc2.neg
      have hv : Var[-fun ω => cut (X ω); P] = Var[fun ω => cut (X ω); P] := variance_neg
      rw [hv] at this
      rw [he]
      have e : (X + fun ω => -cut (X ω)) = X + -fun ω => cut (X ω) := rfl
      rw [e]
      linarith

/-! ## Repeated draws -/

section

variable {σ V : Type} [MeasurableSpace σ] [MeasurableSpace V] {μ : Measure σ} [IsProbabilityMeasure μ]
  {v : σ → V} {g : σ → σ}

theorem fresh_iterates (h : Fresh μ v g) (n : ℕ) : ∀ B : ℕ → Set V, (∀ i, MeasurableSet (B i)) →
    MeasurableSet {s | ∀ i < n, v (g^[i] s) ∈ B i} ∧
    μ {s | ∀ i < n, v (g^[i] s) ∈ B i} = ∏ i ∈ Finset.range n, μ (v ⁻¹' B i) := by
  induction n with
  | zero => intro B _; simp
  | succ n ih =>
    intro B hB
    obtain ⟨h1, h2⟩ := ih (fun i => B (i + 1)) fun i => hB _
    have e : {s | ∀ i < n + 1, v (g^[i] s) ∈ B i}
        = {s | v s ∈ B 0 ∧ g s ∈ {s | ∀ i < n, v (g^[i] s) ∈ B (i + 1)}} := by
      ext s
      simp only [Set.mem_setOf_eq]
      constructor
      · intro h
        exact ⟨h 0 (by omega), fun i hi => h (i + 1) (by omega)⟩
      · rintro ⟨h0, hs⟩ i hi
        rcases i with _ | i
        · exact h0
        · exact hs i (by omega)
    rw [e]
    refine ⟨(h.value (hB 0)).inter (h.state h1), ?_⟩
    rw [h.indep _ _ (hB 0) h1, h2, Finset.prod_range_succ', mul_comm]
    rfl

theorem fresh_iterate_law (h : Fresh μ v g) (k : ℕ) {B : Set V} (hB : MeasurableSet B) :
    μ ((fun s => v (g^[k] s)) ⁻¹' B) = μ (v ⁻¹' B) := by
  have h1 := (fresh_iterates h (k + 1) (fun i => if i = k then B else Set.univ)
    fun i => by split_ifs <;> simp [hB]).2
  have e : {s | ∀ i < k + 1, v (g^[i] s) ∈ (if i = k then B else Set.univ : Set V)}
      = (fun s => v (g^[k] s)) ⁻¹' B := by
    ext s
    simp only [Set.mem_setOf_eq, Set.mem_preimage]
    constructor
    · intro h
      simpa using h k (by omega)
    · intro h i _
      by_cases hi : i = k
      · subst hi; simpa using h
      · simp [hi]
  rw [e] at h1
  rw [h1, Finset.prod_range_succ, if_pos rfl]
  have : ∀ i ∈ Finset.range k, μ (v ⁻¹' (if i = k then B else Set.univ : Set V)) = 1 := by
    intro i hi
    rw [if_neg (by have := Finset.mem_range.1 hi; omega)]
    simp
  rw [Finset.prod_congr rfl this]
  simp

theorem measurable_iterate (h : Fresh μ v g) (k : ℕ) : Measurable fun s => v (g^[k] s) :=
  h.value.comp (h.state.iterate k)

theorem fresh_indep (h : Fresh μ v g) : iIndepFun (fun k s => v (g^[k] s)) μ := by
  rw [iIndepFun_iff_measure_inter_preimage_eq_mul]
  intro S sets hsets
  obtain ⟨n, hn⟩ : ∃ n, ∀ i ∈ S, i < n := ⟨S.sup id + 1, fun i hi => by
    have := Finset.le_sup (f := id) hi
    simp at this
    omega⟩
  have h1 := (fresh_iterates h n (fun i => if i ∈ S then sets i else Set.univ)
    fun i => by
      split_ifs with hi
      · exact hsets i hi
      · exact .univ).2
  have e : {s | ∀ i < n, v (g^[i] s) ∈ (if i ∈ S then sets i else Set.univ : Set V)}
      = ⋂ i ∈ S, (fun s => v (g^[i] s)) ⁻¹' sets i := by
    ext s
    simp only [Set.mem_setOf_eq, Set.mem_iInter, Set.mem_preimage]
    constructor
    · intro h i hi
      have := h i (hn i hi)
      rwa [if_pos hi] at this
    · intro h i _
      by_cases hi : i ∈ S
      · rw [if_pos hi]; exact h i hi
      · rw [if_neg hi]; trivial
  rw [e] at h1
  rw [h1, Finset.prod_congr rfl fun i hi => fresh_iterate_law h i (hsets i hi)]
  have hS : S ⊆ Finset.range n := fun i hi => Finset.mem_range.2 (hn i hi)
  rw [← Finset.prod_subset hS (f := fun i => μ (v ⁻¹' (if i ∈ S then sets i else Set.univ : Set V)))]
  · exact Finset.prod_congr rfl fun i hi => by rw [if_pos hi]
  · intro i _ hi
    simp only [if_neg hi]
    simp

end

end Verif.Props
