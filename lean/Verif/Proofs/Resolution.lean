import Verif.Proofs.Expected
import Mathlib.Probability.Moments.MGFAnalytic

/-! # Mean and variance of sums of kept electrons -/

namespace Verif.Props

open MeasureTheory ProbabilityTheory Verif.Spec Verif.Detector Verif.Kinematics

/-- The electrons kept of a drawn number: its integer part, if that is at least 1. -/
noncomputable def kept (x : ℝ) : ℤ := if 1 ≤ pyInt x then pyInt x else 0

theorem kept_eq (x : ℝ) : kept x = ⌊max x 0⌋ := by
  unfold kept
  rcases le_total 0 x with h | h
  · rw [max_eq_left h]
    have h1 : pyInt x = ⌊x⌋ := by unfold pyInt; rw [if_pos h]
    rw [h1]
    split_ifs with h2
    · rfl
    · have := Int.floor_nonneg.2 h
      omega
  · rw [max_eq_right h, Int.floor_zero]
    have h1 := pyInt_neg x
    have h2 : 0 ≤ pyInt (-x) := pyInt_nonneg (by linarith)
    rw [if_neg (by omega)]

theorem kept_bounds (x : ℝ) : max x 0 - 1 ≤ kept x ∧ (kept x : ℝ) ≤ max x 0 := by
  rw [kept_eq]
  have h1 := Int.floor_le (max x 0)
  have h2 := Int.lt_floor_add_one (max x 0)
  constructor <;> linarith

theorem measurable_kept : Measurable fun x => (kept x : ℝ) := by
  have : (fun x => (kept x : ℝ)) = (fun n : ℤ => (n : ℝ)) ∘ fun x : ℝ => ⌊max x 0⌋ := by
    funext x
    simp only [Function.comp, kept_eq]
  rw [this]
  exact (measurable_from_top (f := fun n : ℤ => (n : ℝ))).comp
    (Int.measurable_floor.comp (measurable_id.max measurable_const))

/-! ## The fourth moment of a standard normal number -/

theorem gaussian_fourth : ∫ x, x ^ 4 ∂gaussianReal 0 1 = 3 := by
  have hs : (0 : ℝ) ∈ interior (integrableExpSet id (gaussianReal 0 1)) := by
    have : integrableExpSet id (gaussianReal 0 1) = Set.univ := by
      ext t
      simpa [integrableExpSet] using integrable_exp_mul_gaussianReal (μ := 0) (v := 1) t
    rw [this, interior_univ]
    trivial
  have h := iteratedDeriv_mgf_zero hs 4
  have e : ((id : ℝ → ℝ) ^ 4) = fun x => x ^ 4 := by funext x; simp
  rw [e] at h
  rw [← h, mgf_id_gaussianReal]
  have d : ∀ t : ℝ, HasDerivAt (fun t : ℝ => Real.exp (t ^ 2 / 2)) (t * Real.exp (t ^ 2 / 2)) t := by
    intro t
    have h1 : HasDerivAt (fun t : ℝ => t ^ 2 / 2) t t := by
      have := (hasDerivAt_pow 2 t).div_const 2
      refine this.congr_deriv ?_
      push_cast
      ring
    exact h1.exp.congr_deriv (by ring)
  have e0 : (fun t : ℝ => Real.exp (0 * t + ((1 : NNReal) : ℝ) * t ^ 2 / 2))
      = fun t => Real.exp (t ^ 2 / 2) := by
    funext t
    simp
  have d1 : deriv (fun t : ℝ => Real.exp (t ^ 2 / 2)) = fun t => t * Real.exp (t ^ 2 / 2) := by
    funext t
    exact (d t).deriv
  have d2 : deriv (fun t : ℝ => t * Real.exp (t ^ 2 / 2)) = fun t => (1 + t ^ 2) * Real.exp (t ^ 2 / 2) := by
    funext t
    refine (((hasDerivAt_id t).mul (d t)).congr_deriv ?_).deriv
    simp only [id]
    ring
  have d3 : deriv (fun t : ℝ => (1 + t ^ 2) * Real.exp (t ^ 2 / 2))
      = fun t => (3 * t + t ^ 3) * Real.exp (t ^ 2 / 2) := by
    funext t
    refine ((((hasDerivAt_pow 2 t).const_add 1).mul (d t)).congr_deriv ?_).deriv
    push_cast
    ring
  have d4 : deriv (fun t : ℝ => (3 * t + t ^ 3) * Real.exp (t ^ 2 / 2))
      = fun t => (3 + 6 * t ^ 2 + t ^ 4) * Real.exp (t ^ 2 / 2) := by
    funext t
    refine (((((hasDerivAt_id t).const_mul 3).add (hasDerivAt_pow 3 t)).mul (d t)).congr_deriv ?_).deriv
    simp only [id, Pi.add_apply]
    push_cast
    ring
  rw [e0, iteratedDeriv_succ, iteratedDeriv_succ, iteratedDeriv_succ, iteratedDeriv_succ, iteratedDeriv_zero,
    d1, d2, d3, d4]
  norm_num

/-! ## One number -/

variable {Ω : Type} [MeasurableSpace Ω] {P : Measure Ω} [IsProbabilityMeasure P]

theorem negative_part_le {m s z : ℝ} (hm : 0 < m) :
    (max (-(m + s * z)) 0) ^ 2 ≤ s ^ 4 / (16 * m ^ 2) * z ^ 4 := by
  rcases le_total (-(m + s * z)) 0 with h | h
  · rw [max_eq_right h]
    have : 0 ≤ s ^ 4 / (16 * m ^ 2) * z ^ 4 := by positivity
    simpa using this
  · rw [max_eq_left h]
    have h1 : -(m + s * z) ≤ (s * z) ^ 2 / (4 * m) := by
      rw [le_div_iff₀ (by positivity)]
      nlinarith [sq_nonneg (s * z + 2 * m)]
    calc (-(m + s * z)) ^ 2 ≤ ((s * z) ^ 2 / (4 * m)) ^ 2 := by gcongr
      _ = s ^ 4 / (16 * m ^ 2) * z ^ 4 := by field_simp; ring

/-- The standard deviation that cutting and keeping adds per point. -/
noncomputable def keepSd (F : ℝ) : ℝ := 1 / 2 + √3 / 4 * F

theorem keepSd_nonneg {F : ℝ} (hF : 0 ≤ F) : 0 ≤ keepSd F := by unfold keepSd; positivity

/-- The number of kept electrons of a normal number with mean `m` and variance `F m`. -/
theorem kept_moments {m F : ℝ} (hm : 0 ≤ m) (hF : 0 ≤ F) {Z : Ω → ℝ} (hZ : Measurable Z)
    (hlaw : P.map Z = gaussianReal 0 1) :
    MemLp (fun ω => m + √(F * m) * Z ω) 2 P ∧
    (∫ ω, (m + √(F * m) * Z ω) ∂P = m) ∧
    Var[fun ω => m + √(F * m) * Z ω; P] = F * m ∧
    MemLp (fun ω => (kept (m + √(F * m) * Z ω) : ℝ)) 2 P ∧
    m - 1 ≤ (∫ ω, (kept (m + √(F * m) * Z ω) : ℝ) ∂P) ∧
    (∫ ω, (kept (m + √(F * m) * Z ω) : ℝ) ∂P) ≤ m + F / 4 ∧
    √(Var[fun ω => (kept (m + √(F * m) * Z ω) : ℝ) - (m + √(F * m) * Z ω); P]) ≤ keepSd F := by
  have hFm : 0 ≤ F * m := mul_nonneg hF hm
  have hZ2 : MemLp Z 2 P := by
    have := memLp_id_gaussianReal (μ := 0) (v := 1) 2
    rw [← hlaw] at this
    exact (memLp_map_measure_iff measurable_id.aestronglyMeasurable hZ.aemeasurable).1 this
  have hZm : ∫ ω, Z ω ∂P = 0 := by
    have := integral_id_gaussianReal (μ := 0) (v := 1)
    rw [← hlaw] at this
    rw [← this]
    exact (integral_map hZ.aemeasurable measurable_id.aestronglyMeasurable).symm
  have hZv : Var[Z; P] = 1 := by
    have := variance_id_gaussianReal (μ := 0) (v := 1)
    rw [← hlaw, variance_map measurable_id.aemeasurable hZ.aemeasurable] at this
    simpa using this
  have hZ4 : ∫ ω, Z ω ^ 4 ∂P = 3 := by
    rw [← gaussian_fourth, ← hlaw, integral_map hZ.aemeasurable (by fun_prop)]
  have hZ4i : Integrable (fun ω => Z ω ^ 4) P := by
    by_contra hn
    rw [integral_undef hn] at hZ4
    norm_num at hZ4
  obtain ⟨c, hc⟩ : ∃ c, c = √(F * m) := ⟨_, rfl⟩
  have hc2 : c ^ 2 = F * m := by rw [hc, Real.sq_sqrt hFm]
  rw [← hc]
  have hXm : Measurable fun ω => m + c * Z ω := (hZ.const_mul c).const_add m
  have hX2 : MemLp (fun ω => m + c * Z ω) 2 P := (memLp_const m).add (hZ2.const_mul c)
  have hXi : Integrable (fun ω => m + c * Z ω) P := hX2.integrable (by norm_num)
  have hXe : ∫ ω, (m + c * Z ω) ∂P = m := by
    rw [integral_add (integrable_const _) ((hZ2.integrable (by norm_num)).const_mul c), integral_const_mul, hZm]
    simp
  have hXv : Var[fun ω => m + c * Z ω; P] = F * m := by
    rw [variance_const_add (hZ.const_mul c).aestronglyMeasurable, variance_const_mul, hZv, hc2, mul_one]
  obtain ⟨X, hX⟩ : ∃ X : Ω → ℝ, X = fun ω => m + c * Z ω := ⟨_, rfl⟩
  have hXa : ∀ ω, m + c * Z ω = X ω := fun ω => by rw [hX]
  simp only [hXa]
  simp only [hXa] at hXm hX2 hXi hXe hXv
  -- the fractional part of the positive part
  have hfrac : ∀ ω, 0 ≤ max (X ω) 0 - kept (X ω) ∧ max (X ω) 0 - kept (X ω) ≤ 1 := by
    intro ω
    have := kept_bounds (X ω)
    constructor <;> linarith
  have hkm : Measurable fun ω => (kept (X ω) : ℝ) := measurable_kept.comp hXm
  have hpm : Measurable fun ω => max (X ω) 0 := hXm.max measurable_const
  have hfm : Measurable fun ω => max (X ω) 0 - kept (X ω) := hpm.sub hkm
  have hf2 : MemLp (fun ω => max (X ω) 0 - kept (X ω)) 2 P :=
    MemLp.of_bound hfm.aestronglyMeasurable 1 (ae_of_all _ fun ω => by
      rw [Real.norm_eq_abs, abs_le]
      have := hfrac ω
      constructor <;> linarith)
  have hfv : √(Var[fun ω => max (X ω) 0 - kept (X ω); P]) ≤ 1 / 2 := by
    refine Real.sqrt_le_iff.2 ⟨by norm_num, ?_⟩
    refine (variance_le_sq_of_bounded (a := 0) (b := 1) (ae_of_all _ fun ω => hfrac ω)
      hfm.aemeasurable).trans (by norm_num)
  have hp2 : MemLp (fun ω => max (X ω) 0) 2 P :=
    hX2.mono hpm.aestronglyMeasurable (ae_of_all _ fun ω => by
      rw [Real.norm_eq_abs, Real.norm_eq_abs]
      rcases le_total (X ω) 0 with h | h
      · rw [max_eq_right h]; simp
      · rw [max_eq_left h])
  have hk2 : MemLp (fun ω => (kept (X ω) : ℝ)) 2 P := by
    have := hp2.sub hf2
    refine this.ae_eq (ae_of_all _ fun ω => ?_)
    simp
  have hpi : Integrable (fun ω => max (X ω) 0) P := hp2.integrable (by norm_num)
  have hki : Integrable (fun ω => (kept (X ω) : ℝ)) P := hk2.integrable (by norm_num)
  have hpe : m ≤ ∫ ω, max (X ω) 0 ∂P := by
    rw [← hXe]
    exact integral_mono hXi hpi fun ω => le_max_left _ _
  have hpe' : ∫ ω, max (X ω) 0 ∂P ≤ m + F / 4 := by
    refine (positive_part_mean hX2).trans ?_
    rw [hXe, hXv]
    exact positive_part_le hm hF
  -- the negative part
  have hn2 : MemLp (fun ω => max (-X ω) 0) 2 P :=
    hX2.mono (hXm.neg.max measurable_const).aestronglyMeasurable (ae_of_all _ fun ω => by
      rw [Real.norm_eq_abs, Real.norm_eq_abs]
      rcases le_total (-X ω) 0 with h | h
      · rw [max_eq_right h]; simp
      · rw [max_eq_left h, abs_neg])
  have hnv : √(Var[fun ω => max (-X ω) 0; P]) ≤ √3 / 4 * F := by
    have hle : Var[fun ω => max (-X ω) 0; P] ≤ 3 / 16 * F ^ 2 := by
      have h1 : Var[fun ω => max (-X ω) 0; P] ≤ ∫ ω, (max (-X ω) 0) ^ 2 ∂P := by
        rw [variance_eq_sub hn2]
        have := sq_nonneg (∫ ω, max (-X ω) 0 ∂P)
        have e : ∫ ω, ((fun ω => max (-X ω) 0) ^ 2 : Ω → ℝ) ω ∂P = ∫ ω, (max (-X ω) 0) ^ 2 ∂P := rfl
        rw [e]
        linarith
      refine h1.trans ?_
      rcases hm.eq_or_lt with h0 | hpos
      · have hc0 : c = 0 := by rw [hc, ← h0]; simp
        have : ∀ ω, (max (-X ω) 0) ^ 2 = 0 := by
          intro ω
          rw [← hXa, ← h0, hc0]
          simp
        simp only [this, integral_zero]
        positivity
      · have h2 : ∫ ω, (max (-X ω) 0) ^ 2 ∂P ≤ ∫ ω, c ^ 4 / (16 * m ^ 2) * Z ω ^ 4 ∂P := by
          refine integral_mono hn2.integrable_sq (hZ4i.const_mul _) fun ω => ?_
          simp only [← hXa]
          exact negative_part_le hpos
        rw [integral_const_mul, hZ4] at h2
        refine h2.trans (le_of_eq ?_)
        have : c ^ 4 = (F * m) ^ 2 := by rw [← hc2]; ring
        rw [this]
        field_simp
    refine (Real.sqrt_le_sqrt hle).trans (le_of_eq ?_)
    rw [Real.sqrt_mul (by norm_num), Real.sqrt_sq hF, Real.sqrt_div (by norm_num),
      show (16 : ℝ) = 4 ^ 2 by norm_num, Real.sqrt_sq (by norm_num)]
  refine ⟨hX2, hXe, hXv, hk2, ?_, ?_, ?_⟩
  · have h1 : ∫ ω, (max (X ω) 0 - 1) ∂P ≤ ∫ ω, (kept (X ω) : ℝ) ∂P :=
      integral_mono (hpi.sub (integrable_const _)) hki fun ω => (kept_bounds _).1
    rw [integral_sub hpi (integrable_const _)] at h1
    simp at h1
    linarith
  · exact (integral_mono hki hpi fun ω => (kept_bounds _).2).trans hpe'
  · have e : (fun ω => (kept (X ω) : ℝ) - X ω)
        = (-fun ω => max (X ω) 0 - kept (X ω)) + fun ω => max (-X ω) 0 := by
      funext ω
      simp only [Pi.add_apply, Pi.neg_apply]
      rcases le_total (X ω) 0 with h | h
      · rw [max_eq_right h, max_eq_left (by linarith)]; ring
      · rw [max_eq_left h, max_eq_right (by linarith)]; ring
    rw [e]
    refine (sd_add hf2.neg hn2).trans ?_
    rw [variance_neg]
    unfold keepSd
    exact add_le_add hfv hnv

/-! ## Sums -/

/-- What is recorded of one draw: a share `a` of the kept electrons, less at most `τ`. -/
structure Recording (q : ℝ → ℝ) (a τ : ℝ) : Prop where
  measurable : Measurable q
  lower : ∀ x, a * kept x - τ ≤ q x
  upper : ∀ x, q x ≤ a * kept x

theorem recording_moments {m F a G τ : ℝ} (hm : 0 ≤ m) (hF : 0 ≤ F) (ha : 0 ≤ a) (haG : a ≤ G) (hτ : 0 ≤ τ)
    {q : ℝ → ℝ} (hq : Recording q a τ) {Z : Ω → ℝ} (hZ : Measurable Z) (hlaw : P.map Z = gaussianReal 0 1) :
    MemLp (fun ω => q (m + √(F * m) * Z ω)) 2 P ∧
    a * (m - 1) - τ ≤ (∫ ω, q (m + √(F * m) * Z ω) ∂P) ∧
    (∫ ω, q (m + √(F * m) * Z ω) ∂P) ≤ a * (m + F / 4) ∧
    √(Var[fun ω => q (m + √(F * m) * Z ω) - a * (m + √(F * m) * Z ω); P]) ≤ G * keepSd F + τ / 2 := by
  obtain ⟨h1, -, -, h4, h5, h6, h7⟩ := kept_moments hm hF hZ hlaw
  have hXm : Measurable fun ω => m + √(F * m) * Z ω := (hZ.const_mul _).const_add m
  obtain ⟨X, hX⟩ : ∃ X : Ω → ℝ, X = fun ω => m + √(F * m) * Z ω := ⟨_, rfl⟩
  have hXa : ∀ ω, m + √(F * m) * Z ω = X ω := fun ω => by rw [hX]
  simp only [hXa] at h1 h4 h5 h6 h7 hXm ⊢
  have hqm : Measurable fun ω => q (X ω) := hq.measurable.comp hXm
  have hkm : Measurable fun ω => (kept (X ω) : ℝ) := measurable_kept.comp hXm
  have htm : Measurable fun ω => a * kept (X ω) - q (X ω) := (hkm.const_mul a).sub hqm
  have ht : ∀ ω, 0 ≤ a * kept (X ω) - q (X ω) ∧ a * kept (X ω) - q (X ω) ≤ τ := fun ω =>
    ⟨by linarith [hq.upper (X ω)], by linarith [hq.lower (X ω)]⟩
  have ht2 : MemLp (fun ω => a * kept (X ω) - q (X ω)) 2 P :=
    MemLp.of_bound htm.aestronglyMeasurable τ (ae_of_all _ fun ω => by
      rw [Real.norm_eq_abs, abs_of_nonneg (ht ω).1]
      exact (ht ω).2)
  have htv : √(Var[fun ω => a * kept (X ω) - q (X ω); P]) ≤ τ / 2 := by
    refine Real.sqrt_le_iff.2 ⟨by linarith, ?_⟩
    refine (variance_le_sq_of_bounded (a := 0) (b := τ) (ae_of_all _ fun ω => ht ω)
      htm.aemeasurable).trans (by simp)
  have hq2 : MemLp (fun ω => q (X ω)) 2 P := by
    refine ((h4.const_mul a).sub ht2).ae_eq (ae_of_all _ fun ω => ?_)
    simp
  have hki : Integrable (fun ω => (kept (X ω) : ℝ)) P := h4.integrable (by norm_num)
  have hqi : Integrable (fun ω => q (X ω)) P := hq2.integrable (by norm_num)
  refine ⟨hq2, ?_, ?_, ?_⟩
  · have := integral_mono ((hki.const_mul a).sub (integrable_const τ)) hqi fun ω => hq.lower (X ω)
    simp only [Pi.sub_apply] at this
    rw [integral_sub (hki.const_mul a) (integrable_const τ), integral_const_mul] at this
    simp only [integral_const, probReal_univ, smul_eq_mul, one_mul] at this
    have := mul_le_mul_of_nonneg_left h5 ha
    linarith
  · have := integral_mono hqi (hki.const_mul a) fun ω => hq.upper (X ω)
    rw [integral_const_mul] at this
    exact this.trans (mul_le_mul_of_nonneg_left h6 ha)
  · have e : (fun ω => q (X ω) - a * X ω)
        = (fun ω => a * ((kept (X ω) : ℝ) - X ω)) + -fun ω => a * kept (X ω) - q (X ω) := by
      funext ω
      simp only [Pi.add_apply, Pi.neg_apply]
      ring
    rw [e]
    refine (sd_add ((h4.sub h1).const_mul a) ht2.neg).trans ?_
    rw [variance_neg]
    refine add_le_add ?_ htv
    have : Var[fun ω => a * ((kept (X ω) : ℝ) - X ω); P] = a ^ 2 * Var[fun ω => (kept (X ω) : ℝ) - X ω; P] :=
      variance_const_mul _ _ _
    change √(Var[fun ω => a * ((kept (X ω) : ℝ) - X ω); P]) ≤ _
    rw [this, Real.sqrt_mul (sq_nonneg _), Real.sqrt_sq ha]
    exact mul_le_mul haG h7 (Real.sqrt_nonneg _) (ha.trans haG)

theorem recording_sum {ι : Type} (S : Finset ι) {m a : ι → ℝ} {F G τ : ℝ} (hm : ∀ i, 0 ≤ m i) (hF : 0 ≤ F)
    (ha : ∀ i, 0 ≤ a i) (haG : ∀ i, a i ≤ G) (hτ : 0 ≤ τ) (hG : 0 ≤ G) {q : ι → ℝ → ℝ}
    (hq : ∀ i, Recording (q i) (a i) τ)
    {Z : ι → Ω → ℝ} (hZ : ∀ i, Measurable (Z i)) (hlaw : ∀ i, P.map (Z i) = gaussianReal 0 1)
    (hind : iIndepFun Z P) :
    MemLp (fun ω => ∑ i ∈ S, q i (m i + √(F * m i) * Z i ω)) 2 P ∧
    (∑ i ∈ S, (a i * (m i - 1) - τ)) ≤ (∫ ω, ∑ i ∈ S, q i (m i + √(F * m i) * Z i ω) ∂P) ∧
    (∫ ω, ∑ i ∈ S, q i (m i + √(F * m i) * Z i ω) ∂P) ≤ (∑ i ∈ S, a i * (m i + F / 4)) ∧
    |√(Var[fun ω => ∑ i ∈ S, q i (m i + √(F * m i) * Z i ω); P]) - √(F * ∑ i ∈ S, a i ^ 2 * m i)|
      ≤ (G * keepSd F + τ / 2) * √S.card := by
  have h0 := fun i => kept_moments (hm i) hF (hZ i) (hlaw i)
  have h := fun i => recording_moments (hm i) hF (ha i) (haG i) hτ (hq i) (hZ i) (hlaw i)
  have hmem : MemLp (fun ω => ∑ i ∈ S, q i (m i + √(F * m i) * Z i ω)) 2 P :=
    memLp_finsetSum _ fun i _ => (h i).1
  have hint : ∫ ω, ∑ i ∈ S, q i (m i + √(F * m i) * Z i ω) ∂P
      = ∑ i ∈ S, ∫ ω, q i (m i + √(F * m i) * Z i ω) ∂P :=
    integral_finsetSum _ fun i _ => (h i).1.integrable (by norm_num)
  refine ⟨hmem, ?_, ?_, ?_⟩
  · rw [hint]
    exact Finset.sum_le_sum fun i _ => (h i).2.1
  · rw [hint]
    exact Finset.sum_le_sum fun i _ => (h i).2.2.1
  · have hX1 : ∀ i, MemLp (fun ω => a i * (m i + √(F * m i) * Z i ω)) 2 P := fun i => (h0 i).1.const_mul _
    have hX2 : MemLp (fun ω => ∑ i ∈ S, a i * (m i + √(F * m i) * Z i ω)) 2 P :=
      memLp_finsetSum _ fun i _ => hX1 i
    have hD2 : MemLp (fun ω => ∑ i ∈ S, (q i (m i + √(F * m i) * Z i ω)
        - a i * (m i + √(F * m i) * Z i ω))) 2 P :=
      memLp_finsetSum _ fun i _ => (h i).1.sub (hX1 i)
    have hXv : Var[fun ω => ∑ i ∈ S, a i * (m i + √(F * m i) * Z i ω); P] = F * ∑ i ∈ S, a i ^ 2 * m i := by
      have := IndepFun.variance_sum (μ := P) (X := fun i ω => a i * (m i + √(F * m i) * Z i ω)) (s := S)
        (fun i _ => hX1 i) (fun i _ j _ hij => (hind.indepFun hij).comp
          (φ := fun x => a i * (m i + √(F * m i) * x)) (ψ := fun x => a j * (m j + √(F * m j) * x))
          (by fun_prop) (by fun_prop))
      have e : (∑ i ∈ S, fun ω => a i * (m i + √(F * m i) * Z i ω))
          = fun ω => ∑ i ∈ S, a i * (m i + √(F * m i) * Z i ω) := by funext ω; simp
      rw [e] at this
      rw [this, Finset.mul_sum]
      refine Finset.sum_congr rfl fun i _ => ?_
      have e2 : Var[fun ω => a i * (m i + √(F * m i) * Z i ω); P]
          = a i ^ 2 * Var[fun ω => m i + √(F * m i) * Z i ω; P] := variance_const_mul _ _ _
      rw [e2, (h0 i).2.2.1]
      ring
    have hDv : √(Var[fun ω => ∑ i ∈ S, (q i (m i + √(F * m i) * Z i ω)
        - a i * (m i + √(F * m i) * Z i ω)); P]) ≤ (G * keepSd F + τ / 2) * √S.card := by
      have := IndepFun.variance_sum (μ := P)
        (X := fun i ω => q i (m i + √(F * m i) * Z i ω) - a i * (m i + √(F * m i) * Z i ω)) (s := S)
        (fun i _ => (h i).1.sub (hX1 i)) (fun i _ j _ hij => (hind.indepFun hij).comp
          (φ := fun x => q i (m i + √(F * m i) * x) - a i * (m i + √(F * m i) * x))
          (ψ := fun x => q j (m j + √(F * m j) * x) - a j * (m j + √(F * m j) * x))
          (((hq i).measurable.comp (by fun_prop)).sub (by fun_prop))
          (((hq j).measurable.comp (by fun_prop)).sub (by fun_prop)))
      have e : (∑ i ∈ S, fun ω => q i (m i + √(F * m i) * Z i ω) - a i * (m i + √(F * m i) * Z i ω))
          = fun ω => ∑ i ∈ S, (q i (m i + √(F * m i) * Z i ω) - a i * (m i + √(F * m i) * Z i ω)) := by
        funext ω; simp
      rw [e] at this
      rw [this]
      have hk : 0 ≤ G * keepSd F + τ / 2 := add_nonneg (mul_nonneg hG (keepSd_nonneg hF)) (by linarith)
      have hb : ∀ i, Var[fun ω => q i (m i + √(F * m i) * Z i ω) - a i * (m i + √(F * m i) * Z i ω); P]
          ≤ (G * keepSd F + τ / 2) ^ 2 := fun i => (Real.sqrt_le_iff.1 (h i).2.2.2).2
      calc _ ≤ √(∑ i ∈ S, (G * keepSd F + τ / 2) ^ 2) :=
            Real.sqrt_le_sqrt (Finset.sum_le_sum fun i _ => hb i)
        _ = √((G * keepSd F + τ / 2) ^ 2 * S.card) := by simp [mul_comm]
        _ = _ := by rw [Real.sqrt_mul (sq_nonneg _), Real.sqrt_sq hk]
    rw [← hXv, abs_le]
    constructor
    · have := sd_add hmem hD2.neg
      rw [variance_neg] at this
      have e : ((fun ω => ∑ i ∈ S, q i (m i + √(F * m i) * Z i ω)) + -fun ω => ∑ i ∈ S,
          (q i (m i + √(F * m i) * Z i ω) - a i * (m i + √(F * m i) * Z i ω)))
          = fun ω => ∑ i ∈ S, a i * (m i + √(F * m i) * Z i ω) := by
        funext ω
        simp only [Pi.add_apply, Pi.neg_apply, Finset.sum_sub_distrib]
        ring
      rw [e] at this
      linarith
    · have := sd_add hX2 hD2
      have e : ((fun ω => ∑ i ∈ S, a i * (m i + √(F * m i) * Z i ω)) + fun ω => ∑ i ∈ S,
          (q i (m i + √(F * m i) * Z i ω) - a i * (m i + √(F * m i) * Z i ω)))
          = fun ω => ∑ i ∈ S, q i (m i + √(F * m i) * Z i ω) := by
        funext ω
        simp only [Pi.add_apply, Finset.sum_sub_distrib]
        ring
      rw [e] at this
      linarith

end Verif.Props
