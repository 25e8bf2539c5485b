import Verif.Kinematics.Excitation
import Mathlib.MeasureTheory.Measure.WithDensity
import Mathlib.MeasureTheory.Group.Measure
import Mathlib.MeasureTheory.Measure.Haar.OfBasis
import Mathlib.Analysis.SpecialFunctions.Pow.Real
import Mathlib.Analysis.SpecialFunctions.Trigonometric.ArctanDeriv
import Mathlib.Analysis.SpecialFunctions.Log.Deriv
import Mathlib.MeasureTheory.Integral.IntegralEqImproper

/-! # C107: the shape of the resonances of `ExcitationBreitWigner` -/

namespace Verif.Props

open Verif.Kinematics MeasureTheory

variable {σ : Type}

/-- The density documented for `scipy.stats.rel_breitwigner` with shape parameter `rho`:
`k / ((x² - rho²)² + rho²)` for `x > 0` with
`k = 2√2 rho² √(rho² + 1) / (π √(rho² + rho √(rho² + 1)))`. -/
noncomputable def scipyBreitWigner (rho x : ℝ) : ℝ :=
  if 0 < x then
    2 * √2 * rho ^ 2 * √(rho ^ 2 + 1) / (Real.pi * √(rho ^ 2 + rho * √(rho ^ 2 + 1)))
      / ((x ^ 2 - rho ^ 2) ^ 2 + rho ^ 2)
  else 0

/-- An antiderivative of `1 / ((x² + b)² - a² x²)`, where `a² + d² = 4 b`. -/
noncomputable def bwPrimitive (a b d x : ℝ) : ℝ :=
  1 / (4 * a * b) * (Real.log (x ^ 2 + a * x + b) - Real.log (x ^ 2 - a * x + b))
    + 1 / (2 * b * d) * (Real.arctan ((2 * x + a) / d) + Real.arctan ((2 * x - a) / d))

theorem quadratic_pos {a b d : ℝ} (hd : 0 < d) (h : a ^ 2 + d ^ 2 = 4 * b) (x : ℝ) :
    0 < x ^ 2 + a * x + b ∧ 0 < x ^ 2 - a * x + b := by
  have hd2 : 0 < d ^ 2 := by positivity
  constructor
  · have : x ^ 2 + a * x + b = ((2 * x + a) ^ 2 + d ^ 2) / 4 := by linarith
    rw [this]; positivity
  · have : x ^ 2 - a * x + b = ((2 * x - a) ^ 2 + d ^ 2) / 4 := by linarith
    rw [this]; positivity

theorem bwPrimitive_deriv {a b d : ℝ} (ha : 0 < a) (hb : 0 < b) (hd : 0 < d)
    (h : a ^ 2 + d ^ 2 = 4 * b) (x : ℝ) :
    HasDerivAt (bwPrimitive a b d) (1 / ((x ^ 2 + b) ^ 2 - a ^ 2 * x ^ 2)) x := by
  obtain ⟨hp, hq⟩ := quadratic_pos hd h x
  have d1 : HasDerivAt (fun x : ℝ => x ^ 2 + a * x + b) (2 * x + a) x := by
    have := (((hasDerivAt_id x).pow 2).add ((hasDerivAt_id x).const_mul a)).add_const b
    refine this.congr_deriv ?_
    simp
  have d2 : HasDerivAt (fun x : ℝ => x ^ 2 - a * x + b) (2 * x - a) x := by
    have := (((hasDerivAt_id x).pow 2).sub ((hasDerivAt_id x).const_mul a)).add_const b
    refine this.congr_deriv ?_
    simp
  have d3 : HasDerivAt (fun x : ℝ => (2 * x + a) / d) (2 / d) x := by
    have := (((hasDerivAt_id x).const_mul 2).add_const a).div_const d
    refine this.congr_deriv ?_
    simp
  have d4 : HasDerivAt (fun x : ℝ => (2 * x - a) / d) (2 / d) x := by
    have := (((hasDerivAt_id x).const_mul 2).sub_const a).div_const d
    refine this.congr_deriv ?_
    simp
  have key := (((d1.log hp.ne').sub (d2.log hq.ne')).const_mul (1 / (4 * a * b))).add
    ((d3.arctan.add d4.arctan).const_mul (1 / (2 * b * d)))
  refine key.congr_deriv ?_
  have e1 : 1 + ((2 * x + a) / d) ^ 2 = 4 * (x ^ 2 + a * x + b) / d ^ 2 := by
    field_simp
    linarith
  have e2 : 1 + ((2 * x - a) / d) ^ 2 = 4 * (x ^ 2 - a * x + b) / d ^ 2 := by
    field_simp
    linarith
  have e3 : (x ^ 2 + b) ^ 2 - a ^ 2 * x ^ 2 = (x ^ 2 + a * x + b) * (x ^ 2 - a * x + b) := by ring
  rw [e1, e2, e3]
  have hp' := hp.ne'
  have hq' := hq.ne'
  generalize hP : x ^ 2 + a * x + b = P at *
  generalize hQ : x ^ 2 - a * x + b = Q at *
  have e4 : Q * (2 * x + 2 * a) - P * (2 * x - 2 * a) = 4 * a * b := by
    rw [← hP, ← hQ]; ring
  field_simp
  linarith [e4]

theorem bwPrimitive_zero (a b d : ℝ) : bwPrimitive a b d 0 = 0 := by
  unfold bwPrimitive
  have : (2 * 0 - a) / d = -((2 * 0 + a) / d) := by ring
  rw [this, Real.arctan_neg]
  simp

theorem bwPrimitive_tendsto {a b d : ℝ} (hd : 0 < d) (h : a ^ 2 + d ^ 2 = 4 * b) :
    Filter.Tendsto (bwPrimitive a b d) Filter.atTop (nhds (Real.pi / (2 * b * d))) := by
  have l1 : Filter.Tendsto (fun x : ℝ => Real.log (x ^ 2 + a * x + b) - Real.log (x ^ 2 - a * x + b))
      Filter.atTop (nhds 0) := by
    have r : Filter.Tendsto (fun x : ℝ => (1 + a * x⁻¹ + b * (x⁻¹) ^ 2) / (1 - a * x⁻¹ + b * (x⁻¹) ^ 2))
        Filter.atTop (nhds ((1 + a * 0 + b * 0 ^ 2) / (1 - a * 0 + b * 0 ^ 2))) := by
      have t := tendsto_inv_atTop_zero (𝕜 := ℝ)
      exact (((t.const_mul a).const_add 1).add ((t.pow 2).const_mul b)).div
        (((t.const_mul a).const_sub 1).add ((t.pow 2).const_mul b)) (by norm_num)
    have r2 := (Real.continuousAt_log (x := (1 + a * 0 + b * 0 ^ 2) / (1 - a * 0 + b * 0 ^ 2))
      (by norm_num)).tendsto.comp r
    have z : Real.log ((1 + a * 0 + b * 0 ^ 2) / (1 - a * 0 + b * 0 ^ 2)) = 0 := by simp
    rw [z] at r2
    refine r2.congr' ?_
    filter_upwards [Filter.eventually_gt_atTop 0] with x hx
    obtain ⟨hp, hq⟩ := quadratic_pos hd h x
    rw [← Real.log_div hp.ne' hq.ne']
    change Real.log _ = _
    congr 1
    have e1 : 1 + a * x⁻¹ + b * x⁻¹ ^ 2 = (x ^ 2 + a * x + b) / x ^ 2 := by field_simp
    have e2 : 1 - a * x⁻¹ + b * x⁻¹ ^ 2 = (x ^ 2 - a * x + b) / x ^ 2 := by field_simp
    change (1 + a * x⁻¹ + b * x⁻¹ ^ 2) / (1 - a * x⁻¹ + b * x⁻¹ ^ 2) = _
    rw [e1, e2, div_div_div_cancel_right₀ (by positivity)]
  have l2 : ∀ c : ℝ, Filter.Tendsto (fun x : ℝ => Real.arctan ((2 * x + c) / d)) Filter.atTop
      (nhds (Real.pi / 2)) := by
    intro c
    have t : Filter.Tendsto (fun x : ℝ => (2 * x + c) / d) Filter.atTop Filter.atTop := by
      apply Filter.Tendsto.atTop_div_const hd
      exact Filter.tendsto_atTop_add_const_right _ _
        (Filter.tendsto_id.const_mul_atTop (by norm_num : (0 : ℝ) < 2))
    exact (Real.tendsto_arctan_atTop.mono_right nhdsWithin_le_nhds).comp t
  have l3 := (l1.const_mul (1 / (4 * a * b))).add (((l2 a).add (l2 (-a))).const_mul (1 / (2 * b * d)))
  have e : Real.pi / (2 * b * d)
      = 1 / (4 * a * b) * 0 + 1 / (2 * b * d) * (Real.pi / 2 + Real.pi / 2) := by ring
  rw [e]
  exact l3

/-- scipy's constant is the right one: its density has integral one. -/
theorem scipy_normalised {rho : ℝ} (hr : 0 < rho) :
    ∫⁻ x, ENNReal.ofReal (scipyBreitWigner rho x) = 1 := by
  set b := rho * √(rho ^ 2 + 1) with hbd
  have hs : 0 < √(rho ^ 2 + 1) := Real.sqrt_pos.2 (by positivity)
  have hs2 : √(rho ^ 2 + 1) ^ 2 = rho ^ 2 + 1 := Real.sq_sqrt (by positivity)
  have hb : 0 < b := by positivity
  have hb2 : b ^ 2 = rho ^ 4 + rho ^ 2 := by rw [hbd, mul_pow, hs2]; ring
  have hbr : rho ^ 2 < b := by
    apply lt_of_pow_lt_pow_left₀ 2 hb.le
    rw [hb2]
    have : 0 < rho ^ 2 := by positivity
    nlinarith
  set a := √(2 * (b + rho ^ 2)) with had
  set d := √(2 * (b - rho ^ 2)) with hdd
  have ha : 0 < a := Real.sqrt_pos.2 (by positivity)
  have hd : 0 < d := Real.sqrt_pos.2 (by linarith)
  have ha2 : a ^ 2 = 2 * (b + rho ^ 2) := Real.sq_sqrt (by positivity)
  have hd2 : d ^ 2 = 2 * (b - rho ^ 2) := Real.sq_sqrt (by linarith)
  have h4 : a ^ 2 + d ^ 2 = 4 * b := by rw [ha2, hd2]; ring
  have had2 : a * d = 2 * rho := by
    have : (a * d) ^ 2 = (2 * rho) ^ 2 := by
      rw [mul_pow, ha2, hd2]
      linarith [hb2]
    exact (pow_left_inj₀ (by positivity) (by positivity) two_ne_zero).1 this
  -- the denominator
  have hden : ∀ x : ℝ, (x ^ 2 - rho ^ 2) ^ 2 + rho ^ 2 = (x ^ 2 + b) ^ 2 - a ^ 2 * x ^ 2 := by
    intro x
    rw [ha2]
    linarith [hb2]
  have hnn : ∀ x ∈ Set.Ioi (0 : ℝ), 0 ≤ 1 / ((x ^ 2 + b) ^ 2 - a ^ 2 * x ^ 2) := by
    intro x _
    rw [← hden]
    positivity
  have hI := integral_Ioi_of_hasDerivAt_of_nonneg'
    (fun x _ => bwPrimitive_deriv ha hb hd h4 x) hnn (bwPrimitive_tendsto (a := a) hd h4)
  have hi := integrableOn_Ioi_deriv_of_nonneg'
    (fun x _ => bwPrimitive_deriv ha hb hd h4 x) hnn (bwPrimitive_tendsto (a := a) hd h4)
  rw [bwPrimitive_zero, sub_zero] at hI
  set k := 2 * √2 * rho ^ 2 * √(rho ^ 2 + 1) / (Real.pi * √(rho ^ 2 + rho * √(rho ^ 2 + 1))) with hk
  have hk0 : 0 ≤ k := by
    have := Real.pi_pos
    positivity
  have hf : (fun x => ENNReal.ofReal (scipyBreitWigner rho x))
      = (Set.Ioi (0 : ℝ)).indicator fun x =>
        ENNReal.ofReal (k * (1 / ((x ^ 2 + b) ^ 2 - a ^ 2 * x ^ 2))) := by
    funext x
    unfold scipyBreitWigner
    by_cases hx : 0 < x
    · rw [if_pos hx, Set.indicator_of_mem (Set.mem_Ioi.2 hx), ← hk, hden, ← div_eq_mul_one_div]
    · rw [if_neg hx, Set.indicator_of_notMem (fun h => hx (Set.mem_Ioi.1 h)), ENNReal.ofReal_zero]
  rw [hf, lintegral_indicator measurableSet_Ioi,
    ← ofReal_integral_eq_lintegral_ofReal (hi.const_mul k)
      ((ae_restrict_mem measurableSet_Ioi).mono fun x hx => mul_nonneg hk0 (hnn x hx)),
    integral_const_mul, hI, ENNReal.ofReal_eq_one]
  have hsa : √2 * √(rho ^ 2 + b) = a := by
    rw [← Real.sqrt_mul (by norm_num), had]
    congr 1
    ring
  have hsp : 0 < √(rho ^ 2 + b) := Real.sqrt_pos.2 (by positivity)
  have hpi := Real.pi_pos
  have h22 : √2 * √2 = (2 : ℝ) := Real.mul_self_sqrt (by norm_num)
  have e1 : k * (Real.pi / (2 * b * d)) = √2 * rho / (√(rho ^ 2 + b) * d) := by
    rw [hk, ← hbd]
    have : 2 * √2 * rho ^ 2 * √(rho ^ 2 + 1) = 2 * √2 * rho * b := by rw [hbd]; ring
    rw [this]
    field_simp
  rw [e1, div_eq_one_iff_eq (by positivity)]
  have : √2 * (√2 * rho) = √2 * (√(rho ^ 2 + b) * d) := by
    rw [← mul_assoc, h22, ← mul_assoc, hsa, had2]
  exact mul_left_cancel₀ (by positivity) this

/-- `rvs(rho, scale=scale)` in a random state follows scipy's density: `scale` times a variable with
the density above. -/
structure FollowsBreitWigner [MeasurableSpace σ] (rvs : BreitWignerRvs σ) (μ : Measure σ)
    (rho scale : ℝ) : Prop where
  measurable : Measurable fun s => (rvs rho scale s).1
  law : μ.map (fun s => (rvs rho scale s).1) =
    volume.withDensity fun e => ENNReal.ofReal (scipyBreitWigner rho (e / scale) / scale)

/-- The relativistic Breit-Wigner density of the mass `E` of a resonance of mass `M` and width `Γ`:
`2√2 M Γ γ / (π √(M² + γ)) / ((E² - M²)² + M² Γ²)` for `E > 0`, where `γ = √(M² (M² + Γ²))`. -/
noncomputable def resonance (M Γ E : ℝ) : ℝ :=
  if 0 < E then
    2 * √2 * M * Γ * √(M ^ 2 * (M ^ 2 + Γ ^ 2)) / (Real.pi * √(M ^ 2 + √(M ^ 2 * (M ^ 2 + Γ ^ 2))))
      / ((E ^ 2 - M ^ 2) ^ 2 + M ^ 2 * Γ ^ 2)
  else 0

/-- The parameters `rho = M/Γ`, `scale = Γ` give the resonance of mass `M` and width `Γ`. -/
theorem scipy_resonance {M Γ : ℝ} (hM : 0 < M) (hΓ : 0 < Γ) (E : ℝ) :
    scipyBreitWigner (M / Γ) (E / Γ) / Γ = resonance M Γ E := by
  unfold scipyBreitWigner resonance
  by_cases hE : 0 < E
  · rw [if_pos (div_pos hE hΓ), if_pos hE]
    have hG : 0 < √(M ^ 2 + Γ ^ 2) := Real.sqrt_pos.2 (by positivity)
    have e1 : √((M / Γ) ^ 2 + 1) = √(M ^ 2 + Γ ^ 2) / Γ := by
      rw [show (M / Γ) ^ 2 + 1 = (M ^ 2 + Γ ^ 2) / Γ ^ 2 by field_simp, Real.sqrt_div' _ (by positivity),
        Real.sqrt_sq hΓ.le]
    have e2 : √(M ^ 2 * (M ^ 2 + Γ ^ 2)) = M * √(M ^ 2 + Γ ^ 2) := by
      rw [Real.sqrt_mul (by positivity), Real.sqrt_sq hM.le]
    rw [e1, e2]
    have e3 : √((M / Γ) ^ 2 + M / Γ * (√(M ^ 2 + Γ ^ 2) / Γ))
        = √(M ^ 2 + M * √(M ^ 2 + Γ ^ 2)) / Γ := by
      rw [show (M / Γ) ^ 2 + M / Γ * (√(M ^ 2 + Γ ^ 2) / Γ)
        = (M ^ 2 + M * √(M ^ 2 + Γ ^ 2)) / Γ ^ 2 by field_simp, Real.sqrt_div' _ (by positivity),
        Real.sqrt_sq hΓ.le]
    rw [e3]
    have hR : 0 < √(M ^ 2 + M * √(M ^ 2 + Γ ^ 2)) := Real.sqrt_pos.2 (by positivity)
    generalize √(M ^ 2 + M * √(M ^ 2 + Γ ^ 2)) = R at *
    generalize √(M ^ 2 + Γ ^ 2) = G at *
    have e4 : ((E / Γ) ^ 2 - (M / Γ) ^ 2) ^ 2 + (M / Γ) ^ 2
        = ((E ^ 2 - M ^ 2) ^ 2 + M ^ 2 * Γ ^ 2) / Γ ^ 4 := by field_simp
    rw [e4]
    have hD : 0 < (E ^ 2 - M ^ 2) ^ 2 + M ^ 2 * Γ ^ 2 := by positivity
    generalize (E ^ 2 - M ^ 2) ^ 2 + M ^ 2 * Γ ^ 2 = D at *
    have := Real.pi_pos
    field_simp
  · have : ¬ 0 < E / Γ := by
      rw [not_lt] at hE ⊢
      exact div_nonpos_of_nonpos_of_nonneg hE hΓ.le
    rw [if_neg this, if_neg hE, zero_div]

/-- **C107.** The excitation energies of `ExcitationBreitWigner(rest_mass, centroid, width)` are those
of a nucleus whose mass, rest mass plus excitation, follows the relativistic Breit-Wigner density of
a resonance of mass rest mass + centroid and of the given width. -/
theorem C107_law [MeasurableSpace σ] {rvs : BreitWignerRvs σ} {μ : Measure σ}
    (d : ExcitationBreitWigner) (hw : 0 < d.width) (hm : 0 < d.rest_mass + d.centroid)
    (hr : FollowsBreitWigner rvs μ ((d.rest_mass + d.centroid) / d.width) d.width) :
    ∃ (X : σ → ℝ) (next : σ → σ), Measurable X ∧
      (∀ s, d.sample rvs s = .ok (X s, next s)) ∧
      μ.map X = volume.withDensity fun x =>
        ENNReal.ofReal (resonance (d.rest_mass + d.centroid) d.width (d.rest_mass + x)) := by
  refine ⟨fun s => (rvs ((d.rest_mass + d.centroid) / d.width) d.width s).1 - d.rest_mass,
    fun s => (rvs ((d.rest_mass + d.centroid) / d.width) d.width s).2,
    hr.measurable.sub_const _, fun s => ?_, ?_⟩
  · have hrho : 0 < (d.rest_mass + d.centroid) / d.width := div_pos hm hw
    unfold ExcitationBreitWigner.sample
    rw [if_neg hw.ne', if_neg (by push Not; exact ⟨hrho, hw.le⟩)]
  · have h2 : (fun s => (rvs ((d.rest_mass + d.centroid) / d.width) d.width s).1 - d.rest_mass)
      = (fun e => e - d.rest_mass) ∘ fun s => (rvs ((d.rest_mass + d.centroid) / d.width) d.width s).1 := rfl
    rw [h2, ← Measure.map_map (by fun_prop) hr.measurable, hr.law]
    have e : (fun e => ENNReal.ofReal (scipyBreitWigner ((d.rest_mass + d.centroid) / d.width)
        (e / d.width) / d.width))
        = fun e => ENNReal.ofReal (resonance (d.rest_mass + d.centroid) d.width e) :=
      funext fun e => by rw [scipy_resonance hm hw]
    rw [e]
    ext A hA
    rw [Measure.map_apply (by fun_prop) hA, withDensity_apply _ (hA.preimage (by fun_prop)),
      withDensity_apply _ hA]
    have hp : MeasurePreserving (fun e : ℝ => e - d.rest_mass) volume volume :=
      measurePreserving_sub_right volume d.rest_mass
    rw [← hp.setLIntegral_comp_preimage_emb (measurableEmbedding_subRight d.rest_mass)
      (fun x => ENNReal.ofReal (resonance (d.rest_mass + d.centroid) d.width (d.rest_mass + x)))]
    simp only [add_sub_cancel]

/-- **C107.** That density is a probability density. -/
theorem C107_normalised {M Γ : ℝ} (hM : 0 < M) (hΓ : 0 < Γ) :
    ∫⁻ E, ENNReal.ofReal (resonance M Γ E) = 1 := by
  have hm : Measurable (scipyBreitWigner (M / Γ)) := by
    unfold scipyBreitWigner
    exact Measurable.ite measurableSet_Ioi (by fun_prop) (by fun_prop)
  have h1 : ∀ E, ENNReal.ofReal (resonance M Γ E)
      = ENNReal.ofReal Γ⁻¹ * ENNReal.ofReal (scipyBreitWigner (M / Γ) (Γ⁻¹ * E)) := by
    intro E
    rw [← scipy_resonance hM hΓ, ← ENNReal.ofReal_mul (by positivity)]
    congr 1
    rw [div_eq_inv_mul, div_eq_inv_mul E]
  have hn : Γ⁻¹ ≠ 0 := inv_ne_zero hΓ.ne'
  have hmap := Real.map_volume_mul_left hn
  simp only [h1]
  rw [lintegral_const_mul _ (by fun_prop),
    ← lintegral_map (f := fun y => ENNReal.ofReal (scipyBreitWigner (M / Γ) y))
      (g := fun E => Γ⁻¹ * E) (by fun_prop) (by fun_prop), hmap, lintegral_smul_measure,
    scipy_normalised (div_pos hM hΓ), inv_inv, abs_of_pos hΓ, smul_eq_mul, mul_one,
    ← ENNReal.ofReal_mul (by positivity), inv_mul_cancel₀ hΓ.ne', ENNReal.ofReal_one]

/-- **C107.** The density has its only maximum at the centroid. -/
theorem C107_peak {m c w : ℝ} (hw : 0 < w) (hm : 0 < m + c) {x : ℝ} (hx : x ≠ c) :
    resonance (m + c) w (m + x) < resonance (m + c) w (m + c) := by
  have hk : 0 < 2 * √2 * (m + c) * w * √((m + c) ^ 2 * ((m + c) ^ 2 + w ^ 2))
      / (Real.pi * √((m + c) ^ 2 + √((m + c) ^ 2 * ((m + c) ^ 2 + w ^ 2)))) := by
    have := Real.pi_pos
    positivity
  unfold resonance
  rw [if_pos hm]
  by_cases hE : 0 < m + x
  · rw [if_pos hE]
    have hne : (m + x) ^ 2 - (m + c) ^ 2 ≠ 0 := by
      intro h
      have : (x - c) * (m + x + (m + c)) = 0 := by linarith
      rcases mul_eq_zero.1 this with h | h
      · exact hx (by linarith)
      · linarith
    have h1 : 0 < ((m + x) ^ 2 - (m + c) ^ 2) ^ 2 := by positivity
    have h2 : 0 < (m + c) ^ 2 * w ^ 2 := by positivity
    apply div_lt_div_of_pos_left hk
    · rw [sub_self]
      linarith [h2]
    · rw [sub_self]
      linarith
  · rw [if_neg hE, sub_self]
    positivity

/-- Square roots around one. -/
theorem sqrt_width {M w : ℝ} (hw : 0 < w) (hM : w ≤ M) :
    w ≤ √(M ^ 2 + M * w) - √(M ^ 2 - M * w) ∧
      √(M ^ 2 + M * w) - √(M ^ 2 - M * w) ≤ w * (1 + (w / M) ^ 2 / 2) := by
  have hM0 : 0 < M := hw.trans_le hM
  have hp : 0 ≤ M ^ 2 + M * w := by positivity
  have hn : 0 ≤ M ^ 2 - M * w := by nlinarith
  have hle : √(M ^ 2 - M * w) ≤ √(M ^ 2 + M * w) := Real.sqrt_le_sqrt (by nlinarith)
  set t := w / M with ht
  have ht0 : 0 < t := div_pos hw hM0
  have ht1 : t ≤ 1 := (div_le_one hM0).2 hM
  have hwt : w = t * M := by rw [ht]; field_simp
  set u := √(1 - t ^ 2) with hu
  have hu0 : 0 ≤ u := Real.sqrt_nonneg _
  have hu2 : u ^ 2 = 1 - t ^ 2 := Real.sq_sqrt (by nlinarith)
  have hu1 : u ≤ 1 := by
    by_contra h
    push Not at h
    nlinarith
  have hprod : √(M ^ 2 + M * w) * √(M ^ 2 - M * w) = M ^ 2 * u := by
    rw [← Real.sqrt_mul hp, hu]
    rw [show (M ^ 2 + M * w) * (M ^ 2 - M * w) = (M ^ 2) ^ 2 * (1 - t ^ 2) by rw [hwt]; ring,
      Real.sqrt_mul (by positivity), Real.sqrt_sq (by positivity)]
  have hsq : (√(M ^ 2 + M * w) - √(M ^ 2 - M * w)) ^ 2 = M ^ 2 * (2 * (1 - u)) := by
    have h1 := Real.sq_sqrt hp
    have h2 := Real.sq_sqrt hn
    calc (√(M ^ 2 + M * w) - √(M ^ 2 - M * w)) ^ 2
        = √(M ^ 2 + M * w) ^ 2 + √(M ^ 2 - M * w) ^ 2
          - 2 * (√(M ^ 2 + M * w) * √(M ^ 2 - M * w)) := by ring
      _ = M ^ 2 * (2 * (1 - u)) := by rw [h1, h2, hprod]; ring
  constructor
  · apply le_of_sq_le_sq _ (by linarith)
    rw [hsq, hwt, mul_pow, mul_comm]
    apply mul_le_mul_of_nonneg_left _ (by positivity)
    nlinarith
  · apply le_of_sq_le_sq _ (by positivity)
    rw [hsq, hwt, show (t * M * (1 + t ^ 2 / 2)) ^ 2 = M ^ 2 * (t ^ 2 * (1 + t ^ 2 / 2) ^ 2) by ring]
    apply mul_le_mul_of_nonneg_left _ (by positivity)
    have h3 : 2 * (1 - u) ≤ t ^ 2 * (1 + t ^ 2) := by
      have : t ^ 2 = (1 - u) * (1 + u) := by linarith
      have h4 : 0 ≤ (1 - u) * (u * (1 - u) * (2 + u)) := by
        have := sub_nonneg.2 hu1
        positivity
      have h5 : t ^ 2 * (1 + t ^ 2) - 2 * (1 - u) = (1 - u) * (u * (1 - u) * (2 + u)) := by
        rw [this]; ring
      linarith
    have h6 : t ^ 2 * (1 + t ^ 2) ≤ t ^ 2 * (1 + t ^ 2 / 2) ^ 2 := by
      apply mul_le_mul_of_nonneg_left _ (by positivity)
      nlinarith [sq_nonneg (t ^ 2)]
    linarith

/-- **C107.** Its width at half maximum is the given width: the density is at least one half of the
peak exactly between two excitation energies on both sides of the centroid, whose distance exceeds
the width by at most the fraction `(width / mass)² / 2` of it. -/
theorem C107_width {m c w : ℝ} (hw : 0 < w) (hm : w < m + c) :
    ∃ lo hi : ℝ, lo < c ∧ c < hi ∧
      (∀ x, resonance (m + c) w (m + c) / 2 ≤ resonance (m + c) w (m + x) ↔ lo ≤ x ∧ x ≤ hi) ∧
      w ≤ hi - lo ∧ hi - lo ≤ w * (1 + (w / (m + c)) ^ 2 / 2) := by
  set M := m + c with hMd
  have hM0 : 0 < M := hw.trans hm
  have hn : 0 < M ^ 2 - M * w := by nlinarith
  have hk : 0 < 2 * √2 * M * w * √(M ^ 2 * (M ^ 2 + w ^ 2))
      / (Real.pi * √(M ^ 2 + √(M ^ 2 * (M ^ 2 + w ^ 2)))) := by
    have := Real.pi_pos
    positivity
  obtain ⟨h1, h2⟩ := sqrt_width hw hm.le
  have hMs : √(M ^ 2) = M := Real.sqrt_sq hM0.le
  refine ⟨√(M ^ 2 - M * w) - m, √(M ^ 2 + M * w) - m, ?_, ?_, fun x => ?_, by linarith, by linarith⟩
  · have : √(M ^ 2 - M * w) < √(M ^ 2) := Real.sqrt_lt_sqrt hn.le (by nlinarith)
    linarith
  · have : √(M ^ 2) < √(M ^ 2 + M * w) := Real.sqrt_lt_sqrt (by positivity) (by nlinarith)
    linarith
  · have hiff : (√(M ^ 2 - M * w) - m ≤ x ∧ x ≤ √(M ^ 2 + M * w) - m) ↔
        √(M ^ 2 - M * w) ≤ m + x ∧ m + x ≤ √(M ^ 2 + M * w) := by
      constructor <;> rintro ⟨a, b⟩ <;> constructor <;> linarith
    rw [hiff]
    unfold resonance
    rw [if_pos hM0]
    generalize hKd : 2 * √2 * M * w * √(M ^ 2 * (M ^ 2 + w ^ 2))
      / (Real.pi * √(M ^ 2 + √(M ^ 2 * (M ^ 2 + w ^ 2)))) = K at *
    by_cases hE : 0 < m + x
    · rw [if_pos hE]
      generalize m + x = E at *
      rw [Real.sqrt_le_left hE.le, Real.le_sqrt' hE, sub_self]
      have hmw : 0 < M * w := by positivity
      have hD : 0 < (E ^ 2 - M ^ 2) ^ 2 + M ^ 2 * w ^ 2 := by positivity
      rw [div_div, div_le_div_iff_of_pos_left hk (by positivity) hD]
      have : (E ^ 2 - M ^ 2) ^ 2 + M ^ 2 * w ^ 2 ≤ (0 ^ 2 + M ^ 2 * w ^ 2) * 2 ↔
          (E ^ 2 - M ^ 2) ^ 2 ≤ (M * w) ^ 2 := by
        constructor <;> intro h <;> nlinarith
      rw [this, sq_le_sq, abs_of_pos hmw, abs_le]
      constructor <;> rintro ⟨a, b⟩ <;> constructor <;> linarith
    · rw [if_neg hE]
      constructor
      · intro h
        exfalso
        have : 0 < K / ((M ^ 2 - M ^ 2) ^ 2 + M ^ 2 * w ^ 2) / 2 := by
          rw [sub_self]
          positivity
        linarith
      · rintro ⟨a, -⟩
        have := Real.sqrt_pos.2 hn
        exact absurd (this.trans_le a) hE

/-- A generator whose states are the values to be returned next. -/
noncomputable def bwRvs : BreitWignerRvs ℝ := fun _ _ s => (s, s)

/-- C107 for the first excited state of ⁸Be: centroid 3.03 MeV, width 1.51 MeV, rest mass
7454.85 MeV. -/
example : ∃ (X : ℝ → ℝ) (next : ℝ → ℝ), Measurable X ∧
    (∀ s, (⟨7454.85, 3.03, 1.51⟩ : ExcitationBreitWigner).sample bwRvs s = .ok (X s, next s)) ∧
    (volume.withDensity fun e => ENNReal.ofReal
        (scipyBreitWigner ((7454.85 + 3.03) / 1.51) (e / 1.51) / 1.51)).map X
      = volume.withDensity fun x => ENNReal.ofReal (resonance (7454.85 + 3.03) 1.51 (7454.85 + x)) :=
  C107_law ⟨7454.85, 3.03, 1.51⟩ (by norm_num) (by norm_num)
    ⟨measurable_id, Measure.map_id⟩

end Verif.Props
