import Mathlib.Analysis.SpecialFunctions.PolarCoord
import Mathlib.Analysis.InnerProductSpace.ProdL2
import Mathlib.Analysis.InnerProductSpace.Projection.Reflection
import Mathlib.MeasureTheory.Measure.Haar.InnerProductSpace
import Mathlib.MeasureTheory.Function.JacobianOneDim
import Mathlib.MeasureTheory.Measure.Prod

/-! # Uniformly distributed directions -/

namespace Verif.Sphere

open MeasureTheory Real Set

/-- Spherical coordinates for integrals over space, with points written `(z, x, y)`. -/
theorem spherical {F : ℝ × ℝ × ℝ → ENNReal} (hF : Measurable F) :
    ∫⁻ q, F q = ∫⁻ φ in Ioo (-π) π, ∫⁻ θ in Ioo 0 π, ∫⁻ r in Ioi (0 : ℝ),
      ENNReal.ofReal r * (ENNReal.ofReal (r * sin θ) *
        F (r * cos θ, r * sin θ * cos φ, r * sin θ * sin φ)) := by
  have h1 : ∀ z, ∫⁻ q, F (z, q) = ∫⁻ φ in Ioo (-π) π, ∫⁻ ρ in Ioi (0 : ℝ),
      ENNReal.ofReal ρ * F (z, ρ * cos φ, ρ * sin φ) := by
    intro z
    rw [← lintegral_comp_polarCoord_symm, polarCoord_target, Measure.volume_eq_prod,
      setLIntegral_prod_symm]
    · simp only [polarCoord_symm_apply, smul_eq_mul]
    · simp only [polarCoord_symm_apply, smul_eq_mul]
      fun_prop
  have h2 : ∫⁻ q, F q = ∫⁻ φ in Ioo (-π) π, ∫⁻ z, ∫⁻ ρ in Ioi (0 : ℝ),
      ENNReal.ofReal ρ * F (z, ρ * cos φ, ρ * sin φ) := by
    rw [Measure.volume_eq_prod, lintegral_prod _ hF.aemeasurable]
    simp only [h1]
    rw [lintegral_lintegral_swap]
    apply Measurable.aemeasurable
    apply Measurable.lintegral_prod_right
    fun_prop
  rw [h2]
  refine lintegral_congr fun φ => ?_
  -- polar coordinates in the half plane at azimuth `φ`
  let G : ℝ × ℝ → ENNReal := fun q => ENNReal.ofReal q.2 * F (q.1, q.2 * cos φ, q.2 * sin φ)
  have hG : Measurable G := by fun_prop
  have h3 : ∫⁻ z, ∫⁻ ρ in Ioi (0 : ℝ), ENNReal.ofReal ρ * F (z, ρ * cos φ, ρ * sin φ) = ∫⁻ q, G q := by
    rw [Measure.volume_eq_prod, lintegral_prod _ hG.aemeasurable]
    refine lintegral_congr fun z => ?_
    rw [← lintegral_indicator measurableSet_Ioi]
    refine lintegral_congr fun ρ => ?_
    by_cases hρ : 0 < ρ
    · rw [indicator_of_mem (by exact hρ)]
    · rw [indicator_of_notMem (by exact hρ)]
      simp only [G, ENNReal.ofReal_of_nonpos (not_lt.1 hρ), zero_mul]
  rw [h3, ← lintegral_comp_polarCoord_symm, polarCoord_target, Measure.volume_eq_prod,
    setLIntegral_prod_symm]
  · simp only [polarCoord_symm_apply, smul_eq_mul, G]
    rw [← lintegral_indicator measurableSet_Ioo, ← lintegral_indicator measurableSet_Ioo]
    refine lintegral_congr fun θ => ?_
    by_cases hθ : θ ∈ Ioo 0 π
    · rw [indicator_of_mem (show θ ∈ Ioo (-π) π from ⟨by linarith [hθ.1, pi_pos], hθ.2⟩),
        indicator_of_mem hθ]
    · rw [indicator_of_notMem hθ]
      by_cases hθ' : θ ∈ Ioo (-π) π
      · rw [indicator_of_mem hθ']
        have hle : θ ≤ 0 := by
          by_contra hc
          exact hθ ⟨not_le.1 hc, hθ'.2⟩
        have hsin : sin θ ≤ 0 := sin_nonpos_of_nonpos_of_neg_pi_le hle hθ'.1.le
        rw [setLIntegral_congr_fun measurableSet_Ioi (g := fun _ => 0), lintegral_zero]
        intro r hr
        simp only
        rw [ENNReal.ofReal_of_nonpos (mul_nonpos_of_nonneg_of_nonpos (le_of_lt hr) hsin), zero_mul,
          mul_zero]
      · rw [indicator_of_notMem hθ']
  · simp only [polarCoord_symm_apply, smul_eq_mul]
    fun_prop

/-- Space as a Euclidean space, with points written `(z, x, y)`. -/
abbrev Space := WithLp 2 (ℝ × WithLp 2 (ℝ × ℝ))

/-- The coordinates of a point. -/
noncomputable def coords (x : Space) : ℝ × ℝ × ℝ := (x.fst, x.snd.fst, x.snd.snd)

theorem coords_preserving : MeasurePreserving coords :=
  (MeasurePreserving.prod (.id volume) (WithLp.volume_preserving_ofLp ℝ ℝ)).comp
    (WithLp.volume_preserving_ofLp ℝ (WithLp 2 (ℝ × ℝ)))

/-- The function of a direction `n`, extended to the unit ball. -/
noncomputable def ballFun (h : ℝ → ENNReal) (n q : ℝ × ℝ × ℝ) : ENNReal :=
  if √(q.1 ^ 2 + (q.2.1 ^ 2 + q.2.2 ^ 2)) < 1 then
    h ((n.1 * q.1 + (n.2.1 * q.2.1 + n.2.2 * q.2.2)) / √(q.1 ^ 2 + (q.2.1 ^ 2 + q.2.2 ^ 2)))
  else 0

theorem measurable_ballFun {h : ℝ → ENNReal} (hh : Measurable h) (n : ℝ × ℝ × ℝ) :
    Measurable (ballFun h n) := by
  unfold ballFun
  refine Measurable.ite (measurableSet_lt (by fun_prop) measurable_const) ?_ measurable_const
  exact hh.comp (by fun_prop)

theorem norm_coords (x : Space) :
    ‖x‖ = √((coords x).1 ^ 2 + ((coords x).2.1 ^ 2 + (coords x).2.2 ^ 2)) := by
  rw [WithLp.prod_norm_eq_of_L2, WithLp.prod_norm_sq_eq_of_L2]
  simp [coords]

theorem inner_coords (x y : Space) : inner ℝ x y = (coords x).1 * (coords y).1 +
    ((coords x).2.1 * (coords y).2.1 + (coords x).2.2 * (coords y).2.2) := by
  rw [WithLp.prod_inner_apply, WithLp.prod_inner_apply]
  simp only [coords, RCLike.inner_apply, conj_trivial]
  simp only [mul_comm]
  rfl

/-- The integral does not depend on the direction. -/
theorem ball_invariant {h : ℝ → ENNReal} (hh : Measurable h) {m n : Space} (hmn : ‖m‖ = ‖n‖) :
    ∫⁻ q, ballFun h (coords m) q = ∫⁻ q, ballFun h (coords n) q := by
  have hR := Submodule.reflection_sub hmn
  set R := (Submodule.span ℝ {m - n})ᗮ.reflection with hRdef
  rw [← coords_preserving.lintegral_comp (measurable_ballFun hh _),
    ← coords_preserving.lintegral_comp (measurable_ballFun hh _),
    ← (LinearIsometryEquiv.measurePreserving R).lintegral_comp
      (f := fun x => ballFun h (coords n) (coords x))
      ((measurable_ballFun hh _).comp coords_preserving.measurable)]
  refine lintegral_congr fun x => ?_
  simp only [ballFun, ← norm_coords, ← inner_coords, LinearIsometryEquiv.norm_map]
  rw [← hR, LinearIsometryEquiv.inner_map_map]

/-- The integral over the ball in terms of directions. -/
theorem ball_spherical {h : ℝ → ENNReal} (hh : Measurable h) (n : ℝ × ℝ × ℝ) :
    ∫⁻ q, ballFun h n q = (∫⁻ r in Ioo (0 : ℝ) 1, ENNReal.ofReal (r ^ 2)) *
      ∫⁻ φ in Ioo (-π) π, ∫⁻ θ in Ioo 0 π, ENNReal.ofReal (sin θ) *
        h (n.1 * cos θ + (n.2.1 * (sin θ * cos φ) + n.2.2 * (sin θ * sin φ))) := by
  rw [spherical (measurable_ballFun hh n), ← lintegral_const_mul]
  · refine lintegral_congr fun φ => ?_
    rw [← lintegral_const_mul _ (by fun_prop)]
    refine setLIntegral_congr_fun measurableSet_Ioo fun θ hθ => ?_
    have hs : 0 < sin θ := sin_pos_of_pos_of_lt_pi hθ.1 hθ.2
    rw [← lintegral_mul_const _ (by fun_prop), ← lintegral_indicator measurableSet_Ioi,
      ← lintegral_indicator measurableSet_Ioo]
    refine lintegral_congr fun r => ?_
    by_cases hr : 0 < r
    · rw [indicator_of_mem (by exact hr)]
      have hn : √((r * cos θ) ^ 2 + ((r * sin θ * cos φ) ^ 2 + (r * sin θ * sin φ) ^ 2)) = r := by
        rw [show (r * cos θ) ^ 2 + ((r * sin θ * cos φ) ^ 2 + (r * sin θ * sin φ) ^ 2) = r ^ 2 by
          have h1 := sin_sq_add_cos_sq θ
          have h2 := sin_sq_add_cos_sq φ
          linear_combination r ^ 2 * h1 + r ^ 2 * sin θ ^ 2 * h2, sqrt_sq hr.le]
      simp only [ballFun, hn]
      by_cases hr1 : r < 1
      · rw [indicator_of_mem (show r ∈ Ioo (0 : ℝ) 1 from ⟨hr, hr1⟩), if_pos hr1]
        rw [show (n.1 * (r * cos θ) + (n.2.1 * (r * sin θ * cos φ) + n.2.2 * (r * sin θ * sin φ))) / r
          = n.1 * cos θ + (n.2.1 * (sin θ * cos φ) + n.2.2 * (sin θ * sin φ)) by field_simp]
        generalize h (n.1 * cos θ + (n.2.1 * (sin θ * cos φ) + n.2.2 * (sin θ * sin φ))) = H
        rw [← mul_assoc, ← mul_assoc, ← ENNReal.ofReal_mul hr.le, ← ENNReal.ofReal_mul (by positivity)]
        congr 2
        ring
      · rw [indicator_of_notMem (fun hc => hr1 hc.2), if_neg hr1, mul_zero, mul_zero]
    · rw [indicator_of_notMem (by exact hr), indicator_of_notMem (fun hc => hr hc.1)]
  · apply Measurable.lintegral_prod_right
    fun_prop

/-- **Archimedes.** The projection of a uniformly distributed direction on a unit vector does not depend
on the vector. -/
theorem projection {h : ℝ → ENNReal} (hh : Measurable h) {n1 n2 n3 : ℝ}
    (hn : n1 ^ 2 + (n2 ^ 2 + n3 ^ 2) = 1) :
    ∫⁻ φ in Ioo (-π) π, ∫⁻ θ in Ioo 0 π, ENNReal.ofReal (sin θ) *
        h (n1 * cos θ + (n2 * (sin θ * cos φ) + n3 * (sin θ * sin φ)))
      = ∫⁻ φ in Ioo (-π) π, ∫⁻ θ in Ioo 0 π, ENNReal.ofReal (sin θ) * h (cos θ) := by
  have e := ball_invariant hh (m := WithLp.toLp 2 (n1, WithLp.toLp 2 (n2, n3)))
    (n := WithLp.toLp 2 (1, WithLp.toLp 2 (0, 0))) (by
      rw [norm_coords, norm_coords]
      simp [coords, hn])
  rw [ball_spherical hh, ball_spherical hh] at e
  have hc0 : ∫⁻ r in Ioo (0 : ℝ) 1, ENNReal.ofReal (r ^ 2) ≠ 0 := by
    rw [Ne, setLIntegral_eq_zero_iff measurableSet_Ioo (by fun_prop)]
    intro hc
    have : volume (Ioo (0 : ℝ) 1) = 0 := by
      refine measure_mono_null (fun r hr => ?_) (ae_iff.1 hc)
      simp only [mem_setOf_eq, not_forall, ENNReal.ofReal_eq_zero, not_le]
      exact ⟨hr, by have := hr.1; positivity⟩
    simp at this
  have hct : ∫⁻ r in Ioo (0 : ℝ) 1, ENNReal.ofReal (r ^ 2) ≠ ⊤ := by
    refine ne_top_of_le_ne_top (b := ∫⁻ r in Ioo (0 : ℝ) 1, 1) (by simp) ?_
    refine setLIntegral_mono measurable_const fun r hr => ?_
    rw [ENNReal.ofReal_le_one]
    nlinarith [hr.1, hr.2]
  have := (ENNReal.mul_right_inj hc0 hct).1 e
  simpa [coords] using this

/-- The unit vector with polar angle `θ` and azimuth `φ`, projected on `n`. -/
noncomputable def dotDir (n : ℝ × ℝ × ℝ) (θ φ : ℝ) : ℝ :=
  n.1 * (sin θ * cos φ) + n.2.1 * (sin θ * sin φ) + n.2.2 * cos θ

theorem measurable_dotDir (n : ℝ × ℝ × ℝ) : Measurable fun y : ℝ × ℝ => dotDir n y.1 y.2 := by
  unfold dotDir
  fun_prop

/-- From uniform numbers to the polar angle. -/
theorem polar_subst (g : ℝ → ENNReal) : ∫⁻ v in Ioo (0 : ℝ) 1, g (arccos (2 * v - 1))
    = ∫⁻ θ in Ioo 0 π, ENNReal.ofReal (sin θ / 2) * g θ := by
  have himg : (fun θ => (1 + cos θ) / 2) '' Ioo 0 π = Ioo 0 1 := by
    ext v
    constructor
    · rintro ⟨θ, hθ, rfl⟩
      have h1 := cos_lt_cos_of_nonneg_of_le_pi le_rfl hθ.2.le hθ.1
      have h2 := cos_lt_cos_of_nonneg_of_le_pi hθ.1.le le_rfl hθ.2
      rw [cos_zero] at h1
      rw [cos_pi] at h2
      exact ⟨by simp only; linarith, by simp only; linarith⟩
    · rintro ⟨h1, h2⟩
      refine ⟨arccos (2 * v - 1), ⟨arccos_pos.2 (by linarith), ?_⟩, ?_⟩
      · exact lt_of_le_of_ne (arccos_le_pi _) fun hc => by
          have := arccos_eq_pi.1 hc
          linarith
      · simp only
        rw [cos_arccos (by linarith) (by linarith)]
        ring
  rw [← himg, lintegral_image_eq_lintegral_abs_deriv_mul measurableSet_Ioo
    (f' := fun θ => -sin θ / 2)]
  · refine setLIntegral_congr_fun measurableSet_Ioo fun θ hθ => ?_
    have hs : 0 < sin θ := sin_pos_of_pos_of_lt_pi hθ.1 hθ.2
    rw [show 2 * ((1 + cos θ) / 2) - 1 = cos θ by ring, arccos_cos hθ.1.le hθ.2.le, neg_div, abs_neg,
      abs_of_pos (by positivity)]
  · intro θ _
    have := ((hasDerivAt_cos θ).const_add 1).div_const 2
    exact this.hasDerivWithinAt
  · intro x hx y hy hxy
    exact injOn_cos ⟨hx.1.le, hx.2.le⟩ ⟨hy.1.le, hy.2.le⟩ (by simp only at hxy; linarith)

/-- From uniform numbers to the azimuth, counted from the opposite side. -/
theorem azimuth_subst (g : ℝ → ENNReal) : ∫⁻ w in Ioo (0 : ℝ) 1, g (π * 2 * w)
    = ∫⁻ φ in Ioo (-π) π, ENNReal.ofReal (1 / (π * 2)) * g (φ + π) := by
  have hpi := pi_pos
  have himg : (fun φ => (φ + π) / (π * 2)) '' Ioo (-π) π = Ioo 0 1 := by
    ext v
    constructor
    · rintro ⟨φ, hφ, rfl⟩
      have h1 := hφ.1
      have h2 := hφ.2
      exact ⟨div_pos (by linarith) (by positivity), (div_lt_one (by positivity)).2 (by linarith)⟩
    · rintro ⟨h1, h2⟩
      refine ⟨v * (π * 2) - π, ⟨?_, ?_⟩, ?_⟩
      · nlinarith
      · nlinarith
      · simp only
        field_simp
        ring
  rw [← himg, lintegral_image_eq_lintegral_abs_deriv_mul measurableSet_Ioo
    (f' := fun φ => 1 / (π * 2))]
  · refine setLIntegral_congr_fun measurableSet_Ioo fun φ hφ => ?_
    rw [show π * 2 * ((φ + π) / (π * 2)) = φ + π by field_simp, abs_of_pos (by positivity)]
  · intro φ _
    have := ((hasDerivAt_id φ).add_const π).div_const (π * 2)
    exact this.hasDerivWithinAt
  · intro x hx y hy hxy
    simp only at hxy
    rw [div_left_inj' (by positivity)] at hxy
    linarith

/-- The projection of a direction drawn from two uniform numbers on a unit vector is distributed like the
cosine of its polar angle. -/
theorem isotropic_dot {n : ℝ × ℝ × ℝ} (hn : n.1 ^ 2 + n.2.1 ^ 2 + n.2.2 ^ 2 = 1) {B : Set ℝ}
    (hB : MeasurableSet B) :
    ((volume.restrict (Ico (0 : ℝ) 1)).prod (volume.restrict (Ico (0 : ℝ) 1)))
        {y | dotDir n (arccos (2 * y.1 - 1)) (π * 2 * y.2) ∈ B}
      = volume.restrict (Ico (0 : ℝ) 1) {v | 2 * v - 1 ∈ B} := by
  let h : ℝ → ENNReal := B.indicator 1
  have hh : Measurable h := measurable_one.indicator hB
  have hae : volume.restrict (Ico (0 : ℝ) 1) = volume.restrict (Ioo (0 : ℝ) 1) :=
    Measure.restrict_congr_set Ioo_ae_eq_Ico.symm
  rw [hae]
  have hm : MeasurableSet {y : ℝ × ℝ | dotDir n (arccos (2 * y.1 - 1)) (π * 2 * y.2) ∈ B} := by
    have : Measurable fun y : ℝ × ℝ => dotDir n (arccos (2 * y.1 - 1)) (π * 2 * y.2) := by
      unfold dotDir
      fun_prop
    exact this hB
  have hint : ∀ f : ℝ → ℝ, Measurable f → (volume.restrict (Ioo (0 : ℝ) 1)) {v | f v ∈ B}
      = ∫⁻ v in Ioo (0 : ℝ) 1, h (f v) := by
    intro f hf
    rw [show {v | f v ∈ B} = f ⁻¹' B from rfl, ← lintegral_indicator_one (hf hB)]
    rfl
  rw [Measure.prod_apply_symm hm]
  have e1 : ∀ w : ℝ, (volume.restrict (Ioo (0 : ℝ) 1)) ((fun x => (x, w)) ⁻¹'
      {y : ℝ × ℝ | dotDir n (arccos (2 * y.1 - 1)) (π * 2 * y.2) ∈ B})
      = ∫⁻ θ in Ioo 0 π, ENNReal.ofReal (sin θ / 2) * h (dotDir n θ (π * 2 * w)) := by
    intro w
    rw [show (fun x => (x, w)) ⁻¹' {y : ℝ × ℝ | dotDir n (arccos (2 * y.1 - 1)) (π * 2 * y.2) ∈ B}
      = {v | dotDir n (arccos (2 * v - 1)) (π * 2 * w) ∈ B} from rfl, hint _ (by unfold dotDir; fun_prop)]
    exact polar_subst fun θ => h (dotDir n θ (π * 2 * w))
  simp only [e1]
  rw [azimuth_subst fun φ => ∫⁻ θ in Ioo 0 π, ENNReal.ofReal (sin θ / 2) * h (dotDir n θ φ)]
  -- the cosine of the polar angle
  have e2 : (volume.restrict (Ioo (0 : ℝ) 1)) {v | 2 * v - 1 ∈ B}
      = ∫⁻ θ in Ioo 0 π, ENNReal.ofReal (sin θ / 2) * h (cos θ) := by
    rw [hint (fun v => 2 * v - 1) (by fun_prop), ← polar_subst fun θ => h (cos θ)]
    refine setLIntegral_congr_fun measurableSet_Ioo fun v hv => ?_
    rw [cos_arccos (by linarith [hv.1]) (by linarith [hv.2])]
  have half : ∀ θ : ℝ, ∀ x, ENNReal.ofReal (sin θ / 2) * x = ENNReal.ofReal 2⁻¹ * (ENNReal.ofReal (sin θ) * x) := by
    intro θ x
    rw [← mul_assoc, ← ENNReal.ofReal_mul (by norm_num)]
    congr 2
    ring
  have hdot : ∀ θ φ, dotDir n θ (φ + π) = n.2.2 * cos θ + (-n.1 * (sin θ * cos φ)
      + -n.2.1 * (sin θ * sin φ)) := by
    intro θ φ
    unfold dotDir
    rw [cos_add_pi, sin_add_pi]
    ring
  have pr := projection hh (n1 := n.2.2) (n2 := -n.1) (n3 := -n.2.1) (by rw [← hn]; ring)
  have hmz : Measurable fun θ : ℝ => ENNReal.ofReal (sin θ) * h (cos θ) := by fun_prop
  have hmi : ∀ φ : ℝ, Measurable fun θ : ℝ => ENNReal.ofReal (sin θ) * h (n.2.2 * cos θ +
      (-n.1 * (sin θ * cos φ) + -n.2.1 * (sin θ * sin φ))) := fun φ => by fun_prop
  have hmo : Measurable fun φ : ℝ => ∫⁻ θ in Ioo 0 π, ENNReal.ofReal (sin θ) * h (n.2.2 * cos θ +
      (-n.1 * (sin θ * cos φ) + -n.2.1 * (sin θ * sin φ))) := by
    apply Measurable.lintegral_prod_right
    fun_prop
  simp only [e2, hdot, half]
  rw [lintegral_const_mul _ (by
    simp only [lintegral_const_mul _ (hmi _)]
    exact hmo.const_mul _)]
  simp only [lintegral_const_mul _ (hmi _)]
  rw [lintegral_const_mul _ hmo, pr, lintegral_const_mul _ hmz, lintegral_const,
    Measure.restrict_apply MeasurableSet.univ, univ_inter, Real.volume_Ioo]
  generalize ∫⁻ θ in Ioo 0 π, ENNReal.ofReal (sin θ) * h (cos θ) = I
  rw [show π - -π = π * 2 by ring, mul_left_comm, mul_comm I, ← mul_assoc (ENNReal.ofReal (1 / (π * 2))),
    ← ENNReal.ofReal_mul (by positivity), one_div, inv_mul_cancel₀ (by positivity), ENNReal.ofReal_one,
    one_mul]

end Verif.Sphere
