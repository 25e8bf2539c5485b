import Verif.Props.Range
import Mathlib.Analysis.SpecialFunctions.ExpDeriv
import Mathlib.Analysis.SpecialFunctions.Trigonometric.Deriv

/-! # The direction of motion along a trajectory -/

namespace Verif.Detector

open Verif.Spec Verif.Kinematics Set MeasureTheory

/-- The angular velocity `q B / (m γ)` in rad/s. -/
noncomputable def gyration (n : Nucleus) (B : ℝ) (r : Row) : ℝ :=
  n.Z * E_CHARGE * B / (n.mass * MEV_2_KG * lorentz r)

/-- The rate at which the stopping force reduces the momentum. -/
noncomputable def slowing (target : GasTarget) (n : Nucleus) (r : Row) : ℝ :=
  target.get_dedx n (kinetic n r) * MEV_2_JOULE * target.density * 100
    / (n.mass * MEV_2_KG * 299792458 * Real.sqrt (gammaBetaSq r))

theorem solution_deriv {traj : ℝ → Row} {a b B E : ℝ} {target : GasTarget} {n : Nucleus} (hm : 0 < n.mass)
    (hsol : ExactSolution traj a b B E target n) {t : ℝ} (ht : t ∈ Icc a b) :
    0 < gammaBetaSq (traj t) ∧
    HasDerivAt (fun t => (traj t).gvx)
      (gyration n B (traj t) * (traj t).gvy - slowing target n (traj t) * (traj t).gvx) t ∧
    HasDerivAt (fun t => (traj t).gvy)
      (-(gyration n B (traj t) * (traj t).gvx) - slowing target n (traj t) * (traj t).gvy) t ∧
    HasDerivAt (fun t => (traj t).gvz)
      (n.Z * E_CHARGE * E / (n.mass * MEV_2_KG * 299792458) - slowing target n (traj t) * (traj t).gvz) t ∧
    HasDerivAt (fun t => (traj t).z) ((traj t).gvz / lorentz (traj t) * 299792458) t := by
  obtain ⟨d, hd, -, -, hz, h1, h2, h3⟩ := hsol t ht
  obtain ⟨hv, hf⟩ := C22_lorentz_force hm.ne' hd
  have hg : (traj t).gv ≠ 0 := (eom_ok_iff t _ B E target n).1 ⟨d, hd⟩
  have hsq : 0 < gammaBetaSq (traj t) := by
    rw [← gv_sq]
    positivity
  have hs : 0 < Real.sqrt (gammaBetaSq (traj t)) := Real.sqrt_pos.2 hsq
  have hkg : 0 < MEV_2_KG := by norm_num [MEV_2_KG]
  have hl := lorentz_pos (traj t)
  have hk : 0 < n.mass * MEV_2_KG * 299792458 := by positivity
  unfold force cross direction velocity at hf
  simp only [Prod.mk.injEq, velocity] at hf hv
  obtain ⟨f1, f2, f3⟩ := hf
  obtain ⟨-, -, v3⟩ := hv
  refine ⟨hsq, h1.congr_deriv ?_, h2.congr_deriv ?_, h3.congr_deriv ?_, hz.congr_deriv v3⟩
  · refine mul_left_cancel₀ hk.ne' (f1.trans ?_)
    unfold gyration slowing
    field_simp
    ring
  · refine mul_left_cancel₀ hk.ne' (f2.trans ?_)
    unfold gyration slowing
    field_simp
    ring
  · refine mul_left_cancel₀ hk.ne' (f3.trans ?_)
    unfold slowing
    field_simp
    ring

theorem gyration_continuous {traj : ℝ → Row} {a b B E : ℝ} {target : GasTarget} {n : Nucleus} (hm : 0 < n.mass)
    (hsol : ExactSolution traj a b B E target n) :
    ContinuousOn (fun t => gyration n B (traj t)) (Icc a b) := by
  have hkg : 0 < MEV_2_KG := by norm_num [MEV_2_KG]
  unfold gyration
  refine continuousOn_const.div (continuousOn_const.mul (lorentz_continuous hsol)) fun t _ => ?_
  have := lorentz_pos (traj t)
  positivity

theorem slowing_continuous {traj : ℝ → Row} {T B E : ℝ} {target : GasTarget} {n : Nucleus} (hm : 0 < n.mass)
    (hdedx : ContinuousOn (target.get_dedx n) (Ioi 0)) (hsol : ExactSolution traj 0 T B E target n) :
    ContinuousOn (fun t => slowing target n (traj t)) (Icc 0 T) := by
  have hkg : 0 < MEV_2_KG := by norm_num [MEV_2_KG]
  obtain ⟨c1, c2, c3⟩ := solution_continuous hsol
  have hk : ContinuousOn (fun t => target.get_dedx n (kinetic n (traj t))) (Icc 0 T) :=
    hdedx.comp (kinetic_continuous hsol) fun t ht => kinetic_pos hm hsol ht
  unfold slowing
  refine (((hk.mul continuousOn_const).mul continuousOn_const).mul continuousOn_const).div
    (continuousOn_const.mul ?_) fun t ht => ?_
  · unfold gammaBetaSq
    exact (((c1.pow 2).add (c2.pow 2)).add (c3.pow 2)).sqrt
  · have := Real.sqrt_pos.2 (solution_deriv hm hsol ht).1
    positivity

/-- The integral of a function that is continuous on an interval. -/
theorem exists_primitive {f : ℝ → ℝ} {T : ℝ} (hT : 0 ≤ T) (hf : ContinuousOn f (Icc 0 T)) :
    ∃ F : ℝ → ℝ, (∀ t ∈ Icc 0 T, HasDerivAt F (f t) t) ∧ ∀ t ∈ Icc 0 T, F t = ∫ τ in (0)..t, f τ := by
  have hc : Continuous (IccExtend hT ((Icc 0 T).restrict f)) :=
    (continuousOn_iff_continuous_restrict.1 hf).Icc_extend'
  refine ⟨fun t => ∫ τ in (0)..t, IccExtend hT ((Icc 0 T).restrict f) τ, fun t ht => ?_, fun t ht => ?_⟩
  · refine (hc.integral_hasStrictDerivAt 0 t).hasDerivAt.congr_deriv ?_
    rw [IccExtend_of_mem _ _ ht]
    rfl
  · apply intervalIntegral.integral_congr
    intro τ hτ
    rw [uIcc_of_le ht.1] at hτ
    rw [IccExtend_of_mem _ _ ⟨hτ.1, hτ.2.trans ht.2⟩]
    rfl

/-- The magnitude of the momentum without electric field. -/
theorem momentum_deriv {traj : ℝ → Row} {a b B : ℝ} {target : GasTarget} {n : Nucleus} (hm : 0 < n.mass)
    (hsol : ExactSolution traj a b B 0 target n) {t : ℝ} (ht : t ∈ Icc a b) :
    HasDerivAt (fun t => Real.sqrt (gammaBetaSq (traj t)))
      (-(slowing target n (traj t) * Real.sqrt (gammaBetaSq (traj t)))) t := by
  obtain ⟨hsq, h1, h2, h3, -⟩ := solution_deriv hm hsol ht
  have hs := Real.sqrt_pos.2 hsq
  have h := ((((h1.pow 2).add (h2.pow 2)).add (h3.pow 2)).sqrt (by unfold gammaBetaSq at hsq; exact hsq.ne'))
  refine h.congr_deriv ?_
  have e := Real.mul_self_sqrt hsq.le
  rw [show Real.sqrt (((fun t => (traj t).gvx) ^ 2 + (fun t => (traj t).gvy) ^ 2 + (fun t => (traj t).gvz) ^ 2) t)
    = Real.sqrt (gammaBetaSq (traj t)) from rfl]
  rw [div_eq_iff (by positivity)]
  have e2 : gammaBetaSq (traj t) = (traj t).gvx ^ 2 + (traj t).gvy ^ 2 + (traj t).gvz ^ 2 := rfl
  replace e := e.trans e2
  push_cast
  simp only [mul_zero, zero_div, zero_sub]
  generalize Real.sqrt (gammaBetaSq (traj t)) = w at *
  generalize slowing target n (traj t) = δ at *
  generalize gyration n B (traj t) = ω at *
  linear_combination (2 * δ) * e

end Verif.Detector
