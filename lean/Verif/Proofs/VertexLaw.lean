import Verif.Proofs.Turning
import Verif.Spec.Beam
import Mathlib.MeasureTheory.Function.Jacobian
import Mathlib.Probability.Distributions.Gaussian.Real
import Mathlib.Analysis.Calculus.Deriv.MeanValue
import Mathlib.Analysis.SpecialFunctions.Integrals.Basic

/-! # The distribution of the vertex and of the beam energy -/

namespace Verif.Spec

open Verif.Kinematics MeasureTheory ProbabilityTheory

variable {σ : Type}

/-- A sample is a vertex with its beam energy and a sample without target. -/
theorem sample_eq_bare (p : Pipeline σ) (E : ℝ) (s : σ) : p.sample s = (do
    let (a, s) ← p.sample_vertex s
    let (x, s) ← (withoutTarget p E).sample s
    return ({ x with beam_energy := a.1, vertex := a.2 }, s)) := by
  unfold Pipeline.sample
  simp only [withoutTarget, Pipeline.sample_vertex, bind, Except.bind]
  split
  · rfl
  rename_i r1 _
  cases sampleHead p.excitations r1.2 with
  | error _ => rfl
  | ok r2 =>
  simp only
  cases sampleHead p.polar_dists r2.2 with
  | error _ => rfl
  | ok r3 =>
  simp only
  cases sampleAll p.excitations.tail (p.rng.uniform 0 (Real.pi * 2) r3.2).2 with
  | error _ => rfl
  | ok r4 =>
  simp only
  cases sampleAll p.polar_dists.tail r4.2 with
  | error _ => rfl
  | ok r5 => rfl

/-- The samples without target at different energies differ in the energy only. -/
theorem bare_energy (p : Pipeline σ) (E E' : ℝ) (s : σ) :
    (withoutTarget p E').sample s = (do
      let (x, s) ← (withoutTarget p E).sample s
      return ({ x with beam_energy := E' }, s)) := by
  unfold Pipeline.sample
  simp only [withoutTarget, Pipeline.sample_vertex, bind, Except.bind]
  cases sampleHead p.excitations s with
  | error _ => rfl
  | ok r2 =>
  simp only
  cases sampleHead p.polar_dists r2.2 with
  | error _ => rfl
  | ok r3 =>
  simp only
  cases sampleAll p.excitations.tail (p.rng.uniform 0 (Real.pi * 2) r3.2).2 with
  | error _ => rfl
  | ok r4 =>
  simp only
  cases sampleAll p.polar_dists.tail r4.2 with
  | error _ => rfl
  | ok r5 => rfl

/-- The beam energy and the vertex as a function of the standard normal number and of two standard uniform
numbers. -/
noncomputable def vertexOf (p : Pipeline σ) (t : TargetMaterial) (x : ℝ × ℝ × ℝ) : ℝ × ℝ × ℝ × ℝ :=
  (remaining p t (t.z_range.1 + (t.z_range.2 - t.z_range.1) * x.2.2),
    (t.rho_sigma * |x.1| * Real.cos (2 * Real.pi * x.2.1),
      t.rho_sigma * |x.1| * Real.sin (2 * Real.pi * x.2.1),
      t.z_range.1 + (t.z_range.2 - t.z_range.1) * x.2.2))

theorem measurable_vertexOf {p : Pipeline σ} {t : TargetMaterial}
    (h : Measurable (remaining p t)) : Measurable (vertexOf p t) := by
  have h' : Measurable fun x : ℝ × ℝ × ℝ => remaining p t (t.z_range.1 + (t.z_range.2 - t.z_range.1) * x.2.2) :=
    h.comp (by fun_prop)
  unfold vertexOf
  exact h'.prodMk (by fun_prop)

variable [MeasurableSpace σ] {μ : Measure σ} [IsProbabilityMeasure μ]
  {rng : Gen σ} {u z : σ → ℝ} {next skip : σ → σ} {p : Pipeline σ} {t : TargetMaterial}

/-- The distribution of the beam energy and of the vertex. -/
theorem vertex_law (hr : FreshGen rng μ u z next skip)
    (hp : p.rng = rng) (ht : p.target_material = some t) (hρ : 0 ≤ t.rho_sigma)
    (hz : t.z_range.1 ≤ t.z_range.2) (hm : Measurable (remaining p t)) :
    ∃ (v : σ → ℝ × ℝ × ℝ × ℝ) (g : σ → σ), Fresh μ v g ∧ (∀ s, p.sample_vertex s = .ok (v s, g s)) ∧
      μ.map v = ((μ.map z).prod ((μ.map u).prod (μ.map u))).map (vertexOf p t) := by
  have hf := hr.fresh_normal.comp (hr.fresh_uniform.comp hr.fresh_uniform)
  have hv := measurable_vertexOf (p := p) (t := t) hm
  refine ⟨_, _, hf.map hv, fun s => ?_, ?_⟩
  · unfold Pipeline.sample_vertex
    rw [ht]
    simp only [not_lt.2 hρ, not_lt.2 hz, if_false, hp, hr.normal, hr.uniform, vertexOf, remaining, zero_add, sub_zero,
      abs_mul, abs_of_nonneg hρ]
  · rw [← hr.fresh_uniform.law_comp hr.fresh_uniform,
      ← hr.fresh_normal.law_comp (hr.fresh_uniform.comp hr.fresh_uniform), Measure.map_map hv hf.value]
    rfl

/-- The uniform number scaled to an interval. -/
theorem uniform_lintegral {a b : ℝ} (hab : a < b) {f : ℝ → ENNReal} (hf : Measurable f) :
    ∫⁻ x, f (a + (b - a) * x) ∂(volume.restrict (Set.Ico (0 : ℝ) 1))
      = ENNReal.ofReal (1 / (b - a)) * ∫⁻ x in Set.Ico a b, f x := by
  have hd : 0 < b - a := by linarith
  have key := lintegral_image_eq_lintegral_abs_deriv_mul (s := Set.Ico (0 : ℝ) 1) measurableSet_Ico
    (f := fun x => a + (b - a) * x) (f' := fun _ => b - a)
    (fun x _ => (((hasDerivAt_id x).const_mul (b - a)).const_add a).hasDerivWithinAt.congr_deriv (by simp))
    (fun x _ y _ h => by
      have : (b - a) * x = (b - a) * y := by simpa using h
      exact mul_left_cancel₀ hd.ne' this) f
  have himg : (fun x => a + (b - a) * x) '' Set.Ico (0 : ℝ) 1 = Set.Ico a b := by
    ext y
    simp only [Set.mem_image, Set.mem_Ico]
    constructor
    · rintro ⟨x, ⟨h1, h2⟩, rfl⟩
      constructor <;> nlinarith
    · rintro ⟨h1, h2⟩
      refine ⟨(y - a) / (b - a), ⟨div_nonneg (by linarith) hd.le, (div_lt_one hd).2 (by linarith)⟩, ?_⟩
      field_simp
      ring
  have hg : Measurable fun x => f (a + (b - a) * x) := hf.comp (by fun_prop)
  rw [himg, lintegral_const_mul _ hg] at key
  rw [key, abs_of_pos hd, ← mul_assoc, ← ENNReal.ofReal_mul (by positivity), one_div,
    inv_mul_cancel₀ hd.ne', ENNReal.ofReal_one, one_mul]

/-- The energy that remains decreases along the z range. -/
theorem remaining_anti {S : ℝ → ℝ} (h : StopsBy p t S) :
    StrictAntiOn (remaining p t) (Set.Icc t.z_range.1 t.z_range.2) := by
  refine strictAntiOn_of_deriv_neg (convex_Icc _ _)
    (fun x hx => (h.deriv x hx).continuousWithinAt) fun x hx => ?_
  rw [interior_Icc] at hx
  have := (h.deriv x (Set.Ioo_subset_Icc_self hx)).hasDerivAt (Icc_mem_nhds hx.1 hx.2)
  rw [this.deriv]
  linarith [h.pos x (Set.Ioo_subset_Icc_self hx)]

/-- Averages over the z range are averages over the energies with the inverse stopping power. -/
theorem remaining_lintegral {S : ℝ → ℝ} (h : StopsBy p t S) (f : ℝ → ENNReal) :
    ∫⁻ z in Set.Ico t.z_range.1 t.z_range.2, f (remaining p t z)
      = ∫⁻ E in Set.Icc (remaining p t t.z_range.2) (remaining p t t.z_range.1),
        ENNReal.ofReal (1 / S E) * f E := by
  have hcont : ContinuousOn (remaining p t) (Set.Icc t.z_range.1 t.z_range.2) :=
    fun x hx => (h.deriv x hx).continuousWithinAt
  have hanti := remaining_anti h
  have himg : remaining p t '' Set.Icc t.z_range.1 t.z_range.2
      = Set.Icc (remaining p t t.z_range.2) (remaining p t t.z_range.1) := by
    apply Set.Subset.antisymm
    · rintro _ ⟨x, hx, rfl⟩
      exact ⟨hanti.antitoneOn hx (Set.right_mem_Icc.2 h.range.le) hx.2,
        hanti.antitoneOn (Set.left_mem_Icc.2 h.range.le) hx hx.1⟩
    · exact intermediate_value_Icc' h.range.le hcont
  have key := lintegral_image_eq_lintegral_abs_deriv_mul (s := Set.Icc t.z_range.1 t.z_range.2)
    measurableSet_Icc h.deriv hanti.injOn (fun E => ENNReal.ofReal (1 / S E) * f E)
  rw [himg] at key
  rw [key, setLIntegral_congr (Ico_ae_eq_Icc (a := t.z_range.1) (b := t.z_range.2) (μ := volume))]
  refine setLIntegral_congr_fun measurableSet_Icc fun x hx => ?_
  have := h.pos x hx
  rw [← mul_assoc, ← ENNReal.ofReal_mul (abs_nonneg _), abs_neg, abs_of_pos this, mul_one_div_cancel this.ne',
    ENNReal.ofReal_one, one_mul]

end Verif.Spec
