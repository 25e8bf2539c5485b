import Mathlib.Analysis.ODE.ExistUnique
import Mathlib.Analysis.SpecialFunctions.SmoothTransition
import Mathlib.Analysis.Calculus.ContDiff.RCLike
import Mathlib.Analysis.SpecialFunctions.Sqrt
import Mathlib.Topology.MetricSpace.ProperSpace
import Mathlib.Topology.Algebra.MetricSpace.Lipschitz

/-! # Bounded Lipschitz vector fields, and cutting off a field outside an annulus -/

namespace Verif.Detector

open Set Metric

section Generic

variable {V : Type*} [NormedAddCommGroup V] [NormedSpace ℝ V] [CompleteSpace V]

/-- A bounded Lipschitz field has a solution on the unit time interval from every start. -/
theorem exists_flow {F : V → V} {K : NNReal} (hK : LipschitzWith K F) {M : ℝ} (hM : ∀ p, ‖F p‖ ≤ M)
    (y₀ : V) : ∃ y : ℝ → V, y 0 = y₀ ∧ ∀ t ∈ Icc (0 : ℝ) 1, HasDerivAt y (F (y t)) t := by
  have hM0 : 0 ≤ M := (norm_nonneg _).trans (hM 0)
  have h0 : (0 : ℝ) ∈ Icc (-1 : ℝ) 2 := by constructor <;> norm_num
  have hPL : IsPicardLindelof (fun _ => F) (⟨0, h0⟩ : Icc (-1 : ℝ) 2) y₀ (⟨2 * M, by positivity⟩ : NNReal) 0
      ⟨M, hM0⟩ K := by
    constructor
    · intro t _
      exact hK.lipschitzOnWith
    · intro x _
      exact continuousOn_const
    · intro t _ x _
      exact hM x
    · simp only [NNReal.coe_mk, NNReal.coe_zero, sub_zero]
      have : max (2 : ℝ) (0 - -1) = 2 := by norm_num
      rw [this]
      change M * 2 ≤ 2 * M
      linarith
  obtain ⟨y, hy, hd⟩ := hPL.exists_eq_forall_mem_Icc_hasDerivWithinAt₀
  refine ⟨y, hy, fun t ht => ?_⟩
  refine (hd t ⟨by linarith [ht.1], by linarith [ht.2]⟩).hasDerivAt ?_
  exact Icc_mem_nhds (by linarith [ht.1]) (by linarith [ht.2])

/-- Solutions of a Lipschitz field with the same start agree. -/
theorem flow_unique {F : V → V} {K : NNReal} (hK : LipschitzWith K F) {f g : ℝ → V} {T : ℝ}
    (hf : ∀ t ∈ Icc 0 T, HasDerivAt f (F (f t)) t) (hg : ∀ t ∈ Icc 0 T, HasDerivAt g (F (g t)) t)
    (h0 : f 0 = g 0) : ∀ t ∈ Icc 0 T, f t = g t := by
  refine ODE_solution_unique_of_mem_Icc_right (v := fun _ => F) (s := fun _ => univ) (K := K)
    (fun t _ => hK.lipschitzOnWith) ?_ ?_ (fun t _ => mem_univ _) ?_ ?_ (fun t _ => mem_univ _) h0
  · exact fun t ht => (hf t ht).continuousAt.continuousWithinAt
  · exact fun t ht => (hf t ⟨ht.1, ht.2.le⟩).hasDerivWithinAt
  · exact fun t ht => (hg t ht).continuousAt.continuousWithinAt
  · exact fun t ht => (hg t ⟨ht.1, ht.2.le⟩).hasDerivWithinAt

end Generic

/-- The product of a bounded Lipschitz number and a bounded Lipschitz vector is Lipschitz. -/
theorem lipschitz_smul {X V : Type*} [PseudoMetricSpace X] [NormedAddCommGroup V] [NormedSpace ℝ V]
    {f : X → ℝ} {g : X → V} {Kf Kg : NNReal} (hf : LipschitzWith Kf f) (hg : LipschitzWith Kg g)
    {Mf Mg : ℝ} (hMf : ∀ p, |f p| ≤ Mf) (hMg : ∀ p, ‖g p‖ ≤ Mg) :
    ∃ K, LipschitzWith K fun p => f p • g p := by
  rcases isEmpty_or_nonempty X with hX | ⟨⟨p₀⟩⟩
  · exact ⟨0, fun p => (IsEmpty.false p).elim⟩
  have hf0 : 0 ≤ Mf := (abs_nonneg _).trans (hMf p₀)
  have hg0 : 0 ≤ Mg := (norm_nonneg _).trans (hMg p₀)
  refine ⟨⟨Mf * Kg + Kf * Mg, by positivity⟩, LipschitzWith.of_dist_le_mul fun p q => ?_⟩
  have e : f p • g p - f q • g q = f p • (g p - g q) + (f p - f q) • g q := by
    rw [smul_sub, sub_smul]; abel
  rw [dist_eq_norm, e]
  have h1 : ‖g p - g q‖ ≤ Kg * dist p q := by
    rw [← dist_eq_norm]; exact hg.dist_le_mul p q
  have h2 : ‖f p - f q‖ ≤ Kf * dist p q := by
    rw [← dist_eq_norm]; exact hf.dist_le_mul p q
  calc ‖f p • (g p - g q) + (f p - f q) • g q‖
      ≤ ‖f p • (g p - g q)‖ + ‖(f p - f q) • g q‖ := norm_add_le _ _
    _ = |f p| * ‖g p - g q‖ + ‖f p - f q‖ * ‖g q‖ := by
        rw [norm_smul, norm_smul, Real.norm_eq_abs]
    _ ≤ Mf * (Kg * dist p q) + (Kf * dist p q) * Mg := by
        have := hMf p
        have := hMg q
        gcongr
    _ = ((⟨Mf * Kg + Kf * Mg, by positivity⟩ : NNReal) : ℝ) * dist p q := by
        change _ = (Mf * Kg + Kf * Mg) * dist p q; ring

/-- A function that is locally Lipschitz on the positive numbers agrees on a given compact interval with a
bounded Lipschitz function on all numbers, which takes only values of the function on that interval. -/
theorem exists_clamped {f : ℝ → ℝ} (hf : LocallyLipschitzOn (Ioi 0) f) {k₀ k₁ : ℝ} (h0 : 0 < k₀)
    (h01 : k₀ ≤ k₁) : ∃ (g : ℝ → ℝ) (K : NNReal) (M : ℝ), LipschitzWith K g ∧ (∀ k, |g k| ≤ M) ∧
      (∀ k ∈ Icc k₀ k₁, g k = f k) ∧ ∀ k, ∃ k' ∈ Icc k₀ k₁, g k = f k' := by
  have hsub : Icc k₀ k₁ ⊆ Ioi 0 := fun k hk => h0.trans_le hk.1
  obtain ⟨K, hK⟩ := LocallyLipschitzOn.exists_lipschitzOnWith_of_compact isCompact_Icc (hf.mono hsub)
  obtain ⟨M, hM⟩ := isCompact_Icc.exists_bound_of_continuousOn hK.continuousOn
  refine ⟨fun k => f (projIcc k₀ k₁ h01 k), K, M, ?_, ?_, ?_, ?_⟩
  · have := hK.to_restrict.comp (LipschitzWith.projIcc h01)
    rw [mul_one] at this
    exact this
  · exact fun k => hM _ (projIcc k₀ k₁ h01 k).2
  · intro k hk
    simp only [projIcc_of_mem h01 hk]
  · exact fun k => ⟨_, (projIcc k₀ k₁ h01 k).2, rfl⟩

/-- Momenta per mass. -/
abbrev P3 := ℝ × ℝ × ℝ

/-- The squared length of a momentum per mass. -/
noncomputable def sqOf (p : P3) : ℝ := p.1 ^ 2 + p.2.1 ^ 2 + p.2.2 ^ 2

theorem sqOf_nonneg (p : P3) : 0 ≤ sqOf p := by unfold sqOf; positivity

theorem sqOf_contDiff : ContDiff ℝ 1 sqOf := by unfold sqOf; fun_prop

theorem norm_le_of_sqOf {p : P3} {d : ℝ} (h : sqOf p ≤ d) : ‖p‖ ≤ Real.sqrt d := by
  unfold sqOf at h
  rw [Prod.norm_def, Prod.norm_def]
  simp only [Real.norm_eq_abs]
  refine max_le ?_ (max_le ?_ ?_) <;> apply Real.abs_le_sqrt <;>
    nlinarith [sq_nonneg p.1, sq_nonneg p.2.1, sq_nonneg p.2.2]

/-- A smooth function that is 1 on `[b, c]` and 0 outside `(a, d)`. -/
noncomputable def cut (a b c d q : ℝ) : ℝ :=
  Real.smoothTransition ((q - a) / (b - a)) * Real.smoothTransition ((d - q) / (d - c))

theorem cut_contDiff (a b c d : ℝ) : ContDiff ℝ 1 (cut a b c d) := by
  unfold cut
  exact (Real.smoothTransition.contDiff.comp (by fun_prop)).mul
    (Real.smoothTransition.contDiff.comp (by fun_prop))

theorem cut_nonneg (a b c d q : ℝ) : 0 ≤ cut a b c d q :=
  mul_nonneg (Real.smoothTransition.nonneg _) (Real.smoothTransition.nonneg _)

theorem cut_le_one (a b c d q : ℝ) : cut a b c d q ≤ 1 :=
  mul_le_one₀ (Real.smoothTransition.le_one _) (Real.smoothTransition.nonneg _)
    (Real.smoothTransition.le_one _)

theorem cut_one {a b c d q : ℝ} (hab : a < b) (hcd : c < d) (h : q ∈ Icc b c) : cut a b c d q = 1 := by
  unfold cut
  rw [Real.smoothTransition.one_of_one_le, Real.smoothTransition.one_of_one_le, one_mul]
  · rw [le_div_iff₀ (by linarith)]; linarith [h.2]
  · rw [le_div_iff₀ (by linarith)]; linarith [h.1]

theorem cut_zero_low {a b c d q : ℝ} (hab : a < b) (h : q ≤ a) : cut a b c d q = 0 := by
  unfold cut
  rw [Real.smoothTransition.zero_of_nonpos, zero_mul]
  exact div_nonpos_of_nonpos_of_nonneg (by linarith) (by linarith)

theorem cut_zero_high {a b c d q : ℝ} (hcd : c < d) (h : d ≤ q) : cut a b c d q = 0 := by
  unfold cut
  rw [Real.smoothTransition.zero_of_nonpos (x := (d - q) / (d - c)), mul_zero]
  exact div_nonpos_of_nonpos_of_nonneg (by linarith) (by linarith)

/-- Cutting off a field that is smooth away from the origin gives a bounded Lipschitz field. -/
theorem cut_field {W : Type*} [NormedAddCommGroup W] [NormedSpace ℝ W] {G : P3 → W}
    (hG : ∀ p, 0 < sqOf p → ContDiffAt ℝ 1 G p) {a b c d : ℝ} (ha : 0 < a) (hab : a < b) (hcd : c < d) :
    ∃ (K : NNReal) (M : ℝ), LipschitzWith K (fun p => cut a b c d (sqOf p) • G p) ∧
      ∀ p, ‖cut a b c d (sqOf p) • G p‖ ≤ M := by
  have hc : ContDiff ℝ 1 fun p => cut a b c d (sqOf p) • G p := by
    rw [contDiff_iff_contDiffAt]
    intro p
    rcases lt_or_ge 0 (sqOf p) with h | h
    · exact (((cut_contDiff a b c d).comp sqOf_contDiff).contDiffAt).smul (hG p h)
    · have : (fun p => cut a b c d (sqOf p) • G p) =ᶠ[nhds p] fun _ => 0 := by
        have hn : {q : P3 | sqOf q < a} ∈ nhds p :=
          (isOpen_lt sqOf_contDiff.continuous continuous_const).mem_nhds (by
            simp only [mem_setOf_eq]; linarith)
        filter_upwards [hn] with q hq
        rw [cut_zero_low hab (le_of_lt hq), zero_smul]
      exact contDiffAt_const.congr_of_eventuallyEq this
  have hs : HasCompactSupport fun p => cut a b c d (sqOf p) • G p := by
    refine HasCompactSupport.intro (isCompact_closedBall (0 : P3) (Real.sqrt d)) fun p hp => ?_
    have : d ≤ sqOf p := by
      by_contra h
      push Not at h
      exact hp (mem_closedBall_zero_iff.2 (norm_le_of_sqOf h.le))
    rw [cut_zero_high hcd this, zero_smul]
  obtain ⟨K, hK⟩ := hc.lipschitzWith_of_hasCompactSupport hs one_ne_zero
  obtain ⟨M, hM⟩ := hs.exists_bound_of_continuous hc.continuous
  exact ⟨K, M, hK, hM⟩

end Verif.Detector
