import Verif.Proofs.Cutoff
import Verif.Props.Motion

/-! # The equation of motion as a vector field -/

namespace Verif.Detector

open Verif.Spec Set

/-- A row of a track as position and momentum per mass. -/
def toState (r : Row) : P3 × P3 := ((r.x, r.y, r.z), (r.gvx, r.gvy, r.gvz))

/-- The row of a position and a momentum per mass. -/
def ofState (s : P3 × P3) : Row := ⟨s.1.1, s.1.2.1, s.1.2.2, s.2.1, s.2.2.1, s.2.2.2⟩

theorem toState_ofState (s : P3 × P3) : toState (ofState s) = s := rfl

theorem ofState_toState (r : Row) : ofState (toState r) = r := rfl

theorem gammaBetaSq_eq (r : Row) : gammaBetaSq r = sqOf (toState r).2 := rfl

theorem gv_eq_sqrt (r : Row) : r.gv = Real.sqrt (sqOf (toState r).2) := rfl

/-- Velocity and Lorentz force per mass. -/
noncomputable def freePart (B E : ℝ) (n : Nucleus) (p : P3) : P3 × P3 :=
  ((p.1 / Real.sqrt (1 + sqOf p) * C, p.2.1 / Real.sqrt (1 + sqOf p) * C,
      p.2.2 / Real.sqrt (1 + sqOf p) * C),
    ((n.Z : ℝ) * E_CHARGE / (n.mass * MEV_2_KG) * B * (p.2.1 / Real.sqrt (1 + sqOf p)),
      -((n.Z : ℝ) * E_CHARGE / (n.mass * MEV_2_KG) * B * (p.1 / Real.sqrt (1 + sqOf p))),
      (n.Z : ℝ) * E_CHARGE / (n.mass * MEV_2_KG) * E / C))

/-- The direction of motion, scaled to give the deceleration for a unit stopping power. -/
noncomputable def dragPart (target : GasTarget) (n : Nucleus) (p : P3) : P3 × P3 :=
  ((0, 0, 0),
    (MEV_2_JOULE * target.density * 100 / (n.mass * MEV_2_KG) / C / Real.sqrt (sqOf p)) • p)

/-- The vector field of the equation of motion. -/
noncomputable def fieldOf (B E : ℝ) (target : GasTarget) (n : Nucleus) (p : P3) : P3 × P3 :=
  freePart B E n p
    - target.get_dedx n (n.mass * (Real.sqrt (1 + sqOf p) - 1)) • dragPart target n p

theorem eom_field {t : ℝ} {r : Row} {B E : ℝ} {target : GasTarget} {n : Nucleus} (h : r.gv ≠ 0) :
    equation_of_motion t r B E target n = .ok (ofState (fieldOf B E target n (toState r).2)) := by
  have hl : r.gv / betaOf r.gv = Real.sqrt (1 + sqOf (toState r).2) := gamma_eq r h
  have hb : betaOf r.gv = r.gv / Real.sqrt (1 + sqOf (toState r).2) := betaOf_gv r
  have hpos : 0 < Real.sqrt (1 + sqOf (toState r).2) := by
    have := sqOf_nonneg (toState r).2
    positivity
  have hC : C ≠ 0 := by norm_num [C]
  unfold equation_of_motion
  simp only
  rw [if_neg (mt (betaOf_eq_zero_iff r).1 h), hl]
  congr 1
  rw [hb]
  unfold ofState fieldOf freePart dragPart
  rw [← gv_eq_sqrt]
  generalize Real.sqrt (1 + sqOf (toState r).2) = g at hpos
  generalize target.get_dedx n (n.mass * (g - 1)) = D
  generalize r.gv = v at h
  generalize (n.mass * MEV_2_KG) = mk
  have hg := hpos.ne'
  simp only [toState, Prod.fst_sub, Prod.snd_sub, Prod.smul_fst, Prod.smul_snd, smul_eq_mul, mul_zero,
    sub_zero, Row.mk.injEq]
  refine ⟨?_, ?_, ?_, ?_, ?_, ?_⟩ <;> field_simp

/-- The part without gas is smooth. -/
theorem freePart_contDiff (B E : ℝ) (n : Nucleus) : ContDiff ℝ 1 (freePart B E n) := by
  have h1 : ContDiff ℝ 1 fun p : P3 => Real.sqrt (1 + sqOf p) := by
    refine ContDiff.sqrt (contDiff_const.add sqOf_contDiff) fun p => ?_
    have := sqOf_nonneg p
    positivity
  have h2 : ∀ p : P3, Real.sqrt (1 + sqOf p) ≠ 0 := fun p => by
    have := sqOf_nonneg p
    positivity
  have hx : ContDiff ℝ 1 fun p : P3 => p.1 / Real.sqrt (1 + sqOf p) := contDiff_fst.div h1 h2
  have hy : ContDiff ℝ 1 fun p : P3 => p.2.1 / Real.sqrt (1 + sqOf p) :=
    (contDiff_fst.comp contDiff_snd).div h1 h2
  have hz : ContDiff ℝ 1 fun p : P3 => p.2.2 / Real.sqrt (1 + sqOf p) :=
    (contDiff_snd.comp contDiff_snd).div h1 h2
  unfold freePart
  exact ((hx.mul contDiff_const).prodMk ((hy.mul contDiff_const).prodMk (hz.mul contDiff_const))).prodMk
    ((contDiff_const.mul hy).prodMk ((contDiff_const.mul hx).neg.prodMk contDiff_const))

/-- The direction of motion is smooth away from rest. -/
theorem dragPart_contDiffAt (target : GasTarget) (n : Nucleus) (p : P3) (h : 0 < sqOf p) :
    ContDiffAt ℝ 1 (dragPart target n) p := by
  have h1 : ContDiffAt ℝ 1 (fun p : P3 => Real.sqrt (sqOf p)) p :=
    sqOf_contDiff.contDiffAt.sqrt h.ne'
  have h2 : Real.sqrt (sqOf p) ≠ 0 := (Real.sqrt_pos.2 h).ne'
  unfold dragPart
  exact contDiffAt_const.prodMk ((contDiffAt_const.div h1 h2).smul contDiffAt_id)

/-- The equation of motion agrees, for momenta between two positive bounds, with a bounded Lipschitz field
that accelerates no more than the electric field does. -/
theorem exists_regular {B E : ℝ} {target : GasTarget} {n : Nucleus} (hm : 0 < n.mass)
    (hdedx : ∀ k, 0 ≤ target.get_dedx n k) (hrho : 0 ≤ target.density)
    (hlip : LocallyLipschitzOn (Ioi 0) (target.get_dedx n)) {lo hi : ℝ} (hlo : 0 < lo) (hhi : lo ≤ hi) :
    ∃ (F : P3 → P3 × P3) (K : NNReal) (M : ℝ), LipschitzWith K F ∧ (∀ p, ‖F p‖ ≤ M) ∧
      (∀ p, sqOf p ∈ Icc lo hi → F p = fieldOf B E target n p) ∧
      ∀ p, ∃ c D : ℝ, 0 ≤ c ∧ c ≤ 1 ∧ 0 ≤ D ∧ (F p).2 = c • (freePart B E n p).2 - D • p := by
  have hlo2 : 0 < lo / 2 := by linarith
  have hlo3 : lo / 2 < lo := by linarith
  have hhi1 : hi < hi + 1 := by linarith
  obtain ⟨χ, hχ⟩ : ∃ χ : P3 → ℝ, χ = fun p => cut (lo / 2) lo hi (hi + 1) (sqOf p) := ⟨_, rfl⟩
  have hkin : ContDiff ℝ 1 fun p : P3 => n.mass * (Real.sqrt (1 + sqOf p) - 1) := by
    refine contDiff_const.mul (ContDiff.sub (ContDiff.sqrt (contDiff_const.add sqOf_contDiff) fun p => ?_)
      contDiff_const)
    have := sqOf_nonneg p
    positivity
  obtain ⟨K₁, M₁, hK₁, hM₁⟩ := cut_field (G := freePart B E n) (a := lo / 2) (b := lo) (c := hi) (d := hi + 1)
    (fun p _ => (freePart_contDiff B E n).contDiffAt) hlo2 hlo3 hhi1
  obtain ⟨K₂, M₂, hK₂, hM₂⟩ := cut_field (G := dragPart target n) (a := lo / 2) (b := lo) (c := hi)
    (d := hi + 1) (dragPart_contDiffAt target n) hlo2 hlo3 hhi1
  obtain ⟨K₃, M₃, hK₃, hM₃⟩ := cut_field
    (G := fun p => n.mass * (Real.sqrt (1 + sqOf p) - 1)) (a := lo / 2) (b := lo) (c := hi) (d := hi + 1)
    (fun p _ => hkin.contDiffAt) hlo2 hlo3 hhi1
  have h1lo : 1 < Real.sqrt (1 + lo) := by
    rw [Real.lt_sqrt zero_le_one]; linarith
  obtain ⟨g, K₄, M₄, hK₄, hM₄, hgf, hgv⟩ := exists_clamped hlip
    (k₀ := n.mass * (Real.sqrt (1 + lo) - 1)) (k₁ := n.mass * (Real.sqrt (1 + hi) - 1))
    (mul_pos hm (by linarith))
    (by
      have := Real.sqrt_le_sqrt (add_le_add_right hhi 1)
      gcongr)
  have hK₅ := hK₄.comp hK₃
  obtain ⟨K₆, hK₆⟩ := lipschitz_smul hK₅ hK₂ (fun p => hM₄ _) hM₂
  refine ⟨fun p => χ p • freePart B E n p
    - g (χ p • (n.mass * (Real.sqrt (1 + sqOf p) - 1))) • (χ p • dragPart target n p),
    K₁ + K₆, M₁ + M₄ * M₂, ?_, ?_, ?_, ?_⟩
  · rw [hχ]
    exact hK₁.sub hK₆
  · intro p
    have hM0 : 0 ≤ M₄ := (abs_nonneg _).trans (hM₄ 0)
    refine (norm_sub_le _ _).trans (add_le_add (by rw [hχ]; exact hM₁ p) ?_)
    rw [norm_smul]
    exact mul_le_mul (hM₄ _) (by rw [hχ]; exact hM₂ p) (norm_nonneg _) hM0
  · intro p hp
    have h1 : χ p = 1 := by rw [hχ]; exact cut_one hlo3 hhi1 hp
    simp only [h1, one_smul]
    unfold fieldOf
    rw [hgf]
    constructor
    · have := Real.sqrt_le_sqrt (add_le_add_right hp.1 1)
      gcongr
    · have := Real.sqrt_le_sqrt (add_le_add_right hp.2 1)
      gcongr
  · intro p
    obtain ⟨k', -, hk'⟩ := hgv (χ p • (n.mass * (Real.sqrt (1 + sqOf p) - 1)))
    refine ⟨χ p, g (χ p • (n.mass * (Real.sqrt (1 + sqOf p) - 1))) * (χ p
      * (MEV_2_JOULE * target.density * 100 / (n.mass * MEV_2_KG) / C / Real.sqrt (sqOf p))), ?_, ?_, ?_, ?_⟩
    · rw [hχ]; exact cut_nonneg _ _ _ _ _
    · rw [hχ]; exact cut_le_one _ _ _ _ _
    · have h1 : 0 ≤ χ p := by rw [hχ]; exact cut_nonneg _ _ _ _ _
      have h2 := hdedx k'
      rw [hk']
      have h3 : 0 < MEV_2_KG := by norm_num [MEV_2_KG]
      have h4 : 0 < MEV_2_JOULE := by norm_num [MEV_2_JOULE]
      have h5 : 0 < C := by norm_num [C]
      positivity
    · simp only [Prod.snd_sub, Prod.smul_snd, dragPart, smul_smul, mul_assoc]

/-- The field of the equation of motion accelerates no more than the electric field does. -/
theorem fieldOf_grows {B E : ℝ} {target : GasTarget} {n : Nucleus} (hm : 0 < n.mass)
    (hdedx : ∀ k, 0 ≤ target.get_dedx n k) (hrho : 0 ≤ target.density) (p : P3) :
    ∃ c D : ℝ, 0 ≤ c ∧ c ≤ 1 ∧ 0 ≤ D ∧
      (fieldOf B E target n p).2 = c • (freePart B E n p).2 - D • p := by
  refine ⟨1, target.get_dedx n (n.mass * (Real.sqrt (1 + sqOf p) - 1))
    * (MEV_2_JOULE * target.density * 100 / (n.mass * MEV_2_KG) / C / Real.sqrt (sqOf p)),
    zero_le_one, le_rfl, ?_, ?_⟩
  · have h2 := hdedx (n.mass * (Real.sqrt (1 + sqOf p) - 1))
    have h3 : 0 < MEV_2_KG := by norm_num [MEV_2_KG]
    have h4 : 0 < MEV_2_JOULE := by norm_num [MEV_2_JOULE]
    have h5 : 0 < C := by norm_num [C]
    positivity
  · simp only [fieldOf, Prod.snd_sub, Prod.smul_snd, dragPart, smul_smul, one_smul]

theorem deriv_fst {V W : Type*} [NormedAddCommGroup V] [NormedSpace ℝ V] [NormedAddCommGroup W]
    [NormedSpace ℝ W] {f : ℝ → V × W} {d : V × W} {t : ℝ} (h : HasDerivAt f d t) :
    HasDerivAt (fun t => (f t).1) d.1 t :=
  (ContinuousLinearMap.fst ℝ V W).hasFDerivAt.comp_hasDerivAt t h

theorem deriv_snd {V W : Type*} [NormedAddCommGroup V] [NormedSpace ℝ V] [NormedAddCommGroup W]
    [NormedSpace ℝ W] {f : ℝ → V × W} {d : V × W} {t : ℝ} (h : HasDerivAt f d t) :
    HasDerivAt (fun t => (f t).2) d.2 t :=
  (ContinuousLinearMap.snd ℝ V W).hasFDerivAt.comp_hasDerivAt t h

/-- A momentum driven by such a field grows at most at the rate given by the electric field. -/
theorem growth {B E : ℝ} {n : Nucleus} {F : P3 → P3 × P3} {p : ℝ → P3} {T : ℝ}
    (hF : ∀ q, ∃ c D : ℝ, 0 ≤ c ∧ c ≤ 1 ∧ 0 ≤ D ∧ (F q).2 = c • (freePart B E n q).2 - D • q)
    (hp : ∀ t ∈ Icc 0 T, HasDerivAt p (F (p t)).2 t) (hpos : ∀ t ∈ Icc 0 T, 0 < sqOf (p t)) :
    ∀ t ∈ Icc 0 T, Real.sqrt (sqOf (p t))
      ≤ Real.sqrt (sqOf (p 0)) + |(n.Z : ℝ) * E_CHARGE / (n.mass * MEV_2_KG) * E / C| * t := by
  obtain ⟨κ, hκ⟩ : ∃ κ, κ = (n.Z : ℝ) * E_CHARGE / (n.mass * MEV_2_KG) * E / C := ⟨_, rfl⟩
  rw [← hκ]
  have hder : ∀ t ∈ Icc 0 T, ∃ w ≤ |κ|, HasDerivAt (fun t => Real.sqrt (sqOf (p t))) w t := by
    intro t ht
    obtain ⟨c, D, hc0, hc1, hD, he⟩ := hF (p t)
    have hd := hp t ht
    have hx := deriv_fst hd
    have hy := deriv_fst (deriv_snd hd)
    have hz := deriv_snd (deriv_snd hd)
    have hsq : HasDerivAt (fun t => sqOf (p t)) (2 * ((p t).1 * (F (p t)).2.1
        + (p t).2.1 * (F (p t)).2.2.1 + (p t).2.2 * (F (p t)).2.2.2)) t := by
      refine (((hx.pow 2).add (hy.pow 2)).add (hz.pow 2)).congr_deriv ?_
      push_cast
      ring
    have hs := hsq.sqrt (hpos t ht).ne'
    refine ⟨_, ?_, hs⟩
    have hsp : 0 < Real.sqrt (sqOf (p t)) := Real.sqrt_pos.2 (hpos t ht)
    have habs : |(p t).2.2| ≤ Real.sqrt (sqOf (p t)) := by
      apply Real.abs_le_sqrt
      unfold sqOf
      nlinarith [sq_nonneg (p t).1, sq_nonneg (p t).2.1]
    have hnum : (2 : ℝ) * ((p t).1 * (F (p t)).2.1 + (p t).2.1 * (F (p t)).2.2.1
        + (p t).2.2 * (F (p t)).2.2.2) ≤ 2 * (|κ| * Real.sqrt (sqOf (p t))) := by
      have e : (p t).1 * (F (p t)).2.1 + (p t).2.1 * (F (p t)).2.2.1 + (p t).2.2 * (F (p t)).2.2.2
          = c * (κ * (p t).2.2) - D * sqOf (p t) := by
        rw [he, hκ]
        unfold freePart sqOf
        simp only [Prod.fst_sub, Prod.snd_sub, Prod.smul_fst, Prod.smul_snd, smul_eq_mul]
        ring
      rw [e]
      have h1 : κ * (p t).2.2 ≤ |κ| * Real.sqrt (sqOf (p t)) := by
        refine (le_abs_self _).trans ?_
        rw [abs_mul]
        gcongr
      have h2 : c * (κ * (p t).2.2) ≤ |κ| * Real.sqrt (sqOf (p t)) := by
        have h3 : 0 ≤ |κ| * Real.sqrt (sqOf (p t)) := by positivity
        rcases le_total 0 (κ * (p t).2.2) with h | h
        · nlinarith
        · have : c * (κ * (p t).2.2) ≤ 0 := mul_nonpos_of_nonneg_of_nonpos hc0 h
          linarith
      have h4 := mul_nonneg hD (hpos t ht).le
      linarith
    rw [div_le_iff₀ (by positivity)]
    linarith
  have hanti : AntitoneOn (fun t => Real.sqrt (sqOf (p t)) - |κ| * t) (Icc 0 T) := by
    apply antitoneOn_of_deriv_nonpos (convex_Icc 0 T)
    · intro t ht
      obtain ⟨w, -, h⟩ := hder t ht
      exact (h.continuousAt.sub (by fun_prop)).continuousWithinAt
    · intro t ht
      obtain ⟨w, -, h⟩ := hder t (interior_subset ht)
      exact (h.sub ((hasDerivAt_id t).const_mul |κ|)).differentiableAt.differentiableWithinAt
    · intro t ht
      obtain ⟨w, hw, h⟩ := hder t (interior_subset ht)
      have h' : HasDerivAt (fun t => Real.sqrt (sqOf (p t)) - |κ| * t) (w - |κ| * 1) t :=
        h.sub ((hasDerivAt_id t).const_mul |κ|)
      rw [h'.deriv]
      linarith
  intro t ht
  have := hanti ⟨le_rfl, ht.1.trans ht.2⟩ ht ht.1
  simp only [mul_zero, sub_zero] at this
  linarith

end Verif.Detector
