import Verif.Props.Trajectory
import Verif.Props.Ionisation
import Mathlib.MeasureTheory.Integral.IntervalIntegral.FundThmCalculus

/-! # C91, C92: the energy balance of a trajectory and the ionisation along it -/

namespace Verif.Detector

open Verif.Spec Verif.Kinematics

/-- The speed in m/s. -/
noncomputable def speed (r : Row) : ℝ :=
  Real.sqrt ((velocity r).1 ^ 2 + (velocity r).2.1 ^ 2 + (velocity r).2.2 ^ 2)

/-- The stopping force of the gas in MeV/m. -/
noncomputable def stopping (target : GasTarget) (n : Nucleus) (r : Row) : ℝ :=
  target.get_dedx n (kinetic n r) * target.density * 100

/-- The energy in MeV given to the gas along a trajectory from time `s` to time `t`. -/
noncomputable def gasLoss (traj : ℝ → Row) (target : GasTarget) (n : Nucleus) (s t : ℝ) : ℝ :=
  ∫ τ in s..t, stopping target n (traj τ) * speed (traj τ)

/-- The length in m of a trajectory from time `s` to time `t`. -/
noncomputable def pathLength (traj : ℝ → Row) (s t : ℝ) : ℝ := ∫ τ in s..t, speed (traj τ)

theorem totalEnergy_deriv_speed {traj : ℝ → Row} {a b B E : ℝ} {target : GasTarget} {n : Nucleus}
    (hm : 0 < n.mass) (hsol : ExactSolution traj a b B E target n) (t : ℝ) (ht : t ∈ Set.Icc a b) :
    HasDerivAt (fun t => totalEnergy n E (traj t))
      (-(MEV_2_JOULE * (stopping target n (traj t) * speed (traj t)))) t := by
  obtain ⟨d, hd, -, -, hz', hx, hy, hz⟩ := hsol t ht
  have hp := C22_power hm.ne' hd
  obtain ⟨v1, v2, v3, -⟩ := C22_velocity hd
  have hv : Real.sqrt (d.x ^ 2 + d.y ^ 2 + d.z ^ 2) = speed (traj t) := by
    unfold speed velocity
    rw [v1, v2, v3]
  have hsq : HasDerivAt (fun t => 1 + gammaBetaSq (traj t))
      (2 * ((traj t).gvx * d.gvx + (traj t).gvy * d.gvy + (traj t).gvz * d.gvz)) t := by
    unfold gammaBetaSq
    have := (((hx.pow 2).add (hy.pow 2)).add (hz.pow 2)).const_add 1
    refine this.congr_deriv ?_
    push_cast
    ring
  have hpos : 1 + gammaBetaSq (traj t) ≠ 0 := by
    have := gammaBetaSq_nonneg (traj t)
    linarith
  have hk := (((hsq.sqrt hpos).sub_const 1).const_mul (n.mass * MEV_2_KG * 299792458 ^ 2)).sub
    (hz'.const_mul (n.Z * E_CHARGE * E))
  refine hk.congr_deriv ?_
  have e : 2 * ((traj t).gvx * d.gvx + (traj t).gvy * d.gvy + (traj t).gvz * d.gvz)
      / (2 * Real.sqrt (1 + gammaBetaSq (traj t)))
      = ((traj t).gvx * d.gvx + (traj t).gvy * d.gvy + (traj t).gvz * d.gvz) / lorentz (traj t) := by
    unfold lorentz
    rw [mul_div_mul_left _ _ two_ne_zero]
  rw [e, hp, hv]
  unfold stopping
  ring

theorem solution_continuous {traj : ℝ → Row} {a b B E : ℝ} {target : GasTarget} {n : Nucleus}
    (hsol : ExactSolution traj a b B E target n) :
    ContinuousOn (fun t => (traj t).gvx) (Set.Icc a b) ∧ ContinuousOn (fun t => (traj t).gvy) (Set.Icc a b) ∧
    ContinuousOn (fun t => (traj t).gvz) (Set.Icc a b) := by
  refine ⟨?_, ?_, ?_⟩ <;>
  · intro t ht
    obtain ⟨d, hd, -, -, hz', hx, hy, hz⟩ := hsol t ht
    first
      | exact hx.continuousAt.continuousWithinAt
      | exact hy.continuousAt.continuousWithinAt
      | exact hz.continuousAt.continuousWithinAt

theorem lorentz_continuous {traj : ℝ → Row} {a b B E : ℝ} {target : GasTarget} {n : Nucleus}
    (hsol : ExactSolution traj a b B E target n) :
    ContinuousOn (fun t => lorentz (traj t)) (Set.Icc a b) := by
  obtain ⟨h1, h2, h3⟩ := solution_continuous hsol
  unfold lorentz gammaBetaSq
  exact (continuousOn_const.add (((h1.pow 2).add (h2.pow 2)).add (h3.pow 2))).sqrt

theorem speed_continuous {traj : ℝ → Row} {a b B E : ℝ} {target : GasTarget} {n : Nucleus}
    (hsol : ExactSolution traj a b B E target n) :
    ContinuousOn (fun t => speed (traj t)) (Set.Icc a b) := by
  obtain ⟨h1, h2, h3⟩ := solution_continuous hsol
  have hl := lorentz_continuous hsol
  have hne : ∀ t ∈ Set.Icc a b, lorentz (traj t) ≠ 0 := fun t _ => (lorentz_pos _).ne'
  unfold speed velocity
  exact ((((h1.div hl hne).mul continuousOn_const).pow 2).add
    (((h2.div hl hne).mul continuousOn_const).pow 2) |>.add
    (((h3.div hl hne).mul continuousOn_const).pow 2)).sqrt

theorem kinetic_continuous {traj : ℝ → Row} {a b B E : ℝ} {target : GasTarget} {n : Nucleus}
    (hsol : ExactSolution traj a b B E target n) :
    ContinuousOn (fun t => kinetic n (traj t)) (Set.Icc a b) := by
  unfold kinetic
  exact continuousOn_const.mul ((lorentz_continuous hsol).sub continuousOn_const)

theorem loss_continuous {traj : ℝ → Row} {a b B E : ℝ} {target : GasTarget} {n : Nucleus}
    (hdedx : Continuous (target.get_dedx n)) (hsol : ExactSolution traj a b B E target n) :
    ContinuousOn (fun t => stopping target n (traj t) * speed (traj t)) (Set.Icc a b) := by
  unfold stopping
  exact ((((hdedx.comp_continuousOn (kinetic_continuous hsol)).mul continuousOn_const).mul
    continuousOn_const)).mul (speed_continuous hsol)

/-! ## C91 -/

/-- **C91.** Energy balance along every exact solution: in joules, the change of the kinetic energy
`m c² (γ - 1)` between two times is the work `q E (z' - z)` of the electric field minus the energy given
to the gas, the integral of the stopping power along the path. The magnetic field does no work. -/
theorem C91_balance {traj : ℝ → Row} {a b B E : ℝ} {target : GasTarget} {n : Nucleus}
    (hm : 0 < n.mass) (hdedx : Continuous (target.get_dedx n))
    (hsol : ExactSolution traj a b B E target n) {s t : ℝ} (has : a ≤ s) (hst : s ≤ t) (htb : t ≤ b) :
    n.mass * MEV_2_KG * 299792458 ^ 2 * (lorentz (traj t) - lorentz (traj s))
      = n.Z * E_CHARGE * E * ((traj t).z - (traj s).z) - MEV_2_JOULE * gasLoss traj target n s t := by
  have hsub : Set.uIcc s t ⊆ Set.Icc a b := by
    rw [Set.uIcc_of_le hst]
    exact Set.Icc_subset_Icc has htb
  have hint := intervalIntegral.integral_eq_sub_of_hasDerivAt
    (f := fun t => totalEnergy n E (traj t))
    (f' := fun t => -(MEV_2_JOULE * (stopping target n (traj t) * speed (traj t)))) (a := s) (b := t)
    (fun x hx => totalEnergy_deriv_speed hm hsol x (hsub hx))
    (ContinuousOn.intervalIntegrable
      (((continuousOn_const.mul (loss_continuous hdedx hsol)).neg).mono hsub))
  rw [intervalIntegral.integral_neg, intervalIntegral.integral_const_mul] at hint
  unfold gasLoss
  unfold totalEnergy at hint
  linarith

/-- **C91.** The range: where the gas stops the particle with at least `S` MeV/m and there is no electric
field, the particle moves at most its kinetic energy divided by `S` (up to the difference of the two unit
conversions, 1e-9). -/
theorem C91_range {traj : ℝ → Row} {a b B : ℝ} {target : GasTarget} {n : Nucleus}
    (hm : 0 < n.mass) (hdedx : Continuous (target.get_dedx n))
    (hsol : ExactSolution traj a b B 0 target n) {s t : ℝ} (has : a ≤ s) (hst : s ≤ t) (htb : t ≤ b)
    {S : ℝ} (hS : 0 < S) (hstop : ∀ τ ∈ Set.Icc s t, S ≤ stopping target n (traj τ)) :
    pathLength traj s t ≤ kinetic n (traj s) / S * (1 + 1e-9) := by
  have hbal := C91_balance hm hdedx hsol has hst htb
  have hsub : Set.uIcc s t ⊆ Set.Icc a b := by
    rw [Set.uIcc_of_le hst]
    exact Set.Icc_subset_Icc has htb
  have hle : S * pathLength traj s t ≤ gasLoss traj target n s t := by
    unfold pathLength gasLoss
    rw [← intervalIntegral.integral_const_mul]
    apply intervalIntegral.integral_mono_on hst
    · exact ((continuousOn_const.mul (speed_continuous hsol)).mono hsub).intervalIntegrable
    · exact ((loss_continuous hdedx hsol).mono hsub).intervalIntegrable
    · intro x hx
      exact mul_le_mul_of_nonneg_right (hstop x hx) (Real.sqrt_nonneg _)
  have hl := lorentz_ge_one (traj t)
  have hk : n.mass * MEV_2_KG * 299792458 ^ 2 * (lorentz (traj s) - 1)
      = MEV_2_KG * 299792458 ^ 2 * kinetic n (traj s) := by unfold kinetic; ring
  have hkg : 0 < MEV_2_KG := by norm_num [MEV_2_KG]
  have hJ : MEV_2_JOULE * gasLoss traj target n s t ≤ MEV_2_KG * 299792458 ^ 2 * kinetic n (traj s) := by
    rw [← hk]
    have : 0 ≤ n.mass * MEV_2_KG * 299792458 ^ 2 * (lorentz (traj t) - 1) :=
      mul_nonneg (by positivity) (by linarith)
    nlinarith [hbal]
  have hk0 : 0 ≤ kinetic n (traj s) := mul_nonneg hm.le (by linarith [lorentz_ge_one (traj s)])
  have hJ0 : 0 < MEV_2_JOULE := by norm_num [MEV_2_JOULE]
  have hconv : MEV_2_KG * 299792458 ^ 2 ≤ MEV_2_JOULE * (1 + 1e-9) := by
    norm_num [MEV_2_KG, MEV_2_JOULE]
  have hG : gasLoss traj target n s t ≤ (1 + 1e-9) * kinetic n (traj s) := by
    have h1 : MEV_2_JOULE * gasLoss traj target n s t
        ≤ MEV_2_JOULE * ((1 + 1e-9) * kinetic n (traj s)) := by
      refine hJ.trans ?_
      have := mul_le_mul_of_nonneg_right hconv hk0
      linarith
    exact le_of_mul_le_mul_left h1 hJ0
  rw [div_mul_eq_mul_div, le_div_iff₀ hS]
  linarith

/-- Motion along z under a constant force: `γβ` grows by `w` per second. -/
noncomputable def accelerated (w g0 z0 : ℝ) (t : ℝ) : Row :=
  ⟨0, 0, z0 + 299792458 / w * (Real.sqrt (1 + (g0 + w * t) ^ 2) - Real.sqrt (1 + g0 ^ 2)),
    0, 0, g0 + w * t⟩

/-- This is an exact solution in a gas of constant stopping power with an electric field. -/
theorem accelerated_solution {w g0 z0 T B E s0 : ℝ} {target : GasTarget} {n : Nucleus}
    (hs : ∀ k, target.get_dedx n k = s0) (hw : w ≠ 0)
    (hwE : w = (n.Z * E_CHARGE / (n.mass * MEV_2_KG) * E
      - s0 * MEV_2_JOULE * target.density * 100 / (n.mass * MEV_2_KG)) / 299792458)
    (hpos : ∀ t ∈ Set.Icc 0 T, 0 < g0 + w * t) :
    ExactSolution (accelerated w g0 z0) 0 T B E target n := by
  intro t ht
  have hg0 := hpos t ht
  have hgv : (accelerated w g0 z0 t).gv = g0 + w * t :=
    sqrt_of_sq hg0.le (by simp only [accelerated]; ring)
  have hb : betaOf (accelerated w g0 z0 t).gv ≠ 0 := by
    rw [Ne, betaOf_eq_zero_iff, hgv]; exact hg0.ne'
  have hl : lorentz (accelerated w g0 z0 t) = Real.sqrt (1 + (g0 + w * t) ^ 2) := by
    unfold lorentz gammaBetaSq accelerated
    simp only
    congr 1
    ring
  have hlpos := lorentz_pos (accelerated w g0 z0 t)
  unfold equation_of_motion
  simp only
  rw [if_neg hb]
  refine ⟨_, rfl, ?_⟩
  have hin : HasDerivAt (fun t : ℝ => g0 + w * t) w t := by
    simpa using ((hasDerivAt_id t).const_mul w).const_add g0
  have hsq : HasDerivAt (fun t : ℝ => 1 + (g0 + w * t) ^ 2) (2 * (g0 + w * t) * w) t := by
    refine ((hin.pow 2).const_add 1).congr_deriv ?_
    push_cast
    ring
  have hroot := hsq.sqrt (by positivity)
  have hz := ((hroot.sub_const (Real.sqrt (1 + g0 ^ 2))).const_mul (299792458 / w)).const_add z0
  rw [betaOf_gv, hl, hgv, hs]
  have hsqrt : Real.sqrt (1 + (g0 + w * t) ^ 2) ≠ 0 := by rw [← hl]; exact hlpos.ne'
  refine ⟨(hasDerivAt_const t (0 : ℝ)).congr_deriv ?_,
    (hasDerivAt_const t (0 : ℝ)).congr_deriv ?_, hz.congr_deriv ?_,
    (hasDerivAt_const t (0 : ℝ)).congr_deriv ?_, (hasDerivAt_const t (0 : ℝ)).congr_deriv ?_,
    hin.congr_deriv ?_⟩
  · simp [accelerated]
  · simp [accelerated]
  · simp only [accelerated, C]
    field_simp
  · simp [accelerated]
  · simp [accelerated]
  · simp only [accelerated, C]
    rw [div_self hg0.ne', mul_one]
    exact hwE

/-- A gas that stops with 3 MeV/m. -/
def exStopGas : GasTarget := { density := 0.01, get_dedx := fun _ _ => 3, get_energy_loss := fun _ _ _ => 0 }

/-- The hypotheses of C91 are met by a particle of 1.5 MeV slowing down in a gas of 3 MeV/m to half its
momentum: it moves less than 0.51 m. -/
theorem exStopped (B : ℝ) : ∃ (traj : ℝ → Row) (T : ℝ), 0 < T ∧ ExactSolution traj 0 T B 0 exStopGas exNucleus ∧
    (∀ τ ∈ Set.Icc 0 T, 3 ≤ stopping exStopGas exNucleus (traj τ)) ∧
    kinetic exNucleus (traj 0) = 1.5 ∧ 0 < gasLoss traj exStopGas exNucleus 0 T ∧
    pathLength traj 0 T < 0.51 := by
  have hJ : 0 < MEV_2_JOULE := by norm_num [MEV_2_JOULE]
  have hkg : 0 < MEV_2_KG := by norm_num [MEV_2_KG]
  obtain ⟨u, hu⟩ : ∃ u : ℝ, u = 3 * MEV_2_JOULE / (6 * MEV_2_KG) / 299792458 := ⟨_, rfl⟩
  have hu0 : 0 < u := by rw [hu]; positivity
  have hT : 0 < 3 / (8 * u) := by positivity
  have hsol : ExactSolution (accelerated (-u) (3 / 4) 0) 0 (3 / (8 * u)) B 0 exStopGas exNucleus := by
    refine accelerated_solution (s0 := 3) (fun _ => rfl) (by linarith [hu0]) ?_ ?_
    · rw [hu]
      simp only [exStopGas, exNucleus]
      ring
    · intro t ht
      have : u * t ≤ u * (3 / (8 * u)) := mul_le_mul_of_nonneg_left ht.2 hu0.le
      have e : u * (3 / (8 * u)) = 3 / 8 := by field_simp
      linarith
  have hstop : ∀ τ, stopping exStopGas exNucleus (accelerated (-u) (3 / 4) 0 τ) = 3 := by
    intro τ
    simp only [stopping, exStopGas]
    norm_num
  have hk : kinetic exNucleus (accelerated (-u) (3 / 4) 0 0) = 1.5 := by
    have : lorentz (accelerated (-u) (3 / 4) 0 0) = 5 / 4 :=
      sqrt_of_sq (by norm_num) (by simp only [gammaBetaSq, accelerated]; norm_num)
    unfold kinetic
    rw [this]
    norm_num [exNucleus]
  refine ⟨_, _, hT, hsol, fun τ _ => (hstop τ).ge, hk, ?_, ?_⟩
  · have hbal := C91_balance (by norm_num [exNucleus]) continuous_const hsol le_rfl hT.le le_rfl
    have h1 : lorentz (accelerated (-u) (3 / 4) 0 (3 / (8 * u)))
        < lorentz (accelerated (-u) (3 / 4) 0 0) := by
      unfold lorentz
      apply Real.sqrt_lt_sqrt
      · have := gammaBetaSq_nonneg (accelerated (-u) (3 / 4) 0 (3 / (8 * u)))
        linarith
      · have e : -u * (3 / (8 * u)) = -(3 / 8) := by field_simp
        simp only [gammaBetaSq, accelerated, e]
        norm_num
    have h2 : (0 : ℝ) < exNucleus.mass * MEV_2_KG * 299792458 ^ 2 := by
      have : (0 : ℝ) < exNucleus.mass := by norm_num [exNucleus]
      positivity
    have h3 := mul_neg_of_pos_of_neg h2 (sub_neg.2 h1)
    rw [hbal] at h3
    have h4 : 0 < MEV_2_JOULE * gasLoss (accelerated (-u) (3 / 4) 0) exStopGas exNucleus 0 (3 / (8 * u)) := by
      linarith
    exact (mul_pos_iff_of_pos_left hJ).1 h4
  · have := C91_range (by norm_num [exNucleus]) continuous_const hsol le_rfl hT.le le_rfl
      (S := 3) (by norm_num) (fun τ _ => (hstop τ).ge)
    rw [hk] at this
    refine this.trans_lt ?_
    norm_num

/-! ## C92 -/

/-- The work of the electric field between two points, in MeV. -/
noncomputable def electricWork (n : Nucleus) (E : ℝ) (before after : Row) : ℝ :=
  n.Z * E_CHARGE * E * (after.z - before.z) / MEV_2_JOULE

theorem gasLoss_nonneg {traj : ℝ → Row} {target : GasTarget} {n : Nucleus} {s t : ℝ} (hst : s ≤ t)
    (hd : ∀ k, 0 ≤ target.get_dedx n k) (hrho : 0 ≤ target.density) : 0 ≤ gasLoss traj target n s t := by
  unfold gasLoss stopping speed
  apply intervalIntegral.integral_nonneg hst
  intro u _
  have := hd (kinetic n (traj u))
  positivity

/-- C92, the part that holds: the mean number of electrons released between two points of an exact
solution is the energy given to the gas divided by W, up to the work of the electric field (and the
difference of the two unit conversions, 1e-9). Without electric field it is the energy given to the gas.
Missing: the work of the electric field is not subtracted. -/
theorem C92_mean_partial {traj : ℝ → Row} {a b B E : ℝ} {target : GasTarget} {n : Nucleus}
    (hm : 0 < n.mass) (hdedx : Continuous (target.get_dedx n)) (hd : ∀ k, 0 ≤ target.get_dedx n k)
    (hrho : 0 ≤ target.density) (hsol : ExactSolution traj a b B E target n) {s t : ℝ} (has : a ≤ s)
    (hst : s ≤ t) (htb : t ≤ b) {W : ℝ} (hW : 0 < W) :
    |meanElectrons n W (traj s) (traj t) - gasLoss traj target n s t * 1000000 / W|
      ≤ (|electricWork n E (traj s) (traj t)|
          + 2e-9 * (gasLoss traj target n s t + |electricWork n E (traj s) (traj t)|)) * 1000000 / W := by
  have hbal := C91_balance hm hdedx hsol has hst htb
  have hG := gasLoss_nonneg (traj := traj) hst hd hrho
  unfold meanElectrons
  obtain ⟨D, hD⟩ : ∃ D, D = kinetic n (traj t) - kinetic n (traj s) := ⟨_, rfl⟩
  obtain ⟨w, hw⟩ : ∃ w, w = electricWork n E (traj s) (traj t) := ⟨_, rfl⟩
  have hJ : MEV_2_JOULE ≠ 0 := by norm_num [MEV_2_JOULE]
  obtain ⟨c, hc⟩ : ∃ c, c = MEV_2_KG * 299792458 ^ 2 / MEV_2_JOULE := ⟨_, rfl⟩
  have hc1 : 1 - 1e-9 ≤ c := by rw [hc]; norm_num [MEV_2_KG, MEV_2_JOULE]
  have hc2 : c ≤ 1 + 1e-9 := by rw [hc]; norm_num [MEV_2_KG, MEV_2_JOULE]
  have hcD : c * D = w - gasLoss traj target n s t := by
    rw [hc, hD, hw]
    unfold electricWork kinetic
    field_simp
    linarith
  rw [← hD, ← hw]
  generalize gasLoss traj target n s t = G at *
  clear hbal hsol
  have key : |(|D| - G)| ≤ |w| + 2e-9 * (G + |w|) := by
    have h1 : |c * D| = c * |D| := by rw [abs_mul, abs_of_pos (by linarith : (0 : ℝ) < c)]
    have h2 : |c * D| ≤ |w| + G := by
      rw [hcD]; exact (abs_sub _ _).trans (by rw [abs_of_nonneg hG])
    have h3 : G - |w| ≤ |c * D| := by
      rw [hcD, abs_sub_comm]
      have := abs_sub_abs_le_abs_sub G w
      rwa [abs_of_nonneg hG] at this
    have hw0 := abs_nonneg w
    have hD0 := abs_nonneg D
    rw [h1] at h2 h3
    rw [abs_le]
    constructor
    · nlinarith
    · nlinarith
  have e : |D| * 1000000 / W - G * 1000000 / W = (|D| - G) * (1000000 / W) := by ring
  rw [e, abs_mul, abs_of_pos (by positivity : (0 : ℝ) < 1000000 / W), mul_div_assoc]
  exact mul_le_mul_of_nonneg_right key (by positivity)

/-- C92, the part that holds, for the electrons drawn by `generate_electrons`: if the track points are
those of an exact solution at increasing times, the number of electrons at each point is the integer part
of a draw from a normal distribution whose mean is given by the energy lost to the gas since the point
before, up to the work of the electric field. -/
theorem C92_draws_partial {σ : Type} {rng : Gen σ} {traj : ℝ → Row} {a b B E : ℝ} {params : DetectorParams}
    {n : Nucleus} (hm : 0 < n.mass) (hdedx : Continuous (params.gas_target.get_dedx n))
    (hd : ∀ k, 0 ≤ params.gas_target.get_dedx n k) (hrho : 0 ≤ params.gas_target.density)
    (hsol : ExactSolution traj a b B E params.gas_target n) {times : List ℝ}
    (hmem : ∀ t ∈ times, t ∈ Set.Icc a b) (hinc : times.Pairwise (· ≤ ·)) (hW : 0 < params.w_value)
    {s s' : σ} {primary : List ℤ}
    (h : generate_electrons (times.map traj) n params rng s = .ok (primary, s')) :
    primary.length = times.length ∧ ∃ states : ℕ → σ, states 0 = s ∧ states times.length = s' ∧
      ∀ k v t₀ t₁, primary[k + 1]? = some v → times[k]? = some t₀ → times[k + 1]? = some t₁ →
        ∃ mean x, rng.normal mean (Real.sqrt (params.fano_factor * mean)) (states (k + 1))
            = (x, states (k + 2)) ∧ v = pyInt x ∧
          |mean - gasLoss traj params.gas_target n t₀ t₁ * 1000000 / params.w_value|
            ≤ (|electricWork n E (traj t₀) (traj t₁)| + 2e-9 * (gasLoss traj params.gas_target n t₀ t₁
                + |electricWork n E (traj t₀) (traj t₁)|)) * 1000000 / params.w_value := by
  obtain ⟨hl, states, h0, h1, h2⟩ := C70_draws h
  rw [List.length_map] at hl h1
  refine ⟨hl, states, h0, h1, ?_⟩
  intro k v t₀ t₁ hv ht0 ht1
  obtain ⟨x, hx, hvx⟩ := h2 (k + 1) v hv
  refine ⟨_, x, hx, hvx, ?_⟩
  rw [meanAt_succ (a := traj t₀) (b := traj t₁) (by rw [List.getElem?_map, ht0]; rfl)
    (by rw [List.getElem?_map, ht1]; rfl)]
  have hle : t₀ ≤ t₁ := by
    obtain ⟨i0, rfl⟩ := List.getElem?_eq_some_iff.1 ht0
    obtain ⟨i1, rfl⟩ := List.getElem?_eq_some_iff.1 ht1
    exact List.pairwise_iff_getElem.1 hinc k (k + 1) i0 i1 (by omega)
  exact C92_mean_partial hm hdedx hd hrho hsol (hmem _ (List.mem_of_getElem? ht0)).1 hle
    (hmem _ (List.mem_of_getElem? ht1)).2 hW

/-- The hypotheses of the partial theorems are met by the particle of `exStopped`; without electric field
the mean agrees with the loss to nine digits. -/
example : ∃ (traj : ℝ → Row) (T : ℝ), 0 < gasLoss traj exStopGas exNucleus 0 T ∧
    |meanElectrons exNucleus 30 (traj 0) (traj T) - gasLoss traj exStopGas exNucleus 0 T * 1000000 / 30|
      ≤ 2e-9 * gasLoss traj exStopGas exNucleus 0 T * 1000000 / 30 := by
  obtain ⟨traj, T, hT, hsol, -, -, hG, -⟩ := exStopped 1
  refine ⟨traj, T, hG, ?_⟩
  have := C92_mean_partial (by norm_num [exNucleus]) continuous_const
    (fun _ => by norm_num [exStopGas]) (by norm_num [exStopGas]) hsol le_rfl hT.le le_rfl
    (W := 30) (by norm_num)
  simpa [electricWork] using this

/-- C92 is false: with any electric field there is an exact solution of the equation of motion in a gas
without stopping power, hence without any loss to the gas, along which `generate_electrons` releases
electrons, because it takes the change of the kinetic energy for the energy lost. -/
theorem C92_refuted {σ : Type} {rng : Gen σ} (hr : LawfulGen rng) (params : DetectorParams)
    (hE : params.efield ≠ 0) (hF : params.fano_factor = 0) (hW : 0 < params.w_value)
    (hW1 : params.w_value ≤ 1000000) (hdedx : ∀ k, params.gas_target.get_dedx exNucleus k = 0) (s : σ) :
    ∃ (traj : ℝ → Row) (T : ℝ), 0 < T ∧
      ExactSolution traj 0 T (params.bfield * -1) (params.efield * -1) params.gas_target exNucleus ∧
      gasLoss traj params.gas_target exNucleus 0 T = 0 ∧
      ∃ N s', generate_electrons ([0, T].map traj) exNucleus params rng s = .ok ([0, N], s') ∧ 1 ≤ N := by
  have hkg : 0 < MEV_2_KG := by norm_num [MEV_2_KG]
  have hec : 0 < E_CHARGE := by norm_num [E_CHARGE]
  obtain ⟨w, hw⟩ : ∃ w : ℝ, w = (exNucleus.Z * E_CHARGE / (exNucleus.mass * MEV_2_KG)
    * (params.efield * -1)
      - 0 * MEV_2_JOULE * params.gas_target.density * 100 / (exNucleus.mass * MEV_2_KG)) / 299792458 :=
    ⟨_, rfl⟩
  have hw0 : w ≠ 0 := by
    have : w = E_CHARGE / (6 * MEV_2_KG) / 299792458 * (-params.efield) := by
      rw [hw]; simp only [exNucleus]; push_cast; ring
    rw [this]
    have h1 : E_CHARGE / (6 * MEV_2_KG) / 299792458 ≠ 0 := by positivity
    exact mul_ne_zero h1 (neg_ne_zero.2 hE)
  have haw : 0 < |w| := abs_pos.2 hw0
  have hT : 0 < 3 / (8 * |w|) := by positivity
  have hwT : |w| * (3 / (8 * |w|)) = 3 / 8 := by field_simp
  have hsol : ExactSolution (accelerated w (3 / 4) 0) 0 (3 / (8 * |w|)) (params.bfield * -1)
      (params.efield * -1) params.gas_target exNucleus := by
    refine accelerated_solution (s0 := 0) hdedx hw0 hw ?_
    intro t ht
    have h1 : |w| * t ≤ 3 / 8 := by
      rw [← hwT]; exact mul_le_mul_of_nonneg_left ht.2 haw.le
    have h2 : -(|w| * t) ≤ w * t := by
      have := mul_le_mul_of_nonneg_right (neg_abs_le w) ht.1
      linarith
    linarith
  obtain ⟨T, hTd⟩ : ∃ T, T = 3 / (8 * |w|) := ⟨_, rfl⟩
  rw [← hTd] at hsol hT hwT
  refine ⟨accelerated w (3 / 4) 0, T, hT, hsol, ?_, ?_⟩
  · unfold gasLoss stopping
    simp [hdedx]
  have hmove : ∀ t ∈ Set.Icc 0 T, (accelerated w (3 / 4) 0 t).gv ≠ 0 := by
    intro t ht
    obtain ⟨d, hd, -⟩ := hsol t ht
    exact (eom_ok_iff _ _ _ _ _ _).1 ⟨d, hd⟩
  have hl0 : lorentz (accelerated w (3 / 4) 0 0) = 5 / 4 :=
    sqrt_of_sq (by norm_num) (by simp only [gammaBetaSq, accelerated]; norm_num)
  have hk0 : kinetic exNucleus (accelerated w (3 / 4) 0 0) = 1.5 := by
    unfold kinetic
    rw [hl0]
    norm_num [exNucleus]
  have hkT : 1 ≤ |kinetic exNucleus (accelerated w (3 / 4) 0 T) - 1.5| := by
    rcases lt_or_gt_of_ne hw0 with hneg | hp
    · have e : w * T = -(3 / 8) := by
        rw [abs_of_neg hneg] at hwT; linarith
      have : lorentz (accelerated w (3 / 4) 0 T) ≤ 1.07 := by
        unfold lorentz gammaBetaSq accelerated
        simp only [e]
        rw [Real.sqrt_le_iff]
        norm_num
      unfold kinetic
      simp only [exNucleus]
      rw [abs_of_neg (by linarith)]
      linarith
    · have e : w * T = 3 / 8 := by
        rw [abs_of_pos hp] at hwT; exact hwT
      have : 1.5 ≤ lorentz (accelerated w (3 / 4) 0 T) := by
        unfold lorentz gammaBetaSq accelerated
        simp only [e]
        apply Real.le_sqrt_of_sq_le
        norm_num
      unfold kinetic
      simp only [exNucleus]
      rw [abs_of_nonneg (by linarith)]
      linarith
  obtain ⟨primary, s', hgen⟩ := generate_electrons_ok rng (track := [0, T].map (accelerated w (3 / 4) 0))
    exNucleus (params := params) hF.ge hW (by
      intro r hr
      simp only [List.map_cons, List.map_nil, List.mem_cons, List.not_mem_nil, or_false] at hr
      rcases hr with rfl | rfl
      · exact hmove 0 ⟨le_rfl, hT.le⟩
      · exact hmove T ⟨hT.le, le_rfl⟩) s
  obtain ⟨hlen, states, -, -, hdraw⟩ := C70_draws hgen
  simp only [List.map_cons, List.map_nil, List.length_cons, List.length_nil] at hlen hdraw
  match primary, hlen with
  | [v0, v1], _ =>
    obtain ⟨x0, hx0, hv0⟩ := hdraw 0 v0 rfl
    obtain ⟨x1, hx1, hv1⟩ := hdraw 1 v1 rfl
    rw [hF, zero_mul, Real.sqrt_zero] at hx0 hx1
    have e0 : x0 = 0 := by
      have := hr.normal_zero (meanAt exNucleus params.w_value
        [accelerated w (3 / 4) 0 0, accelerated w (3 / 4) 0 T] 0) (states 0)
      rw [hx0] at this
      exact this
    have e1 : x1 = |kinetic exNucleus (accelerated w (3 / 4) 0 T) - 1.5| * 1000000 / params.w_value := by
      have := hr.normal_zero (meanAt exNucleus params.w_value
        [accelerated w (3 / 4) 0 0, accelerated w (3 / 4) 0 T] 1) (states 1)
      rw [hx1] at this
      rw [← hk0]
      exact this
    have h1 : 1 ≤ x1 := by
      rw [e1, le_div_iff₀ hW]
      nlinarith
    refine ⟨v1, s', ?_, ?_⟩
    · rw [hgen, hv0, e0]
      simp [pyInt]
    · rw [hv1]
      unfold pyInt
      rw [if_pos (by linarith)]
      exact Int.le_floor.2 (by exact_mod_cast h1)

/-- The parameters of the refutation: the example detector with its field of 1 V/m. -/
example : ∃ (traj : ℝ → Row) (T : ℝ), 0 < T ∧
    ExactSolution traj 0 T ((exDet 100 0).bfield * -1) ((exDet 100 0).efield * -1)
      (exDet 100 0).gas_target exNucleus ∧
    gasLoss traj (exDet 100 0).gas_target exNucleus 0 T = 0 ∧
    ∃ N s', generate_electrons ([0, T].map traj) exNucleus (exDet 100 0) exGen () = .ok ([0, N], s')
      ∧ 1 ≤ N :=
  C92_refuted exGen_lawful (exDet 100 0) (by norm_num [exDet]) rfl (by norm_num [exDet])
    (by norm_num [exDet]) (fun _ => rfl) ()

end Verif.Detector
