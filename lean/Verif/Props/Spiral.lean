import Verif.Proofs.Spiral
import Verif.Props.FieldWork
import Verif.Props.WellPosed

/-! # C113: the shape of a track in the gas and the magnetic field -/

namespace Verif.Detector

open Verif.Spec Verif.Kinematics Set MeasureTheory

/-- The angle in rad by which a nucleus has been turned by the magnetic field at time `t`. -/
noncomputable def turned (n : Nucleus) (B : ℝ) (traj : ℝ → Row) (t : ℝ) : ℝ :=
  ∫ τ in (0)..t, gyration n B (traj τ)

/-- **C113.** In the gas, with fields along the z axis, the transverse direction of motion turns with the angular
velocity `q B / (m γ)`, clockwise for a field in the direction of the z axis; the gas and the electric field
do not influence it except through γ. The transverse momentum only shrinks. -/
theorem C113_turning {traj : ℝ → Row} {T B E : ℝ} {target : GasTarget} {n : Nucleus} (hm : 0 < n.mass)
    (hdedx : ∀ k, 0 ≤ target.get_dedx n k) (hrho : 0 ≤ target.density)
    (hcont : ContinuousOn (target.get_dedx n) (Ioi 0)) (hsol : ExactSolution traj 0 T B E target n) {t : ℝ}
    (ht : t ∈ Icc 0 T) : ∃ f : ℝ, 0 < f ∧ f ≤ 1 ∧
      (traj t).gvx = f * (Real.cos (turned n B traj t) * (traj 0).gvx
        + Real.sin (turned n B traj t) * (traj 0).gvy) ∧
      (traj t).gvy = f * (Real.cos (turned n B traj t) * (traj 0).gvy
        - Real.sin (turned n B traj t) * (traj 0).gvx) := by
  have hT : 0 ≤ T := ht.1.trans ht.2
  obtain ⟨Ψ, hΨ, hΨ'⟩ := exists_primitive hT (gyration_continuous hm hsol)
  obtain ⟨D, hD, hD'⟩ := exists_primitive hT (slowing_continuous hm hcont hsol)
  have h0 : (0 : ℝ) ∈ Icc 0 T := ⟨le_rfl, hT⟩
  have hP := const_of_deriv (a := 0) (b := T)
    (f := fun t => ((traj t).gvx * Real.cos (Ψ t) - (traj t).gvy * Real.sin (Ψ t)) * Real.exp (D t))
    (fun t ht => by
      obtain ⟨-, h1, h2, -⟩ := solution_deriv hm hsol ht
      refine (((h1.mul (hΨ t ht).cos).sub (h2.mul (hΨ t ht).sin)).mul (hD t ht).exp).congr_deriv ?_
      simp only [Pi.mul_apply, Pi.sub_apply]
      ring) t ht
  have hQ := const_of_deriv (a := 0) (b := T)
    (f := fun t => ((traj t).gvx * Real.sin (Ψ t) + (traj t).gvy * Real.cos (Ψ t)) * Real.exp (D t))
    (fun t ht => by
      obtain ⟨-, h1, h2, -⟩ := solution_deriv hm hsol ht
      refine (((h1.mul (hΨ t ht).sin).add (h2.mul (hΨ t ht).cos)).mul (hD t ht).exp).congr_deriv ?_
      simp only [Pi.mul_apply, Pi.add_apply]
      ring) t ht
  have hz : Ψ 0 = 0 ∧ D 0 = 0 := by
    rw [hΨ' 0 h0, hD' 0 h0]
    simp
  simp only [hz.1, hz.2, Real.cos_zero, Real.sin_zero, Real.exp_zero, mul_one, mul_zero, sub_zero, zero_add]
    at hP hQ
  have hpos : 0 ≤ D t := by
    rw [hD' t ht]
    apply intervalIntegral.integral_nonneg ht.1
    intro τ _
    have hkg : 0 < MEV_2_KG := by norm_num [MEV_2_KG]
    have hJ : 0 < MEV_2_JOULE := by norm_num [MEV_2_JOULE]
    have := hdedx (kinetic n (traj τ))
    unfold slowing
    positivity
  have hΨt : turned n B traj t = Ψ t := (hΨ' t ht).symm
  rw [hΨt]
  refine ⟨Real.exp (-D t), Real.exp_pos _, Real.exp_le_one_iff.2 (by linarith), ?_, ?_⟩
  · rw [← hP, ← hQ, Real.exp_neg]
    have := Real.cos_sq_add_sin_sq (Ψ t)
    field_simp
    linear_combination -(traj t).gvx * this
  · rw [← hP, ← hQ, Real.exp_neg]
    have := Real.cos_sq_add_sin_sq (Ψ t)
    field_simp
    linear_combination -(traj t).gvy * this

/-- The vector `v`, turned about the z axis by `φ` from the y axis towards the x axis. -/
noncomputable def turnedBy (φ : ℝ) (v : ℝ × ℝ × ℝ) : ℝ × ℝ × ℝ :=
  (Real.cos φ * v.1 + Real.sin φ * v.2.1, Real.cos φ * v.2.1 - Real.sin φ * v.1, v.2.2)

/-- **C113.** Without electric field the direction of motion is the initial one, turned about the z axis; the angle
to the z axis is constant. -/
theorem C113_direction {traj : ℝ → Row} {T B : ℝ} {target : GasTarget} {n : Nucleus} (hm : 0 < n.mass)
    (hsol : ExactSolution traj 0 T B 0 target n) {t : ℝ} (ht : t ∈ Icc 0 T) :
    direction (traj t) = turnedBy (turned n B traj t) (direction (traj 0)) := by
  have hT : 0 ≤ T := ht.1.trans ht.2
  obtain ⟨Ψ, hΨ, hΨ'⟩ := exists_primitive hT (gyration_continuous hm hsol)
  have h0 : (0 : ℝ) ∈ Icc 0 T := ⟨le_rfl, hT⟩
  have hd : ∀ s ∈ Icc 0 T, HasDerivAt (fun t => (direction (traj t)).1)
      (gyration n B (traj s) * (direction (traj s)).2.1) s ∧
      HasDerivAt (fun t => (direction (traj t)).2.1) (-(gyration n B (traj s) * (direction (traj s)).1)) s ∧
      HasDerivAt (fun t => (direction (traj t)).2.2) 0 s := by
    intro s hs
    obtain ⟨hsq, h1, h2, h3, -⟩ := solution_deriv hm hsol hs
    have hs0 := Real.sqrt_pos.2 hsq
    have hp := momentum_deriv hm hsol hs
    refine ⟨(h1.div hp hs0.ne').congr_deriv ?_, (h2.div hp hs0.ne').congr_deriv ?_,
      (h3.div hp hs0.ne').congr_deriv ?_⟩ <;>
    · try simp only [direction]
      field_simp
      ring
  have hP := const_of_deriv (a := 0) (b := T)
    (f := fun t => (direction (traj t)).1 * Real.cos (Ψ t) - (direction (traj t)).2.1 * Real.sin (Ψ t))
    (fun s hs => by
      obtain ⟨h1, h2, -⟩ := hd s hs
      refine ((h1.mul (hΨ s hs).cos).sub (h2.mul (hΨ s hs).sin)).congr_deriv ?_
      ring) t ht
  have hQ := const_of_deriv (a := 0) (b := T)
    (f := fun t => (direction (traj t)).1 * Real.sin (Ψ t) + (direction (traj t)).2.1 * Real.cos (Ψ t))
    (fun s hs => by
      obtain ⟨h1, h2, -⟩ := hd s hs
      refine ((h1.mul (hΨ s hs).sin).add (h2.mul (hΨ s hs).cos)).congr_deriv ?_
      ring) t ht
  have hR := const_of_deriv (a := 0) (b := T) (f := fun t => (direction (traj t)).2.2)
    (fun s hs => (hd s hs).2.2) t ht
  have hz : Ψ 0 = 0 := by
    rw [hΨ' 0 h0]
    simp
  simp only [hz, Real.cos_zero, Real.sin_zero, mul_one, mul_zero, sub_zero, zero_add] at hP hQ hR
  have hΨt : turned n B traj t = Ψ t := (hΨ' t ht).symm
  have hcs := Real.cos_sq_add_sin_sq (Ψ t)
  unfold turnedBy
  rw [hΨt, ← hP, ← hQ]
  refine Prod.ext ?_ (Prod.ext ?_ hR)
  · simp only
    linear_combination -(direction (traj t)).1 * hcs
  · simp only
    linear_combination -(direction (traj t)).2.1 * hcs

/-- **C113.** Without electric field the depth is the length of the track times the cosine of the angle to the z axis. -/
theorem C113_depth {traj : ℝ → Row} {T B : ℝ} {target : GasTarget} {n : Nucleus} (hm : 0 < n.mass)
    (hsol : ExactSolution traj 0 T B 0 target n) {t : ℝ} (ht : t ∈ Icc 0 T) :
    (traj t).z - (traj 0).z = (direction (traj 0)).2.2 * pathLength traj 0 t := by
  have hT : 0 ≤ T := ht.1.trans ht.2
  obtain ⟨L, hL, hL'⟩ := exists_primitive hT (speed_continuous hsol)
  have h0 : (0 : ℝ) ∈ Icc 0 T := ⟨le_rfl, hT⟩
  have hc := const_of_deriv (a := 0) (b := T) (f := fun t => (traj t).z - (direction (traj 0)).2.2 * L t)
    (fun s hs => by
      obtain ⟨hsq, -, -, -, h4⟩ := solution_deriv hm hsol hs
      refine (h4.sub ((hL s hs).const_mul _)).congr_deriv ?_
      rw [← show (direction (traj s)).2.2 = (direction (traj 0)).2.2 by rw [C113_direction hm hsol hs]; rfl]
      have hs0 := Real.sqrt_pos.2 hsq
      have hl := lorentz_pos (traj s)
      have e : speed (traj s) = Real.sqrt (gammaBetaSq (traj s)) / lorentz (traj s) * 299792458 := by
        unfold speed velocity
        simp only
        have : ((traj s).gvx / lorentz (traj s) * 299792458) ^ 2
            + ((traj s).gvy / lorentz (traj s) * 299792458) ^ 2
            + ((traj s).gvz / lorentz (traj s) * 299792458) ^ 2
            = (Real.sqrt (gammaBetaSq (traj s)) / lorentz (traj s) * 299792458) ^ 2 := by
          rw [mul_pow (Real.sqrt _ / _), div_pow (Real.sqrt _), Real.sq_sqrt hsq.le]
          unfold gammaBetaSq
          field_simp
        rw [this, Real.sqrt_sq (by positivity)]
      rw [e]
      unfold direction
      simp only
      field_simp
      ring) t ht
  have e1 : L 0 = 0 := by rw [hL' 0 h0]; simp
  have e2 : L t = pathLength traj 0 t := hL' t ht
  simp only [e1, mul_zero, sub_zero] at hc
  rw [← hc, e2]
  ring

/-- The momentum in kg m/s of a nucleus of kinetic energy `k`. -/
noncomputable def momentumAt (n : Nucleus) (k : ℝ) : ℝ :=
  MEV_2_KG * 299792458 * Real.sqrt (k * (k + 2 * n.mass))

/-- The angle in rad by which a nucleus is turned by a magnetic field `B` while the gas slows it from `k₀` to `k₁`:
the integral of `q B / p` divided by the stopping force over the energy lost. -/
noncomputable def turnAngle (target : GasTarget) (n : Nucleus) (B k₁ k₀ : ℝ) : ℝ :=
  ∫ k in k₁..k₀, n.Z * E_CHARGE * B / (momentumAt n k * stopForce target n k)

/-- **C113.** Without electric field the angle by which the nucleus has been turned when it has a given energy does
not depend on its direction, and is proportional to the field. -/
theorem C113_angle {traj : ℝ → Row} {T B : ℝ} {target : GasTarget} {n : Nucleus} (hm : 0 < n.mass)
    (hdedx : ∀ k, 0 ≤ target.get_dedx n k) (hrho : 0 ≤ target.density)
    (hsol : ExactSolution traj 0 T B 0 target n) {t : ℝ} (ht : t ∈ Icc 0 T)
    (hcont : ContinuousOn (target.get_dedx n) (Icc (kinetic n (traj t)) (kinetic n (traj 0))))
    (hpos : ∀ k ∈ Icc (kinetic n (traj t)) (kinetic n (traj 0)), 0 < stopForce target n k) :
    turned n B traj t = unitRatio * turnAngle target n B (kinetic n (traj t)) (kinetic n (traj 0)) := by
  have hkg : 0 < MEV_2_KG := by norm_num [MEV_2_KG]
  have hanti := C22_energy_antitone hm hdedx hrho hsol
  have hk := kinetic_pos hm hsol ht
  have hp : ∀ k, 0 < k → 0 < momentumAt n k := by
    intro k hk
    unfold momentumAt
    have : 0 < Real.sqrt (k * (k + 2 * n.mass)) := Real.sqrt_pos.2 (by positivity)
    positivity
  have hS : ContinuousOn (fun k => stopForce target n k) (Icc (kinetic n (traj t)) (kinetic n (traj 0))) := by
    unfold stopForce
    exact (hcont.mul continuousOn_const).mul continuousOn_const
  have hpc : ContinuousOn (fun k => momentumAt n k) (Icc (kinetic n (traj t)) (kinetic n (traj 0))) := by
    unfold momentumAt
    fun_prop
  have h := energy_substitution hm hdedx hrho hsol ht hcont
    (g := fun k => n.Z * E_CHARGE * B / (momentumAt n k * stopForce target n k))
    (continuousOn_const.div (hpc.mul hS) fun k hk' =>
      (mul_pos (hp k (hk.trans_le hk'.1)) (hpos k hk')).ne')
  unfold turned turnAngle
  rw [← h]
  apply intervalIntegral.integral_congr
  intro τ hτ
  rw [uIcc_of_le ht.1] at hτ
  have hτ' : τ ∈ Icc 0 T := ⟨hτ.1, hτ.2.trans ht.2⟩
  have h1 := hpos _ ⟨hanti hτ' ht hτ.2, hanti ⟨le_rfl, ht.1.trans ht.2⟩ hτ' hτ.1⟩
  have hkτ := kinetic_pos hm hsol hτ'
  have h2 := hp _ hkτ
  have hl := lorentz_pos (traj τ)
  have e : momentumAt n (kinetic n (traj τ)) = n.mass * MEV_2_KG * lorentz (traj τ) * speed (traj τ) := by
    rw [speed_eq hm]
    unfold momentumAt speedAt
    have h3 : kinetic n (traj τ) + n.mass = n.mass * lorentz (traj τ) := by unfold kinetic; ring
    rw [h3]
    field_simp
  have hv : 0 < speed (traj τ) := by
    rw [speed_eq hm]; exact speedAt_pos hm hkτ
  simp only
  rw [e]
  unfold gyration
  field_simp

/-- **C113.** Without electric field, in any magnetic field, every row that `generate_trajectory` returns is
determined by its energy up to the transverse position: its direction is that of the initial momentum, turned
about the z axis by an angle that depends on the energies only, and its distance from the vertex along the z
axis is the range of the lost energy times the cosine of the angle of emission. -/
theorem C113_track {ivp : IvpSolver} {vertex momentum : ℝ × ℝ × ℝ} {n : Nucleus} {d : DetectorParams}
    {track : List Row} {K P : ℝ} (hm : 0 < n.mass) (hE : d.efield = 0)
    (hdedx : ∀ k, 0 ≤ d.gas_target.get_dedx n k) (hrho : 0 ≤ d.gas_target.density)
    (hP : P = Real.sqrt (momentum.1 ^ 2 + momentum.2.1 ^ 2 + momentum.2.2 ^ 2))
    (hKP : K = Real.sqrt (P ^ 2 + n.mass ^ 2) - n.mass) (hK : KE_LIMIT ≤ K)
    (hcont : ContinuousOn (d.gas_target.get_dedx n) (Icc KE_LIMIT K))
    (hpos : ∀ k ∈ Icc KE_LIMIT K, 0 < stopForce d.gas_target n k) (hsol : SolvesExactly ivp)
    (ht : generate_trajectory ivp vertex momentum n d = .ok track) {r : Row} (hr : r ∈ track) :
    kinetic n r ∈ Icc KE_LIMIT K ∧
    direction r = turnedBy (-(unitRatio * turnAngle d.gas_target n d.bfield (kinetic n r) K))
      (momentum.1 / P, momentum.2.1 / P, momentum.2.2 / P) ∧
    r.z - vertex.2.2 = momentum.2.2 / P * (unitRatio * csdaRange d.gas_target n (kinetic n r) K) := by
  have hlim : (0 : ℝ) < KE_LIMIT := by norm_num [KE_LIMIT]
  unfold generate_trajectory at ht
  split at ht
  · cases ht
  rename_i solution hs
  obtain rfl := Except.ok.inj ht
  obtain ⟨traj, T, times, hS, hmem, -, rfl⟩ := hsol _ _ hs
  rw [List.map_map] at hr
  obtain ⟨t, htt, rfl⟩ := List.mem_map.1 hr
  have ht := hmem t htt
  change t ∈ Icc 0 T at ht
  simp only [Function.comp]
  have hex : ExactSolution traj 0 T (d.bfield * -1) 0 d.gas_target n := by
    have : ExactSolution traj 0 T (d.bfield * -1) (d.efield * -1) d.gas_target n := hS.deriv
    rwa [hE, zero_mul] at this
  have hsq : P ^ 2 = momentum.1 ^ 2 + momentum.2.1 ^ 2 + momentum.2.2 ^ 2 := by
    rw [hP, Real.sq_sqrt (by positivity)]
  have hK0 : kinetic n (trajectory_problem vertex momentum n d).y0 = K := by
    rw [kinetic_initial hm, hKP, hsq]
  have hstart : traj 0 = (trajectory_problem vertex momentum n d).y0 := hS.start
  have hStart : kinetic n (traj 0) = K := by rw [hstart, hK0]
  have hT0 : 0 ≤ T := hS.span
  have hanti := C22_energy_antitone hm hdedx hrho hex
  have hkin : kinetic n (traj t) ∈ Icc KE_LIMIT K := by
    refine ⟨((respects_iff (hK.trans hK0.ge) t _).1 (hS.events t ht)).1, ?_⟩
    have := hanti ⟨le_rfl, hT0⟩ ht ht.1
    simp only at this
    rwa [hStart] at this
  have hsub : Icc (kinetic n (traj t)) (kinetic n (traj 0)) ⊆ Icc KE_LIMIT K := by
    rw [hStart]
    exact Icc_subset_Icc hkin.1 le_rfl
  have hdir : direction (traj 0) = (momentum.1 / P, momentum.2.1 / P, momentum.2.2 / P) := by
    rw [hstart]
    have e : gammaBetaSq (trajectory_problem vertex momentum n d).y0 = (P / n.mass) ^ 2 := by
      rw [div_pow, hsq]
      unfold gammaBetaSq trajectory_problem
      simp only
      ring
    have hP0 : 0 ≤ P := by rw [hP]; positivity
    unfold direction
    rw [e, Real.sqrt_sq (by positivity)]
    simp only [trajectory_problem]
    refine Prod.ext ?_ (Prod.ext ?_ ?_) <;> exact div_div_div_cancel_right₀ hm.ne' _ _
  refine ⟨hkin, ?_, ?_⟩
  · rw [C113_direction hm hex ht, hdir,
      C113_angle hm hdedx hrho hex ht (hcont.mono hsub) fun k h => hpos k (hsub h), hStart]
    congr 1
    unfold turnAngle
    rw [← mul_neg, ← intervalIntegral.integral_neg]
    congr 2
    funext k
    ring
  · have h := C113_depth hm hex ht
    rw [C108_path hm hdedx hrho hex ht (hcont.mono hsub) fun k h => hpos k (hsub h), hdir, hStart] at h
    rw [← h, hstart]
    simp only [trajectory_problem]

/-- Example: a nucleus of 2 MeV, emitted at an angle of cosine 60/61 to the z axis in a gas that stops with
100 MeV/m and in a field of 2 T. There is an exact track, and wherever it has lost half of its energy it is
60/61 cm from the vertex along the z axis, up to 10 pm. -/
example : ∃ (ivp : IvpSolver) (track : List Row), SolvesExactly ivp ∧
    generate_trajectory ivp (0, 0, 1 / 2) (0, 22, 120) stopNucleus stopDet = .ok track ∧
    ∀ r ∈ track, kinetic stopNucleus r = 1 → |r.z - (1 / 2 + 60 / 61 * 0.01)| ≤ 1e-11 := by
  have hlip : LocallyLipschitzOn (Ioi 0) (stopDet.gas_target.get_dedx stopNucleus) :=
    (LipschitzWith.const (1 : ℝ)).locallyLipschitz.locallyLipschitzOn
  have hm : 0 < stopNucleus.mass := by norm_num [stopNucleus]
  have hmass : stopNucleus.mass = 3720 := rfl
  have hS : ∀ k, stopForce stopDet.gas_target stopNucleus k = 100 := by
    intro k
    unfold stopForce
    have h1 : stopDet.gas_target.density = 1 := rfl
    have h2 : stopDet.gas_target.get_dedx stopNucleus k = 1 := rfl
    rw [h1, h2]; norm_num
  have hR : csdaRange stopDet.gas_target stopNucleus 1 2 = 0.01 := by
    unfold csdaRange
    simp only [hS]
    rw [intervalIntegral.integral_const, smul_eq_mul]
    norm_num
  have hP : (122 : ℝ) = Real.sqrt ((0 : ℝ) ^ 2 + 22 ^ 2 + 120 ^ 2) := by
    rw [show (0 : ℝ) ^ 2 + 22 ^ 2 + 120 ^ 2 = 122 ^ 2 by norm_num, Real.sqrt_sq (by norm_num)]
  have hKP : (2 : ℝ) = Real.sqrt (122 ^ 2 + stopNucleus.mass ^ 2) - stopNucleus.mass := by
    rw [hmass, show (122 : ℝ) ^ 2 + 3720 ^ 2 = 3722 ^ 2 by norm_num, Real.sqrt_sq (by norm_num)]
    norm_num
  have hK : KE_LIMIT ≤ kinetic stopNucleus
      (trajectory_problem (0, 0, 1 / 2) (0, 22, 120) stopNucleus stopDet).y0 := by
    rw [kinetic_initial hm]
    simp only
    rw [show (0 : ℝ) ^ 2 + 22 ^ 2 + 120 ^ 2 = 122 ^ 2 by norm_num, ← hKP]
    norm_num [KE_LIMIT]
  obtain ⟨ivp, -, hex, -, -, -, hall⟩ := C105_solver
  obtain ⟨sol, hsol⟩ := hall (0, 0, 1 / 2) (0, 22, 120) stopNucleus stopDet hm (fun k => zero_le_one) zero_le_one
    hlip hK
  have htr : generate_trajectory ivp (0, 0, 1 / 2) (0, 22, 120) stopNucleus stopDet = .ok (sol.map Prod.snd) := by
    unfold generate_trajectory
    rw [hsol]
  refine ⟨ivp, _, hex, htr, fun r hr hk => ?_⟩
  obtain ⟨-, -, h⟩ := C113_track (P := 122) (K := 2) hm rfl (fun k => zero_le_one) zero_le_one hP hKP
    (by norm_num [KE_LIMIT]) continuousOn_const (fun k _ => by rw [hS]; norm_num) hex htr hr
  rw [hk, hR] at h
  have e : r.z - (1 / 2 + 60 / 61 * 0.01) = 60 / 61 * 0.01 * (unitRatio - 1) := by
    simp only at h
    linear_combination h
  rw [e, abs_mul]
  have := unitRatio_close
  rw [abs_of_pos (by norm_num : (0 : ℝ) < 60 / 61 * 0.01)]
  linarith

end Verif.Detector
