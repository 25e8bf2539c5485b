import Verif.Props.Stopping
import Mathlib.MeasureTheory.Integral.IntervalIntegral.IntegrationByParts

/-! # C108: range and slowing-down time -/

namespace Verif.Detector

open Verif.Spec Verif.Kinematics Set MeasureTheory

/-- The stopping force in MeV/m at the kinetic energy `k`. -/
noncomputable def stopForce (target : GasTarget) (n : Nucleus) (k : ℝ) : ℝ :=
  target.get_dedx n k * target.density * 100

/-- The range in m in the continuous-slowing-down approximation, from kinetic energy `k₀` to `k₁`. -/
noncomputable def csdaRange (target : GasTarget) (n : Nucleus) (k₁ k₀ : ℝ) : ℝ :=
  ∫ k in k₁..k₀, 1 / stopForce target n k

/-- The speed in m/s of a nucleus of kinetic energy `k`. -/
noncomputable def speedAt (n : Nucleus) (k : ℝ) : ℝ :=
  299792458 * Real.sqrt (k * (k + 2 * n.mass)) / (k + n.mass)

/-- The time in s in which the nucleus slows down from kinetic energy `k₀` to `k₁`. -/
noncomputable def slowingTime (target : GasTarget) (n : Nucleus) (k₁ k₀ : ℝ) : ℝ :=
  ∫ k in k₁..k₀, 1 / (stopForce target n k * speedAt n k)

/-- Ratio of the two unit conversions in `equation_of_motion`. -/
noncomputable def unitRatio : ℝ := MEV_2_KG * 299792458 ^ 2 / MEV_2_JOULE

theorem unitRatio_close : |unitRatio - 1| ≤ 1e-9 := by
  rw [abs_le]
  unfold unitRatio
  constructor <;> norm_num [MEV_2_KG, MEV_2_JOULE]

theorem unitRatio_pos : 0 < unitRatio := by
  have := (abs_le.1 unitRatio_close).1
  linarith

theorem speed_eq {n : Nucleus} (hm : 0 < n.mass) (r : Row) : speed r = speedAt n (kinetic n r) := by
  have hl := lorentz_pos r
  have h1 : kinetic n r + n.mass = n.mass * lorentz r := by unfold kinetic; ring
  have h2 : lorentz r ^ 2 = 1 + gammaBetaSq r := by
    unfold lorentz
    rw [Real.sq_sqrt (by have := gammaBetaSq_nonneg r; linarith)]
  have h3 : kinetic n r * (kinetic n r + 2 * n.mass) = n.mass ^ 2 * gammaBetaSq r := by
    have : kinetic n r * (kinetic n r + 2 * n.mass) = (kinetic n r + n.mass) ^ 2 - n.mass ^ 2 := by ring
    rw [this, h1, mul_pow, h2]
    ring
  unfold speedAt
  rw [h1, h3, Real.sqrt_mul (by positivity), Real.sqrt_sq hm.le]
  unfold speed velocity
  simp only
  have h4 : (r.gvx / lorentz r * 299792458) ^ 2 + (r.gvy / lorentz r * 299792458) ^ 2
      + (r.gvz / lorentz r * 299792458) ^ 2 = (299792458 / lorentz r) ^ 2 * gammaBetaSq r := by
    unfold gammaBetaSq
    field_simp
  rw [h4, Real.sqrt_mul (by positivity), Real.sqrt_sq (by positivity)]
  field_simp

theorem speedAt_pos {n : Nucleus} (hm : 0 < n.mass) {k : ℝ} (hk : 0 < k) : 0 < speedAt n k := by
  unfold speedAt
  have : 0 < Real.sqrt (k * (k + 2 * n.mass)) := Real.sqrt_pos.2 (by positivity)
  positivity

theorem speedAt_continuous {n : Nucleus} (hm : 0 < n.mass) : ContinuousOn (speedAt n) (Ioi 0) := by
  unfold speedAt
  refine ContinuousOn.div (by fun_prop) (by fun_prop) fun k hk => ?_
  have : (0 : ℝ) < k := hk
  positivity

/-- Along a solution without electric field the kinetic energy changes at the rate given by the stopping force
and the speed. -/
theorem kinetic_deriv {traj : ℝ → Row} {T B : ℝ} {target : GasTarget} {n : Nucleus} (hm : 0 < n.mass)
    (hsol : ExactSolution traj 0 T B 0 target n) {t : ℝ} (ht : t ∈ Icc 0 T) :
    HasDerivAt (fun t => kinetic n (traj t))
      (-(stopForce target n (kinetic n (traj t)) * speed (traj t) / unitRatio)) t := by
  have hkg : 0 < MEV_2_KG := by norm_num [MEV_2_KG]
  have hJ : 0 < MEV_2_JOULE := by norm_num [MEV_2_JOULE]
  have h := (totalEnergy_deriv_speed hm hsol t ht).div_const (MEV_2_KG * 299792458 ^ 2)
  have e : (fun t => totalEnergy n 0 (traj t) / (MEV_2_KG * 299792458 ^ 2)) = fun t => kinetic n (traj t) := by
    funext t
    unfold totalEnergy kinetic
    field_simp
    ring
  rw [e] at h
  refine h.congr_deriv ?_
  unfold unitRatio stopping stopForce
  field_simp

/-- Integrals over the energy lost are integrals over time. -/
theorem energy_substitution {traj : ℝ → Row} {T B : ℝ} {target : GasTarget} {n : Nucleus} (hm : 0 < n.mass)
    (hdedx : ∀ k, 0 ≤ target.get_dedx n k) (hrho : 0 ≤ target.density)
    (hsol : ExactSolution traj 0 T B 0 target n) {t : ℝ} (ht : t ∈ Icc 0 T)
    (hcont : ContinuousOn (target.get_dedx n) (Icc (kinetic n (traj t)) (kinetic n (traj 0)))) {g : ℝ → ℝ}
    (hg : ContinuousOn g (Icc (kinetic n (traj t)) (kinetic n (traj 0)))) :
    ∫ τ in (0)..t, g (kinetic n (traj τ)) * (stopForce target n (kinetic n (traj τ)) * speed (traj τ))
      = unitRatio * ∫ k in kinetic n (traj t)..kinetic n (traj 0), g k := by
  have hc := unitRatio_pos
  have hsub : Icc 0 t ⊆ Icc 0 T := Icc_subset_Icc le_rfl ht.2
  have hu : uIcc 0 t = Icc 0 t := uIcc_of_le ht.1
  have hanti := C22_energy_antitone hm hdedx hrho hsol
  have himg : ∀ τ ∈ Icc 0 t, kinetic n (traj τ) ∈ Icc (kinetic n (traj t)) (kinetic n (traj 0)) :=
    fun τ hτ => ⟨hanti (hsub hτ) ht hτ.2, hanti ⟨le_rfl, ht.1.trans ht.2⟩ (hsub hτ) hτ.1⟩
  have hmaps : MapsTo (fun τ => kinetic n (traj τ)) (Icc 0 t) (Icc (kinetic n (traj t)) (kinetic n (traj 0))) :=
    himg
  have hkc := (kinetic_continuous hsol).mono hsub
  have hS : ContinuousOn (fun τ => stopForce target n (kinetic n (traj τ))) (Icc 0 t) := by
    unfold stopForce
    exact ((hcont.comp hkc hmaps).mul continuousOn_const).mul continuousOn_const
  have hv := (speed_continuous hsol).mono hsub
  have h := intervalIntegral.integral_comp_mul_deriv'' (a := 0) (b := t)
    (f := fun τ => kinetic n (traj τ))
    (f' := fun τ => -(stopForce target n (kinetic n (traj τ)) * speed (traj τ) / unitRatio)) (g := g)
    (by rw [hu]; exact hkc)
    (fun τ hτ => by
      rw [min_eq_left ht.1, max_eq_right ht.1] at hτ
      exact (kinetic_deriv hm hsol (hsub ⟨hτ.1.le, hτ.2.le⟩)).hasDerivWithinAt)
    (by rw [hu]; exact ((hS.mul hv).div_const _).neg)
    (by
      rw [hu]
      refine hg.mono ?_
      rintro _ ⟨τ, hτ, rfl⟩
      exact himg τ hτ)
  rw [intervalIntegral.integral_symm (kinetic n (traj 0)), ← h, ← intervalIntegral.integral_neg,
    ← intervalIntegral.integral_const_mul]
  congr 1
  funext τ
  simp only [Function.comp]
  field_simp

/-- **C108.** Without electric field, in any magnetic field, the length of the trajectory is the range in the
continuous-slowing-down approximation: the integral of the inverse stopping force over the energy lost (up to the
difference of the two unit conversions, 1e-9). -/
theorem C108_path {traj : ℝ → Row} {T B : ℝ} {target : GasTarget} {n : Nucleus} (hm : 0 < n.mass)
    (hdedx : ∀ k, 0 ≤ target.get_dedx n k) (hrho : 0 ≤ target.density)
    (hsol : ExactSolution traj 0 T B 0 target n) {t : ℝ} (ht : t ∈ Icc 0 T)
    (hcont : ContinuousOn (target.get_dedx n) (Icc (kinetic n (traj t)) (kinetic n (traj 0))))
    (hpos : ∀ k ∈ Icc (kinetic n (traj t)) (kinetic n (traj 0)), 0 < stopForce target n k) :
    pathLength traj 0 t = unitRatio * csdaRange target n (kinetic n (traj t)) (kinetic n (traj 0)) := by
  have hanti := C22_energy_antitone hm hdedx hrho hsol
  have hS : ContinuousOn (fun k => stopForce target n k) (Icc (kinetic n (traj t)) (kinetic n (traj 0))) := by
    unfold stopForce
    exact (hcont.mul continuousOn_const).mul continuousOn_const
  have h := energy_substitution hm hdedx hrho hsol ht hcont (g := fun k => 1 / stopForce target n k)
    (continuousOn_const.div hS fun k hk => (hpos k hk).ne')
  unfold pathLength csdaRange
  rw [← h]
  apply intervalIntegral.integral_congr
  intro τ hτ
  rw [uIcc_of_le ht.1] at hτ
  have hτ' : τ ∈ Icc 0 T := ⟨hτ.1, hτ.2.trans ht.2⟩
  have := hpos _ ⟨hanti hτ' ht hτ.2, hanti ⟨le_rfl, ht.1.trans ht.2⟩ hτ' hτ.1⟩
  simp only
  field_simp

theorem kinetic_pos {traj : ℝ → Row} {T B E : ℝ} {target : GasTarget} {n : Nucleus} (hm : 0 < n.mass)
    (hsol : ExactSolution traj 0 T B E target n) {t : ℝ} (ht : t ∈ Icc 0 T) : 0 < kinetic n (traj t) := by
  obtain ⟨d, hd, -⟩ := hsol t ht
  have hg : (traj t).gv ≠ 0 := (eom_ok_iff t _ B E target n).1 ⟨d, hd⟩
  have hsq : 0 < gammaBetaSq (traj t) := by
    rw [← gv_sq]
    positivity
  unfold kinetic
  apply mul_pos hm
  have : 1 < lorentz (traj t) := by
    unfold lorentz
    rw [Real.lt_sqrt (by norm_num)]
    linarith
  linarith

/-- **C108.** The time after which the nucleus has a given kinetic energy is the integral of the inverse of
stopping force times speed over the energy lost. -/
theorem C108_time {traj : ℝ → Row} {T B : ℝ} {target : GasTarget} {n : Nucleus} (hm : 0 < n.mass)
    (hdedx : ∀ k, 0 ≤ target.get_dedx n k) (hrho : 0 ≤ target.density)
    (hsol : ExactSolution traj 0 T B 0 target n) {t : ℝ} (ht : t ∈ Icc 0 T)
    (hcont : ContinuousOn (target.get_dedx n) (Icc (kinetic n (traj t)) (kinetic n (traj 0))))
    (hpos : ∀ k ∈ Icc (kinetic n (traj t)) (kinetic n (traj 0)), 0 < stopForce target n k) :
    t = unitRatio * slowingTime target n (kinetic n (traj t)) (kinetic n (traj 0)) := by
  have hanti := C22_energy_antitone hm hdedx hrho hsol
  have hk := kinetic_pos hm hsol ht
  have hS : ContinuousOn (fun k => stopForce target n k) (Icc (kinetic n (traj t)) (kinetic n (traj 0))) := by
    unfold stopForce
    exact (hcont.mul continuousOn_const).mul continuousOn_const
  have hv : ContinuousOn (speedAt n) (Icc (kinetic n (traj t)) (kinetic n (traj 0))) :=
    (speedAt_continuous hm).mono fun k hk' => hk.trans_le hk'.1
  have h := energy_substitution hm hdedx hrho hsol ht hcont
    (g := fun k => 1 / (stopForce target n k * speedAt n k))
    (continuousOn_const.div (hS.mul hv) fun k hk' =>
      (mul_pos (hpos k hk') (speedAt_pos hm (hk.trans_le hk'.1))).ne')
  unfold slowingTime
  rw [← h]
  have e : ∫ τ in (0)..t, (1 / (stopForce target n (kinetic n (traj τ)) * speedAt n (kinetic n (traj τ))))
      * (stopForce target n (kinetic n (traj τ)) * speed (traj τ)) = ∫ _ in (0)..t, (1 : ℝ) := by
    apply intervalIntegral.integral_congr
    intro τ hτ
    rw [uIcc_of_le ht.1] at hτ
    have hτ' : τ ∈ Icc 0 T := ⟨hτ.1, hτ.2.trans ht.2⟩
    have h1 := hpos _ ⟨hanti hτ' ht hτ.2, hanti ⟨le_rfl, ht.1.trans ht.2⟩ hτ' hτ.1⟩
    have h2 := speedAt_pos hm (kinetic_pos hm hsol hτ')
    simp only
    rw [speed_eq hm]
    field_simp
  rw [e]
  simp

/-- Both are larger for larger energy losses. -/
theorem integral_lt_of_lt {f : ℝ → ℝ} {a b c : ℝ} (hab : a < b) (hbc : b ≤ c)
    (hf : ContinuousOn f (Icc a c)) (hpos : ∀ x ∈ Icc a c, 0 < f x) :
    ∫ x in b..c, f x < ∫ x in a..c, f x := by
  have h1 : IntervalIntegrable f volume a b :=
    (hf.mono (by rw [uIcc_of_le hab.le]; exact Icc_subset_Icc le_rfl hbc)).intervalIntegrable
  have h2 : IntervalIntegrable f volume b c :=
    (hf.mono (by rw [uIcc_of_le hbc]; exact Icc_subset_Icc hab.le le_rfl)).intervalIntegrable
  rw [← intervalIntegral.integral_add_adjacent_intervals h1 h2]
  have := intervalIntegral.intervalIntegral_pos_of_pos_on h1
    (fun x hx => hpos x ⟨hx.1.le, hx.2.le.trans hbc⟩) hab
  linarith

/-- **C108.** Neither the direction of the nucleus nor the magnetic field matters for its energy: two
trajectories that start with the same kinetic energy have, at any later time that both reach, the same kinetic
energy and the same length. -/
theorem C108_same {traj traj' : ℝ → Row} {T T' B B' : ℝ} {target : GasTarget} {n : Nucleus} (hm : 0 < n.mass)
    (hdedx : ∀ k, 0 ≤ target.get_dedx n k) (hrho : 0 ≤ target.density)
    (hsol : ExactSolution traj 0 T B 0 target n) (hsol' : ExactSolution traj' 0 T' B' 0 target n) {t : ℝ}
    (ht : t ∈ Icc 0 T) (ht' : t ∈ Icc 0 T') {k₁ : ℝ} (hk : k₁ ≤ kinetic n (traj t))
    (hk' : k₁ ≤ kinetic n (traj' t)) (h0 : kinetic n (traj 0) = kinetic n (traj' 0))
    (hcont : ContinuousOn (target.get_dedx n) (Icc k₁ (kinetic n (traj 0))))
    (hpos : ∀ k ∈ Icc k₁ (kinetic n (traj 0)), 0 < stopForce target n k) :
    kinetic n (traj t) = kinetic n (traj' t) ∧ pathLength traj 0 t = pathLength traj' 0 t := by
  have hc := unitRatio_pos
  have hsub : Icc (kinetic n (traj t)) (kinetic n (traj 0)) ⊆ Icc k₁ (kinetic n (traj 0)) :=
    Icc_subset_Icc hk le_rfl
  have hsub' : Icc (kinetic n (traj' t)) (kinetic n (traj' 0)) ⊆ Icc k₁ (kinetic n (traj 0)) := by
    rw [← h0]; exact Icc_subset_Icc hk' le_rfl
  have e := C108_time hm hdedx hrho hsol ht (hcont.mono hsub) fun k h => hpos k (hsub h)
  have e' := C108_time hm hdedx hrho hsol' ht' (hcont.mono hsub') fun k h => hpos k (hsub' h)
  have p := C108_path hm hdedx hrho hsol ht (hcont.mono hsub) fun k h => hpos k (hsub h)
  have p' := C108_path hm hdedx hrho hsol' ht' (hcont.mono hsub') fun k h => hpos k (hsub' h)
  have hkp := kinetic_pos hm hsol ht
  have hkp' := kinetic_pos hm hsol' ht'
  have hle := C22_energy_antitone hm hdedx hrho hsol ⟨le_rfl, ht.1.trans ht.2⟩ ht ht.1
  have hle' := C22_energy_antitone hm hdedx hrho hsol' ⟨le_rfl, ht'.1.trans ht'.2⟩ ht' ht'.1
  simp only at hle hle'
  rw [← h0] at e' p' hle'
  have hτ : slowingTime target n (kinetic n (traj t)) (kinetic n (traj 0))
      = slowingTime target n (kinetic n (traj' t)) (kinetic n (traj 0)) := by
    have : unitRatio * slowingTime target n (kinetic n (traj t)) (kinetic n (traj 0))
      = unitRatio * slowingTime target n (kinetic n (traj' t)) (kinetic n (traj 0)) := by rw [← e, ← e']
    exact mul_left_cancel₀ hc.ne' this
  have hstrict : ∀ a b, k₁ ≤ a → 0 < a → a < b → b ≤ kinetic n (traj 0) →
      slowingTime target n b (kinetic n (traj 0)) < slowingTime target n a (kinetic n (traj 0)) := by
    intro a b ha ha0 hab hb
    have hs : Icc a (kinetic n (traj 0)) ⊆ Icc k₁ (kinetic n (traj 0)) := Icc_subset_Icc ha le_rfl
    have hp : ∀ k ∈ Icc a (kinetic n (traj 0)), 0 < stopForce target n k * speedAt n k := fun k h =>
      mul_pos (hpos k (hs h)) (speedAt_pos hm (ha0.trans_le h.1))
    unfold slowingTime
    refine integral_lt_of_lt hab hb ?_ fun k h => one_div_pos.2 (hp k h)
    refine continuousOn_const.div (ContinuousOn.mul ?_ ((speedAt_continuous hm).mono fun k h => ha0.trans_le h.1))
      fun k h => (hp k h).ne'
    unfold stopForce
    exact ((hcont.mono hs).mul continuousOn_const).mul continuousOn_const
  have hE : kinetic n (traj t) = kinetic n (traj' t) := by
    rcases lt_trichotomy (kinetic n (traj t)) (kinetic n (traj' t)) with h | h | h
    · exact absurd hτ (hstrict _ _ hk hkp h hle').ne'
    · exact h
    · exact absurd hτ (hstrict _ _ hk' hkp' h hle).ne
  refine ⟨hE, ?_⟩
  rw [p, p', hE]

/-- The displacement in any direction is at most the path length. -/
theorem displacement_path {traj : ℝ → Row} {T B E : ℝ} {target : GasTarget} {n : Nucleus}
    (hsol : ExactSolution traj 0 T B E target n) {t : ℝ} (ht : t ∈ Icc 0 T) {u v w : ℝ}
    (hu : u ^ 2 + v ^ 2 + w ^ 2 ≤ 1) :
    u * ((traj t).x - (traj 0).x) + v * ((traj t).y - (traj 0).y) + w * ((traj t).z - (traj 0).z)
      ≤ pathLength traj 0 t := by
  have hsub : Icc 0 t ⊆ Icc 0 T := Icc_subset_Icc le_rfl ht.2
  have hder : ∀ τ ∈ Icc 0 t, ∃ f', f' ≤ speed (traj τ) ∧
      HasDerivAt (fun t => u * (traj t).x + v * (traj t).y + w * (traj t).z) f' τ := by
    intro τ hτ
    obtain ⟨d, hd, hx, hy, hz, -⟩ := hsol τ (hsub hτ)
    refine ⟨_, ?_, ((hx.const_mul u).add (hy.const_mul v)).add (hz.const_mul w)⟩
    obtain ⟨v1, v2, v3, -⟩ := C22_velocity hd
    have hv : speed (traj τ) = Real.sqrt (d.x ^ 2 + d.y ^ 2 + d.z ^ 2) := by
      unfold speed velocity
      rw [v1, v2, v3]
    rw [hv]
    apply Real.le_sqrt_of_sq_le
    nlinarith [sq_nonneg (u * d.y - v * d.x), sq_nonneg (u * d.z - w * d.x), sq_nonneg (v * d.z - w * d.y),
      sq_nonneg d.x, sq_nonneg d.y, sq_nonneg d.z]
  have h := intervalIntegral.sub_le_integral_of_hasDeriv_right_of_le ht.1
    (g := fun t => u * (traj t).x + v * (traj t).y + w * (traj t).z)
    (g' := deriv fun t => u * (traj t).x + v * (traj t).y + w * (traj t).z) (φ := fun τ => speed (traj τ))
    (fun τ hτ => by
      obtain ⟨f', -, h⟩ := hder τ hτ
      exact h.continuousAt.continuousWithinAt)
    (fun τ hτ => by
      obtain ⟨f', -, h⟩ := hder τ ⟨hτ.1.le, hτ.2.le⟩
      exact h.differentiableAt.hasDerivAt.hasDerivWithinAt)
    (((speed_continuous hsol).mono hsub).integrableOn_Icc)
    (fun τ hτ => by
      obtain ⟨f', hf, h⟩ := hder τ ⟨hτ.1.le, hτ.2.le⟩
      rw [h.deriv]
      exact hf)
  unfold pathLength
  linarith

/-- **C108.** A nucleus whose range is shorter than the distances to the walls stops in the gas: its trajectory
ends at 1 eV, after the slowing-down time, with the range as its length. -/
theorem C108_stops {vertex momentum : ℝ × ℝ × ℝ} {n : Nucleus} {d : DetectorParams} (hm : 0 < n.mass)
    (hE : d.efield = 0) (hdedx : ∀ k, 0 ≤ d.gas_target.get_dedx n k) (hrho : 0 ≤ d.gas_target.density)
    (hlip : LocallyLipschitzOn (Ioi 0) (d.gas_target.get_dedx n)) {K R τ : ℝ}
    (hKp : K = Real.sqrt (momentum.1 ^ 2 + momentum.2.1 ^ 2 + momentum.2.2 ^ 2 + n.mass ^ 2) - n.mass)
    (hK : KE_LIMIT ≤ K) (hpos : ∀ k ∈ Icc KE_LIMIT K, 0 < stopForce d.gas_target n k)
    (hR : R = csdaRange d.gas_target n KE_LIMIT K) (hτ : τ = slowingTime d.gas_target n KE_LIMIT K)
    (hback : R * (1 + 1e-9) < vertex.2.2) (hfront : vertex.2.2 + R * (1 + 1e-9) < 1)
    (hside : Real.sqrt (vertex.1 ^ 2 + vertex.2.1 ^ 2) + R * (1 + 1e-9) < 0.292)
    (htime : τ * (1 + 1e-9) < 1) :
    ∃ (traj : ℝ → Row) (T : ℝ), SolvesCompletely (trajectory_problem vertex momentum n d) traj T ∧
      kinetic n (traj 0) = K ∧ kinetic n (traj T) = KE_LIMIT ∧ |T - τ| ≤ 1e-9 * τ ∧
      |pathLength traj 0 T - R| ≤ 1e-9 * R ∧
      ∀ t ∈ Icc 0 T, Real.sqrt (((traj t).x - vertex.1) ^ 2 + ((traj t).y - vertex.2.1) ^ 2
        + ((traj t).z - vertex.2.2) ^ 2) ≤ R * (1 + 1e-9) := by
  have hlim : (0 : ℝ) < KE_LIMIT := by norm_num [KE_LIMIT]
  have hc := unitRatio_pos
  have hcc := abs_le.1 unitRatio_close
  have hK0 : kinetic n (trajectory_problem vertex momentum n d).y0 = K := by
    rw [kinetic_initial hm, hKp]
  obtain ⟨traj, T, hs, hend, -⟩ := C105_well_posed hm hdedx hrho hlip (hK.trans hK0.ge)
  have hT0 : 0 ≤ T := hs.solves.span
  have hstart : traj 0 = (trajectory_problem vertex momentum n d).y0 := hs.solves.start
  have hex : ExactSolution traj 0 T (d.bfield * -1) 0 d.gas_target n := by
    have : ExactSolution traj 0 T (d.bfield * -1) (d.efield * -1) d.gas_target n := hs.solves.deriv
    rwa [hE, zero_mul] at this
  have hcont : ContinuousOn (d.gas_target.get_dedx n) (Icc KE_LIMIT K) :=
    hlip.continuousOn.mono fun k hk => hlim.trans_le hk.1
  have hSc : ContinuousOn (fun k => stopForce d.gas_target n k) (Icc KE_LIMIT K) := by
    unfold stopForce
    exact (hcont.mul continuousOn_const).mul continuousOn_const
  have hStart : kinetic n (traj 0) = K := by rw [hstart, hK0]
  have hanti := C22_energy_antitone hm hdedx hrho hex
  have hkin : ∀ t ∈ Icc 0 T, kinetic n (traj t) ∈ Icc KE_LIMIT K := by
    intro t ht
    refine ⟨((respects_iff (hK.trans hK0.ge) t _).1 (hs.solves.events t ht)).1, ?_⟩
    have := hanti ⟨le_rfl, hT0⟩ ht ht.1
    simp only at this
    rwa [hStart] at this
  have hsub : ∀ t ∈ Icc 0 T, Icc (kinetic n (traj t)) (kinetic n (traj 0)) ⊆ Icc KE_LIMIT K := by
    intro t ht
    rw [hStart]
    exact Icc_subset_Icc (hkin t ht).1 le_rfl
  have hpath : ∀ t ∈ Icc 0 T, pathLength traj 0 t = unitRatio * csdaRange d.gas_target n (kinetic n (traj t)) K := by
    intro t ht
    have := C108_path hm hdedx hrho hex ht (hcont.mono (hsub t ht)) fun k h => hpos k (hsub t ht h)
    rwa [hStart] at this
  have htim : ∀ t ∈ Icc 0 T, t = unitRatio * slowingTime d.gas_target n (kinetic n (traj t)) K := by
    intro t ht
    have := C108_time hm hdedx hrho hex ht (hcont.mono (hsub t ht)) fun k h => hpos k (hsub t ht h)
    rwa [hStart] at this
  have hcR : ContinuousOn (fun k => 1 / stopForce d.gas_target n k) (Icc KE_LIMIT K) :=
    continuousOn_const.div hSc fun k h => (hpos k h).ne'
  have hprod : ∀ k ∈ Icc KE_LIMIT K, 0 < stopForce d.gas_target n k * speedAt n k := fun k h =>
    mul_pos (hpos k h) (speedAt_pos hm (hlim.trans_le h.1))
  have hcT : ContinuousOn (fun k => 1 / (stopForce d.gas_target n k * speedAt n k)) (Icc KE_LIMIT K) :=
    continuousOn_const.div (hSc.mul ((speedAt_continuous hm).mono fun k h => hlim.trans_le h.1))
      fun k h => (hprod k h).ne'
  have hmono : ∀ k ∈ Icc KE_LIMIT K, csdaRange d.gas_target n k K ≤ R ∧
      slowingTime d.gas_target n k K ≤ τ := by
    intro k hk
    rcases eq_or_lt_of_le hk.1 with h | h
    · rw [← h, hR, hτ]
      exact ⟨le_rfl, le_rfl⟩
    · rw [hR, hτ]
      exact ⟨(integral_lt_of_lt h hk.2 hcR fun x hx => one_div_pos.2 (hpos x hx)).le,
        (integral_lt_of_lt h hk.2 hcT fun x hx => one_div_pos.2 (hprod x hx)).le⟩
  have hR0 : 0 ≤ R := by
    rw [hR]
    exact intervalIntegral.integral_nonneg hK fun x hx => (one_div_pos.2 (hpos x hx)).le
  have hτ0 : 0 ≤ τ := by
    rw [hτ]
    exact intervalIntegral.integral_nonneg hK fun x hx => (one_div_pos.2 (hprod x hx)).le
  have hdisp : ∀ t ∈ Icc 0 T, ∀ u v w : ℝ, u ^ 2 + v ^ 2 + w ^ 2 ≤ 1 →
      u * ((traj t).x - vertex.1) + v * ((traj t).y - vertex.2.1) + w * ((traj t).z - vertex.2.2)
        ≤ R * (1 + 1e-9) := by
    intro t ht u v w hu
    have h := displacement_path hex ht hu
    have hx0 : (traj 0).x = vertex.1 := by rw [hstart]; simp only [trajectory_problem]
    have hy0 : (traj 0).y = vertex.2.1 := by rw [hstart]; simp only [trajectory_problem]
    have hz0 : (traj 0).z = vertex.2.2 := by rw [hstart]; simp only [trajectory_problem]
    rw [hx0, hy0, hz0, hpath t ht] at h
    refine h.trans ?_
    have h1 := mul_le_mul_of_nonneg_left (hmono _ (hkin t ht)).1 hc.le
    have h2 : unitRatio * R ≤ (1 + 1e-9) * R := mul_le_mul_of_nonneg_right (by linarith) hR0
    linarith
  have hTm : T ∈ Icc 0 T := ⟨hT0, le_rfl⟩
  have hwall := not_at_wall (hdisp T hTm) hback hfront hside
  have hT1 : T < 1 := by
    rw [htim T hTm]
    have h1 := mul_le_mul_of_nonneg_left (hmono _ (hkin T hTm)).2 hc.le
    have h2 : unitRatio * τ ≤ (1 + 1e-9) * τ := mul_le_mul_of_nonneg_right (by linarith) hτ0
    linarith
  have hkT : kinetic n (traj T) = KE_LIMIT := by
    rcases hend with h | h | h
    · linarith
    · exact h
    · exact absurd h hwall
  have hclose : ∀ x : ℝ, 0 ≤ x → |unitRatio * x - x| ≤ 1e-9 * x := by
    intro x hx
    have : unitRatio * x - x = (unitRatio - 1) * x := by ring
    rw [this, abs_mul, abs_of_nonneg hx]
    exact mul_le_mul_of_nonneg_right unitRatio_close hx
  refine ⟨traj, T, hs, hStart, hkT, ?_, ?_, fun t ht => dist_of_displacement (hdisp t ht)⟩
  · have h := htim T hTm
    rw [hkT, ← hτ] at h
    rw [h]
    exact hclose τ hτ0
  · have h := hpath T hTm
    rw [hkT, ← hR] at h
    rw [h]
    exact hclose R hR0

/-- Example: a heavy particle of 2 MeV in a gas that stops it with 100 MeV/m. Its track has a length of 2 cm less
10 nm, up to a picometre. -/
example : ∃ (traj : ℝ → Row) (T : ℝ),
    SolvesCompletely (trajectory_problem (0, 0, 1 / 2) (0, 122, 0) stopNucleus stopDet) traj T ∧
      kinetic stopNucleus (traj T) = KE_LIMIT ∧ |pathLength traj 0 T - 0.01999999| ≤ 1e-10 := by
  have hlip : LocallyLipschitzOn (Ioi 0) (stopDet.gas_target.get_dedx stopNucleus) :=
    (LipschitzWith.const (1 : ℝ)).locallyLipschitz.locallyLipschitzOn
  have hm : 0 < stopNucleus.mass := by norm_num [stopNucleus]
  have hmass : stopNucleus.mass = 3720 := rfl
  have hS : ∀ k, stopForce stopDet.gas_target stopNucleus k = 100 := by
    intro k
    unfold stopForce
    have h1 : stopDet.gas_target.density = 1 := rfl
    have h2 : stopDet.gas_target.get_dedx stopNucleus k = 1 := rfl
    rw [h1, h2]; norm_num
  have hR : csdaRange stopDet.gas_target stopNucleus KE_LIMIT 2 = 0.01999999 := by
    unfold csdaRange
    simp only [hS]
    rw [intervalIntegral.integral_const, smul_eq_mul]
    norm_num [KE_LIMIT]
  have hτ : slowingTime stopDet.gas_target stopNucleus KE_LIMIT 2 ≤ 1 / 2 := by
    have hb : ∀ k ∈ uIoc KE_LIMIT 2,
        ‖1 / (stopForce stopDet.gas_target stopNucleus k * speedAt stopNucleus k)‖ ≤ (1 / 100 : ℝ) := by
      intro k hk
      rw [uIoc_of_le (by norm_num [KE_LIMIT])] at hk
      have hk0 : (1e-6 : ℝ) < k := by have := hk.1; norm_num [KE_LIMIT] at this ⊢; linarith
      have hk1 : k ≤ 2 := hk.2
      have hv : 1 ≤ speedAt stopNucleus k := by
        unfold speedAt
        rw [hmass, le_div_iff₀ (by linarith)]
        have : (1 / 100 : ℝ) ≤ Real.sqrt (k * (k + 2 * 3720)) := by
          apply Real.le_sqrt_of_sq_le
          nlinarith
        generalize Real.sqrt (k * (k + 2 * 3720)) = q at *
        linarith
      rw [hS, Real.norm_eq_abs, abs_of_nonneg (by positivity)]
      rw [div_le_div_iff₀ (by positivity) (by norm_num)]
      linarith
    have h := intervalIntegral.norm_integral_le_of_norm_le_const hb
    rw [Real.norm_eq_abs] at h
    have h2 := (le_abs_self _).trans h
    unfold slowingTime
    refine h2.trans ?_
    norm_num [KE_LIMIT, abs_of_pos]
  obtain ⟨traj, T, hs, -, hkT, -, hpath, -⟩ := C108_stops (vertex := (0, 0, 1 / 2)) (momentum := (0, 122, 0))
    (d := stopDet) (K := 2) hm rfl (fun k => zero_le_one) zero_le_one hlip
    (by
      simp only
      rw [hmass, show (0 : ℝ) ^ 2 + 122 ^ 2 + 0 ^ 2 + 3720 ^ 2 = 3722 ^ 2 by norm_num,
        Real.sqrt_sq (by norm_num)]
      norm_num)
    (by norm_num [KE_LIMIT]) (fun k _ => by rw [hS]; norm_num) rfl rfl
    (by rw [hR]; norm_num) (by rw [hR]; norm_num)
    (by
      simp only
      rw [hR, show (0 : ℝ) ^ 2 + 0 ^ 2 = 0 by norm_num, Real.sqrt_zero]
      norm_num)
    (by
      have : (slowingTime stopDet.gas_target stopNucleus KE_LIMIT 2) * (1 + 1e-9) ≤ 1 / 2 * (1 + 1e-9) := by gcongr
      refine this.trans_lt (by norm_num))
  rw [hR] at hpath
  exact ⟨traj, T, hs, hkT, hpath.trans (by norm_num)⟩

end Verif.Detector
