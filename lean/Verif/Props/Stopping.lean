import Verif.Props.WellPosed
import Verif.Props.Deposit

/-! # C106: nuclei that stop in the gas -/

namespace Verif.Detector

open Verif.Spec Verif.Kinematics Set

/-- The momentum per mass decreases at the rate given by the stopping force. -/
theorem gv_deriv {traj : ℝ → Row} {T B : ℝ} {target : GasTarget} {n : Nucleus} (hm : 0 < n.mass)
    (hsol : ExactSolution traj 0 T B 0 target n) {t : ℝ} (ht : t ∈ Icc 0 T) :
    HasDerivAt (fun t => (traj t).gv)
      (-(stopping target n (traj t) * MEV_2_JOULE / (n.mass * MEV_2_KG * 299792458))) t := by
  have hkg : 0 < MEV_2_KG := by norm_num [MEV_2_KG]
  obtain ⟨d, hd, -, -, -, hx, hy, hz⟩ := hsol t ht
  have hg : (traj t).gv ≠ 0 := (eom_ok_iff t _ B 0 target n).1 ⟨d, hd⟩
  have hg0 : 0 < (traj t).gv := lt_of_le_of_ne (gv_nonneg _) (Ne.symm hg)
  have hsq : HasDerivAt (fun t => (traj t).gvx ^ 2 + (traj t).gvy ^ 2 + (traj t).gvz ^ 2)
      (2 * ((traj t).gvx * d.gvx + (traj t).gvy * d.gvy + (traj t).gvz * d.gvz)) t := by
    refine (((hx.pow 2).add (hy.pow 2)).add (hz.pow 2)).congr_deriv ?_
    push_cast
    ring
  have hne : (traj t).gvx ^ 2 + (traj t).gvy ^ 2 + (traj t).gvz ^ 2 ≠ 0 := by
    have := gv_sq (traj t)
    unfold gammaBetaSq at this
    rw [← this]
    positivity
  have hs := hsq.sqrt hne
  refine HasDerivAt.congr_deriv hs ?_
  change _ / (2 * (traj t).gv) = _
  rw [mul_div_mul_left _ _ two_ne_zero, div_eq_iff hg]
  rw [eom_field hg] at hd
  have hd := Except.ok.inj hd
  have e1 : d.gvx = (fieldOf B 0 target n (toState (traj t)).2).2.1 := by rw [← hd]; rfl
  have e2 : d.gvy = (fieldOf B 0 target n (toState (traj t)).2).2.2.1 := by rw [← hd]; rfl
  have e3 : d.gvz = (fieldOf B 0 target n (toState (traj t)).2).2.2.2 := by rw [← hd]; rfl
  have hk : n.mass * (Real.sqrt (1 + sqOf (toState (traj t)).2) - 1) = kinetic n (traj t) := rfl
  rw [e1, e2, e3]
  unfold fieldOf freePart dragPart
  rw [hk, ← gv_eq_sqrt]
  simp only [toState, Prod.fst_sub, Prod.snd_sub, Prod.smul_fst, Prod.smul_snd, smul_eq_mul]
  unfold stopping
  have hsq' : (traj t).gv ^ 2 = (traj t).gvx ^ 2 + (traj t).gvy ^ 2 + (traj t).gvz ^ 2 := gv_sq _
  simp only [C]
  generalize target.get_dedx n (kinetic n (traj t)) = D
  generalize Real.sqrt (1 + sqOf ((traj t).gvx, (traj t).gvy, (traj t).gvz)) = g
  have e : ∀ k : ℝ, k / (traj t).gv * (traj t).gvx * (traj t).gvx + k / (traj t).gv * (traj t).gvy * (traj t).gvy
      + k / (traj t).gv * (traj t).gvz * (traj t).gvz = k * (traj t).gv := by
    intro k
    field_simp
    rw [hsq']
  have := e (D * (MEV_2_JOULE * target.density * 100 / (n.mass * MEV_2_KG) / 299792458))
  linear_combination -this

/-- A lower bound of the stopping force limits the momentum. -/
theorem slows_down {traj : ℝ → Row} {T B : ℝ} {target : GasTarget} {n : Nucleus} (hm : 0 < n.mass)
    (hsol : ExactSolution traj 0 T B 0 target n) {S : ℝ}
    (hS : ∀ t ∈ Icc 0 T, S ≤ stopping target n (traj t)) {t : ℝ} (ht : t ∈ Icc 0 T) :
    (traj t).gv + S * MEV_2_JOULE / (n.mass * MEV_2_KG * 299792458) * t ≤ (traj 0).gv := by
  have hkg : 0 < MEV_2_KG := by norm_num [MEV_2_KG]
  have hJ : 0 < MEV_2_JOULE := by norm_num [MEV_2_JOULE]
  have hanti : AntitoneOn (fun t => (traj t).gv + S * MEV_2_JOULE / (n.mass * MEV_2_KG * 299792458) * t)
      (Icc 0 T) := by
    have hder' : ∀ t ∈ Icc 0 T, HasDerivAt
        (fun t => (traj t).gv + S * MEV_2_JOULE / (n.mass * MEV_2_KG * 299792458) * t)
        (-(stopping target n (traj t) * MEV_2_JOULE / (n.mass * MEV_2_KG * 299792458))
          + S * MEV_2_JOULE / (n.mass * MEV_2_KG * 299792458) * 1) t := fun t ht =>
      (gv_deriv hm hsol ht).add ((hasDerivAt_id t).const_mul _)
    apply antitoneOn_of_deriv_nonpos (convex_Icc 0 T)
    · exact fun t ht => (hder' t ht).continuousAt.continuousWithinAt
    · exact fun t ht => (hder' t (interior_subset ht)).differentiableAt.differentiableWithinAt
    · intro t ht
      rw [(hder' t (interior_subset ht)).deriv]
      have := hS t (interior_subset ht)
      have h2 : S * MEV_2_JOULE / (n.mass * MEV_2_KG * 299792458)
          ≤ stopping target n (traj t) * MEV_2_JOULE / (n.mass * MEV_2_KG * 299792458) := by gcongr
      linarith
  have := hanti ⟨le_rfl, ht.1.trans ht.2⟩ ht ht.1
  simp only [mul_zero, add_zero] at this
  exact this

/-- An upper bound of the stopping force limits how fast the momentum is lost. -/
theorem slows_at_most {traj : ℝ → Row} {T B : ℝ} {target : GasTarget} {n : Nucleus} (hm : 0 < n.mass)
    (hsol : ExactSolution traj 0 T B 0 target n) {S : ℝ}
    (hS : ∀ t ∈ Icc 0 T, stopping target n (traj t) ≤ S) {t : ℝ} (ht : t ∈ Icc 0 T) :
    (traj t).gv ≤ (traj T).gv + S * MEV_2_JOULE / (n.mass * MEV_2_KG * 299792458) * (T - t) := by
  have hkg : 0 < MEV_2_KG := by norm_num [MEV_2_KG]
  have hJ : 0 < MEV_2_JOULE := by norm_num [MEV_2_JOULE]
  have hmono : MonotoneOn (fun t => (traj t).gv + S * MEV_2_JOULE / (n.mass * MEV_2_KG * 299792458) * t)
      (Icc 0 T) := by
    have hder' : ∀ t ∈ Icc 0 T, HasDerivAt
        (fun t => (traj t).gv + S * MEV_2_JOULE / (n.mass * MEV_2_KG * 299792458) * t)
        (-(stopping target n (traj t) * MEV_2_JOULE / (n.mass * MEV_2_KG * 299792458))
          + S * MEV_2_JOULE / (n.mass * MEV_2_KG * 299792458) * 1) t := fun t ht =>
      (gv_deriv hm hsol ht).add ((hasDerivAt_id t).const_mul _)
    apply monotoneOn_of_deriv_nonneg (convex_Icc 0 T)
    · exact fun t ht => (hder' t ht).continuousAt.continuousWithinAt
    · exact fun t ht => (hder' t (interior_subset ht)).differentiableAt.differentiableWithinAt
    · intro t ht
      rw [(hder' t (interior_subset ht)).deriv]
      have := hS t (interior_subset ht)
      have h2 : stopping target n (traj t) * MEV_2_JOULE / (n.mass * MEV_2_KG * 299792458)
          ≤ S * MEV_2_JOULE / (n.mass * MEV_2_KG * 299792458) := by gcongr
      linarith
  have := hmono ht ⟨ht.1.trans ht.2, le_rfl⟩ ht.2
  simp only at this
  linarith

/-- The displacement in any direction is limited by the energy lost. -/
theorem displacement_le {traj : ℝ → Row} {T B : ℝ} {target : GasTarget} {n : Nucleus} (hm : 0 < n.mass)
    (hdedx : ∀ k, 0 ≤ target.get_dedx n k) (hrho : 0 ≤ target.density)
    (hsol : ExactSolution traj 0 T B 0 target n) {S : ℝ} (hS0 : 0 < S)
    (hS : ∀ t ∈ Icc 0 T, S ≤ stopping target n (traj t)) {t : ℝ} (ht : t ∈ Icc 0 T) {u v w : ℝ}
    (hu : u ^ 2 + v ^ 2 + w ^ 2 ≤ 1) :
    u * ((traj t).x - (traj 0).x) + v * ((traj t).y - (traj 0).y) + w * ((traj t).z - (traj 0).z)
      ≤ (kinetic n (traj 0) - kinetic n (traj t)) / S * (1 + 1e-9) := by
  have hkg : 0 < MEV_2_KG := by norm_num [MEV_2_KG]
  have hJ : 0 < MEV_2_JOULE := by norm_num [MEV_2_JOULE]
  obtain ⟨f, hf⟩ : ∃ f : ℝ → ℝ, f = fun t => totalEnergy n 0 (traj t)
    + MEV_2_JOULE * S * (u * (traj t).x + v * (traj t).y + w * (traj t).z) := ⟨_, rfl⟩
  have hder : ∀ t ∈ Icc 0 T, ∃ f', f' ≤ 0 ∧ HasDerivAt f f' t := by
    intro t ht
    obtain ⟨d, hd, hx, hy, hz, -⟩ := hsol t ht
    have h1 := totalEnergy_deriv_speed hm hsol t ht
    have h2 := (((hx.const_mul u).add (hy.const_mul v)).add (hz.const_mul w)).const_mul (MEV_2_JOULE * S)
    refine ⟨_, ?_, by rw [hf]; exact h1.add h2⟩
    obtain ⟨v1, v2, v3, -⟩ := C22_velocity hd
    have hv : speed (traj t) = Real.sqrt (d.x ^ 2 + d.y ^ 2 + d.z ^ 2) := by
      unfold speed velocity
      rw [v1, v2, v3]
    have hcs : u * d.x + v * d.y + w * d.z ≤ speed (traj t) := by
      rw [hv]
      apply Real.le_sqrt_of_sq_le
      nlinarith [sq_nonneg (u * d.y - v * d.x), sq_nonneg (u * d.z - w * d.x), sq_nonneg (v * d.z - w * d.y),
        sq_nonneg d.x, sq_nonneg d.y, sq_nonneg d.z]
    have hsp : 0 ≤ speed (traj t) := Real.sqrt_nonneg _
    have h3 := mul_le_mul_of_nonneg_right (hS t ht) hsp
    have h4 : MEV_2_JOULE * S * (u * d.x + v * d.y + w * d.z)
        ≤ MEV_2_JOULE * (stopping target n (traj t) * speed (traj t)) := by
      rw [mul_assoc]
      refine mul_le_mul_of_nonneg_left ?_ hJ.le
      exact (mul_le_mul_of_nonneg_left hcs hS0.le).trans h3
    linarith
  have hanti : AntitoneOn f (Icc 0 T) := by
    apply antitoneOn_of_deriv_nonpos (convex_Icc 0 T)
    · intro t ht
      obtain ⟨f', -, h⟩ := hder t ht
      exact h.continuousAt.continuousWithinAt
    · intro t ht
      obtain ⟨f', -, h⟩ := hder t (interior_subset ht)
      exact h.differentiableAt.differentiableWithinAt
    · intro t ht
      obtain ⟨f', hf', h⟩ := hder t (interior_subset ht)
      rw [h.deriv]
      exact hf'
  have := hanti ⟨le_rfl, ht.1.trans ht.2⟩ ht ht.1
  rw [hf] at this
  simp only [totalEnergy, mul_zero, zero_mul, sub_zero] at this
  obtain ⟨c, hc⟩ : ∃ c, c = MEV_2_KG * 299792458 ^ 2 / MEV_2_JOULE := ⟨_, rfl⟩
  have hc2 : c ≤ 1 + 1e-9 := by rw [hc]; norm_num [MEV_2_KG, MEV_2_JOULE]
  have hcJ : MEV_2_KG * 299792458 ^ 2 = c * MEV_2_JOULE := by rw [hc]; field_simp
  have hkk : 0 ≤ kinetic n (traj 0) - kinetic n (traj t) :=
    sub_nonneg.2 (C22_energy_antitone hm hdedx hrho hsol ⟨le_rfl, ht.1.trans ht.2⟩ ht ht.1)
  obtain ⟨δ, hδ⟩ : ∃ δ, δ = u * ((traj t).x - (traj 0).x) + v * ((traj t).y - (traj 0).y)
    + w * ((traj t).z - (traj 0).z) := ⟨_, rfl⟩
  rw [← hδ]
  have h5 : MEV_2_JOULE * (S * δ) ≤ MEV_2_JOULE * (c * (kinetic n (traj 0) - kinetic n (traj t))) := by
    have e : MEV_2_JOULE * (c * (kinetic n (traj 0) - kinetic n (traj t)))
        = n.mass * (MEV_2_KG * 299792458 ^ 2) * (lorentz (traj 0) - 1)
          - n.mass * (MEV_2_KG * 299792458 ^ 2) * (lorentz (traj t) - 1) := by
      rw [hcJ]; unfold kinetic; ring
    rw [e, hδ]
    linarith
  have h6 := le_of_mul_le_mul_left h5 hJ
  rw [div_mul_eq_mul_div, le_div_iff₀ hS0]
  nlinarith

/-- The range in m of a nucleus with kinetic energy `K` MeV in a gas that stops it with at least `S` MeV/m, up
to the difference of the two unit conversions. -/
noncomputable def rangeBound (K S : ℝ) : ℝ := K / S * (1 + 1e-9)

/-- What a bound of the displacement in all directions says about the distance and the walls. -/
theorem dist_of_displacement {r : Row} {vertex : ℝ × ℝ × ℝ} {R : ℝ}
    (hdisp : ∀ u v w : ℝ, u ^ 2 + v ^ 2 + w ^ 2 ≤ 1 →
      u * (r.x - vertex.1) + v * (r.y - vertex.2.1) + w * (r.z - vertex.2.2) ≤ R) :
    Real.sqrt ((r.x - vertex.1) ^ 2 + (r.y - vertex.2.1) ^ 2 + (r.z - vertex.2.2) ^ 2) ≤ R := by
  obtain ⟨q, hq⟩ : ∃ q, q = Real.sqrt ((r.x - vertex.1) ^ 2
    + (r.y - vertex.2.1) ^ 2 + (r.z - vertex.2.2) ^ 2) := ⟨_, rfl⟩
  have hqs : q ^ 2 = (r.x - vertex.1) ^ 2 + (r.y - vertex.2.1) ^ 2 + (r.z - vertex.2.2) ^ 2 := by
    rw [hq, Real.sq_sqrt (by positivity)]
  rw [← hq]
  rcases eq_or_ne q 0 with h0 | h0
  · have := hdisp 0 0 0 (by norm_num)
    rw [h0]
    linarith
  · have h := hdisp ((r.x - vertex.1) / q) ((r.y - vertex.2.1) / q)
      ((r.z - vertex.2.2) / q) (by
        rw [div_pow, div_pow, div_pow, ← add_div, ← add_div, ← hqs, div_self (by positivity)])
    have e : (r.x - vertex.1) / q * (r.x - vertex.1)
        + (r.y - vertex.2.1) / q * (r.y - vertex.2.1)
        + (r.z - vertex.2.2) / q * (r.z - vertex.2.2) = q := by
      field_simp
      rw [hqs]
    rwa [e] at h

/-- A particle that has moved less than the distances to the walls is not at a wall. -/
theorem not_at_wall {r : Row} {vertex : ℝ × ℝ × ℝ} {R : ℝ}
    (hdisp : ∀ u v w : ℝ, u ^ 2 + v ^ 2 + w ^ 2 ≤ 1 →
      u * (r.x - vertex.1) + v * (r.y - vertex.2.1) + w * (r.z - vertex.2.2) ≤ R)
    (hback : R < vertex.2.2) (hfront : vertex.2.2 + R < 1)
    (hside : Real.sqrt (vertex.1 ^ 2 + vertex.2.1 ^ 2) + R < 0.292) :
    ¬ (r.z = 1 ∨ r.z = 0 ∨ Real.sqrt (r.x ^ 2 + r.y ^ 2) = 0.292) := by
  rintro (h | h | h)
  · have := hdisp 0 0 1 (by norm_num)
    linarith
  · have := hdisp 0 0 (-1) (by norm_num)
    linarith
  · obtain ⟨x, hx⟩ : ∃ x, x = r.x := ⟨_, rfl⟩
    obtain ⟨y, hy⟩ : ∃ y, y = r.y := ⟨_, rfl⟩
    rw [← hx, ← hy] at h
    have hsq : x ^ 2 + y ^ 2 = 0.292 ^ 2 := by
      rw [← h, Real.sq_sqrt (by positivity)]
    have h1 := hdisp (x / 0.292) (y / 0.292) 0 (by
      rw [div_pow, div_pow, ← add_div, hsq]; norm_num)
    rw [← hx, ← hy] at h1
    have h2 : x / 0.292 * vertex.1 + y / 0.292 * vertex.2.1
        ≤ Real.sqrt (vertex.1 ^ 2 + vertex.2.1 ^ 2) := by
      apply Real.le_sqrt_of_sq_le
      have e : (x / 0.292) ^ 2 + (y / 0.292) ^ 2 = 1 := by
        rw [div_pow, div_pow, ← add_div, hsq]; norm_num
      nlinarith [sq_nonneg (x / 0.292 * vertex.2.1 - y / 0.292 * vertex.1)]
    have e2 : x / 0.292 * x + y / 0.292 * y = 0.292 := by
      have : x / 0.292 * x + y / 0.292 * y = (x ^ 2 + y ^ 2) / 0.292 := by ring
      rw [this, hsq]; norm_num
    linarith

/-- **C106.** A nucleus of at least 1 eV that moves without electric field, in a gas that stops it with at
least `S` MeV/m at all energies between 1 eV and its own, and whose range is shorter than the distances to the
walls, stops in the gas: its trajectory ends at 1 eV. It takes at most the time in which the force `S` consumes
its momentum, and never gets further from the vertex than the range. -/
theorem C106_stops {vertex momentum : ℝ × ℝ × ℝ} {n : Nucleus} {d : DetectorParams} (hm : 0 < n.mass)
    (hE : d.efield = 0) (hdedx : ∀ k, 0 ≤ d.gas_target.get_dedx n k) (hrho : 0 ≤ d.gas_target.density)
    (hlip : LocallyLipschitzOn (Ioi 0) (d.gas_target.get_dedx n)) {K p S : ℝ}
    (hp : p = Real.sqrt (momentum.1 ^ 2 + momentum.2.1 ^ 2 + momentum.2.2 ^ 2))
    (hKp : K = Real.sqrt (p ^ 2 + n.mass ^ 2) - n.mass) (hK : KE_LIMIT ≤ K) (hS0 : 0 < S)
    (hS : ∀ k ∈ Icc KE_LIMIT K, S ≤ d.gas_target.get_dedx n k * d.gas_target.density * 100)
    (hback : rangeBound K S < vertex.2.2) (hfront : vertex.2.2 + rangeBound K S < 1)
    (hside : Real.sqrt (vertex.1 ^ 2 + vertex.2.1 ^ 2) + rangeBound K S < 0.292)
    (htime : p / (S * 299792458) * (1 + 1e-9) < 1) :
    ∃ (traj : ℝ → Row) (T : ℝ), SolvesCompletely (trajectory_problem vertex momentum n d) traj T ∧
      kinetic n (traj 0) = K ∧ kinetic n (traj T) = KE_LIMIT ∧ T ≤ p / (S * 299792458) * (1 + 1e-9) ∧
      ∀ t ∈ Icc 0 T, (kinetic n (traj t) ∈ Icc KE_LIMIT K) ∧ Real.sqrt (((traj t).x - vertex.1) ^ 2
        + ((traj t).y - vertex.2.1) ^ 2 + ((traj t).z - vertex.2.2) ^ 2) ≤ rangeBound K S := by
  have hkg : 0 < MEV_2_KG := by norm_num [MEV_2_KG]
  have hJ : 0 < MEV_2_JOULE := by norm_num [MEV_2_JOULE]
  have hp2 : p ^ 2 = momentum.1 ^ 2 + momentum.2.1 ^ 2 + momentum.2.2 ^ 2 := by
    rw [hp, Real.sq_sqrt (by positivity)]
  have hK0 : kinetic n (trajectory_problem vertex momentum n d).y0 = K := by
    rw [kinetic_initial hm, hKp, hp2]
  obtain ⟨traj, T, hs, hend, -⟩ := C105_well_posed hm hdedx hrho hlip (hK.trans hK0.ge)
  have hT0 : 0 ≤ T := hs.solves.span
  have hstart : traj 0 = (trajectory_problem vertex momentum n d).y0 := hs.solves.start
  have hex : ExactSolution traj 0 T (d.bfield * -1) 0 d.gas_target n := by
    have : ExactSolution traj 0 T (d.bfield * -1) (d.efield * -1) d.gas_target n := hs.solves.deriv
    rwa [hE, zero_mul] at this
  have hanti := C22_energy_antitone hm hdedx hrho hex
  have hkin : ∀ t ∈ Icc 0 T, kinetic n (traj t) ∈ Icc KE_LIMIT K := by
    intro t ht
    refine ⟨((respects_iff (hK.trans hK0.ge) t _).1 (hs.solves.events t ht)).1, ?_⟩
    have := hanti ⟨le_rfl, hT0⟩ ht ht.1
    simp only at this
    rwa [hstart, hK0] at this
  have hstop : ∀ t ∈ Icc 0 T, S ≤ stopping d.gas_target n (traj t) := fun t ht => hS _ (hkin t ht)
  have hx0 : (traj 0).x = vertex.1 := by rw [hstart]; simp only [trajectory_problem]
  have hy0 : (traj 0).y = vertex.2.1 := by rw [hstart]; simp only [trajectory_problem]
  have hz0 : (traj 0).z = vertex.2.2 := by rw [hstart]; simp only [trajectory_problem]
  have hdisp : ∀ t ∈ Icc 0 T, ∀ u v w : ℝ, u ^ 2 + v ^ 2 + w ^ 2 ≤ 1 →
      u * ((traj t).x - vertex.1) + v * ((traj t).y - vertex.2.1) + w * ((traj t).z - vertex.2.2)
        ≤ rangeBound K S := by
    intro t ht u v w hu
    have h := displacement_le hm hdedx hrho hex hS0 hstop ht hu
    rw [hx0, hy0, hz0] at h
    refine h.trans ?_
    unfold rangeBound
    rw [hstart, hK0]
    have h1 : (0 : ℝ) < KE_LIMIT := by norm_num [KE_LIMIT]
    have h2 := (hkin t ht).1
    have : K - kinetic n (traj t) ≤ K := by linarith
    gcongr
  have hgv0 : (traj 0).gv = p / n.mass := by
    unfold Row.gv
    rw [hstart, hp]
    simp only [trajectory_problem]
    rw [div_pow, div_pow, div_pow, ← add_div, ← add_div, Real.sqrt_div (by positivity), Real.sqrt_sq hm.le]
  have htT : T ≤ p / (S * 299792458) * (1 + 1e-9) := by
    have h := slows_down hm hex hstop ⟨hT0, le_rfl⟩
    rw [hgv0] at h
    have h1 := gv_nonneg (traj T)
    obtain ⟨c, hc⟩ : ∃ c, c = MEV_2_KG * 299792458 ^ 2 / MEV_2_JOULE := ⟨_, rfl⟩
    have hc0 : 0 < c := by rw [hc]; positivity
    have hc2 : c ≤ 1 + 1e-9 := by rw [hc]; norm_num [MEV_2_KG, MEV_2_JOULE]
    have h2 : S * MEV_2_JOULE / (n.mass * MEV_2_KG * 299792458) * T ≤ p / n.mass := by linarith
    have e : S * MEV_2_JOULE / (n.mass * MEV_2_KG * 299792458) * T
        = S * 299792458 * T / c / n.mass := by
      rw [hc]; field_simp
    rw [e] at h2
    have h3 : S * 299792458 * T / c ≤ p := by
      rwa [div_le_div_iff_of_pos_right hm] at h2
    rw [div_le_iff₀ hc0] at h3
    have hp0 : 0 ≤ p := by rw [hp]; positivity
    rw [div_mul_eq_mul_div, le_div_iff₀ (by positivity)]
    nlinarith
  refine ⟨traj, T, hs, by rw [hstart, hK0], ?_, htT,
    fun t ht => ⟨hkin t ht, dist_of_displacement (hdisp t ht)⟩⟩
  have hwall := not_at_wall (hdisp T ⟨hT0, le_rfl⟩) hback hfront hside
  rcases hend with h | h | h
  · linarith
  · exact h
  · exact absurd h hwall

theorem takeWhile_sorted {T : ℝ} : ∀ {l : List ℝ}, l.Pairwise (· ≤ ·) → (∀ t ∈ l, 0 ≤ t) →
    l.takeWhile (fun t => decide (0 ≤ t ∧ t ≤ T)) = l.filter fun t => decide (t ≤ T)
  | [], _, _ => rfl
  | t :: l, hs, h0 => by
    have ih := takeWhile_sorted (T := T) (List.pairwise_cons.1 hs).2 fun u hu => h0 u (List.mem_cons_of_mem _ hu)
    have ht := h0 t (by simp)
    by_cases h : t ≤ T
    · rw [List.takeWhile_cons_of_pos (by simp [ht, h]), List.filter_cons_of_pos (by simp [h]), ih]
    · rw [List.takeWhile_cons_of_neg (by simp [h]), List.filter_cons_of_neg (by simp [h])]
      symm
      rw [List.filter_eq_nil_iff]
      intro u hu
      have := (List.pairwise_cons.1 hs).1 u hu
      simp only [decide_eq_true_eq, not_le]
      linarith

theorem timeSteps_nonneg : ∀ t ∈ TIME_STEPS, 0 ≤ t := by
  intro t ht
  unfold TIME_STEPS linspace0 at ht
  obtain ⟨k, -, rfl⟩ := List.mem_map.1 ht
  positivity

/-- The times of the track of a complete solution. -/
theorem track_times {P : IvpProblem} (he : P.t_eval = TIME_STEPS) (h0 : P.t_span.1 = 0) (T : ℝ) :
    (P.t_eval.takeWhile fun t => decide (P.t_span.1 ≤ t ∧ t ≤ T)) = evaluated P T := by
  unfold evaluated
  rw [he, h0]
  exact takeWhile_sorted timeSteps_sorted timeSteps_nonneg

/-- **C106.** The electrons of a nucleus that stops in the gas within the microsecond covered by the track
account for its whole kinetic energy: without Fano fluctuations, their number times W falls short of the kinetic
energy less 1 eV by at most one electron for every 0.1 ns of flight and the energy lost in the last 0.1 ns, in
which the force of at most `S'` MeV/m consumes a momentum of at most 0.03 m times `S'`. -/
theorem C106_electrons {σ : Type} {rng : Gen σ} (hr : LawfulGen rng) {ivp : IvpSolver}
    (hivp : SolvesToTheEnd ivp) {vertex momentum : ℝ × ℝ × ℝ} {n : Nucleus} {d : DetectorParams}
    (hm : 0 < n.mass) (hE : d.efield = 0) (hF : d.fano_factor = 0) (hW : 0 < d.w_value)
    (hdedx : ∀ k, 0 ≤ d.gas_target.get_dedx n k) (hrho : 0 ≤ d.gas_target.density)
    (hlip : LocallyLipschitzOn (Ioi 0) (d.gas_target.get_dedx n)) {K p S S' : ℝ}
    (hp : p = Real.sqrt (momentum.1 ^ 2 + momentum.2.1 ^ 2 + momentum.2.2 ^ 2))
    (hKp : K = Real.sqrt (p ^ 2 + n.mass ^ 2) - n.mass) (hK : KE_LIMIT ≤ K) (hS0 : 0 < S)
    (hS : ∀ k ∈ Icc KE_LIMIT K, S ≤ d.gas_target.get_dedx n k * d.gas_target.density * 100)
    (hS' : ∀ k ∈ Icc KE_LIMIT K, d.gas_target.get_dedx n k * d.gas_target.density * 100 ≤ S')
    (hback : rangeBound K S < vertex.2.2) (hfront : vertex.2.2 + rangeBound K S < 1)
    (hside : Real.sqrt (vertex.1 ^ 2 + vertex.2.1 ^ 2) + rangeBound K S < 0.292)
    (htime : p / (S * 299792458) * (1 + 1e-9) ≤ 1e-6) {track : List Row}
    (htrack : generate_trajectory ivp vertex momentum n d = .ok track) {s s' : σ} {primary : List ℤ}
    (h : generate_electrons track n d rng s = .ok (primary, s')) :
    (primary.sum : ℝ) * d.w_value ≤ (K - 1e-6) * 1000000 ∧
    (K - 1e-6) * 1000000
      ≤ (primary.sum + p / (S * 299792458) * (1 + 1e-9) * 1e10) * d.w_value
        + (Real.sqrt ((Real.sqrt ((n.mass + 1e-6) ^ 2 - n.mass ^ 2) + S' * 0.03) ^ 2 + n.mass ^ 2)
          - n.mass - 1e-6) * 1000000 := by
  obtain ⟨traj, T, hs, hk0, hkT, hT, hin⟩ := C106_stops hm hE hdedx hrho hlip hp hKp hK hS0 hS hback hfront hside
    (lt_of_le_of_lt htime (by norm_num))
  have hp2 : p ^ 2 = momentum.1 ^ 2 + momentum.2.1 ^ 2 + momentum.2.2 ^ 2 := by
    rw [hp, Real.sq_sqrt (by positivity)]
  have hKy : KE_LIMIT ≤ kinetic n (trajectory_problem vertex momentum n d).y0 := by
    rw [kinetic_initial hm, ← hp2, ← hKp]
    exact hK
  have hev : track = (evaluated (trajectory_problem vertex momentum n d) T).map traj := by
    unfold generate_trajectory at htrack
    rcases hsol : ivp (trajectory_problem vertex momentum n d) with err | sol
    · rw [hsol] at htrack; cases htrack
    · rw [hsol] at htrack
      have htrack := Except.ok.inj htrack
      have he := (C105_track hm hdedx hrho hlip hKy).unique (hivp _ _ hsol) ⟨traj, T, hs, rfl⟩
      rw [track_times (by simp only [trajectory_problem]) (by simp only [trajectory_problem])] at he
      rw [← htrack, he, List.map_map]
      rfl
  rw [hev] at h
  have hlim : KE_LIMIT = 1e-6 := by norm_num [KE_LIMIT]
  obtain ⟨t₁, ht₁, htail, hlast, hup, hlo⟩ :=
    deposit_core hr hs.solves (hT.trans htime) hm hE hF hW hdedx hrho h
  rw [hk0] at hup hlo
  rw [hkT, hlim] at hlast
  refine ⟨by linarith, ?_⟩
  have hex : ExactSolution traj 0 T (d.bfield * -1) 0 d.gas_target n := by
    have : ExactSolution traj 0 T (d.bfield * -1) (d.efield * -1) d.gas_target n := hs.solves.deriv
    rwa [hE, zero_mul] at this
  have hkg : 0 < MEV_2_KG := by norm_num [MEV_2_KG]
  have hJ : 0 < MEV_2_JOULE := by norm_num [MEV_2_JOULE]
  have hS'0 : 0 ≤ S' := hS0.le.trans ((hS K ⟨hK, le_rfl⟩).trans (hS' K ⟨hK, le_rfl⟩))
  have hslow := slows_at_most hm hex (S := S') (fun t ht => hS' _ (hin t ht).1) ht₁
  have hT0 : 0 ≤ T := hs.solves.span
  have hmgv : ∀ r : Row, n.mass * r.gv = Real.sqrt ((n.mass + kinetic n r) ^ 2 - n.mass ^ 2) := by
    intro r
    have e : (n.mass + kinetic n r) ^ 2 - n.mass ^ 2 = (n.mass * r.gv) ^ 2 := by
      have h1 : n.mass + kinetic n r = n.mass * lorentz r := by unfold kinetic; ring
      have h2 : lorentz r ^ 2 = 1 + r.gv ^ 2 := by
        unfold lorentz
        rw [Real.sq_sqrt (by have := gammaBetaSq_nonneg r; linarith), gv_sq]
      rw [h1, mul_pow, h2]
      ring
    rw [e, Real.sqrt_sq (mul_nonneg hm.le (gv_nonneg r))]
  have hend := hmgv (traj T)
  rw [hkT, hlim] at hend
  have hstep : n.mass * (S' * MEV_2_JOULE / (n.mass * MEV_2_KG * 299792458) * (T - t₁)) ≤ S' * 0.03 := by
    have e : n.mass * (S' * MEV_2_JOULE / (n.mass * MEV_2_KG * 299792458) * (T - t₁))
        = S' * (T - t₁) * (MEV_2_JOULE / (MEV_2_KG * 299792458)) := by field_simp
    rw [e]
    have h1 : MEV_2_JOULE / (MEV_2_KG * 299792458) ≤ 0.03 * 1e10 := by
      norm_num [MEV_2_KG, MEV_2_JOULE]
    have h2 : S' * (T - t₁) ≤ S' * 1e-10 := mul_le_mul_of_nonneg_left htail hS'0
    calc S' * (T - t₁) * (MEV_2_JOULE / (MEV_2_KG * 299792458))
        ≤ S' * 1e-10 * (0.03 * 1e10) := mul_le_mul h2 h1 (by positivity) (by positivity)
      _ = S' * 0.03 := by ring
  have hp1 : n.mass * (traj t₁).gv ≤ Real.sqrt ((n.mass + 1e-6) ^ 2 - n.mass ^ 2) + S' * 0.03 := by
    rw [← hend]
    have := mul_le_mul_of_nonneg_left hslow hm.le
    linarith
  have hk1 : kinetic n (traj t₁)
      ≤ Real.sqrt ((Real.sqrt ((n.mass + 1e-6) ^ 2 - n.mass ^ 2) + S' * 0.03) ^ 2 + n.mass ^ 2) - n.mass := by
    have e : kinetic n (traj t₁) = Real.sqrt ((n.mass * (traj t₁).gv) ^ 2 + n.mass ^ 2) - n.mass := by
      have h2 : (n.mass * (traj t₁).gv) ^ 2 + n.mass ^ 2 = (n.mass * lorentz (traj t₁)) ^ 2 := by
        have : lorentz (traj t₁) ^ 2 = 1 + (traj t₁).gv ^ 2 := by
          unfold lorentz
          rw [Real.sq_sqrt (by have := gammaBetaSq_nonneg (traj t₁); linarith), gv_sq]
        rw [mul_pow, mul_pow, this]
        ring
      rw [h2, Real.sqrt_sq (mul_nonneg hm.le (lorentz_pos _).le)]
      unfold kinetic
      ring
    rw [e]
    have := pow_le_pow_left₀ (mul_nonneg hm.le (gv_nonneg (traj t₁))) hp1 2
    gcongr
  have h3 : (primary.sum + T * 1e10) * d.w_value
      ≤ (primary.sum + p / (S * 299792458) * (1 + 1e-9) * 1e10) * d.w_value := by gcongr
  linarith

/-- Example: a heavy particle of 2 MeV with momentum 122 MeV/c in a magnetic field of 2 T, in a gas that stops it
with 100 MeV/m, started in the middle of the chamber. It stops within 2 cm, after less than 5 ns, and releases
more than 64000 and at most 66666 electrons for W = 30 eV. -/
noncomputable def stopDet : DetectorParams :=
  { exDet 100 0 with efield := 0, bfield := 2, w_value := 30, gas_target := ⟨1, fun _ _ => 1, fun _ _ _ => 0⟩ }

def stopNucleus : Nucleus := ⟨2, 4, 3720, "He"⟩

example : ∃ (ivp : IvpSolver) (track : List Row) (primary : List ℤ) (s' : Unit), SolvesToTheEnd ivp ∧
    generate_trajectory ivp (0, 0, 1 / 2) (0, 122, 0) stopNucleus stopDet = .ok track ∧
    generate_electrons track stopNucleus stopDet exGen () = .ok (primary, s') ∧
    64000 ≤ primary.sum ∧ primary.sum ≤ 66666 := by
  obtain ⟨ivp, hend, -, hresp, -, -, hok⟩ := C105_solver
  have hlip : LocallyLipschitzOn (Ioi 0) (stopDet.gas_target.get_dedx stopNucleus) :=
    (LipschitzWith.const (1 : ℝ)).locallyLipschitz.locallyLipschitzOn
  have hp : (122 : ℝ) = Real.sqrt ((0 : ℝ) ^ 2 + 122 ^ 2 + 0 ^ 2) := by
    rw [show (0 : ℝ) ^ 2 + 122 ^ 2 + 0 ^ 2 = 122 ^ 2 by norm_num, Real.sqrt_sq (by norm_num)]
  have hK : (2 : ℝ) = Real.sqrt (122 ^ 2 + stopNucleus.mass ^ 2) - stopNucleus.mass := by
    have : (122 : ℝ) ^ 2 + stopNucleus.mass ^ 2 = 3722 ^ 2 := by norm_num [stopNucleus]
    rw [this, Real.sqrt_sq (by norm_num)]
    norm_num [stopNucleus]
  have hm : 0 < stopNucleus.mass := by norm_num [stopNucleus]
  have hKy : KE_LIMIT ≤ kinetic stopNucleus
      (trajectory_problem (0, 0, 1 / 2) (0, 122, 0) stopNucleus stopDet).y0 := by
    rw [kinetic_initial hm]
    simp only
    have : (0 : ℝ) ^ 2 + 122 ^ 2 + 0 ^ 2 + stopNucleus.mass ^ 2 = 3722 ^ 2 := by norm_num [stopNucleus]
    rw [this, Real.sqrt_sq (by norm_num)]
    norm_num [stopNucleus, KE_LIMIT]
  have hdens : stopDet.gas_target.density = 1 := rfl
  have hdedx : ∀ k, stopDet.gas_target.get_dedx stopNucleus k = 1 := fun _ => rfl
  obtain ⟨sol, hsol⟩ := hok (0, 0, 1 / 2) (0, 122, 0) stopNucleus stopDet hm
    (fun k => by rw [hdedx]; exact zero_le_one) (by rw [hdens]; exact zero_le_one) hlip hKy
  have htrack : generate_trajectory ivp (0, 0, 1 / 2) (0, 122, 0) stopNucleus stopDet
      = .ok (sol.map Prod.snd) := by
    unfold generate_trajectory
    rw [hsol]
  obtain ⟨primary, s', hgen⟩ := generate_electrons_ok exGen (track := sol.map Prod.snd) stopNucleus
    (params := stopDet) le_rfl (by norm_num [stopDet])
    (fun r hr => (trajectory_energy hresp hKy htrack r hr).1) ()
  have hR : rangeBound 2 100 < 0.021 := by norm_num [rangeBound]
  have hb := C106_electrons exGen_lawful hend hm rfl rfl (by norm_num [stopDet])
    (fun k => by rw [hdedx]; exact zero_le_one) (by rw [hdens]; exact zero_le_one) hlip (S := 100) (S' := 100)
    hp hK (by norm_num [KE_LIMIT]) (by norm_num) (fun k _ => by rw [hdedx, hdens]; norm_num)
    (fun k _ => by rw [hdedx, hdens]; norm_num) (by simp only; linarith) (by simp only; linarith)
    (by
      simp only
      rw [show (0 : ℝ) ^ 2 + 0 ^ 2 = 0 by norm_num, Real.sqrt_zero]
      linarith) (by norm_num) htrack hgen
  have hw : stopDet.w_value = 30 := rfl
  have hmass : stopNucleus.mass = 3720 := rfl
  rw [hw, hmass] at hb
  refine ⟨ivp, _, primary, s', hend, htrack, hgen, ?_, ?_⟩
  · have h1 : Real.sqrt (((3720 : ℝ) + 1e-6) ^ 2 - 3720 ^ 2) ≤ 0.1 := by
      rw [Real.sqrt_le_iff]
      norm_num
    have h2 : Real.sqrt ((Real.sqrt (((3720 : ℝ) + 1e-6) ^ 2 - 3720 ^ 2) + 100 * 0.03) ^ 2 + 3720 ^ 2)
        ≤ 3720.002 := by
      rw [Real.sqrt_le_iff]
      refine ⟨by norm_num, ?_⟩
      have h3 := Real.sqrt_nonneg (((3720 : ℝ) + 1e-6) ^ 2 - 3720 ^ 2)
      nlinarith
    have h4 : (122 : ℝ) / (100 * 299792458) * (1 + 1e-9) * 1e10 ≤ 41 := by norm_num
    have h5 := hb.2
    have h6 : (64000 : ℝ) ≤ primary.sum := by linarith
    exact_mod_cast h6
  · have h5 := hb.1
    have h6 : (primary.sum : ℝ) < 66667 := by linarith
    have h7 : primary.sum < 66667 := by exact_mod_cast h6
    omega

end Verif.Detector
