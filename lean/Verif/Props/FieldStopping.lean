import Verif.Props.Stopping

/-! # C126: nuclei that stop in the gas against the electric field -/

namespace Verif.Detector

open Verif.Spec Verif.Kinematics Set

/-- The force of the electric field `E` V/m on the nucleus, in MeV/m. -/
noncomputable def fieldForce (n : Nucleus) (E : ℝ) : ℝ := |n.Z * E| / 1000000

/-- The force against the motion: the stopping force less the part of the electric force along the direction of
motion, in MeV/m. -/
noncomputable def netForce (target : GasTarget) (n : Nucleus) (E : ℝ) (r : Row) : ℝ :=
  stopping target n r - n.Z * E / 1000000 * (r.gvz / r.gv)

theorem fieldForce_nonneg (n : Nucleus) (E : ℝ) : 0 ≤ fieldForce n E := by
  unfold fieldForce
  positivity

theorem netForce_bounds (target : GasTarget) (n : Nucleus) (E : ℝ) (r : Row) :
    stopping target n r - fieldForce n E ≤ netForce target n E r ∧
    netForce target n E r ≤ stopping target n r + fieldForce n E := by
  have h1 : |r.gvz / r.gv| ≤ 1 := by
    rw [abs_div, abs_of_nonneg (gv_nonneg r)]
    refine div_le_one_of_le₀ ?_ (gv_nonneg r)
    have h2 : r.gv ^ 2 = r.gvx ^ 2 + r.gvy ^ 2 + r.gvz ^ 2 := gv_sq r
    exact abs_le_of_sq_le_sq (by nlinarith [sq_nonneg r.gvx, sq_nonneg r.gvy]) (gv_nonneg r)
  have h3 : |n.Z * E / 1000000 * (r.gvz / r.gv)| ≤ fieldForce n E := by
    rw [abs_mul, abs_div, abs_of_pos (show (0 : ℝ) < 1000000 by norm_num)]
    unfold fieldForce
    exact mul_le_of_le_one_right (by positivity) h1
  rw [abs_le] at h3
  unfold netForce
  constructor <;> linarith [h3.1, h3.2]

/-- The momentum per mass decreases at the rate given by the net force. -/
theorem gv_deriv_field {traj : ℝ → Row} {T B E : ℝ} {target : GasTarget} {n : Nucleus}
    (hsol : ExactSolution traj 0 T B E target n) {t : ℝ} (ht : t ∈ Icc 0 T) :
    HasDerivAt (fun t => (traj t).gv)
      (-(netForce target n E (traj t) * MEV_2_JOULE / (n.mass * MEV_2_KG * 299792458))) t := by
  have hkg : 0 < MEV_2_KG := by norm_num [MEV_2_KG]
  obtain ⟨d, hd, -, -, -, hx, hy, hz⟩ := hsol t ht
  have hg : (traj t).gv ≠ 0 := (eom_ok_iff t _ B E target n).1 ⟨d, hd⟩
  have hg0 : 0 < (traj t).gv := lt_of_le_of_ne (gv_nonneg _) (Ne.symm hg)
  have hsq : HasDerivAt (fun t => (traj t).gvx ^ 2 + (traj t).gvy ^ 2 + (traj t).gvz ^ 2)
      (2 * ((traj t).gvx * d.gvx + (traj t).gvy * d.gvy + (traj t).gvz * d.gvz)) t := by
    refine (((hx.pow 2).add (hy.pow 2)).add (hz.pow 2)).congr_deriv ?_
    push_cast
    ring
  have hne : (traj t).gvx ^ 2 + (traj t).gvy ^ 2 + (traj t).gvz ^ 2 ≠ 0 := by
    have := gv_sq (traj t)
    unfold gammaBetaSq at this
    rw [← this]
    positivity
  have hs := hsq.sqrt hne
  refine HasDerivAt.congr_deriv hs ?_
  change _ / (2 * (traj t).gv) = _
  rw [mul_div_mul_left _ _ two_ne_zero, div_eq_iff hg]
  rw [eom_field hg] at hd
  have hd := Except.ok.inj hd
  have e1 : d.gvx = (fieldOf B E target n (toState (traj t)).2).2.1 := by rw [← hd]; rfl
  have e2 : d.gvy = (fieldOf B E target n (toState (traj t)).2).2.2.1 := by rw [← hd]; rfl
  have e3 : d.gvz = (fieldOf B E target n (toState (traj t)).2).2.2.2 := by rw [← hd]; rfl
  have hk : n.mass * (Real.sqrt (1 + sqOf (toState (traj t)).2) - 1) = kinetic n (traj t) := rfl
  rw [e1, e2, e3]
  unfold fieldOf freePart dragPart
  rw [hk, ← gv_eq_sqrt]
  simp only [toState, Prod.fst_sub, Prod.snd_sub, Prod.smul_fst, Prod.smul_snd, smul_eq_mul]
  unfold netForce stopping
  have hsq' : (traj t).gv ^ 2 = (traj t).gvx ^ 2 + (traj t).gvy ^ 2 + (traj t).gvz ^ 2 := gv_sq _
  simp only [C]
  generalize target.get_dedx n (kinetic n (traj t)) = D
  generalize Real.sqrt (1 + sqOf ((traj t).gvx, (traj t).gvy, (traj t).gvz)) = g
  have e : ∀ k : ℝ, k / (traj t).gv * (traj t).gvx * (traj t).gvx + k / (traj t).gv * (traj t).gvy * (traj t).gvy
      + k / (traj t).gv * (traj t).gvz * (traj t).gvz = k * (traj t).gv := by
    intro k
    field_simp
    rw [hsq']
  have := e (D * (MEV_2_JOULE * target.density * 100 / (n.mass * MEV_2_KG) / 299792458))
  have he : n.Z * E / 1000000 * ((traj t).gvz / (traj t).gv) * (traj t).gv = n.Z * E / 1000000 * (traj t).gvz := by
    field_simp
  have hJ : MEV_2_JOULE = E_CHARGE * 1000000 := by norm_num [MEV_2_JOULE, E_CHARGE]
  rw [hJ] at this ⊢
  linear_combination -this - E_CHARGE * 1000000 / (n.mass * MEV_2_KG * 299792458) * he

/-- A lower bound of the net force limits the momentum. -/
theorem slows_down_field {traj : ℝ → Row} {T B E : ℝ} {target : GasTarget} {n : Nucleus} (hm : 0 < n.mass)
    (hsol : ExactSolution traj 0 T B E target n) {S : ℝ}
    (hS : ∀ t ∈ Icc 0 T, S ≤ netForce target n E (traj t)) {t : ℝ} (ht : t ∈ Icc 0 T) :
    (traj t).gv + S * MEV_2_JOULE / (n.mass * MEV_2_KG * 299792458) * t ≤ (traj 0).gv := by
  have hkg : 0 < MEV_2_KG := by norm_num [MEV_2_KG]
  have hJ : 0 < MEV_2_JOULE := by norm_num [MEV_2_JOULE]
  have hanti : AntitoneOn (fun t => (traj t).gv + S * MEV_2_JOULE / (n.mass * MEV_2_KG * 299792458) * t)
      (Icc 0 T) := by
    have hder' : ∀ t ∈ Icc 0 T, HasDerivAt
        (fun t => (traj t).gv + S * MEV_2_JOULE / (n.mass * MEV_2_KG * 299792458) * t)
        (-(netForce target n E (traj t) * MEV_2_JOULE / (n.mass * MEV_2_KG * 299792458))
          + S * MEV_2_JOULE / (n.mass * MEV_2_KG * 299792458) * 1) t := fun t ht =>
      (gv_deriv_field hsol ht).add ((hasDerivAt_id t).const_mul _)
    apply antitoneOn_of_deriv_nonpos (convex_Icc 0 T)
    · exact fun t ht => (hder' t ht).continuousAt.continuousWithinAt
    · exact fun t ht => (hder' t (interior_subset ht)).differentiableAt.differentiableWithinAt
    · intro t ht
      rw [(hder' t (interior_subset ht)).deriv]
      have := hS t (interior_subset ht)
      have h2 : S * MEV_2_JOULE / (n.mass * MEV_2_KG * 299792458)
          ≤ netForce target n E (traj t) * MEV_2_JOULE / (n.mass * MEV_2_KG * 299792458) := by gcongr
      linarith
  have := hanti ⟨le_rfl, ht.1.trans ht.2⟩ ht ht.1
  simp only [mul_zero, add_zero] at this
  exact this

/-- An upper bound of the net force limits how fast the momentum is lost. -/
theorem slows_at_most_field {traj : ℝ → Row} {T B E : ℝ} {target : GasTarget} {n : Nucleus} (hm : 0 < n.mass)
    (hsol : ExactSolution traj 0 T B E target n) {S : ℝ}
    (hS : ∀ t ∈ Icc 0 T, netForce target n E (traj t) ≤ S) {t : ℝ} (ht : t ∈ Icc 0 T) :
    (traj t).gv ≤ (traj T).gv + S * MEV_2_JOULE / (n.mass * MEV_2_KG * 299792458) * (T - t) := by
  have hkg : 0 < MEV_2_KG := by norm_num [MEV_2_KG]
  have hJ : 0 < MEV_2_JOULE := by norm_num [MEV_2_JOULE]
  have hmono : MonotoneOn (fun t => (traj t).gv + S * MEV_2_JOULE / (n.mass * MEV_2_KG * 299792458) * t)
      (Icc 0 T) := by
    have hder' : ∀ t ∈ Icc 0 T, HasDerivAt
        (fun t => (traj t).gv + S * MEV_2_JOULE / (n.mass * MEV_2_KG * 299792458) * t)
        (-(netForce target n E (traj t) * MEV_2_JOULE / (n.mass * MEV_2_KG * 299792458))
          + S * MEV_2_JOULE / (n.mass * MEV_2_KG * 299792458) * 1) t := fun t ht =>
      (gv_deriv_field hsol ht).add ((hasDerivAt_id t).const_mul _)
    apply monotoneOn_of_deriv_nonneg (convex_Icc 0 T)
    · exact fun t ht => (hder' t ht).continuousAt.continuousWithinAt
    · exact fun t ht => (hder' t (interior_subset ht)).differentiableAt.differentiableWithinAt
    · intro t ht
      rw [(hder' t (interior_subset ht)).deriv]
      have := hS t (interior_subset ht)
      have h2 : netForce target n E (traj t) * MEV_2_JOULE / (n.mass * MEV_2_KG * 299792458)
          ≤ S * MEV_2_JOULE / (n.mass * MEV_2_KG * 299792458) := by gcongr
      linarith
  have := hmono ht ⟨ht.1.trans ht.2, le_rfl⟩ ht.2
  simp only at this
  linarith

/-- A larger momentum is a larger kinetic energy. -/
theorem kinetic_le_of_gv {n : Nucleus} (hm : 0 < n.mass) {r r' : Row} (h : r.gv ≤ r'.gv) :
    kinetic n r ≤ kinetic n r' := by
  have := pow_le_pow_left₀ (gv_nonneg r) h 2
  rw [gv_sq, gv_sq] at this
  unfold kinetic lorentz
  gcongr

theorem gv_eq_kinetic {n : Nucleus} {r r' : Row} (h : r.gv = r'.gv) : kinetic n r = kinetic n r' := by
  have : gammaBetaSq r = gammaBetaSq r' := by rw [← gv_sq, ← gv_sq, h]
  unfold kinetic lorentz
  rw [this]

/-- While the gas stops the nucleus with a larger force than that of the field, at all energies down to that of
the end of the trajectory, the momentum only decreases. -/
theorem gv_antitone_field {traj : ℝ → Row} {T B E : ℝ} {target : GasTarget} {n : Nucleus} (hm : 0 < n.mass)
    (hsol : ExactSolution traj 0 T B E target n) {K₁ S : ℝ} (hSF : fieldForce n E < S)
    (hS : ∀ k ∈ Icc K₁ (kinetic n (traj 0)), S ≤ target.get_dedx n k * target.density * 100)
    (hlow : ∀ t ∈ Icc 0 T, K₁ ≤ kinetic n (traj t)) :
    AntitoneOn (fun t => (traj t).gv) (Icc 0 T) ∧
    ∀ t ∈ Icc 0 T, kinetic n (traj t) ≤ kinetic n (traj 0) := by
  have hkg : 0 < MEV_2_KG := by norm_num [MEV_2_KG]
  have hJ : 0 < MEV_2_JOULE := by norm_num [MEV_2_JOULE]
  have hneg : ∀ t ∈ Icc 0 T, kinetic n (traj t) ≤ kinetic n (traj 0) →
      -(netForce target n E (traj t) * MEV_2_JOULE / (n.mass * MEV_2_KG * 299792458)) < 0 := by
    intro t ht hle
    have h1 := hS _ ⟨hlow t ht, hle⟩
    have h2 := (netForce_bounds target n E (traj t)).1
    have h3 : 0 < netForce target n E (traj t) := by
      unfold stopping at h2
      linarith
    have : 0 < netForce target n E (traj t) * MEV_2_JOULE / (n.mass * MEV_2_KG * 299792458) := by positivity
    linarith
  have hcont : ContinuousOn (fun t => (traj t).gv) (Icc 0 T) := fun t ht =>
    (gv_deriv_field hsol ht).continuousAt.continuousWithinAt
  have hle : ∀ t ∈ Icc 0 T, (traj t).gv ≤ (traj 0).gv := by
    intro t ht
    refine image_le_of_deriv_right_lt_deriv_boundary (B := fun _ => (traj 0).gv) (B' := fun _ => 0) hcont
      (fun t ht => (gv_deriv_field hsol ⟨ht.1, ht.2.le⟩).hasDerivWithinAt) le_rfl
      (fun t => hasDerivAt_const t _) ?_ ht
    intro t ht heq
    exact hneg t ⟨ht.1, ht.2.le⟩ (gv_eq_kinetic heq).le
  have hkle : ∀ t ∈ Icc 0 T, kinetic n (traj t) ≤ kinetic n (traj 0) := fun t ht =>
    kinetic_le_of_gv hm (hle t ht)
  refine ⟨?_, hkle⟩
  apply antitoneOn_of_deriv_nonpos (convex_Icc 0 T) hcont
  · exact fun t ht => (gv_deriv_field hsol (interior_subset ht)).differentiableAt.differentiableWithinAt
  · intro t ht
    rw [(gv_deriv_field hsol (interior_subset ht)).deriv]
    exact (hneg t (interior_subset ht) (hkle t (interior_subset ht))).le

/-- The displacement in any direction is limited by the energy lost. -/
theorem displacement_le_field {traj : ℝ → Row} {T B E : ℝ} {target : GasTarget} {n : Nucleus} (hm : 0 < n.mass)
    (hsol : ExactSolution traj 0 T B E target n) {S : ℝ} (hS0 : 0 < S)
    (hS : ∀ t ∈ Icc 0 T, S + fieldForce n E ≤ stopping target n (traj t)) {t : ℝ} (ht : t ∈ Icc 0 T)
    (hle : kinetic n (traj t) ≤ kinetic n (traj 0)) {u v w : ℝ}
    (hu : u ^ 2 + v ^ 2 + w ^ 2 ≤ 1) :
    u * ((traj t).x - (traj 0).x) + v * ((traj t).y - (traj 0).y) + w * ((traj t).z - (traj 0).z)
      ≤ (kinetic n (traj 0) - kinetic n (traj t)) / S * (1 + 1e-9) := by
  have hkg : 0 < MEV_2_KG := by norm_num [MEV_2_KG]
  have hJ : 0 < MEV_2_JOULE := by norm_num [MEV_2_JOULE]
  obtain ⟨f, hf⟩ : ∃ f : ℝ → ℝ, f = fun t => totalEnergy n E (traj t)
    + n.Z * E_CHARGE * E * (traj t).z + MEV_2_JOULE * S * (u * (traj t).x + v * (traj t).y + w * (traj t).z) := ⟨_, rfl⟩
  have hder : ∀ t ∈ Icc 0 T, ∃ f', f' ≤ 0 ∧ HasDerivAt f f' t := by
    intro t ht
    obtain ⟨d, hd, hx, hy, hz, -⟩ := hsol t ht
    have h1 := totalEnergy_deriv_speed hm hsol t ht
    have h1' := h1.add (hz.const_mul (n.Z * E_CHARGE * E))
    have h2 := (((hx.const_mul u).add (hy.const_mul v)).add (hz.const_mul w)).const_mul (MEV_2_JOULE * S)
    refine ⟨_, ?_, by rw [hf]; exact h1'.add h2⟩
    obtain ⟨v1, v2, v3, -⟩ := C22_velocity hd
    have hv : speed (traj t) = Real.sqrt (d.x ^ 2 + d.y ^ 2 + d.z ^ 2) := by
      unfold speed velocity
      rw [v1, v2, v3]
    have hcs : u * d.x + v * d.y + w * d.z ≤ speed (traj t) := by
      rw [hv]
      apply Real.le_sqrt_of_sq_le
      nlinarith [sq_nonneg (u * d.y - v * d.x), sq_nonneg (u * d.z - w * d.x), sq_nonneg (v * d.z - w * d.y),
        sq_nonneg d.x, sq_nonneg d.y, sq_nonneg d.z]
    have hsp : 0 ≤ speed (traj t) := Real.sqrt_nonneg _
    have hez : n.Z * E_CHARGE * E * d.z ≤ MEV_2_JOULE * (fieldForce n E * speed (traj t)) := by
      have hdz : |d.z| ≤ speed (traj t) := by
        rw [hv]
        exact Real.abs_le_sqrt (by nlinarith [sq_nonneg d.x, sq_nonneg d.y])
      have hJ : MEV_2_JOULE = E_CHARGE * 1000000 := by norm_num [MEV_2_JOULE, E_CHARGE]
      have he : 0 < E_CHARGE := by norm_num [E_CHARGE]
      have e : MEV_2_JOULE * (fieldForce n E * speed (traj t)) = E_CHARGE * (|n.Z * E| * speed (traj t)) := by
        rw [hJ]; unfold fieldForce; ring
      rw [e]
      have : n.Z * E * d.z ≤ |n.Z * E| * speed (traj t) := by
        refine (le_abs_self _).trans ?_
        rw [abs_mul]
        exact mul_le_mul_of_nonneg_left hdz (abs_nonneg _)
      have := mul_le_mul_of_nonneg_left this he.le
      linarith
    have h3 := mul_le_mul_of_nonneg_right (hS t ht) hsp
    have h4 : MEV_2_JOULE * (S * (u * d.x + v * d.y + w * d.z) + fieldForce n E * speed (traj t))
        ≤ MEV_2_JOULE * (stopping target n (traj t) * speed (traj t)) := by
      refine mul_le_mul_of_nonneg_left ?_ hJ.le
      have := mul_le_mul_of_nonneg_left hcs hS0.le
      linarith
    linarith
  have hanti : AntitoneOn f (Icc 0 T) := by
    apply antitoneOn_of_deriv_nonpos (convex_Icc 0 T)
    · intro t ht
      obtain ⟨f', -, h⟩ := hder t ht
      exact h.continuousAt.continuousWithinAt
    · intro t ht
      obtain ⟨f', -, h⟩ := hder t (interior_subset ht)
      exact h.differentiableAt.differentiableWithinAt
    · intro t ht
      obtain ⟨f', hf', h⟩ := hder t (interior_subset ht)
      rw [h.deriv]
      exact hf'
  have := hanti ⟨le_rfl, ht.1.trans ht.2⟩ ht ht.1
  rw [hf] at this
  simp only [totalEnergy, sub_add_cancel] at this
  obtain ⟨c, hc⟩ : ∃ c, c = MEV_2_KG * 299792458 ^ 2 / MEV_2_JOULE := ⟨_, rfl⟩
  have hc2 : c ≤ 1 + 1e-9 := by rw [hc]; norm_num [MEV_2_KG, MEV_2_JOULE]
  have hcJ : MEV_2_KG * 299792458 ^ 2 = c * MEV_2_JOULE := by rw [hc]; field_simp
  have hkk : 0 ≤ kinetic n (traj 0) - kinetic n (traj t) :=
    sub_nonneg.2 hle
  obtain ⟨δ, hδ⟩ : ∃ δ, δ = u * ((traj t).x - (traj 0).x) + v * ((traj t).y - (traj 0).y)
    + w * ((traj t).z - (traj 0).z) := ⟨_, rfl⟩
  rw [← hδ]
  have h5 : MEV_2_JOULE * (S * δ) ≤ MEV_2_JOULE * (c * (kinetic n (traj 0) - kinetic n (traj t))) := by
    have e : MEV_2_JOULE * (c * (kinetic n (traj 0) - kinetic n (traj t)))
        = n.mass * (MEV_2_KG * 299792458 ^ 2) * (lorentz (traj 0) - 1)
          - n.mass * (MEV_2_KG * 299792458 ^ 2) * (lorentz (traj t) - 1) := by
      rw [hcJ]; unfold kinetic; ring
    rw [e, hδ]
    linarith
  have h6 := le_of_mul_le_mul_left h5 hJ
  rw [div_mul_eq_mul_div, le_div_iff₀ hS0]
  nlinarith

/-- **C126.** A nucleus of at least 1 eV in a gas that stops it, at all energies between 1 eV and its own, with a
force that exceeds that of the electric field by at least `S` MeV/m, and whose range against the force `S` is
shorter than the distances to the walls, stops in the gas: its trajectory ends at 1 eV and it only loses energy.
It takes at most the time in which the force `S` consumes its momentum, and never gets further from the vertex
than the range. -/
theorem C126_stops {vertex momentum : ℝ × ℝ × ℝ} {n : Nucleus} {d : DetectorParams} (hm : 0 < n.mass)
    (hdedx : ∀ k, 0 ≤ d.gas_target.get_dedx n k) (hrho : 0 ≤ d.gas_target.density)
    (hlip : LocallyLipschitzOn (Ioi 0) (d.gas_target.get_dedx n)) {K p S : ℝ}
    (hp : p = Real.sqrt (momentum.1 ^ 2 + momentum.2.1 ^ 2 + momentum.2.2 ^ 2))
    (hKp : K = Real.sqrt (p ^ 2 + n.mass ^ 2) - n.mass) (hK : KE_LIMIT ≤ K) (hS0 : 0 < S)
    (hS : ∀ k ∈ Icc KE_LIMIT K, S + fieldForce n d.efield ≤ d.gas_target.get_dedx n k * d.gas_target.density * 100)
    (hback : rangeBound K S < vertex.2.2) (hfront : vertex.2.2 + rangeBound K S < 1)
    (hside : Real.sqrt (vertex.1 ^ 2 + vertex.2.1 ^ 2) + rangeBound K S < 0.292)
    (htime : p / (S * 299792458) * (1 + 1e-9) < 1) :
    ∃ (traj : ℝ → Row) (T : ℝ), SolvesCompletely (trajectory_problem vertex momentum n d) traj T ∧
      AntitoneOn (fun t => kinetic n (traj t)) (Icc 0 T) ∧ kinetic n (traj 0) = K ∧ kinetic n (traj T) = KE_LIMIT ∧ T ≤ p / (S * 299792458) * (1 + 1e-9) ∧
      ∀ t ∈ Icc 0 T, (kinetic n (traj t) ∈ Icc KE_LIMIT K) ∧ Real.sqrt (((traj t).x - vertex.1) ^ 2
        + ((traj t).y - vertex.2.1) ^ 2 + ((traj t).z - vertex.2.2) ^ 2) ≤ rangeBound K S := by
  have hkg : 0 < MEV_2_KG := by norm_num [MEV_2_KG]
  have hJ : 0 < MEV_2_JOULE := by norm_num [MEV_2_JOULE]
  have hp2 : p ^ 2 = momentum.1 ^ 2 + momentum.2.1 ^ 2 + momentum.2.2 ^ 2 := by
    rw [hp, Real.sq_sqrt (by positivity)]
  have hK0 : kinetic n (trajectory_problem vertex momentum n d).y0 = K := by
    rw [kinetic_initial hm, hKp, hp2]
  obtain ⟨traj, T, hs, hend, -⟩ := C105_well_posed hm hdedx hrho hlip (hK.trans hK0.ge)
  have hT0 : 0 ≤ T := hs.solves.span
  have hstart : traj 0 = (trajectory_problem vertex momentum n d).y0 := hs.solves.start
  have hex : ExactSolution traj 0 T (d.bfield * -1) (d.efield * -1) d.gas_target n := hs.solves.deriv
  have hff : fieldForce n (d.efield * -1) = fieldForce n d.efield := by
    unfold fieldForce
    rw [← mul_assoc, mul_neg_one, abs_neg]
  have hlow : ∀ t ∈ Icc 0 T, KE_LIMIT ≤ kinetic n (traj t) := fun t ht =>
    ((respects_iff (hK.trans hK0.ge) t _).1 (hs.solves.events t ht)).1
  obtain ⟨hgva, hkle⟩ := gv_antitone_field hm hex (S := S + fieldForce n d.efield) (by rw [hff]; linarith)
    (by rw [hstart, hK0]; exact hS) hlow
  have hanti : AntitoneOn (fun t => kinetic n (traj t)) (Icc 0 T) := fun s hs t ht hst =>
    kinetic_le_of_gv hm (hgva hs ht hst)
  have hkin : ∀ t ∈ Icc 0 T, kinetic n (traj t) ∈ Icc KE_LIMIT K := by
    intro t ht
    refine ⟨hlow t ht, ?_⟩
    have := hkle t ht
    rwa [hstart, hK0] at this
  have hstop : ∀ t ∈ Icc 0 T, S + fieldForce n (d.efield * -1) ≤ stopping d.gas_target n (traj t) := fun t ht => by
    rw [hff]; exact hS _ (hkin t ht)
  have hnet : ∀ t ∈ Icc 0 T, S ≤ netForce d.gas_target n (d.efield * -1) (traj t) := fun t ht => by
    have := hstop t ht
    have := (netForce_bounds d.gas_target n (d.efield * -1) (traj t)).1
    linarith
  have hx0 : (traj 0).x = vertex.1 := by rw [hstart]; simp only [trajectory_problem]
  have hy0 : (traj 0).y = vertex.2.1 := by rw [hstart]; simp only [trajectory_problem]
  have hz0 : (traj 0).z = vertex.2.2 := by rw [hstart]; simp only [trajectory_problem]
  have hdisp : ∀ t ∈ Icc 0 T, ∀ u v w : ℝ, u ^ 2 + v ^ 2 + w ^ 2 ≤ 1 →
      u * ((traj t).x - vertex.1) + v * ((traj t).y - vertex.2.1) + w * ((traj t).z - vertex.2.2)
        ≤ rangeBound K S := by
    intro t ht u v w hu
    have h := displacement_le_field hm hex hS0 hstop ht (hkle t ht) hu
    rw [hx0, hy0, hz0] at h
    refine h.trans ?_
    unfold rangeBound
    rw [hstart, hK0]
    have h1 : (0 : ℝ) < KE_LIMIT := by norm_num [KE_LIMIT]
    have h2 := (hkin t ht).1
    have : K - kinetic n (traj t) ≤ K := by linarith
    gcongr
  have hgv0 : (traj 0).gv = p / n.mass := by
    unfold Row.gv
    rw [hstart, hp]
    simp only [trajectory_problem]
    rw [div_pow, div_pow, div_pow, ← add_div, ← add_div, Real.sqrt_div (by positivity), Real.sqrt_sq hm.le]
  have htT : T ≤ p / (S * 299792458) * (1 + 1e-9) := by
    have h := slows_down_field hm hex hnet ⟨hT0, le_rfl⟩
    rw [hgv0] at h
    have h1 := gv_nonneg (traj T)
    obtain ⟨c, hc⟩ : ∃ c, c = MEV_2_KG * 299792458 ^ 2 / MEV_2_JOULE := ⟨_, rfl⟩
    have hc0 : 0 < c := by rw [hc]; positivity
    have hc2 : c ≤ 1 + 1e-9 := by rw [hc]; norm_num [MEV_2_KG, MEV_2_JOULE]
    have h2 : S * MEV_2_JOULE / (n.mass * MEV_2_KG * 299792458) * T ≤ p / n.mass := by linarith
    have e : S * MEV_2_JOULE / (n.mass * MEV_2_KG * 299792458) * T
        = S * 299792458 * T / c / n.mass := by
      rw [hc]; field_simp
    rw [e] at h2
    have h3 : S * 299792458 * T / c ≤ p := by
      rwa [div_le_div_iff_of_pos_right hm] at h2
    rw [div_le_iff₀ hc0] at h3
    have hp0 : 0 ≤ p := by rw [hp]; positivity
    rw [div_mul_eq_mul_div, le_div_iff₀ (by positivity)]
    nlinarith
  refine ⟨traj, T, hs, hanti, by rw [hstart, hK0], ?_, htT,
    fun t ht => ⟨hkin t ht, dist_of_displacement (hdisp t ht)⟩⟩
  have hwall := not_at_wall (hdisp T ⟨hT0, le_rfl⟩) hback hfront hside
  rcases hend with h | h | h
  · linarith
  · exact h
  · exact absurd h hwall

/-- The conditions under which a nucleus stops in the gas within the microsecond covered by the track: `K` is its
kinetic energy in MeV and `p` its momentum in MeV/c, the stopping force exceeds that of the electric field by at
least `S` and is at most `S'` MeV/m at all energies between 1 eV and `K`, the range against the force `S` is
shorter than the distances to the walls, and the force `S` consumes the momentum in a microsecond. -/
structure StopsInGas (vertex momentum : ℝ × ℝ × ℝ) (n : Nucleus) (d : DetectorParams) (K p S S' : ℝ) : Prop where
  mass : 0 < n.mass
  dedx : ∀ k, 0 ≤ d.gas_target.get_dedx n k
  density : 0 ≤ d.gas_target.density
  smooth : LocallyLipschitzOn (Ioi 0) (d.gas_target.get_dedx n)
  momentum_eq : p = Real.sqrt (momentum.1 ^ 2 + momentum.2.1 ^ 2 + momentum.2.2 ^ 2)
  energy_eq : K = Real.sqrt (p ^ 2 + n.mass ^ 2) - n.mass
  energy : KE_LIMIT ≤ K
  pos : 0 < S
  lower : ∀ k ∈ Icc KE_LIMIT K, S + fieldForce n d.efield ≤ d.gas_target.get_dedx n k * d.gas_target.density * 100
  upper : ∀ k ∈ Icc KE_LIMIT K, d.gas_target.get_dedx n k * d.gas_target.density * 100 ≤ S'
  back : rangeBound K S < vertex.2.2
  front : vertex.2.2 + rangeBound K S < 1
  side : Real.sqrt (vertex.1 ^ 2 + vertex.2.1 ^ 2) + rangeBound K S < 0.292
  time : p / (S * 299792458) * (1 + 1e-9) ≤ 1e-6

/-- The energy in MeV of a nucleus that has a kinetic energy of 1 eV after 0.1 ns in which a force of `F` MeV/m
acts against its motion: it consumes a momentum of at most 0.03 m times `F`. -/
noncomputable def lateEnergy (n : Nucleus) (F : ℝ) : ℝ :=
  Real.sqrt ((Real.sqrt ((n.mass + 1e-6) ^ 2 - n.mass ^ 2) + F * 0.03) ^ 2 + n.mass ^ 2) - n.mass

/-- The largest number of steps of 0.1 ns in which a net force of `S` MeV/m consumes the momentum `p`. -/
noncomputable def stepBound (p S : ℝ) : ℝ := p / (S * 299792458) * (1 + 1e-9) * 1e10

/-- **C126.** The track of a nucleus that stops in the gas: it has a point for every 0.1 ns, all within the range
of the vertex, and the kinetic energy changes along it by the initial energy, less at least 1 eV and at most the
energy 0.1 ns before the end. -/
theorem C126_track {ivp : IvpSolver} (hivp : SolvesToTheEnd ivp) {vertex momentum : ℝ × ℝ × ℝ} {n : Nucleus}
    {d : DetectorParams} {K p S S' : ℝ} (hst : StopsInGas vertex momentum n d K p S S') {track : List Row}
    (htrack : generate_trajectory ivp vertex momentum n d = .ok track) :
    K - lateEnergy n (S' + fieldForce n d.efield) ≤ energyVariation n track ∧
    energyVariation n track ≤ K - 1e-6 ∧
    ((track.length - 1 : ℕ) : ℝ) ≤ stepBound p S ∧
    ∀ r ∈ track, Real.sqrt ((r.x - vertex.1) ^ 2 + (r.y - vertex.2.1) ^ 2 + (r.z - vertex.2.2) ^ 2)
      ≤ rangeBound K S := by
  obtain ⟨hm, hdedx, hrho, hlip, hp, hKp, hK, hS0, hS, hS', hback, hfront, hside, htime⟩ := hst
  obtain ⟨traj, T, hs, hanti, hk0, hkT, hT, hin⟩ := C126_stops hm hdedx hrho hlip hp hKp hK hS0 hS hback hfront
    hside (lt_of_le_of_lt htime (by norm_num))
  have hp2 : p ^ 2 = momentum.1 ^ 2 + momentum.2.1 ^ 2 + momentum.2.2 ^ 2 := by
    rw [hp, Real.sq_sqrt (by positivity)]
  have hKy : KE_LIMIT ≤ kinetic n (trajectory_problem vertex momentum n d).y0 := by
    rw [kinetic_initial hm, ← hp2, ← hKp]
    exact hK
  have hev : track = (evaluated (trajectory_problem vertex momentum n d) T).map traj := by
    unfold generate_trajectory at htrack
    rcases hsol : ivp (trajectory_problem vertex momentum n d) with err | sol
    · rw [hsol] at htrack; cases htrack
    · rw [hsol] at htrack
      have htrack := Except.ok.inj htrack
      have he := (C105_track hm hdedx hrho hlip hKy).unique (hivp _ _ hsol) ⟨traj, T, hs, rfl⟩
      rw [track_times (by simp only [trajectory_problem]) (by simp only [trajectory_problem])] at he
      rw [← htrack, he, List.map_map]
      rfl
  have hT0 : 0 ≤ T := hs.solves.span
  have hlim : KE_LIMIT = 1e-6 := by norm_num [KE_LIMIT]
  obtain ⟨hmem, hinc, hhead, t₁, hlast, htail, hcount⟩ :=
    evaluated_times (vertex := vertex) (momentum := momentum) (nucleus := n) (params := d) hT0 (hT.trans htime)
  have ht₁ := hmem t₁ (List.mem_of_getLast? hlast)
  have hvar := variation_eq hanti _ hmem hinc 0 t₁ hhead hlast
  have hend' := hanti ht₁ ⟨hT0, le_rfl⟩ ht₁.2
  simp only at hend'
  rw [hkT, hlim] at hend'
  rw [hev, hvar, hk0, List.length_map]
  refine ⟨?_, by linarith, hcount.trans ?_, ?_⟩
  · have hex : ExactSolution traj 0 T (d.bfield * -1) (d.efield * -1) d.gas_target n := hs.solves.deriv
    have hff : fieldForce n (d.efield * -1) = fieldForce n d.efield := by
      unfold fieldForce
      rw [← mul_assoc, mul_neg_one, abs_neg]
    have hkg : 0 < MEV_2_KG := by norm_num [MEV_2_KG]
    have hJ : 0 < MEV_2_JOULE := by norm_num [MEV_2_JOULE]
    have hF0 : 0 ≤ fieldForce n d.efield := fieldForce_nonneg n d.efield
    have hS'0 : 0 ≤ S' + fieldForce n d.efield := by
      have := (hS K ⟨hK, le_rfl⟩).trans (hS' K ⟨hK, le_rfl⟩)
      linarith
    have hslow := slows_at_most_field hm hex (S := S' + fieldForce n d.efield) (fun t ht => by
      have h1 := (netForce_bounds d.gas_target n (d.efield * -1) (traj t)).2
      have h2 : stopping d.gas_target n (traj t) ≤ S' := hS' _ (hin t ht).1
      rw [hff] at h1
      linarith) ht₁
    obtain ⟨F, hF⟩ : ∃ F, F = S' + fieldForce n d.efield := ⟨_, rfl⟩
    rw [← hF] at hslow hS'0 ⊢
    have hmgv : ∀ r : Row, n.mass * r.gv = Real.sqrt ((n.mass + kinetic n r) ^ 2 - n.mass ^ 2) := by
      intro r
      have e : (n.mass + kinetic n r) ^ 2 - n.mass ^ 2 = (n.mass * r.gv) ^ 2 := by
        have h1 : n.mass + kinetic n r = n.mass * lorentz r := by unfold kinetic; ring
        have h2 : lorentz r ^ 2 = 1 + r.gv ^ 2 := by
          unfold lorentz
          rw [Real.sq_sqrt (by have := gammaBetaSq_nonneg r; linarith), gv_sq]
        rw [h1, mul_pow, h2]
        ring
      rw [e, Real.sqrt_sq (mul_nonneg hm.le (gv_nonneg r))]
    have hend := hmgv (traj T)
    rw [hkT, hlim] at hend
    have hstep : n.mass * (F * MEV_2_JOULE / (n.mass * MEV_2_KG * 299792458) * (T - t₁)) ≤ F * 0.03 := by
      have e : n.mass * (F * MEV_2_JOULE / (n.mass * MEV_2_KG * 299792458) * (T - t₁))
          = F * (T - t₁) * (MEV_2_JOULE / (MEV_2_KG * 299792458)) := by field_simp
      rw [e]
      have h1 : MEV_2_JOULE / (MEV_2_KG * 299792458) ≤ 0.03 * 1e10 := by
        norm_num [MEV_2_KG, MEV_2_JOULE]
      have h2 : F * (T - t₁) ≤ F * 1e-10 := mul_le_mul_of_nonneg_left htail hS'0
      calc F * (T - t₁) * (MEV_2_JOULE / (MEV_2_KG * 299792458))
          ≤ F * 1e-10 * (0.03 * 1e10) := mul_le_mul h2 h1
            (div_pos hJ (mul_pos hkg (by norm_num))).le (mul_nonneg hS'0 (by norm_num))
        _ = F * 0.03 := by ring
    have hp1 : n.mass * (traj t₁).gv ≤ Real.sqrt ((n.mass + 1e-6) ^ 2 - n.mass ^ 2) + F * 0.03 := by
      rw [← hend]
      have := mul_le_mul_of_nonneg_left hslow hm.le
      linarith
    have hk1 : kinetic n (traj t₁) ≤ lateEnergy n F := by
      have e : kinetic n (traj t₁) = Real.sqrt ((n.mass * (traj t₁).gv) ^ 2 + n.mass ^ 2) - n.mass := by
        have h2 : (n.mass * (traj t₁).gv) ^ 2 + n.mass ^ 2 = (n.mass * lorentz (traj t₁)) ^ 2 := by
          have : lorentz (traj t₁) ^ 2 = 1 + (traj t₁).gv ^ 2 := by
            unfold lorentz
            rw [Real.sq_sqrt (by have := gammaBetaSq_nonneg (traj t₁); linarith), gv_sq]
          rw [mul_pow, mul_pow, this]
          ring
        rw [h2, Real.sqrt_sq (mul_nonneg hm.le (lorentz_pos _).le)]
        unfold kinetic
        ring
      rw [e]
      unfold lateEnergy
      have := pow_le_pow_left₀ (mul_nonneg hm.le (gv_nonneg (traj t₁))) hp1 2
      gcongr
    linarith
  · unfold stepBound
    gcongr
  · intro r hr
    obtain ⟨t, ht, rfl⟩ := List.mem_map.1 hr
    exact (hin t (hmem t ht)).2

/-- **C126.** The electrons of a nucleus that stops in the gas account for its whole kinetic energy, for any
fields: without Fano fluctuations, their number times W is at most the kinetic energy less 1 eV, and falls short
of it by at most one electron for every 0.1 ns of flight and the energy lost in the last 0.1 ns. -/
theorem C126_electrons {σ : Type} {rng : Gen σ} (hr : LawfulGen rng) {ivp : IvpSolver}
    (hivp : SolvesToTheEnd ivp) {vertex momentum : ℝ × ℝ × ℝ} {n : Nucleus} {d : DetectorParams}
    (hF : d.fano_factor = 0) (hW : 0 < d.w_value) {K p S S' : ℝ}
    (hst : StopsInGas vertex momentum n d K p S S') {track : List Row}
    (htrack : generate_trajectory ivp vertex momentum n d = .ok track) {s s' : σ} {primary : List ℤ}
    (h : generate_electrons track n d rng s = .ok (primary, s')) :
    (primary.sum : ℝ) ≤ (K - 1e-6) * 1000000 / d.w_value ∧
    (K - lateEnergy n (S' + fieldForce n d.efield)) * 1000000 / d.w_value - stepBound p S ≤ primary.sum := by
  obtain ⟨h1, h2, h3, -⟩ := C126_track hivp hst htrack
  have hup := C95_electrons hr hF hW h
  have hlo := electrons_lower hr hF hW h
  have e1 : energyVariation n track * 1000000 / d.w_value ≤ (K - 1e-6) * 1000000 / d.w_value := by gcongr
  have e2 : (K - lateEnergy n (S' + fieldForce n d.efield)) * 1000000 / d.w_value
      ≤ energyVariation n track * 1000000 / d.w_value := by gcongr
  exact ⟨hup.trans e1, by linarith⟩

/-- Example: the particle of 2 MeV in the gas of `stopDet`, which stops it with 100 MeV/m, now in an electric
field of a million V/m along its way to the anode: the field pulls the particle of charge 2 with 2 MeV/m, and it
still stops within 2.1 cm and releases more than 64000 and at most 66666 electrons. -/
noncomputable def stopFieldDet : DetectorParams := { stopDet with efield := 1000000 }

theorem stopField_stops : StopsInGas (0, 0, 1 / 2) (0, 122, 0) stopNucleus stopFieldDet 2 122 98 100 := by
  have hdens : stopFieldDet.gas_target.density = 1 := rfl
  have hdedx : ∀ k, stopFieldDet.gas_target.get_dedx stopNucleus k = 1 := fun _ => rfl
  have hF : fieldForce stopNucleus stopFieldDet.efield = 2 := by
    unfold fieldForce
    simp only [stopNucleus, stopFieldDet]
    norm_num
  have hR : rangeBound 2 98 < 0.021 := by norm_num [rangeBound]
  have h3722 : (122 : ℝ) ^ 2 + stopNucleus.mass ^ 2 = 3722 ^ 2 := by norm_num [stopNucleus]
  refine ⟨by norm_num [stopNucleus], fun k => by rw [hdedx]; exact zero_le_one, by rw [hdens]; exact zero_le_one,
    (LipschitzWith.const (1 : ℝ)).locallyLipschitz.locallyLipschitzOn, ?_, ?_, by norm_num [KE_LIMIT], by norm_num,
    fun k _ => by rw [hdedx, hdens, hF]; norm_num, fun k _ => by rw [hdedx, hdens]; norm_num,
    by simp only; linarith, by simp only; linarith, ?_, by norm_num⟩
  · rw [show (0 : ℝ) ^ 2 + 122 ^ 2 + 0 ^ 2 = 122 ^ 2 by norm_num, Real.sqrt_sq (by norm_num)]
  · rw [h3722, Real.sqrt_sq (by norm_num)]
    norm_num [stopNucleus]
  · simp only
    rw [show (0 : ℝ) ^ 2 + 0 ^ 2 = 0 by norm_num, Real.sqrt_zero]
    linarith

theorem stopField_late : lateEnergy stopNucleus (100 + fieldForce stopNucleus stopFieldDet.efield) ≤ 0.002 := by
  have hF : fieldForce stopNucleus stopFieldDet.efield = 2 := by
    unfold fieldForce
    simp only [stopNucleus, stopFieldDet]
    norm_num
  have hmass : stopNucleus.mass = 3720 := rfl
  rw [hF]
  unfold lateEnergy
  rw [hmass]
  have h1 : Real.sqrt (((3720 : ℝ) + 1e-6) ^ 2 - 3720 ^ 2) ≤ 0.1 := by
    rw [Real.sqrt_le_iff]
    norm_num
  have h2 : Real.sqrt ((Real.sqrt (((3720 : ℝ) + 1e-6) ^ 2 - 3720 ^ 2) + (100 + 2) * 0.03) ^ 2 + 3720 ^ 2)
      ≤ 3720.002 := by
    rw [Real.sqrt_le_iff]
    refine ⟨by norm_num, ?_⟩
    have h3 := Real.sqrt_nonneg (((3720 : ℝ) + 1e-6) ^ 2 - 3720 ^ 2)
    nlinarith
  linarith

theorem stopField_runs : ∃ (ivp : IvpSolver) (track : List Row) (primary : List ℤ) (s' : Unit),
    SolvesToTheEnd ivp ∧
    generate_trajectory ivp (0, 0, 1 / 2) (0, 122, 0) stopNucleus stopFieldDet = .ok track ∧
    generate_electrons track stopNucleus stopFieldDet exGen () = .ok (primary, s') := by
  obtain ⟨ivp, hend, -, hresp, -, -, hok⟩ := C105_solver
  have hst := stopField_stops
  have hKy : KE_LIMIT ≤ kinetic stopNucleus
      (trajectory_problem (0, 0, 1 / 2) (0, 122, 0) stopNucleus stopFieldDet).y0 := by
    rw [kinetic_initial hst.mass]
    simp only
    have : (0 : ℝ) ^ 2 + 122 ^ 2 + 0 ^ 2 + stopNucleus.mass ^ 2 = 3722 ^ 2 := by norm_num [stopNucleus]
    rw [this, Real.sqrt_sq (by norm_num)]
    norm_num [stopNucleus, KE_LIMIT]
  obtain ⟨sol, hsol⟩ := hok (0, 0, 1 / 2) (0, 122, 0) stopNucleus stopFieldDet hst.mass hst.dedx hst.density
    hst.smooth hKy
  have htrack : generate_trajectory ivp (0, 0, 1 / 2) (0, 122, 0) stopNucleus stopFieldDet
      = .ok (sol.map Prod.snd) := by
    unfold generate_trajectory
    rw [hsol]
  obtain ⟨primary, s', hgen⟩ := generate_electrons_ok exGen (track := sol.map Prod.snd) stopNucleus
    (params := stopFieldDet) le_rfl (by norm_num [stopFieldDet, stopDet])
    (fun r hr => (trajectory_energy hresp hKy htrack r hr).1) ()
  exact ⟨ivp, _, primary, s', hend, htrack, hgen⟩

example : ∃ (ivp : IvpSolver) (track : List Row) (primary : List ℤ) (s' : Unit), SolvesToTheEnd ivp ∧
    generate_trajectory ivp (0, 0, 1 / 2) (0, 122, 0) stopNucleus stopFieldDet = .ok track ∧
    generate_electrons track stopNucleus stopFieldDet exGen () = .ok (primary, s') ∧
    64000 ≤ primary.sum ∧ primary.sum ≤ 66666 := by
  obtain ⟨ivp, track, primary, s', hend, htrack, hgen⟩ := stopField_runs
  have hw : stopFieldDet.w_value = 30 := rfl
  obtain ⟨h1, h2⟩ := C126_electrons exGen_lawful hend rfl (by rw [hw]; norm_num) stopField_stops htrack hgen
  rw [hw] at h1 h2
  have h3 := stopField_late
  have h4 : stepBound 122 98 ≤ 42 := by norm_num [stepBound]
  refine ⟨ivp, track, primary, s', hend, htrack, hgen, ?_, ?_⟩
  · have h6 : (64000 : ℝ) ≤ primary.sum := by linarith
    exact_mod_cast h6
  · have h6 : (primary.sum : ℝ) < 66667 := by linarith
    have h7 : primary.sum < 66667 := by exact_mod_cast h6
    omega

end Verif.Detector
