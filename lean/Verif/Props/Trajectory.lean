import Verif.Props.Motion
import Verif.Spec.Force
import Mathlib.Analysis.SpecialFunctions.Trigonometric.Deriv

/-! # C22 (force), C63, C64: the trajectory that is asked for -/

namespace Verif.Detector

open Verif.Spec

/-! ## C22 -/

theorem gv_eq (r : Row) : r.gv = Real.sqrt (gammaBetaSq r) := rfl

/-- C22: the equation of motion is Newton's law `d(m c γβ)/dt = q (E + v × B) - S v/|v|` with fields
along the z axis, where `S` is the stopping power `dE/dx · ρ` of the gas in newtons (the energy loss
of the library is in MeV/(g/cm²), the density in g/cm³). -/
theorem C22_lorentz_force {t : ℝ} {r d : Row} {B E : ℝ} {target : GasTarget} {n : Nucleus}
    (hm : n.mass ≠ 0) (h : equation_of_motion t r B E target n = .ok d) :
    (d.x, d.y, d.z) = velocity r ∧
    (n.mass * MEV_2_KG * 299792458 * d.gvx, n.mass * MEV_2_KG * 299792458 * d.gvy,
      n.mass * MEV_2_KG * 299792458 * d.gvz)
      = force ((n.Z : ℝ) * E_CHARGE) (0, 0, E) (0, 0, B)
          (target.get_dedx n (kinetic n r) * MEV_2_JOULE * target.density * 100) r := by
  have hg : r.gv ≠ 0 := (eom_ok_iff t r B E target n).1 ⟨d, h⟩
  have hl := (lorentz_pos r).ne'
  obtain ⟨hx, hy, hz, -⟩ := C22_velocity h
  refine ⟨by rw [hx, hy, hz]; rfl, ?_⟩
  unfold equation_of_motion at h
  simp only at h
  rw [if_neg (mt (betaOf_eq_zero_iff r).1 hg)] at h
  have h := Except.ok.inj h
  have hk : n.mass * (r.gv / betaOf r.gv - 1) = kinetic n r := by
    rw [gamma_eq r hg]; rfl
  rw [hk] at h
  have hkg : MEV_2_KG ≠ 0 := by norm_num [MEV_2_KG]
  unfold force cross velocity direction
  rw [← gv_eq, ← h]
  simp only [betaOf_gv, C, Prod.mk.injEq]
  generalize target.get_dedx n (kinetic n r) = S
  refine ⟨?_, ?_, ?_⟩ <;> (field_simp; try ring)

/-! ## C63 -/

/-- C63: `generate_trajectory` returns the states of the solution of one initial value problem. It
starts at the vertex with `m γβ` equal to the given momentum, so that its initial kinetic energy is
`√(p² + m²) - m`; the right-hand side is Newton's law with a magnetic field of the configured strength
and an electric field of the configured strength, both along the negative z axis, and the stopping
power of the configured gas. -/
theorem C63_initial_value_problem (vertex momentum : ℝ × ℝ × ℝ) (nucleus : Nucleus)
    (hm : 0 < nucleus.mass) (params : DetectorParams) :
    ∃ P : IvpProblem,
      (∀ ivp : IvpSolver, generate_trajectory ivp vertex momentum nucleus params
        = (ivp P).map (List.map Prod.snd)) ∧
      (P.y0.x, P.y0.y, P.y0.z) = vertex ∧
      (nucleus.mass * P.y0.gvx, nucleus.mass * P.y0.gvy, nucleus.mass * P.y0.gvz) = momentum ∧
      kinetic nucleus P.y0
        = Real.sqrt (momentum.1 ^ 2 + momentum.2.1 ^ 2 + momentum.2.2 ^ 2 + nucleus.mass ^ 2)
          - nucleus.mass ∧
      (∀ t r d, P.rhs t r = .ok d → (d.x, d.y, d.z) = velocity r ∧
        (nucleus.mass * MEV_2_KG * 299792458 * d.gvx, nucleus.mass * MEV_2_KG * 299792458 * d.gvy,
          nucleus.mass * MEV_2_KG * 299792458 * d.gvz)
        = force ((nucleus.Z : ℝ) * E_CHARGE) (0, 0, -params.efield) (0, 0, -params.bfield)
          (params.gas_target.get_dedx nucleus (kinetic nucleus r) * MEV_2_JOULE
            * params.gas_target.density * 100) r) ∧
      (∀ t r, (∃ d, P.rhs t r = .ok d) ↔ gammaBetaSq r ≠ 0) := by
  refine ⟨trajectory_problem vertex momentum nucleus params, ?_, rfl, ?_, kinetic_initial hm params,
    ?_, ?_⟩
  · intro ivp
    unfold generate_trajectory
    cases ivp (trajectory_problem vertex momentum nucleus params) <;> rfl
  · obtain ⟨px, py, pz⟩ := momentum
    simp only [trajectory_problem, Prod.mk.injEq]
    exact ⟨mul_div_cancel₀ _ hm.ne', mul_div_cancel₀ _ hm.ne', mul_div_cancel₀ _ hm.ne'⟩
  · intro t r d h
    have := C22_lorentz_force (t := t) hm.ne' h
    rw [mul_neg_one, mul_neg_one] at this
    exact this
  · intro t r
    have h := eom_ok_iff t r (params.bfield * -1) (params.efield * -1) params.gas_target nucleus
    rw [← gv_sq]
    rw [show (∃ d, (trajectory_problem vertex momentum nucleus params).rhs t r = .ok d) ↔ r.gv ≠ 0
      from h]
    exact (pow_ne_zero_iff two_ne_zero).symm

/-- The terminal events of a problem, as tests of a state: `up` for functions that must not become
positive, `down` for functions that must not become negative. -/
def EventIs (ev : IvpEvent) (dir : ℝ) (f : Row → ℝ) : Prop :=
  ev.terminal = true ∧ ev.direction = dir ∧ ∀ t r, gammaBetaSq r ≠ 0 → ev.fn t r = .ok (f r)

/-- C63: the integration ends exactly when the kinetic energy falls to 1 eV, when z rises to 1 m or
falls to 0, or when the distance from the axis rises to 292 mm; the solution is evaluated every
100 ps from 0 to 1 µs, which lies within the time span of the problem. -/
theorem C63_events (vertex momentum : ℝ × ℝ × ℝ) (nucleus : Nucleus) (params : DetectorParams) :
    ∃ P : IvpProblem,
      (∀ ivp : IvpSolver, generate_trajectory ivp vertex momentum nucleus params
        = (ivp P).map (List.map Prod.snd)) ∧
      List.Forall₂ (fun ev (df : ℝ × (Row → ℝ)) => EventIs ev df.1 df.2) P.events
        [(-1, fun r => kinetic nucleus r - 1e-6), (1, fun r => r.z - 1), (-1, fun r => r.z),
         (1, fun r => Real.sqrt (r.x ^ 2 + r.y ^ 2) - 0.292)] ∧
      P.t_eval.length = 10001 ∧
      (∀ k : ℕ, k < 10001 → P.t_eval[k]? = some ((k : ℝ) * 1e-10)) ∧
      ∀ t ∈ P.t_eval, P.t_span.1 ≤ t ∧ t ≤ P.t_span.2 := by
  refine ⟨trajectory_problem vertex momentum nucleus params, ?_, ?_, ?_, ?_, ?_⟩
  · intro ivp
    unfold generate_trajectory
    cases ivp (trajectory_problem vertex momentum nucleus params) <;> rfl
  · refine .cons ⟨rfl, rfl, ?_⟩ (.cons ⟨rfl, rfl, fun _ _ _ => rfl⟩
      (.cons ⟨rfl, rfl, fun _ _ _ => rfl⟩ (.cons ⟨rfl, rfl, fun _ _ _ => rfl⟩ .nil)))
    intro t r hr
    rw [← gv_sq] at hr
    exact stop_condition_eq r nucleus ((pow_ne_zero_iff two_ne_zero).1 hr)
  · simp [trajectory_problem, TIME_STEPS, linspace0]
  · intro k hk
    simp only [trajectory_problem, TIME_STEPS, linspace0]
    rw [List.getElem?_map, List.getElem?_range (by omega)]
    norm_num
  · intro t ht
    simp only [trajectory_problem, TIME_STEPS, linspace0, List.mem_map, List.mem_range] at ht ⊢
    obtain ⟨k, hk, rfl⟩ := ht
    have h1 : (0 : ℝ) ≤ k := Nat.cast_nonneg k
    have h2 : (k : ℝ) ≤ 10000 := by exact_mod_cast Nat.lt_succ_iff.1 hk
    constructor
    · positivity
    · norm_num
      linarith

/-- The momentum of the example nucleus: 4.5 MeV/c at mass 6 gives 1.5 MeV of kinetic energy. -/
example (params : DetectorParams) :
    kinetic exNucleus (trajectory_problem (0, 0, 0.5) (0, 0, 4.5) exNucleus params).y0 = 1.5 := by
  rw [kinetic_initial (by norm_num [exNucleus])]
  rw [sqrt_of_sq (y := 7.5) (by norm_num) (by norm_num [exNucleus])]
  norm_num [exNucleus]

/-! ## C64 -/

/-- Position, momentum `p = m c γβ` and charge in SI units. -/
noncomputable def momentumSI (n : Nucleus) (r : Row) : ℝ × ℝ × ℝ :=
  (n.mass * MEV_2_KG * 299792458 * r.gvx, n.mass * MEV_2_KG * 299792458 * r.gvy,
    n.mass * MEV_2_KG * 299792458 * r.gvz)

/-- A function with zero derivative on an interval is constant there. -/
theorem const_of_deriv {f : ℝ → ℝ} {a b : ℝ} (h : ∀ t ∈ Set.Icc a b, HasDerivAt f 0 t) :
    ∀ t ∈ Set.Icc a b, f t = f a :=
  constant_of_has_deriv_right_zero
    (fun t ht => (h t ht).continuousAt.continuousWithinAt)
    (fun t ht => (h t ⟨ht.1, ht.2.le⟩).hasDerivWithinAt)

/-- C64: in vacuum (no stopping power) the canonical momenta `p_x - q B y` and `p_y + q B x` are
conserved along every exact solution, and `p_z` grows at the constant rate `q E`. -/
theorem C64_canonical {traj : ℝ → Row} {a b B E : ℝ} {target : GasTarget} {n : Nucleus}
    (hm : n.mass ≠ 0) (hdedx : ∀ k, target.get_dedx n k = 0)
    (hsol : ExactSolution traj a b B E target n) :
    ∀ t ∈ Set.Icc a b,
      (momentumSI n (traj t)).1 - n.Z * E_CHARGE * B * (traj t).y
        = (momentumSI n (traj a)).1 - n.Z * E_CHARGE * B * (traj a).y ∧
      (momentumSI n (traj t)).2.1 + n.Z * E_CHARGE * B * (traj t).x
        = (momentumSI n (traj a)).2.1 + n.Z * E_CHARGE * B * (traj a).x ∧
      (momentumSI n (traj t)).2.2 = (momentumSI n (traj a)).2.2 + n.Z * E_CHARGE * E * (t - a) := by
  have key : ∀ t ∈ Set.Icc a b, ∃ d : Row,
      HasDerivAt (fun t => (traj t).x) d.x t ∧ HasDerivAt (fun t => (traj t).y) d.y t ∧
      HasDerivAt (fun t => (traj t).gvx) d.gvx t ∧ HasDerivAt (fun t => (traj t).gvy) d.gvy t ∧
      HasDerivAt (fun t => (traj t).gvz) d.gvz t ∧
      n.mass * MEV_2_KG * 299792458 * d.gvx = n.Z * E_CHARGE * B * d.y ∧
      n.mass * MEV_2_KG * 299792458 * d.gvy = - (n.Z * E_CHARGE * B * d.x) ∧
      n.mass * MEV_2_KG * 299792458 * d.gvz = n.Z * E_CHARGE * E := by
    intro t ht
    obtain ⟨d, hd, hx, hy, -, h1, h2, h3⟩ := hsol t ht
    obtain ⟨hv, hf⟩ := C22_lorentz_force hm hd
    rw [hdedx] at hf
    unfold force cross at hf
    simp only [Prod.mk.injEq] at hf hv
    rw [← hv] at hf
    obtain ⟨f1, f2, f3⟩ := hf
    refine ⟨d, hx, hy, h1, h2, h3, ?_, ?_, ?_⟩
    · rw [f1]; ring
    · rw [f2]; ring
    · rw [f3]; ring
  intro t ht
  refine ⟨?_, ?_, ?_⟩
  · refine const_of_deriv (f := fun t => (momentumSI n (traj t)).1 - n.Z * E_CHARGE * B * (traj t).y)
      ?_ t ht
    intro s hs
    obtain ⟨d, hx, hy, h1, h2, h3, f1, f2, f3⟩ := key s hs
    refine ((h1.const_mul (n.mass * MEV_2_KG * 299792458)).sub
      (hy.const_mul (n.Z * E_CHARGE * B))).congr_deriv ?_
    rw [f1]; ring
  · refine const_of_deriv (f := fun t => (momentumSI n (traj t)).2.1 + n.Z * E_CHARGE * B * (traj t).x)
      ?_ t ht
    intro s hs
    obtain ⟨d, hx, hy, h1, h2, h3, f1, f2, f3⟩ := key s hs
    refine ((h2.const_mul (n.mass * MEV_2_KG * 299792458)).add
      (hx.const_mul (n.Z * E_CHARGE * B))).congr_deriv ?_
    rw [f2]; ring
  · have := const_of_deriv (f := fun t => (momentumSI n (traj t)).2.2 - n.Z * E_CHARGE * E * t)
      (a := a) (b := b) ?_ t ht
    · linarith
    · intro s hs
      obtain ⟨d, hx, hy, h1, h2, h3, f1, f2, f3⟩ := key s hs
      refine ((h3.const_mul (n.mass * MEV_2_KG * 299792458)).sub
        ((hasDerivAt_id s).const_mul (n.Z * E_CHARGE * E))).congr_deriv ?_
      rw [f3]; ring

/-- C64: in vacuum the transverse momentum has constant magnitude, and the projection of the track
onto the pad plane lies on a circle of radius `p_T / |q B|`. -/
theorem C64_circle {traj : ℝ → Row} {a b B E : ℝ} {target : GasTarget} {n : Nucleus}
    (hm : n.mass ≠ 0) (hdedx : ∀ k, target.get_dedx n k = 0) (hZ : n.Z ≠ 0) (hB : B ≠ 0)
    (hsol : ExactSolution traj a b B E target n) :
    (∀ t ∈ Set.Icc a b, (momentumSI n (traj t)).1 ^ 2 + (momentumSI n (traj t)).2.1 ^ 2
      = (momentumSI n (traj a)).1 ^ 2 + (momentumSI n (traj a)).2.1 ^ 2) ∧
    ∃ cx cy : ℝ, ∀ t ∈ Set.Icc a b, ((traj t).x - cx) ^ 2 + ((traj t).y - cy) ^ 2
      = ((momentumSI n (traj a)).1 ^ 2 + (momentumSI n (traj a)).2.1 ^ 2)
        / (n.Z * E_CHARGE * B) ^ 2 := by
  have hE : E_CHARGE ≠ 0 := by norm_num [E_CHARGE]
  have hZ' : (n.Z : ℝ) ≠ 0 := by exact_mod_cast hZ
  have hq : (n.Z : ℝ) * E_CHARGE * B ≠ 0 := mul_ne_zero (mul_ne_zero hZ' hE) hB
  have hkg : MEV_2_KG ≠ 0 := by norm_num [MEV_2_KG]
  have hcan := C64_canonical hm hdedx hsol
  have hT : ∀ t ∈ Set.Icc a b, (momentumSI n (traj t)).1 ^ 2 + (momentumSI n (traj t)).2.1 ^ 2
      = (momentumSI n (traj a)).1 ^ 2 + (momentumSI n (traj a)).2.1 ^ 2 := by
    intro t ht
    refine const_of_deriv (f := fun t => (momentumSI n (traj t)).1 ^ 2
      + (momentumSI n (traj t)).2.1 ^ 2) ?_ t ht
    intro s hs
    obtain ⟨d, hd, hx, hy, -, h1, h2, h3⟩ := hsol s hs
    obtain ⟨hv, hf⟩ := C22_lorentz_force hm hd
    rw [hdedx] at hf
    unfold force cross at hf
    simp only [Prod.mk.injEq] at hf
    obtain ⟨f1, f2, -⟩ := hf
    refine (((h1.const_mul (n.mass * MEV_2_KG * 299792458)).pow 2).add
      ((h2.const_mul (n.mass * MEV_2_KG * 299792458)).pow 2)).congr_deriv ?_
    rw [f1, f2]
    unfold velocity
    push_cast
    ring
  refine ⟨hT, (traj a).x + (momentumSI n (traj a)).2.1 / (n.Z * E_CHARGE * B),
    (traj a).y - (momentumSI n (traj a)).1 / (n.Z * E_CHARGE * B), ?_⟩
  intro t ht
  obtain ⟨c1, c2, -⟩ := hcan t ht
  rw [← hT t ht, eq_div_iff (pow_ne_zero 2 hq)]
  generalize n.Z * E_CHARGE * B = q at *
  have e1 : q * ((traj t).x - ((traj a).x + (momentumSI n (traj a)).2.1 / q))
      = - (momentumSI n (traj t)).2.1 := by
    field_simp
    linarith
  have e2 : q * ((traj t).y - ((traj a).y - (momentumSI n (traj a)).1 / q))
      = (momentumSI n (traj t)).1 := by
    field_simp
    linarith
  rw [← e2, ← neg_sq ((momentumSI n (traj t)).2.1), ← e1]
  ring

/-- Kinetic energy plus potential energy `-q E z` in joules. -/
noncomputable def totalEnergy (n : Nucleus) (E : ℝ) (r : Row) : ℝ :=
  n.mass * MEV_2_KG * 299792458 ^ 2 * (lorentz r - 1) - n.Z * E_CHARGE * E * r.z

/-- The total energy changes at the rate given by the stopping power. -/
theorem totalEnergy_deriv {traj : ℝ → Row} {a b B E : ℝ} {target : GasTarget} {n : Nucleus}
    (hm : 0 < n.mass) (hsol : ExactSolution traj a b B E target n) (t : ℝ) (ht : t ∈ Set.Icc a b) :
    ∃ v, 0 ≤ v ∧ HasDerivAt (fun t => totalEnergy n E (traj t))
      (-(target.get_dedx n (kinetic n (traj t)) * MEV_2_JOULE * target.density * 100 * v)) t := by
  obtain ⟨d, hd, -, -, hz', hx, hy, hz⟩ := hsol t ht
  have hp := C22_power hm.ne' hd
  have hsq : HasDerivAt (fun t => 1 + gammaBetaSq (traj t))
      (2 * ((traj t).gvx * d.gvx + (traj t).gvy * d.gvy + (traj t).gvz * d.gvz)) t := by
    unfold gammaBetaSq
    have := (((hx.pow 2).add (hy.pow 2)).add (hz.pow 2)).const_add 1
    refine this.congr_deriv ?_
    push_cast
    ring
  have hpos : 1 + gammaBetaSq (traj t) ≠ 0 := by
    have := gammaBetaSq_nonneg (traj t)
    linarith
  have hk := (((hsq.sqrt hpos).sub_const 1).const_mul (n.mass * MEV_2_KG * 299792458 ^ 2)).sub
    (hz'.const_mul (n.Z * E_CHARGE * E))
  refine ⟨_, Real.sqrt_nonneg (d.x ^ 2 + d.y ^ 2 + d.z ^ 2), hk.congr_deriv ?_⟩
  have e : 2 * ((traj t).gvx * d.gvx + (traj t).gvy * d.gvy + (traj t).gvz * d.gvz)
      / (2 * Real.sqrt (1 + gammaBetaSq (traj t)))
      = ((traj t).gvx * d.gvx + (traj t).gvy * d.gvy + (traj t).gvz * d.gvz) / lorentz (traj t) := by
    unfold lorentz
    rw [mul_div_mul_left _ _ two_ne_zero]
  rw [e, hp]
  ring

/-- C64: the total energy never increases along an exact solution, if the stopping power is
non-negative. -/
theorem C64_energy {traj : ℝ → Row} {a b B E : ℝ} {target : GasTarget} {n : Nucleus}
    (hm : 0 < n.mass) (hdedx : ∀ k, 0 ≤ target.get_dedx n k) (hrho : 0 ≤ target.density)
    (hsol : ExactSolution traj a b B E target n) :
    AntitoneOn (fun t => totalEnergy n E (traj t)) (Set.Icc a b) := by
  have hder := totalEnergy_deriv hm hsol
  apply antitoneOn_of_deriv_nonpos (convex_Icc a b)
  · intro t ht
    obtain ⟨v, -, hk⟩ := hder t ht
    exact hk.continuousAt.continuousWithinAt
  · intro t ht
    obtain ⟨v, -, hk⟩ := hder t (interior_subset ht)
    exact hk.differentiableAt.differentiableWithinAt
  · intro t ht
    obtain ⟨v, hv, hk⟩ := hder t (interior_subset ht)
    rw [hk.deriv]
    have hj : 0 < MEV_2_JOULE := by norm_num [MEV_2_JOULE]
    have h1 := hdedx (kinetic n (traj t))
    have : 0 ≤ target.get_dedx n (kinetic n (traj t)) * MEV_2_JOULE * target.density * 100 * v := by
      positivity
    linarith

/-- C64: in vacuum the total energy is conserved along every exact solution. -/
theorem C64_energy_conserved {traj : ℝ → Row} {a b B E : ℝ} {target : GasTarget} {n : Nucleus}
    (hm : 0 < n.mass) (hdedx : ∀ k, target.get_dedx n k = 0)
    (hsol : ExactSolution traj a b B E target n) :
    ∀ t ∈ Set.Icc a b, totalEnergy n E (traj t) = totalEnergy n E (traj a) := by
  apply const_of_deriv
  intro t ht
  obtain ⟨v, -, hk⟩ := totalEnergy_deriv hm hsol t ht
  refine hk.congr_deriv ?_
  rw [hdedx]
  ring

/-- Angular frequency of the example. -/
noncomputable def exOmega : ℝ := E_CHARGE / (5 / 4 * (6 * MEV_2_KG))

/-- A circular orbit at γ = 5/4. -/
noncomputable def exOrbit (t : ℝ) : Row :=
  ⟨3 / 5 * 299792458 / exOmega * Real.sin (exOmega * t),
   3 / 5 * 299792458 / exOmega * Real.cos (exOmega * t), 0.5,
   3 / 4 * Real.cos (exOmega * t), -(3 / 4 * Real.sin (exOmega * t)), 0⟩

/-- The orbit is an exact solution in a field of 1 T without electric field and gas: the hypotheses
of C64 are met by a curved track. -/
example : ExactSolution exOrbit 0 1 1 0 (exDet 100 0).gas_target exNucleus := by
  intro t _
  have hw : exOmega ≠ 0 := by
    unfold exOmega
    norm_num [E_CHARGE, MEV_2_KG]
  have hg : (exOrbit t).gv = 3 / 4 := by
    refine sqrt_of_sq (by norm_num) ?_
    simp only [exOrbit]
    have := Real.sin_sq_add_cos_sq (exOmega * t)
    nlinarith
  have hb : betaOf (3 / 4) = 3 / 5 := sqrt_of_sq (by norm_num) (by norm_num)
  have hin : HasDerivAt (fun t : ℝ => exOmega * t) exOmega t := by
    simpa using (hasDerivAt_id t).const_mul exOmega
  have hs := hin.sin
  have hc := hin.cos
  have hq : (exNucleus.Z : ℝ) * E_CHARGE / (exNucleus.mass * MEV_2_KG) = 5 / 4 * exOmega := by
    have : MEV_2_KG ≠ 0 := by norm_num [MEV_2_KG]
    simp only [exNucleus, exOmega]
    field_simp
    norm_num
  unfold equation_of_motion
  simp only [hg, hb]
  rw [if_neg (by norm_num)]
  refine ⟨_, rfl, ?_⟩
  simp only [hq]
  simp only [exDet, C, exOrbit]
  refine ⟨(hs.const_mul (3 / 5 * 299792458 / exOmega)).congr_deriv ?_,
    (hc.const_mul (3 / 5 * 299792458 / exOmega)).congr_deriv ?_,
    (hasDerivAt_const t (0.5 : ℝ)).congr_deriv ?_,
    (hc.const_mul (3 / 4)).congr_deriv ?_, ((hs.const_mul (3 / 4)).neg).congr_deriv ?_,
    (hasDerivAt_const t (0 : ℝ)).congr_deriv ?_⟩
  · field_simp
  · field_simp
  · norm_num
  · norm_num; ring
  · norm_num; ring
  · norm_num

end Verif.Detector
