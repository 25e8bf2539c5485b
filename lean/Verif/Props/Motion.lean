import Verif.Proofs.Electrons
import Verif.Proofs.EventTrace
import Verif.Props.Drift
import Mathlib.Analysis.Calculus.Deriv.Pow
import Mathlib.Analysis.Calculus.Deriv.MeanValue
import Mathlib.Analysis.SpecialFunctions.Sqrt

/-! # C22, C23: equation of motion and trajectories -/

namespace Verif.Detector

open Verif.Spec Verif.Kinematics

/-! ## C22 -/

/-- The equation of motion is defined exactly for states that are not at rest. -/
theorem eom_ok_iff (t : ℝ) (r : Row) (B E : ℝ) (target : GasTarget) (n : Nucleus) :
    (∃ d, equation_of_motion t r B E target n = .ok d) ↔ r.gv ≠ 0 := by
  unfold equation_of_motion
  simp only
  by_cases h : betaOf r.gv = 0
  · rw [if_pos h]
    simp [(betaOf_eq_zero_iff r).1 h]
  · rw [if_neg h]
    have := mt (betaOf_eq_zero_iff r).2 h
    simp [this]

/-- C22: the velocity returned by the equation of motion is `γβ/γ` times the speed of light, hence
parallel to `γβ` and slower than light. -/
theorem C22_velocity {t : ℝ} {r d : Row} {B E : ℝ} {target : GasTarget} {n : Nucleus}
    (h : equation_of_motion t r B E target n = .ok d) :
    d.x = r.gvx / lorentz r * 299792458 ∧ d.y = r.gvy / lorentz r * 299792458 ∧
    d.z = r.gvz / lorentz r * 299792458 ∧ d.x ^ 2 + d.y ^ 2 + d.z ^ 2 < 299792458 ^ 2 := by
  have hg : r.gv ≠ 0 := (eom_ok_iff t r B E target n).1 ⟨d, h⟩
  have hl := (lorentz_pos r).ne'
  unfold equation_of_motion at h
  simp only at h
  rw [if_neg (mt (betaOf_eq_zero_iff r).1 hg)] at h
  have h := Except.ok.inj h
  have hx : d.x = r.gvx / lorentz r * 299792458 := by
    rw [← h]; simp only [betaOf_gv, C]; field_simp
  have hy : d.y = r.gvy / lorentz r * 299792458 := by
    rw [← h]; simp only [betaOf_gv, C]; field_simp
  have hz : d.z = r.gvz / lorentz r * 299792458 := by
    rw [← h]; simp only [betaOf_gv, C]; field_simp
  refine ⟨hx, hy, hz, ?_⟩
  rw [hx, hy, hz]
  have hls : lorentz r ^ 2 = 1 + gammaBetaSq r := by
    unfold lorentz
    exact Real.sq_sqrt (by have := gammaBetaSq_nonneg r; linarith)
  have e : (r.gvx / lorentz r * 299792458) ^ 2 + (r.gvy / lorentz r * 299792458) ^ 2
      + (r.gvz / lorentz r * 299792458) ^ 2
      = gammaBetaSq r / (1 + gammaBetaSq r) * 299792458 ^ 2 := by
    rw [← hls]; unfold gammaBetaSq; field_simp
  rw [e]
  have h0 := gammaBetaSq_nonneg r
  have : gammaBetaSq r / (1 + gammaBetaSq r) < 1 := by
    rw [div_lt_one (by linarith)]; linarith
  nlinarith

/-- C22: the magnetic force does no work: the rate of change of `γ` does not depend on the magnetic
field, and in SI units the rate of change of the kinetic energy is the electric power minus the
stopping power `dE/dx · ρ` times the speed. -/
theorem C22_power {t : ℝ} {r d : Row} {B E : ℝ} {target : GasTarget} {n : Nucleus}
    (hm : n.mass ≠ 0) (h : equation_of_motion t r B E target n = .ok d) :
    n.mass * MEV_2_KG * 299792458 ^ 2
        * ((r.gvx * d.gvx + r.gvy * d.gvy + r.gvz * d.gvz) / lorentz r)
      = (n.Z : ℝ) * E_CHARGE * E * d.z
        - target.get_dedx n (kinetic n r) * MEV_2_JOULE * target.density * 100
          * Real.sqrt (d.x ^ 2 + d.y ^ 2 + d.z ^ 2) := by
  have hg : r.gv ≠ 0 := (eom_ok_iff t r B E target n).1 ⟨d, h⟩
  have hl := (lorentz_pos r).ne'
  obtain ⟨hx, hy, hz, -⟩ := C22_velocity h
  have hspeed : Real.sqrt (d.x ^ 2 + d.y ^ 2 + d.z ^ 2) = r.gv / lorentz r * 299792458 := by
    rw [hx, hy, hz]
    have e : (r.gvx / lorentz r * 299792458) ^ 2 + (r.gvy / lorentz r * 299792458) ^ 2
        + (r.gvz / lorentz r * 299792458) ^ 2 = (r.gv / lorentz r * 299792458) ^ 2 := by
      rw [mul_pow (r.gv / _), div_pow r.gv, gv_sq]
      unfold gammaBetaSq
      field_simp
    rw [e]
    exact Real.sqrt_sq (by have := gv_nonneg r; have := (lorentz_pos r).le; positivity)
  rw [hspeed]
  have hgs := gv_sq r
  unfold gammaBetaSq at hgs
  unfold equation_of_motion at h
  simp only at h
  rw [if_neg (mt (betaOf_eq_zero_iff r).1 hg)] at h
  have h := Except.ok.inj h
  have hk : n.mass * (r.gv / betaOf r.gv - 1) = kinetic n r := by
    rw [gamma_eq r hg]; rfl
  rw [hk] at h
  have hkg : MEV_2_KG ≠ 0 := by norm_num [MEV_2_KG]
  rw [← h]
  simp only [betaOf_gv, C]
  generalize target.get_dedx n (kinetic n r) = S
  field_simp
  linear_combination (lorentz r * S * MEV_2_JOULE * target.density * 100) * hgs

/-- C22: the unit conversion used for the mass agrees with the one used for the energy loss to nine
digits: 1 MeV/c² times c² is 1 MeV. -/
theorem C22_units : |MEV_2_KG * 299792458 ^ 2 / MEV_2_JOULE - 1| < 1e-9 := by
  rw [abs_lt]
  norm_num [MEV_2_KG, MEV_2_JOULE]

/-- An exact solution of the equation of motion on a time interval. -/
def ExactSolution (traj : ℝ → Row) (a b : ℝ) (B E : ℝ) (target : GasTarget) (n : Nucleus) : Prop :=
  ∀ t ∈ Set.Icc a b, ∃ d, equation_of_motion t (traj t) B E target n = .ok d ∧
    HasDerivAt (fun t => (traj t).x) d.x t ∧ HasDerivAt (fun t => (traj t).y) d.y t ∧
    HasDerivAt (fun t => (traj t).z) d.z t ∧ HasDerivAt (fun t => (traj t).gvx) d.gvx t ∧
    HasDerivAt (fun t => (traj t).gvy) d.gvy t ∧ HasDerivAt (fun t => (traj t).gvz) d.gvz t

/-- C22: along every exact solution without electric field and with non-negative stopping power the
kinetic energy never increases. -/
theorem C22_energy_antitone {traj : ℝ → Row} {a b B : ℝ} {target : GasTarget} {n : Nucleus}
    (hm : 0 < n.mass) (hdedx : ∀ k, 0 ≤ target.get_dedx n k) (hrho : 0 ≤ target.density)
    (hsol : ExactSolution traj a b B 0 target n) :
    AntitoneOn (fun t => kinetic n (traj t)) (Set.Icc a b) := by
  have hder : ∀ t ∈ Set.Icc a b, ∃ k, HasDerivAt (fun t => kinetic n (traj t)) k t ∧ k ≤ 0 := by
    intro t ht
    obtain ⟨d, hd, -, -, -, hx, hy, hz⟩ := hsol t ht
    have hp := C22_power hm.ne' hd
    have hsq : HasDerivAt (fun t => 1 + gammaBetaSq (traj t))
        (2 * ((traj t).gvx * d.gvx + (traj t).gvy * d.gvy + (traj t).gvz * d.gvz)) t := by
      unfold gammaBetaSq
      have := (((hx.pow 2).add (hy.pow 2)).add (hz.pow 2)).const_add 1
      refine this.congr_deriv ?_
      push_cast
      ring
    have hpos : 1 + gammaBetaSq (traj t) ≠ 0 := by
      have := gammaBetaSq_nonneg (traj t)
      linarith
    have hk := ((hsq.sqrt hpos).sub_const 1).const_mul n.mass
    refine ⟨_, hk, ?_⟩
    have hkg : 0 < MEV_2_KG := by norm_num [MEV_2_KG]
    have hj : 0 < MEV_2_JOULE := by norm_num [MEV_2_JOULE]
    have hneg : n.mass * MEV_2_KG * 299792458 ^ 2
        * (((traj t).gvx * d.gvx + (traj t).gvy * d.gvy + (traj t).gvz * d.gvz) / lorentz (traj t))
        ≤ 0 := by
      rw [hp]
      have h1 := hdedx (kinetic n (traj t))
      have h2 := Real.sqrt_nonneg (d.x ^ 2 + d.y ^ 2 + d.z ^ 2)
      have : 0 ≤ target.get_dedx n (kinetic n (traj t)) * MEV_2_JOULE * target.density * 100
          * Real.sqrt (d.x ^ 2 + d.y ^ 2 + d.z ^ 2) := by positivity
      simp only [mul_zero, zero_mul]
      linarith
    have hX : ((traj t).gvx * d.gvx + (traj t).gvy * d.gvy + (traj t).gvz * d.gvz)
        / lorentz (traj t) ≤ 0 := by
      by_contra hc
      push Not at hc
      have : 0 < n.mass * MEV_2_KG * 299792458 ^ 2
        * (((traj t).gvx * d.gvx + (traj t).gvy * d.gvy + (traj t).gvz * d.gvz) / lorentz (traj t)) := by
        positivity
      linarith
    have e : 2 * ((traj t).gvx * d.gvx + (traj t).gvy * d.gvy + (traj t).gvz * d.gvz)
        / (2 * Real.sqrt (1 + gammaBetaSq (traj t)))
        = ((traj t).gvx * d.gvx + (traj t).gvy * d.gvy + (traj t).gvz * d.gvz) / lorentz (traj t) := by
      unfold lorentz
      rw [mul_div_mul_left _ _ two_ne_zero]
    rw [e]
    exact mul_nonpos_of_nonneg_of_nonpos hm.le hX
  apply antitoneOn_of_deriv_nonpos (convex_Icc a b)
  · intro t ht
    obtain ⟨k, hk, -⟩ := hder t ht
    exact hk.continuousAt.continuousWithinAt
  · intro t ht
    obtain ⟨k, hk, -⟩ := hder t (interior_subset ht)
    exact hk.differentiableAt.differentiableWithinAt
  · intro t ht
    obtain ⟨k, hk, hk0⟩ := hder t (interior_subset ht)
    rw [hk.deriv]
    exact hk0

/-- Uniform motion along the beam axis. -/
noncomputable def exUniform (t : ℝ) : Row := ⟨0, 0, 3 / 5 * 299792458 * t, 0, 0, 3 / 4⟩

/-- Uniform motion is an exact solution without fields and stopping power: the hypotheses of
`C22_energy_antitone` (and of `C22_velocity`, `C22_power`) are satisfiable. -/
example : ExactSolution exUniform 0 1 0 0 (exDet 100 0).gas_target exNucleus := by
  intro t _
  have hgv : (exUniform t).gv = 3 / 4 := sqrt_of_sq (by norm_num) (by norm_num [exUniform])
  have hb : betaOf (3 / 4) = 3 / 5 := sqrt_of_sq (by norm_num) (by norm_num)
  unfold equation_of_motion
  simp only [hgv, hb]
  rw [if_neg (by norm_num)]
  refine ⟨_, rfl, ?_⟩
  simp only [exDet, C, exUniform]
  have hz : HasDerivAt (fun t : ℝ => 3 / 5 * 299792458 * t) (3 / 5 * 299792458) t := by
    simpa using (hasDerivAt_id t).const_mul (3 / 5 * 299792458 : ℝ)
  refine ⟨(hasDerivAt_const t (0 : ℝ)).congr_deriv (by norm_num),
    (hasDerivAt_const t (0 : ℝ)).congr_deriv (by norm_num), hz.congr_deriv (by norm_num),
    (hasDerivAt_const t (0 : ℝ)).congr_deriv (by norm_num),
    (hasDerivAt_const t (0 : ℝ)).congr_deriv (by norm_num),
    (hasDerivAt_const t (3 / 4 : ℝ)).congr_deriv (by norm_num)⟩

/-! ## C23 -/

/-- C23 is false: simulating a charged nucleus at rest, in particular the target (index 0), raises
ZeroDivisionError, whatever the rest of the index list. -/
theorem C23_refuted {σ : Type} {env : SimEnv} (hivp : EvaluatesInitial env.solve_ivp)
    {momenta : List Vec4} (vertex : ℝ × ℝ × ℝ) {Zs As : List ℤ} (config : Config) (rng : Gen σ)
    {idx z a : ℤ} (rest : List ℤ) {nucleus : Nucleus} {momentum : Vec4} (s : σ)
    (hz : pyGet Zs idx = .ok z) (hz0 : z ≠ 0) (ha : pyGet As idx = .ok a)
    (hn : env.get_data z a = .ok nucleus) (hm : pyGet momenta idx = .ok momentum)
    (hrest : momentum.px = 0 ∧ momentum.py = 0 ∧ momentum.pz = 0) :
    simulate env momenta vertex Zs As config rng (idx :: rest) s = .error .zeroDivision := by
  have ht : generate_trajectory env.solve_ivp vertex (momentum.px, momentum.py, momentum.pz) nucleus
      config.det_params = .error .zeroDivision := by
    unfold generate_trajectory
    rw [hivp _ .zeroDivision]
    simp only [trajectory_problem]
    unfold equation_of_motion
    simp only
    rw [if_pos]
    rw [betaOf_eq_zero_iff, gv_eq_zero_iff]
    simp [hrest.1, hrest.2.1, hrest.2.2]
  have hstep : simulate_nucleus env momenta vertex Zs As config rng (([] : Points), s) idx
      = .error .zeroDivision := by
    unfold simulate_nucleus
    rw [hz]
    simp only [bind, Except.bind]
    rw [if_neg hz0, ha]
    simp only [hn, hm]
    unfold generate_point_cloud
    rw [ht]
    rfl
  unfold simulate
  rw [List.foldlM_cons, hstep]
  rfl

/-- A solver that evaluates the right-hand side at the start and then returns the example track, if
that respects the terminal events. -/
noncomputable def exStrictSolver : IvpSolver := fun P =>
  match P.rhs P.t_span.1 P.y0 with
  | .error e => .error e
  | .ok _ => safeSolver [(0, exTrack0), (1e-10, exTrack1)] P

theorem exStrictSolver_evaluates : EvaluatesInitial exStrictSolver := by
  intro P err h
  unfold exStrictSolver
  rw [h]

/-- The target of the example event cannot be simulated. -/
example : simulate { exEnv with solve_ivp := exStrictSolver } exMomenta (0, 0, 0.5) [1, 1, 1] [1, 1, 1]
    (exConfig 100 0) exGen [0] () = .error .zeroDivision :=
  C23_refuted exStrictSolver_evaluates (momenta := exMomenta) _ _ _ (nucleus := exNucleus)
    (momentum := ⟨0, 0, 0, 6⟩) (z := 1) (a := 1) [] () rfl (by norm_num) rfl rfl rfl
    ⟨rfl, rfl, rfl⟩

theorem fano_draws_ok {σ : Type} (rng : Gen σ) {fano : ℝ} (hf : 0 ≤ fano) (ms : List ℝ)
    (hms : ∀ m ∈ ms, 0 ≤ m) (s : σ) : ∃ vs s', fano_draws rng fano (ms.map some) s = .ok (vs, s') := by
  induction ms generalizing s with
  | nil => exact ⟨[], s, rfl⟩
  | cons m ms ih =>
    have hm : 0 ≤ fano * m := mul_nonneg hf (hms m (by simp))
    have h1 : ∃ v s1, fano_draw rng fano (some m) s = .ok (v, s1) := by
      unfold fano_draw
      simp only [npSqrt_of_nonneg hm]
      exact ⟨_, _, rfl⟩
    obtain ⟨v, s1, h1⟩ := h1
    obtain ⟨vs, s2, h2⟩ := ih (fun m hm => hms m (by simp [hm])) s1
    refine ⟨v :: vs, s2, ?_⟩
    rw [List.map_cons]
    unfold fano_draws
    rw [h1]
    simp only [bind, Except.bind, h2]
    rfl

theorem energy_lost_some (l : List ℝ) :
    ∃ ms : List ℝ, energy_lost (l.map some) = ms.map some ∧ ∀ m ∈ ms, 0 ≤ m := by
  have hgo : ∀ (l : List ℝ) (a : ℝ), ∃ ms : List ℝ,
      energy_lost.go (some a) (l.map some) = ms.map some ∧ ∀ m ∈ ms, 0 ≤ m := by
    intro l
    induction l with
    | nil => intro a; exact ⟨[], rfl, by simp⟩
    | cons b l ih =>
      intro a
      obtain ⟨ms, h1, h2⟩ := ih b
      refine ⟨|b - a| :: ms, by simp [energy_lost.go, h1], ?_⟩
      intro m hm
      rcases List.mem_cons.1 hm with rfl | hm
      · exact abs_nonneg _
      · exact h2 m hm
  cases l with
  | nil => exact ⟨[], rfl, by simp⟩
  | cons a l =>
    obtain ⟨ms, h1, h2⟩ := hgo l a
    refine ⟨0 :: ms, by simp [energy_lost, h1], ?_⟩
    intro m hm
    rcases List.mem_cons.1 hm with rfl | hm
    · exact le_rfl
    · exact h2 m hm

/-- Electrons can be generated along every track without points at rest. -/
theorem generate_electrons_ok {σ : Type} (rng : Gen σ) {track : List Row} (nucleus : Nucleus)
    {params : DetectorParams} (hF : 0 ≤ params.fano_factor) (hW : 0 < params.w_value)
    (hmove : ∀ r ∈ track, r.gv ≠ 0) (s : σ) :
    ∃ primary s', generate_electrons track nucleus params rng s = .ok (primary, s') := by
  unfold generate_electrons
  simp only
  rw [if_neg hW.ne']
  have h1 : track.map (track_energy nucleus) = (track.map (kinetic nucleus)).map some := by
    rw [List.map_map]
    apply List.map_congr_left
    intro r hr
    exact track_energy_eq nucleus r (hmove r hr)
  rw [h1]
  obtain ⟨ms, h2, h3⟩ := energy_lost_some (track.map (kinetic nucleus))
  rw [h2]
  have h4 : (ms.map some).map (Option.map (· * (1.0e6 / params.w_value)))
      = (ms.map (· * (1.0e6 / params.w_value))).map some := by
    rw [List.map_map, List.map_map]
    rfl
  rw [h4]
  apply fano_draws_ok rng hF
  intro m hm
  obtain ⟨m', hm', rfl⟩ := List.mem_map.1 hm
  have := h3 m' hm'
  positivity

/-- The Lorentz factor of the initial state posed for a momentum. -/
theorem kinetic_initial {vertex momentum : ℝ × ℝ × ℝ} {nucleus : Nucleus} (hm : 0 < nucleus.mass)
    (d : DetectorParams) :
    kinetic nucleus (trajectory_problem vertex momentum nucleus d).y0
      = Real.sqrt (momentum.1 ^ 2 + momentum.2.1 ^ 2 + momentum.2.2 ^ 2 + nucleus.mass ^ 2)
        - nucleus.mass := by
  unfold kinetic lorentz gammaBetaSq trajectory_problem
  simp only
  have h : momentum.1 ^ 2 + momentum.2.1 ^ 2 + momentum.2.2 ^ 2 + nucleus.mass ^ 2
      = nucleus.mass ^ 2 * (1 + ((momentum.1 / nucleus.mass) ^ 2 + (momentum.2.1 / nucleus.mass) ^ 2
        + (momentum.2.2 / nucleus.mass) ^ 2)) := by
    field_simp
    ring
  rw [h, Real.sqrt_mul (sq_nonneg _), Real.sqrt_sq hm.le]
  ring

theorem stop_condition_eq (r : Row) (nucleus : Nucleus) (h : r.gv ≠ 0) :
    stop_condition r nucleus = .ok (kinetic nucleus r - KE_LIMIT) := by
  unfold stop_condition
  simp only
  rw [if_neg (mt (betaOf_eq_zero_iff r).1 h), gamma_eq r h]
  rfl

theorem stop_condition_ok {r : Row} {nucleus : Nucleus} {v : ℝ} (h : stop_condition r nucleus = .ok v) :
    r.gv ≠ 0 ∧ v = kinetic nucleus r - KE_LIMIT := by
  have hg : r.gv ≠ 0 := by
    intro h0
    unfold stop_condition at h
    simp only at h
    rw [if_pos ((betaOf_eq_zero_iff r).2 h0)] at h
    cases h
  refine ⟨hg, ?_⟩
  rw [stop_condition_eq r nucleus hg] at h
  exact (Except.ok.inj h).symm

theorem kinetic_pos_moving {nucleus : Nucleus} {r : Row} (h : 0 < kinetic nucleus r) : r.gv ≠ 0 := by
  intro h0
  rw [gv_eq_zero_iff] at h0
  unfold kinetic lorentz gammaBetaSq at h
  simp [h0.1, h0.2.1, h0.2.2] at h

/-- If a nucleus starts with at least the limiting kinetic energy, it has at least that energy at
every point of its trajectory; in particular it is never at rest. -/
theorem trajectory_energy {ivp : IvpSolver} (hivp : RespectsEvents ivp)
    {vertex momentum : ℝ × ℝ × ℝ} {nucleus : Nucleus} {d : DetectorParams}
    (hK : KE_LIMIT ≤ kinetic nucleus (trajectory_problem vertex momentum nucleus d).y0)
    {track : List Row} (ht : generate_trajectory ivp vertex momentum nucleus d = .ok track) :
    ∀ r ∈ track, r.gv ≠ 0 ∧ KE_LIMIT ≤ kinetic nucleus r := by
  have hpos : (0 : ℝ) < KE_LIMIT := by norm_num [KE_LIMIT]
  unfold generate_trajectory at ht
  intro r hr
  rcases hs : ivp (trajectory_problem vertex momentum nucleus d) with err | sol
  · rw [hs] at ht; cases ht
  · rw [hs] at ht
    have ht := Except.ok.inj ht
    rw [← ht] at hr
    obtain ⟨ty, hty, rfl⟩ := List.mem_map.1 hr
    have h0 := stop_condition_eq _ nucleus (kinetic_pos_moving (hpos.trans_le hK))
    obtain ⟨v, e, h⟩ := (hivp _ _ hs ⟨fun _ s => stop_condition s nucleus, true, -1⟩
      (by simp [trajectory_problem]) rfl _ h0 ty hty).2 (by norm_num) (by linarith)
    obtain ⟨h1, h2⟩ := stop_condition_ok e
    exact ⟨h1, by linarith⟩

/-- Part of C23 that holds: every nucleus of the event that is known to the nuclear data map and is
neutral or has a kinetic energy of at least 1 eV (the limit at which tracking stops) can be
simulated, in any combination, in a detector at least one metre long. Missing for the full property:
nuclei at rest, such as the target (`C23_refuted`), or with less than 1 eV. -/
theorem C23_moving_partial {σ : Type} {env : SimEnv} {fs : FileSystem} {d : DetectorParams}
    {e : ElectronicsParams} {p : PadParams} {config : Config} (hc : mkConfig fs d e p = .ok config)
    (hL : 1 ≤ d.length) (hmm : 0 ≤ e.micromegas_edge) (hedges : e.micromegas_edge < e.windows_edge)
    (hD : 0 ≤ d.diffusion) (hE : 0 < d.efield) (hF : 0 ≤ d.fano_factor) (hW : 0 < d.w_value)
    (hev : RespectsEvents env.solve_ivp) (hsol : Succeeds env.solve_ivp)
    {grid : PadGrid} {g : GridEdges} (hb : 0 < g.bin) (hgrid : config.pad_grid = some (grid, g))
    {momenta : List Vec4} {Zs As : List ℤ} {vertex : ℝ × ℝ × ℝ} (hvol : InVolume vertex)
    (rng : Gen σ) (indices : List ℤ)
    (hidx : ∀ idx ∈ indices, ∃ z, pyGet Zs idx = .ok z ∧ (z ≠ 0 → ∃ a nucleus momentum,
      pyGet As idx = .ok a ∧ env.get_data z a = .ok nucleus ∧ 0 < nucleus.mass ∧
      pyGet momenta idx = .ok momentum ∧
      1e-6 ≤ Real.sqrt (momentum.px ^ 2 + momentum.py ^ 2 + momentum.pz ^ 2 + nucleus.mass ^ 2)
        - nucleus.mass)) (s : σ) :
    ∃ cloud labels s', simulate env momenta vertex Zs As config rng indices s
      = .ok ((cloud, labels), s') := by
  have hdd := (C60_drift_velocity fs d e p config hc).2.2.1
  have hstep : ∀ idx ∈ indices, ∀ ps : Points × σ, ∃ ps',
      simulate_nucleus env momenta vertex Zs As config rng ps idx = .ok ps' := by
    intro idx hi ps
    obtain ⟨z, hz, hrest⟩ := hidx idx hi
    unfold simulate_nucleus
    rw [hz]
    simp only [bind, Except.bind]
    by_cases hz0 : z = 0
    · rw [if_pos hz0]; exact ⟨ps, rfl⟩
    · rw [if_neg hz0]
      obtain ⟨a, nucleus, momentum, ha, hn, hmass, hm, hmv⟩ := hrest hz0
      rw [ha]
      simp only [hn, hm]
      have hK : KE_LIMIT ≤ kinetic nucleus (trajectory_problem vertex
          (momentum.px, momentum.py, momentum.pz) nucleus config.det_params).y0 := by
        rw [kinetic_initial hmass]
        unfold KE_LIMIT
        exact hmv
      obtain ⟨sol, hsolve⟩ := hsol (trajectory_problem vertex
          (momentum.px, momentum.py, momentum.pz) nucleus config.det_params) (by
        rw [show (trajectory_problem vertex (momentum.px, momentum.py, momentum.pz) nucleus
          config.det_params).rhs = fun t s => equation_of_motion t s (config.det_params.bfield * -1)
            (config.det_params.efield * -1) config.det_params.gas_target nucleus from rfl]
        rw [eom_ok_iff]
        exact kinetic_pos_moving (lt_of_lt_of_le (by norm_num [KE_LIMIT]) hK))
      obtain ⟨track, htr⟩ : ∃ track, generate_trajectory env.solve_ivp vertex
          (momentum.px, momentum.py, momentum.pz) nucleus config.det_params = .ok track := by
        unfold generate_trajectory
        rw [hsolve]
        exact ⟨_, rfl⟩
      have hmove : ∀ r ∈ track, r.gv ≠ 0 := fun r hr => (trajectory_energy hev hK htr r hr).1
      obtain ⟨primary, s1, hel⟩ := generate_electrons_ok rng nucleus (params := config.det_params)
        (by rw [hdd]; exact hF) (by rw [hdd]; exact hW) hmove ps.2
      obtain ⟨p', hp'⟩ := C18_transport_partial hc hL hmm hedges hD hE hev hb hgrid hvol ps.1 idx
        htr hel
      exact ⟨_, hp'⟩
  have hfold : ∀ (l : List ℤ), (∀ idx ∈ l, idx ∈ indices) → ∀ ps : Points × σ, ∃ ps',
      l.foldlM (simulate_nucleus env momenta vertex Zs As config rng) ps = .ok ps' := by
    intro l
    induction l with
    | nil => intro _ ps; exact ⟨ps, rfl⟩
    | cons i l ih =>
      intro hl ps
      obtain ⟨ps1, h1⟩ := hstep i (hl i (by simp)) ps
      obtain ⟨ps2, h2⟩ := ih (fun j hj => hl j (by simp [hj])) ps1
      refine ⟨ps2, ?_⟩
      rw [List.foldlM_cons, h1]
      exact h2
  obtain ⟨⟨pts, s1⟩, hps⟩ := hfold indices (fun _ h => h) (([] : Points), s)
  unfold simulate
  rw [hps]
  exact ⟨_, _, _, rfl⟩

/-- A solver meeting the assumptions of the positive part, which returns the example track for the
example nucleus. -/
example : Succeeds exStrictSolver ∧ RespectsEvents exStrictSolver ∧
    generate_trajectory exStrictSolver (0, 0, 0.5) (0, 0, 4.5) exNucleus (exDet 100 0)
      = .ok [exTrack0, exTrack1] ∧
    (1e-6 : ℝ) ≤ Real.sqrt (0 ^ 2 + 0 ^ 2 + 4.5 ^ 2 + exNucleus.mass ^ 2) - exNucleus.mass := by
  refine ⟨?_, ?_, ?_, ?_⟩
  · rintro P ⟨d, hd⟩
    unfold exStrictSolver safeSolver
    rw [hd]
    simp only
    split_ifs
    · exact ⟨_, rfl⟩
    · exact ⟨_, rfl⟩
  · intro P sol h
    unfold exStrictSolver at h
    rcases hf : P.rhs P.t_span.1 P.y0 with err | d
    · rw [hf] at h; cases h
    · rw [hf] at h
      exact safeSolver_respects _ P sol h
  · have hok : ∃ d, (trajectory_problem (0, 0, 0.5) (0, 0, 4.5) exNucleus (exDet 100 0)).rhs
        (trajectory_problem (0, 0, 0.5) (0, 0, 4.5) exNucleus (exDet 100 0)).t_span.1
        (trajectory_problem (0, 0, 0.5) (0, 0, 4.5) exNucleus (exDet 100 0)).y0 = .ok d := by
      rw [show (trajectory_problem (0, 0, 0.5) (0, 0, 4.5) exNucleus (exDet 100 0)).rhs
        = fun t s => equation_of_motion t s ((exDet 100 0).bfield * -1)
            ((exDet 100 0).efield * -1) (exDet 100 0).gas_target exNucleus from rfl]
      rw [eom_ok_iff, Ne, gv_eq_zero_iff]
      norm_num [trajectory_problem, exNucleus]
    obtain ⟨d, hd⟩ := hok
    unfold generate_trajectory exStrictSolver
    rw [hd]
    simp only
    rw [safeSolver_eq]
    · rfl
    · intro ty hty
      simp only [List.mem_cons, List.not_mem_nil, or_false] at hty
      rcases hty with rfl | rfl
      · exact ⟨by norm_num [exTrack0], by norm_num [exTrack0], rfl, rfl, exStop0 0.5⟩
      · exact ⟨by norm_num [exTrack1], by norm_num [exTrack1], rfl, rfl, exStop1 0.5⟩
  · rw [sqrt_of_sq (y := 7.5) (by norm_num) (by norm_num [exNucleus])]
    norm_num [exNucleus]

end Verif.Detector
