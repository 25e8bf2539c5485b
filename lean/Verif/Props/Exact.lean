import Verif.Props.Motion

/-! # C18, C23: exact conditions -/

namespace Verif.Detector

open Verif.Spec Verif.Kinematics

/-! ## C18 -/

/-- **C18, exact.** The detectors in which every trajectory that respects the terminal events and starts in
the active volume gets time buckets from the micromegas edge on are exactly those of at least one metre. -/
theorem C18_exact_partial {fs : FileSystem} {d : DetectorParams} {e : ElectronicsParams}
    {p : PadParams} {config : Config} (hc : mkConfig fs d e p = .ok config) (hL : 0 < d.length)
    (hedges : e.micromegas_edge < e.windows_edge) :
    (∀ ivp, RespectsEvents ivp → ∀ vertex momentum nucleus track, InVolume vertex →
      vertex.2.2 ≤ d.length → generate_trajectory ivp vertex momentum nucleus config.det_params = .ok track →
      ∀ r ∈ track, (e.micromegas_edge : ℝ) ≤ to_time_bucket config r.z) ↔ 1 ≤ d.length := by
  constructor
  · intro h
    by_contra hlt
    push Not at hlt
    have hsolve : generate_trajectory
        (safeSolver [(0, { exTrack0 with z := d.length / 2 }), (1e-10, { exTrack1 with z := 1 })])
        (0, 0, d.length / 2) (0, 0, 4.5) exNucleus config.det_params
        = .ok [{ exTrack0 with z := d.length / 2 }, { exTrack1 with z := 1 }] := by
      unfold generate_trajectory
      rw [safeSolver_eq]
      · rfl
      · intro ty hty
        simp only [List.mem_cons, List.not_mem_nil, or_false] at hty
        rcases hty with rfl | rfl
        · refine ⟨?_, ?_, rfl, rfl, exStop0 _⟩ <;> simp only <;> linarith
        · exact ⟨by norm_num, by norm_num, rfl, rfl, exStop1 1⟩
    have := h _ (safeSolver_respects _) (0, 0, d.length / 2) (0, 0, 4.5) exNucleus _
      ⟨by simp only; linarith, by simp only; linarith, by norm_num⟩ (by simp only; linarith) hsolve
      { exTrack1 with z := 1 } (by simp)
    obtain ⟨hv, -, hd, he⟩ := C60_drift_velocity _ _ _ _ _ hc
    rw [hd, he] at hv
    have hW : (0 : ℝ) < (e.windows_edge : ℝ) - (e.micromegas_edge : ℝ) := by
      have : (e.micromegas_edge : ℝ) < e.windows_edge := by exact_mod_cast hedges
      linarith
    have hv0 : 0 < config.drift_velocity := by
      by_contra hcon
      push Not at hcon
      nlinarith
    unfold to_time_bucket at this
    simp only [hd, he] at this
    have hneg : (d.length - 1) / config.drift_velocity < 0 := div_neg_of_neg_of_pos (by linarith) hv0
    linarith
  · intro h1 ivp hivp vertex momentum nucleus track hv _ ht r hr
    exact (C18_trajectory_partial hc h1 hedges hivp hv ht r hr).1

/-- The detectors of the theorem exist on both sides. -/
example : ∃ (d d' : DetectorParams) (e : ElectronicsParams) (config config' : Config),
    mkConfig exFS d e {} = .ok config ∧ mkConfig exFS d' e {} = .ok config' ∧ 0 < d.length ∧ d.length < 1 ∧
    1 ≤ d'.length ∧ e.micromegas_edge < e.windows_edge := by
  obtain ⟨config, hc⟩ := exConfig_built { exDet 100 0.0001 with length := 0.5 } exElec (by norm_num [exElec])
  obtain ⟨config', hc'⟩ := exConfig_built (exDet 100 0.0001) exElec (by norm_num [exElec])
  exact ⟨_, _, _, config, config', hc, hc', by norm_num, by norm_num, by norm_num [exDet],
    by norm_num [exElec]⟩

/-! ## C23 -/

/-- The solver never returns a state at rest when it starts with a moving one. -/
def NeverRests (ivp : IvpSolver) : Prop :=
  ∀ (P : IvpProblem) (sol : List (ℝ × Row)), ivp P = .ok sol → P.y0.gv ≠ 0 → ∀ ty ∈ sol, ty.2.gv ≠ 0

/-- **C23, exact.** With a solver that evaluates the right-hand side at the start, succeeds whenever that is
defined, respects the terminal events and never comes to rest, in a detector of at least one metre, the
nuclei of known species can be simulated exactly if every charged one among them moves. -/
theorem C23_exact_partial {σ : Type} {env : SimEnv} {fs : FileSystem} {d : DetectorParams}
    {e : ElectronicsParams} {p : PadParams} {config : Config} (hc : mkConfig fs d e p = .ok config)
    (hL : 1 ≤ d.length) (hmm : 0 ≤ e.micromegas_edge) (hedges : e.micromegas_edge < e.windows_edge)
    (hD : 0 ≤ d.diffusion) (hE : 0 < d.efield) (hF : 0 ≤ d.fano_factor) (hW : 0 < d.w_value)
    (hini : EvaluatesInitial env.solve_ivp) (hev : RespectsEvents env.solve_ivp)
    (hsol : Succeeds env.solve_ivp) (hnr : NeverRests env.solve_ivp)
    {grid : PadGrid} {g : GridEdges} (hb : 0 < g.bin) (hgrid : config.pad_grid = some (grid, g))
    {momenta : List Vec4} {Zs As : List ℤ} {vertex : ℝ × ℝ × ℝ} (hvol : InVolume vertex)
    (rng : Gen σ) (indices : List ℤ)
    (hidx : ∀ idx ∈ indices, ∃ z momentum, pyGet Zs idx = .ok z ∧ pyGet momenta idx = .ok momentum ∧
      (z ≠ 0 → ∃ a nucleus, pyGet As idx = .ok a ∧ env.get_data z a = .ok nucleus ∧ 0 < nucleus.mass))
    (s : σ) :
    (∃ out, simulate env momenta vertex Zs As config rng indices s = .ok out) ↔
    ∀ idx ∈ indices, ∀ z momentum, pyGet Zs idx = .ok z → pyGet momenta idx = .ok momentum → z ≠ 0 →
      (momentum.px, momentum.py, momentum.pz) ≠ (0, 0, 0) := by
  have hdd := (C60_drift_velocity fs d e p config hc).2.2.1
  have hy0 : ∀ (nucleus : Nucleus) (momentum : Vec4), 0 < nucleus.mass →
      ((trajectory_problem vertex (momentum.px, momentum.py, momentum.pz) nucleus
        config.det_params).y0.gv = 0 ↔ (momentum.px, momentum.py, momentum.pz) = (0, 0, 0)) := by
    intro nucleus momentum hm
    rw [gv_eq_zero_iff]
    simp [trajectory_problem, hm.ne']
  -- one nucleus
  have hstep : ∀ idx ∈ indices, ∀ ps : Points × σ,
      (∃ ps', simulate_nucleus env momenta vertex Zs As config rng ps idx = .ok ps') ↔
      ∀ z momentum, pyGet Zs idx = .ok z → pyGet momenta idx = .ok momentum → z ≠ 0 →
        (momentum.px, momentum.py, momentum.pz) ≠ (0, 0, 0) := by
    intro idx hi ps
    obtain ⟨z, momentum, hz, hm, hrest⟩ := hidx idx hi
    have hred : (∀ z momentum, pyGet Zs idx = .ok z → pyGet momenta idx = .ok momentum → z ≠ 0 →
        (momentum.px, momentum.py, momentum.pz) ≠ (0, 0, 0)) ↔
        (z ≠ 0 → (momentum.px, momentum.py, momentum.pz) ≠ (0, 0, 0)) := by
      constructor
      · intro h; exact h z momentum hz hm
      · intro h z' m' hz' hm'
        rw [hz] at hz'
        rw [hm] at hm'
        rw [← Except.ok.inj hz', ← Except.ok.inj hm']
        exact h
    rw [hred]
    unfold simulate_nucleus
    rw [hz]
    simp only [bind, Except.bind]
    by_cases hz0 : z = 0
    · rw [if_pos hz0]
      exact ⟨fun _ h => absurd hz0 h, fun _ => ⟨ps, rfl⟩⟩
    · rw [if_neg hz0]
      obtain ⟨a, nucleus, ha, hn, hmass⟩ := hrest hz0
      rw [ha]
      simp only [hn, hm]
      have hrhs : (trajectory_problem vertex (momentum.px, momentum.py, momentum.pz) nucleus
          config.det_params).rhs = fun t s => equation_of_motion t s (config.det_params.bfield * -1)
            (config.det_params.efield * -1) config.det_params.gas_target nucleus := rfl
      constructor
      · rintro ⟨ps', h⟩ - hzero
        have ht : generate_trajectory env.solve_ivp vertex (momentum.px, momentum.py, momentum.pz) nucleus
            config.det_params = .error .zeroDivision := by
          unfold generate_trajectory
          rw [hini _ .zeroDivision]
          rw [hrhs]
          unfold equation_of_motion
          simp only
          rw [if_pos]
          rw [betaOf_eq_zero_iff]
          exact (hy0 nucleus momentum hmass).2 hzero
        unfold generate_point_cloud at h
        rw [ht] at h
        cases h
      · intro hmv
        have hmv := hmv hz0
        have hg : (trajectory_problem vertex (momentum.px, momentum.py, momentum.pz) nucleus
            config.det_params).y0.gv ≠ 0 := fun h0 => hmv ((hy0 nucleus momentum hmass).1 h0)
        obtain ⟨sol, hsolve⟩ := hsol (trajectory_problem vertex
          (momentum.px, momentum.py, momentum.pz) nucleus config.det_params) (by
            rw [hrhs, eom_ok_iff]
            exact hg)
        have htr : generate_trajectory env.solve_ivp vertex
            (momentum.px, momentum.py, momentum.pz) nucleus config.det_params
            = .ok (sol.map Prod.snd) := by
          unfold generate_trajectory
          rw [hsolve]
        have hmove : ∀ r ∈ sol.map Prod.snd, r.gv ≠ 0 := by
          intro r hr
          obtain ⟨ty, hty, rfl⟩ := List.mem_map.1 hr
          exact hnr _ _ hsolve hg ty hty
        obtain ⟨primary, s1, hel⟩ := generate_electrons_ok rng nucleus (params := config.det_params)
          (by rw [hdd]; exact hF) (by rw [hdd]; exact hW) hmove ps.2
        obtain ⟨p', hp'⟩ := C18_transport_partial hc hL hmm hedges hD hE hev hb hgrid hvol ps.1 idx
          htr hel
        exact ⟨_, hp'⟩
  -- all nuclei
  have hfold : ∀ (l : List ℤ), (∀ idx ∈ l, idx ∈ indices) → ∀ ps : Points × σ,
      (∃ ps', l.foldlM (simulate_nucleus env momenta vertex Zs As config rng) ps = .ok ps') ↔
      ∀ idx ∈ l, ∀ z momentum, pyGet Zs idx = .ok z → pyGet momenta idx = .ok momentum → z ≠ 0 →
        (momentum.px, momentum.py, momentum.pz) ≠ (0, 0, 0) := by
    intro l
    induction l with
    | nil => intro _ ps; exact ⟨fun _ => by simp, fun _ => ⟨ps, rfl⟩⟩
    | cons i l ih =>
      intro hl ps
      have hi := hstep i (hl i (by simp)) ps
      rw [List.forall_mem_cons, ← hi]
      constructor
      · rintro ⟨ps2, h2⟩
        rw [List.foldlM_cons, except_bind_ok] at h2
        obtain ⟨ps1, h1, h2⟩ := h2
        exact ⟨⟨ps1, h1⟩, (ih (fun j hj => hl j (by simp [hj])) ps1).1 ⟨ps2, h2⟩⟩
      · rintro ⟨⟨ps1, h1⟩, h2⟩
        obtain ⟨ps2, h2⟩ := (ih (fun j hj => hl j (by simp [hj])) ps1).2 h2
        exact ⟨ps2, by rw [List.foldlM_cons, h1]; exact h2⟩
  rw [← hfold indices (fun _ h => h) (([] : Points), s)]
  unfold simulate
  constructor
  · rintro ⟨out, h⟩
    rw [except_bind_ok] at h
    obtain ⟨ps', h, -⟩ := h
    exact ⟨ps', h⟩
  · rintro ⟨ps', h⟩
    rw [h]
    exact ⟨_, rfl⟩

/-- The solver of the example meets all contracts of the theorem. -/
example : EvaluatesInitial exStrictSolver ∧ NeverRests exStrictSolver := by
  refine ⟨exStrictSolver_evaluates, ?_⟩
  intro P sol h _ ty hty
  unfold exStrictSolver at h
  split at h
  · cases h
  · unfold safeSolver at h
    split_ifs at h
    · rw [← Except.ok.inj h] at hty
      simp only [List.mem_cons, List.not_mem_nil, or_false] at hty
      rcases hty with rfl | rfl
      · simp only; rw [exTrack0_gv]; norm_num
      · simp only; rw [exTrack1_gv]; norm_num
    · rw [← Except.ok.inj h] at hty
      simp at hty

end Verif.Detector
