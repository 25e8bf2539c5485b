import Verif.Props.Simulate
import Verif.Detector.Writer
import Verif.Proofs.Config
import Verif.Spec.Ivp

/-! # C17, C18, C19, C60: drift velocity, drift times and time buckets -/

namespace Verif.Detector

open Verif.Spec Verif.Kinematics

/-! ## C60 -/

/-- The pad files needed by a configuration can be read. -/
def PadFilesReadable (fs : FileSystem) (p : PadParams) : Prop :=
  (∃ g, load_pad_grid fs p = .ok g) ∧ (∃ c, load_pad_centers fs p = .ok c) ∧
  (∃ s, load_pad_sizes fs p = .ok s)

/-- C60: given readable pad files, building a configuration raises exactly when the windows edge
equals the micromegas edge. -/
theorem C60_raises_iff (fs : FileSystem) (d : DetectorParams) (e : ElectronicsParams)
    (p : PadParams) (hp : PadFilesReadable fs p) :
    (∃ err, mkConfig fs d e p = .error err) ↔ e.windows_edge = e.micromegas_edge := by
  obtain ⟨⟨g, hg⟩, ⟨c, hc⟩, ⟨s, hs⟩⟩ := hp
  have hz : ((e.windows_edge - e.micromegas_edge : ℤ) : ℝ) = 0 ↔
      e.windows_edge = e.micromegas_edge := by
    rw [Int.cast_eq_zero, sub_eq_zero]
  unfold mkConfig calculate_drift_velocity
  constructor
  · rintro ⟨err, h⟩
    by_contra hne
    rw [if_neg (mt hz.1 hne), hg, hc, hs] at h
    simp [bind, Except.bind, pure, Except.pure] at h
  · intro h
    rw [if_pos (hz.2 h)]
    exact ⟨_, rfl⟩

/-- C60: the drift velocity of every configuration that was built satisfies
`drift_velocity * (windows_edge - micromegas_edge) = length`. -/
theorem C60_drift_velocity (fs : FileSystem) (d : DetectorParams) (e : ElectronicsParams)
    (p : PadParams) (config : Config) (h : mkConfig fs d e p = .ok config) :
    config.drift_velocity * ((config.elec_params.windows_edge : ℝ)
        - (config.elec_params.micromegas_edge : ℝ)) = config.det_params.length ∧
    config.elec_params.windows_edge ≠ config.elec_params.micromegas_edge ∧
    config.det_params = d ∧ config.elec_params = e := by
  unfold mkConfig at h
  simp only [except_bind_ok] at h
  obtain ⟨v, hv, g, -, c, -, s, -, h⟩ := h
  have h := Except.ok.inj h
  subst h
  unfold calculate_drift_velocity at hv
  split_ifs at hv with hz
  have hv := Except.ok.inj hv
  subst hv
  have hne : e.windows_edge ≠ e.micromegas_edge := by
    intro hc; apply hz; rw [hc]; simp
  have hz' : (e.windows_edge : ℝ) - (e.micromegas_edge : ℝ) ≠ 0 := by
    rw [Int.cast_sub] at hz; exact hz
  refine ⟨?_, hne, rfl, rfl⟩
  simp only
  rw [Int.cast_sub, div_mul_cancel₀ _ hz']

/-- A file system holding only the packaged files. -/
def exFS : FileSystem :=
  { packaged_grid := (exGrid, exEdges), packaged_padxy := [[1, 2], [3, 4]], packaged_scale := [[1], [2]]
    npz := fun _ => none, csv := fun _ => none }

theorem exFS_readable : PadFilesReadable exFS {} := by
  refine ⟨⟨(exGrid, exEdges), by simp [load_pad_grid, exFS]⟩, ?_, ?_⟩
  · refine ⟨_, (loadLines_ok_iff parseXY 0 [[1, 2], [3, 4]] _ _ (Nat.zero_le _)).2
      ⟨[(1, 2), (3, 4)], rfl, by rw [List.length_replicate]; decide, rfl⟩⟩
  · refine ⟨_, (loadLines_ok_iff parseFirst 0 [[1], [2]] _ _ (Nat.zero_le _)).2
      ⟨[1, 2], rfl, by rw [List.length_replicate]; decide, rfl⟩⟩

/-- Configurations with different edges can be built. -/
theorem exConfig_built (d : DetectorParams) (e : ElectronicsParams)
    (h : e.windows_edge ≠ e.micromegas_edge) : ∃ config, mkConfig exFS d e {} = .ok config := by
  rcases hc : mkConfig exFS d e {} with err | config
  · exact absurd ((C60_raises_iff exFS d e {} exFS_readable).1 ⟨err, hc⟩) h
  · exact ⟨config, rfl⟩

/-- The hypotheses of C60 and C17 are satisfiable. -/
example : ∃ config, mkConfig exFS (exDet 100 0) exElec {} = .ok config :=
  exConfig_built _ _ (by norm_num [exElec])

theorem mkConfig_grid {d : DetectorParams} {e : ElectronicsParams} {config : Config}
    (h : mkConfig exFS d e {} = .ok config) : config.pad_grid = some (exGrid, exEdges) := by
  unfold mkConfig at h
  simp only [except_bind_ok] at h
  obtain ⟨v, hv, g, hg, c, -, s, -, h⟩ := h
  have h := Except.ok.inj h
  subst h
  unfold load_pad_grid at hg
  rw [if_pos rfl] at hg
  have hg := Except.ok.inj hg
  rw [← hg]
  rfl

/-! ## C17 -/

/-- The z in millimetres that the writer stores for a time bucket. -/
theorem written_z {window_edge mm_edge : ℤ} {length : ℝ} {response : List ℝ}
    {pad_centers : List (ℝ × ℝ)} {pad_sizes : List ℝ} {point : CloudPoint} {row : SpyralRow}
    (h : convert_point window_edge mm_edge length response pad_centers pad_sizes point = .ok row) :
    row.z = ((window_edge : ℝ) - point.tb) / ((window_edge : ℝ) - (mm_edge : ℝ)) * length * 1000 ∧
    row.tb = point.tb := by
  unfold convert_point at h
  rw [except_bind_ok] at h
  obtain ⟨pad, -, h⟩ := h
  simp only at h
  split_ifs at h with hz
  rw [except_bind_ok] at h
  obtain ⟨size, -, h⟩ := h
  have h := Except.ok.inj h
  subst h
  rw [Int.cast_sub]
  exact ⟨rfl, rfl⟩

/-- C17: for a configuration that was built with a non-zero length, the z written for a point at the
exact time bucket of a track point is exactly the z of that track point (in millimetres). -/
theorem C17_exact {fs : FileSystem} {d : DetectorParams} {e : ElectronicsParams} {p : PadParams}
    {config : Config} (hc : mkConfig fs d e p = .ok config) (hL : d.length ≠ 0) {response : List ℝ}
    {pad_centers : List (ℝ × ℝ)} {pad_sizes : List ℝ} {point : CloudPoint} {row : SpyralRow}
    (h : convert_point config.elec_params.windows_edge config.elec_params.micromegas_edge
      config.det_params.length response pad_centers pad_sizes point = .ok row) (z : ℝ)
    (ht : point.tb = to_time_bucket config z) : row.z = z * 1000 := by
  obtain ⟨hv, hne, hd, he⟩ := C60_drift_velocity fs d e p config hc
  have hz : (config.elec_params.windows_edge : ℝ) - (config.elec_params.micromegas_edge : ℝ) ≠ 0 := by
    rw [sub_ne_zero]; exact_mod_cast hne
  have hv0 : config.drift_velocity ≠ 0 := by
    intro h0; rw [h0, zero_mul, hd] at hv; exact hL hv.symm
  rw [(written_z h).1, ht]
  unfold to_time_bucket
  rw [← hv]
  field_simp
  ring

/-- C17: after truncation to an integer time bucket and a wiggle in `[0, 1)`, the written z differs
from the z of a track point with non-negative time by less than the length of one time bucket. -/
theorem C17_one_bucket {fs : FileSystem} {d : DetectorParams} {e : ElectronicsParams} {p : PadParams}
    {config : Config} (hc : mkConfig fs d e p = .ok config) (hL : d.length ≠ 0) {response : List ℝ}
    {pad_centers : List (ℝ × ℝ)} {pad_sizes : List ℝ} {point : CloudPoint} {row : SpyralRow}
    (h : convert_point config.elec_params.windows_edge config.elec_params.micromegas_edge
      config.det_params.length response pad_centers pad_sizes point = .ok row) (z : ℝ)
    (h0 : 0 ≤ to_time_bucket config z) (ht : ⌊point.tb⌋ = pyInt (to_time_bucket config z)) :
    |row.z - z * 1000| < |config.drift_velocity| * 1000 := by
  obtain ⟨hv, hne, hd, he⟩ := C60_drift_velocity fs d e p config hc
  have hz : (config.elec_params.windows_edge : ℝ) - (config.elec_params.micromegas_edge : ℝ) ≠ 0 := by
    rw [sub_ne_zero]; exact_mod_cast hne
  have hv0 : config.drift_velocity ≠ 0 := by
    intro h0; rw [h0, zero_mul, hd] at hv; exact hL hv.symm
  have hkey : row.z - z * 1000 = (to_time_bucket config z - point.tb) * config.drift_velocity * 1000 := by
    rw [(written_z h).1]
    unfold to_time_bucket
    rw [← hv]
    field_simp
    ring
  have hfl : ⌊point.tb⌋ = ⌊to_time_bucket config z⌋ := by
    rw [ht]; unfold pyInt; rw [if_pos h0]
  have hlt := Int.abs_sub_lt_one_of_floor_eq_floor hfl
  rw [hkey, abs_mul, abs_mul, abs_sub_comm]
  have : |(1000 : ℝ)| = 1000 := by norm_num
  rw [this]
  have hpos := abs_pos.2 hv0
  nlinarith

/-- C17, end to end: every row of a simulated cloud, converted for writing, has a z that differs by
less than one time bucket from the z of a track point with at least one primary electron (two for
the track points with times between -1 and 0, which are recorded in time bucket 0). -/
theorem C17_end_to_end {σ : Type} {env : SimEnv} {momenta : List Vec4} {vertex : ℝ × ℝ × ℝ}
    {Zs As : List ℤ} {fs : FileSystem} {d : DetectorParams} {e : ElectronicsParams} {p : PadParams}
    {config : Config} (hc : mkConfig fs d e p = .ok config) (hL : d.length ≠ 0)
    {grid : PadGrid} {g : GridEdges} (hb : 0 < g.bin)
    (hgrid : config.pad_grid = some (grid, g)) {rng : Gen σ} (hr : LawfulGen rng)
    {indices : List ℤ} {s s' : σ} {cloud : List CloudPoint} {labels : List ℤ}
    (h : simulate env momenta vertex Zs As config rng indices s = .ok ((cloud, labels), s'))
    {response : List ℝ} {pad_centers : List (ℝ × ℝ)} {pad_sizes : List ℝ} {point : CloudPoint}
    (hpt : point ∈ cloud) {row : SpyralRow}
    (hrow : convert_point config.elec_params.windows_edge config.elec_params.micromegas_edge
      config.det_params.length response pad_centers pad_sizes point = .ok row) :
    ∃ momentum nucleus track primary s₀ s₁, ∃ re ∈ track.zip primary,
      generate_trajectory env.solve_ivp vertex momentum nucleus config.det_params = .ok track ∧
      generate_electrons track nucleus config.det_params rng s₀ = .ok (primary, s₁) ∧ 1 ≤ re.2 ∧
      (0 ≤ to_time_bucket config re.1.z → |row.z - re.1.z * 1000| < |config.drift_velocity| * 1000) ∧
      |row.z - re.1.z * 1000| < 2 * |config.drift_velocity| * 1000 := by
  obtain ⟨momentum, nucleus, track, primary, s₀, s₁, re, hre, ht, he, h1, hlo, hhi, hfl⟩ :=
    C08_source_time hb hgrid hr h point hpt
  have hone : 0 ≤ to_time_bucket config re.1.z →
      |row.z - re.1.z * 1000| < |config.drift_velocity| * 1000 :=
    fun h0 => C17_one_bucket hc hL hrow re.1.z h0 hfl
  refine ⟨momentum, nucleus, track, primary, s₀, s₁, re, hre, ht, he, h1, hone, ?_⟩
  obtain ⟨hv, hne, hd, hee⟩ := C60_drift_velocity fs d e p config hc
  have hv0 : config.drift_velocity ≠ 0 := by
    intro h0; rw [h0, zero_mul, hd] at hv; exact hL hv.symm
  have hpos := abs_pos.2 hv0
  by_cases h0 : 0 ≤ to_time_bucket config re.1.z
  · have := hone h0
    nlinarith
  · have hz : (config.elec_params.windows_edge : ℝ) - (config.elec_params.micromegas_edge : ℝ) ≠ 0 := by
      rw [sub_ne_zero]; exact_mod_cast hne
    have hkey : row.z - re.1.z * 1000
        = (to_time_bucket config re.1.z - point.tb) * config.drift_velocity * 1000 := by
      rw [(written_z hrow).1]
      unfold to_time_bucket
      rw [← hv]
      field_simp
      ring
    push Not at h0
    have hlo' : -1 < to_time_bucket config re.1.z := hlo
    have hp0 : pyInt (arrival config re.1.z) = 0 := by
      have h0' : arrival config re.1.z < 0 := h0
      unfold pyInt
      rw [if_neg (by linarith), Int.ceil_eq_iff]
      push_cast
      constructor <;> linarith
    rw [hp0] at hfl
    obtain ⟨hf1, hf2⟩ := Int.floor_eq_iff.1 hfl
    push_cast at hf1 hf2
    have habs : |to_time_bucket config re.1.z - point.tb| < 2 := by
      rw [abs_lt]; constructor <;> linarith
    rw [hkey, abs_mul, abs_mul]
    have : |(1000 : ℝ)| = 1000 := by norm_num
    rw [this]
    nlinarith

/-! ## C18 -/

/-- C18: a point inside the active volume gets a time between the micromegas and windows edges. -/
theorem C18_time_in_window {fs : FileSystem} {d : DetectorParams} {e : ElectronicsParams}
    {p : PadParams} {config : Config} (hc : mkConfig fs d e p = .ok config) (hL : 0 < d.length)
    (hedges : e.micromegas_edge < e.windows_edge) (z : ℝ) (h0 : 0 ≤ z) (h1 : z ≤ d.length) :
    (e.micromegas_edge : ℝ) ≤ to_time_bucket config z ∧
    to_time_bucket config z ≤ (e.windows_edge : ℝ) := by
  obtain ⟨hv, hne, hd, he⟩ := C60_drift_velocity fs d e p config hc
  have hW : (0 : ℝ) < (e.windows_edge : ℝ) - (e.micromegas_edge : ℝ) := by
    have : (e.micromegas_edge : ℝ) < e.windows_edge := by exact_mod_cast hedges
    linarith
  rw [he, hd] at hv
  have hv0 : 0 < config.drift_velocity := by
    by_contra hcon
    push Not at hcon
    nlinarith
  unfold to_time_bucket
  rw [hd, he]
  have hq1 : 0 ≤ (d.length - z) / config.drift_velocity := div_nonneg (by linarith) hv0.le
  have hq2 : (d.length - z) / config.drift_velocity ≤ (e.windows_edge : ℝ) - e.micromegas_edge := by
    rw [div_le_iff₀ hv0]
    linarith
  constructor <;> linarith

/-- Every point of a trajectory that starts in the volume bounded by the terminal events stays in it,
if the solver respects terminal events. -/
theorem trajectory_bounds {ivp : IvpSolver} (hivp : RespectsEvents ivp)
    {vertex momentum : ℝ × ℝ × ℝ} (hv : InVolume vertex) {nucleus : Nucleus} {d : DetectorParams}
    {track : List Row} (ht : generate_trajectory ivp vertex momentum nucleus d = .ok track) :
    ∀ r ∈ track, 0 ≤ r.z ∧ r.z ≤ 1 ∧ r.x ^ 2 + r.y ^ 2 ≤ 0.292 ^ 2 := by
  unfold generate_trajectory at ht
  intro r hr
  rcases hs : ivp (trajectory_problem vertex momentum nucleus d) with err | sol
  · rw [hs] at ht; cases ht
  · rw [hs] at ht
    have ht := Except.ok.inj ht
    rw [← ht] at hr
    obtain ⟨ty, hty, rfl⟩ := List.mem_map.1 hr
    have hR := hivp _ _ hs
    have h1 := (hR ⟨fun _ s => .ok (backward_z_bound_condition s), true, -1⟩
      (by simp [trajectory_problem]) rfl _ rfl ty hty).2 (by norm_num) hv.back
    have h2 := (hR ⟨fun _ s => .ok (forward_z_bound_condition s), true, 1⟩
      (by simp [trajectory_problem]) rfl _ rfl ty hty).1 (by norm_num)
      (by have := hv.front; simp only [forward_z_bound_condition, trajectory_problem]; linarith)
    have h3 := (hR ⟨fun _ s => .ok (rho_bound_condition s), true, 1⟩
      (by simp [trajectory_problem]) rfl _ rfl ty hty).1 (by norm_num) (by
        simp only [rho_bound_condition, trajectory_problem]
        have : Real.sqrt (vertex.1 ^ 2 + vertex.2.1 ^ 2) ≤ 0.292 :=
          Real.sqrt_le_iff.2 ⟨by norm_num, hv.rho⟩
        linarith)
    obtain ⟨v1, e1, h1⟩ := h1
    obtain ⟨v2, e2, h2⟩ := h2
    obtain ⟨v3, e3, h3⟩ := h3
    have e1 := Except.ok.inj e1
    have e2 := Except.ok.inj e2
    have e3 := Except.ok.inj e3
    unfold backward_z_bound_condition at e1
    unfold forward_z_bound_condition at e2
    unfold rho_bound_condition at e3
    refine ⟨by linarith, by linarith, ?_⟩
    have : Real.sqrt (ty.2.x ^ 2 + ty.2.y ^ 2) ≤ 0.292 := by linarith
    exact (Real.sqrt_le_iff.1 this).2

open Classical in
/-- A solver for examples: it returns a given solution whenever that respects the terminal events of
the problem. -/
noncomputable def safeSolver (sol : List (ℝ × Row)) : IvpSolver := fun P =>
  if SolutionRespects P sol then .ok sol else .ok []

theorem safeSolver_respects (sol : List (ℝ × Row)) : RespectsEvents (safeSolver sol) := by
  intro P sol' h
  unfold safeSolver at h
  split_ifs at h with hR
  · rw [← Except.ok.inj h]; exact hR
  · rw [← Except.ok.inj h]; intro ev _ _ _ _ ty hty; simp at hty

/-- On the problem posed by `generate_trajectory`, the example solver returns the given solution if
all its points are in the volume and have the minimal kinetic energy. -/
theorem safeSolver_eq (sol : List (ℝ × Row)) (vertex momentum : ℝ × ℝ × ℝ) (nucleus : Nucleus)
    (d : DetectorParams)
    (h : ∀ ty ∈ sol, 0 ≤ ty.2.z ∧ ty.2.z ≤ 1 ∧ ty.2.x = 0 ∧ ty.2.y = 0 ∧
      ∃ v, stop_condition ty.2 nucleus = .ok v ∧ 0 ≤ v) :
    safeSolver sol (trajectory_problem vertex momentum nucleus d) = .ok sol := by
  unfold safeSolver
  rw [if_pos]
  intro ev hev _ v₀ h0 ty hty
  obtain ⟨h1, h2, h3, h4, v, h5, h6⟩ := h ty hty
  simp only [trajectory_problem, List.mem_cons, List.not_mem_nil, or_false] at hev
  rcases hev with rfl | rfl | rfl | rfl
  · exact ⟨fun hd => by norm_num at hd, fun _ _ => ⟨v, h5, h6⟩⟩
  · exact ⟨fun _ _ => ⟨_, rfl, by unfold forward_z_bound_condition; linarith⟩,
      fun hd => by norm_num at hd⟩
  · exact ⟨fun hd => by norm_num at hd, fun _ _ => ⟨_, rfl, h1⟩⟩
  · refine ⟨fun _ _ => ⟨_, rfl, ?_⟩, fun hd => by norm_num at hd⟩
    unfold rho_bound_condition
    rw [h3, h4]
    norm_num

theorem exStop0 (z : ℝ) : ∃ v, stop_condition { exTrack0 with z := z } exNucleus = .ok v ∧ 0 ≤ v := by
  have hg : Row.gv { exTrack0 with z := z } = 3 / 4 := exTrack0_gv
  have hb : betaOf (3 / 4) = 3 / 5 := sqrt_of_sq (by norm_num) (by norm_num)
  unfold stop_condition
  simp only [hg, hb]
  rw [if_neg (by norm_num)]
  exact ⟨_, rfl, by norm_num [exNucleus, KE_LIMIT]⟩

theorem exStop1 (z : ℝ) : ∃ v, stop_condition { exTrack1 with z := z } exNucleus = .ok v ∧ 0 ≤ v := by
  have hg : Row.gv { exTrack1 with z := z } = 5 / 12 := exTrack1_gv
  have hb : betaOf (5 / 12) = 5 / 13 := sqrt_of_sq (by norm_num) (by norm_num)
  unfold stop_condition
  simp only [hg, hb]
  rw [if_neg (by norm_num)]
  exact ⟨_, rfl, by norm_num [exNucleus, KE_LIMIT]⟩

/-- C18 is false for detectors shorter than one metre: the forward bound is 1 m whatever the length,
so that the trajectory below, which respects all terminal events and starts inside the active
volume, has a point with a negative time, and transporting it computes grid indices from NaN. -/
theorem C18_refuted : ∃ (d : DetectorParams) (e : ElectronicsParams) (config : Config)
    (ivp : IvpSolver), mkConfig exFS d e {} = .ok config ∧ d.length = 0.5 ∧
    e.micromegas_edge = 10 ∧ e.windows_edge = 100 ∧ RespectsEvents ivp ∧
    (∃ track, generate_trajectory ivp (0, 0, 0.25) (0, 0, 4.5) exNucleus d = .ok track ∧
      ∃ r ∈ track, to_time_bucket config r.z < 0) ∧
    generate_point_cloud ivp (0, 0, 4.5) (0, 0, 0.25) exNucleus config exGen [] 2 ()
      = .error .undefinedRead := by
  have hsolve : ∀ (d : DetectorParams), generate_trajectory
      (safeSolver [(0, { exTrack0 with z := 0.25 }), (1e-10, { exTrack1 with z := 1 })]) (0, 0, 0.25)
      (0, 0, 4.5) exNucleus d = .ok [{ exTrack0 with z := 0.25 }, { exTrack1 with z := 1 }] := by
    intro d
    unfold generate_trajectory
    rw [safeSolver_eq]
    · rfl
    · intro ty hty
      simp only [List.mem_cons, List.not_mem_nil, or_false] at hty
      rcases hty with rfl | rfl
      · exact ⟨by norm_num, by norm_num, rfl, rfl, exStop0 0.25⟩
      · exact ⟨by norm_num, by norm_num, rfl, rfl, exStop1 1⟩
  obtain ⟨config, hc⟩ := exConfig_built { exDet 100 0.0001 with length := 0.5 }
    { exElec with micromegas_edge := 10 } (by norm_num [exElec])
  obtain ⟨hv, -, hd, he⟩ := C60_drift_velocity _ _ _ _ _ hc
  have hv' : config.drift_velocity = 0.5 / 90 := by
    rw [hd, he] at hv
    norm_num [exElec] at hv
    norm_num
    linarith
  have ht : to_time_bucket config 1 = -80 := by
    unfold to_time_bucket
    rw [hv', hd, he]
    norm_num
  refine ⟨_, _, config,
    safeSolver [(0, { exTrack0 with z := 0.25 }), (1e-10, { exTrack1 with z := 1 })], hc,
    rfl, rfl, rfl, safeSolver_respects _, ⟨_, hsolve _, { exTrack1 with z := 1 }, by simp, ?_⟩, ?_⟩
  · rw [ht]; norm_num
  · have hel := exElectrons' config.det_params (by rw [hd]; rfl) (by rw [hd]; rfl) 0.25 1
    unfold generate_point_cloud
    rw [hsolve]
    simp only [bind, Except.bind, hel, mkConfig_grid hc]
    have hz : transport_track exGrid exEdges config.det_params.diffusion config.det_params.efield
        config.drift_velocity
        ((maskSel (([0, 1] : List ℤ).map fun e => decide (1 ≤ e))
          [{ exTrack0 with z := 0.25 }, { exTrack1 with z := 1 }]).map
            fun r => { r with z := to_time_bucket config r.z })
        ((maskSel (([0, 1] : List ℤ).map fun e => decide (1 ≤ e)) ([0, 1] : List ℤ)).map
          (· * config.det_params.mpgd_gain)) [] 2 = .error .undefinedRead := by
      unfold transport_track
      rw [masked_zip]
      have hf : (([{ exTrack0 with z := 0.25 }, { exTrack1 with z := 1 }].zip [(0 : ℤ), 1]).filter
          fun re => decide (1 ≤ re.2)) = [({ exTrack1 with z := 1 }, 1)] := by
        simp [List.filter_cons]
      rw [hf]
      simp only [List.map_cons, List.map_nil, List.foldlM_cons, ht]
      have hs : npSqrt (2 * config.det_params.diffusion * config.drift_velocity * -80 /
          config.det_params.efield) = none := by
        unfold npSqrt
        rw [if_pos]
        rw [hv', hd]
        norm_num [exDet]
      have hE : config.det_params.efield ≠ 0 := by rw [hd]; norm_num [exDet]
      unfold transport_step
      simp only [hs]
      rw [if_neg hE]
      rfl
    rw [hz]

/-- Part of C18 that holds: for a detector at least one metre long and a vertex within the bounds,
every point of a trajectory that respects the terminal events gets a time between the edges. Missing for the full property: shorter
detectors, for which it is false (`C18_refuted`). -/
theorem C18_trajectory_partial {fs : FileSystem} {d : DetectorParams} {e : ElectronicsParams}
    {p : PadParams} {config : Config} (hc : mkConfig fs d e p = .ok config) (hL : 1 ≤ d.length)
    (hedges : e.micromegas_edge < e.windows_edge) {ivp : IvpSolver} (hivp : RespectsEvents ivp)
    {vertex momentum : ℝ × ℝ × ℝ} (hv : InVolume vertex) {nucleus : Nucleus} {track : List Row}
    (ht : generate_trajectory ivp vertex momentum nucleus config.det_params = .ok track) :
    ∀ r ∈ track, (e.micromegas_edge : ℝ) ≤ to_time_bucket config r.z ∧
      to_time_bucket config r.z ≤ (e.windows_edge : ℝ) := by
  intro r hr
  obtain ⟨h1, h2, -⟩ := trajectory_bounds hivp hv ht r hr
  exact C18_time_in_window hc (by linarith) hedges r.z h1 (by linarith)

/-- Part of C18 that holds: for a detector at least one metre long, with non-negative diffusion,
positive field and non-negative micromegas edge, transport never sees a negative time and never
fails on a trajectory that respects the terminal events. Missing for the full property: shorter
detectors (`C18_refuted`). -/
theorem C18_transport_partial {σ : Type} {fs : FileSystem} {d : DetectorParams}
    {e : ElectronicsParams} {p : PadParams} {config : Config} (hc : mkConfig fs d e p = .ok config)
    (hL : 1 ≤ d.length) (hm : 0 ≤ e.micromegas_edge) (hedges : e.micromegas_edge < e.windows_edge)
    (hD : 0 ≤ d.diffusion) (hE : 0 < d.efield) {ivp : IvpSolver} (hivp : RespectsEvents ivp)
    {grid : PadGrid} {g : GridEdges} (hb : 0 < g.bin) (hgrid : config.pad_grid = some (grid, g))
    {vertex momentum : ℝ × ℝ × ℝ} (hvol : InVolume vertex) {nucleus : Nucleus} {track : List Row}
    {rng : Gen σ} {s s' : σ} {primary : List ℤ} (points : Points) (label : ℤ)
    (ht : generate_trajectory ivp vertex momentum nucleus config.det_params = .ok track)
    (he : generate_electrons track nucleus config.det_params rng s = .ok (primary, s')) :
    ∃ p', generate_point_cloud ivp momentum vertex nucleus config rng points label s
      = .ok (p', s') := by
  refine ⟨_, generate_point_cloud_of hb hgrid points label ht he ?_⟩
  obtain ⟨hv, -, hd, hee⟩ := C60_drift_velocity _ _ _ _ _ hc
  intro re hre
  have hmem : re.1 ∈ track := (List.of_mem_zip (List.mem_filter.1 hre).1).1
  obtain ⟨h1, -⟩ := C18_trajectory_partial hc hL hedges hivp hvol ht re.1 hmem
  have h0 : 0 ≤ arrival config re.1.z := by
    have : (0 : ℝ) ≤ e.micromegas_edge := by exact_mod_cast hm
    exact this.trans h1
  have hv0 : 0 ≤ config.drift_velocity := by
    rw [hd, hee] at hv
    have : (e.micromegas_edge : ℝ) < e.windows_edge := by exact_mod_cast hedges
    by_contra hcon
    push Not at hcon
    nlinarith
  rw [hd]
  exact ⟨hE.ne', by positivity⟩

/-- The hypotheses of the partial results are met by a solver that respects the terminal events and
returns a track of two points. -/
example : RespectsEvents (safeSolver [(0, exTrack0), (1e-10, exTrack1)]) ∧
    InVolume (0, 0, 0.5) ∧
    generate_trajectory (safeSolver [(0, exTrack0), (1e-10, exTrack1)]) (0, 0, 0.5) (0, 0, 4.5)
      exNucleus (exDet 100 0) = .ok [exTrack0, exTrack1] := by
  refine ⟨safeSolver_respects _, ⟨by norm_num, by norm_num, by norm_num⟩, ?_⟩
  unfold generate_trajectory
  rw [safeSolver_eq]
  · rfl
  · intro ty hty
    simp only [List.mem_cons, List.not_mem_nil, or_false] at hty
    rcases hty with rfl | rfl
    · exact ⟨by norm_num [exTrack0], by norm_num [exTrack0], rfl, rfl, exStop0 0.5⟩
    · exact ⟨by norm_num [exTrack1], by norm_num [exTrack1], rfl, rfl, exStop1 0.5⟩

/-! ## C19 -/

/-- Part of C19: in exact arithmetic the wiggle keeps the integer time bucket: every row's integer
time bucket and pad are those of a deposit, and every row's time is that integer plus a number in
`[0, 1)`. Missing for the full property: binary64 rounding, for which the sum can reach the next
integer (see `Verif/Machine`). -/
theorem C19_exact_partial {σ : Type} {env : SimEnv} {momenta : List Vec4} {vertex : ℝ × ℝ × ℝ}
    {Zs As : List ℤ} {config : Config} {grid : PadGrid} {g : GridEdges} (hb : 0 < g.bin)
    (hgrid : config.pad_grid = some (grid, g)) {rng : Gen σ} (hr : LawfulGen rng)
    {indices : List ℤ} {s s' : σ} {cloud : List CloudPoint} {labels : List ℤ}
    (h : simulate env momenta vertex Zs As config rng indices s = .ok ((cloud, labels), s')) :
    ∃ tr s₁, EventTrace env momenta vertex Zs As config grid g rng indices s tr s₁ ∧
      ∀ row ∈ cloud, ∃ d ∈ history tr, row.pad = (d.pad : ℝ) ∧ ⌊row.tb⌋ = d.tb ∧
        row.e = (chargeAt (history tr) d.tb d.pad : ℝ) := by
  obtain ⟨tr, s₁, htr, hlen, cells, hnd, hmem, hdesc⟩ := simulate_cells hb hgrid hr h
  refine ⟨tr, s₁, htr, ?_⟩
  intro row hrow
  obtain ⟨l, hl⟩ := row_label hlen hrow
  obtain ⟨cell, hcell, hd⟩ := row_cell hdesc hl
  obtain ⟨⟨d, hdm, hdt, hdp⟩, -⟩ := (hmem cell.1 cell.2).1 hcell
  exact ⟨d, hdm, by rw [hdp]; exact hd.1, by rw [hdt]; exact describes_floor hd,
    by rw [hdt, hdp]; exact hd.2.2.2.1⟩

/-! ## C58 -/

/-- A file system with a pad size file and a geometry file besides the packaged ones. -/
def exFS58 : FileSystem :=
  { exFS with
    csv := fun s => if s = "sizes.csv" then some [[7]]
      else if s = "geometry.csv" then some [[1, 2]] else none }

theorem exFS58_sizes : exFS58.csv "sizes.csv" = some [[7]] := by simp [exFS58]

theorem exFS58_geometry : exFS58.csv "geometry.csv" = some [[1, 2]] := by simp [exFS58]

/-- C58 is false: with a pad size file configured, the pad sizes are those read from the geometry
file, and the configured pad size file is not used at all. -/
theorem C58_refuted : ∃ fs d e p config, mkConfig fs d e p = .ok config ∧
    p.pad_size_path = "sizes.csv" ∧ p.geometry_path = "geometry.csv" ∧
    fs.csv "sizes.csv" = some [[7]] ∧ fs.csv "geometry.csv" = some [[1, 2]] ∧
    config.pad_sizes[0]? = some 1 := by
  let fs : FileSystem := exFS58
  let p : PadParams := { pad_size_path := "sizes.csv", geometry_path := "geometry.csv" }
  have hg : load_pad_grid fs p = .ok (exGrid, exEdges) := rfl
  have h1 : fs.csv "geometry.csv" = some [[1, 2]] := exFS58_geometry
  have hopen : openCsv fs "geometry.csv" = .ok [[1, 2]] := by
    unfold openCsv; rw [h1]
  obtain ⟨c, hc⟩ : ∃ c, load_pad_centers fs p = .ok c := by
    unfold load_pad_centers
    simp only [p]
    rw [if_neg (by decide)]
    simp only [except_bind_ok]
    exact ⟨_, _, hopen, (loadLines_ok_iff parseXY 0 [[1, 2]] _ _ (Nat.zero_le _)).2
      ⟨[(1, 2)], rfl, by rw [List.length_replicate]; decide, rfl⟩⟩
  have hs : ∃ s, load_pad_sizes fs p = .ok s ∧ s[0]? = some 1 := by
    unfold load_pad_sizes
    simp only [p]
    rw [if_neg (by decide)]
    simp only [except_bind_ok]
    exact ⟨_, ⟨_, hopen, (loadLines_ok_iff parseFirst 0 [[1, 2]] _ _ (Nat.zero_le _)).2
      ⟨[1], rfl, by rw [List.length_replicate]; decide, rfl⟩⟩, by simp⟩
  obtain ⟨s, hs, hs0⟩ := hs
  have hv : calculate_drift_velocity (exDet 100 0) exElec = .ok (1 / 100) := by
    unfold calculate_drift_velocity
    rw [if_neg (by norm_num [exElec])]
    norm_num [exElec, exDet]
  have hcfg : ∃ config, mkConfig fs (exDet 100 0) exElec p = .ok config ∧ config.pad_sizes = s := by
    unfold mkConfig
    rw [hv, hg, hc, hs]
    exact ⟨_, rfl, rfl⟩
  obtain ⟨config, hcfg, hps⟩ := hcfg
  exact ⟨fs, _, _, p, config, hcfg, rfl, rfl, exFS58_sizes, h1, by rw [hps]; exact hs0⟩

/-- Part of C58 that holds: with the default pad size path the pad sizes are those of the packaged
file, line by line, independently of the geometry path. Missing for the full property: a configured
pad size file, which the code ignores (`C58_refuted`). -/
theorem C58_default_partial (fs : FileSystem) (d : DetectorParams) (e : ElectronicsParams)
    (p : PadParams) (config : Config) (h : mkConfig fs d e p = .ok config)
    (hp : p.pad_size_path = DEFAULT) :
    ∃ vals, fs.packaged_scale.mapM parseFirst = .ok vals ∧
      config.pad_sizes = vals ++ List.replicate (10240 - vals.length) 0 := by
  unfold mkConfig at h
  simp only [except_bind_ok] at h
  obtain ⟨v, hv, g, hg, c, -, s, hs, h⟩ := h
  have h := Except.ok.inj h
  subst h
  unfold load_pad_sizes at hs
  simp only at hs
  rw [if_pos hp, loadLines_ok_iff _ _ _ _ _ (Nat.zero_le _)] at hs
  obtain ⟨vals, h1, h2, h3⟩ := hs
  refine ⟨vals, h1, ?_⟩
  simp only
  rw [h3, zero_add, List.take_zero, List.nil_append, List.drop_replicate]
  rfl

/-- Part of C58: what the code does for a configured pad size file: it reads the geometry file. -/
theorem C58_configured_partial (fs : FileSystem) (d : DetectorParams) (e : ElectronicsParams)
    (p : PadParams) (config : Config) (h : mkConfig fs d e p = .ok config)
    (hp : p.pad_size_path ≠ DEFAULT) :
    ∃ lines vals, fs.csv p.geometry_path = some lines ∧ lines.mapM parseFirst = .ok vals ∧
      config.pad_sizes = vals ++ List.replicate (10240 - vals.length) 0 := by
  unfold mkConfig at h
  simp only [except_bind_ok] at h
  obtain ⟨v, hv, g, hg, c, -, s, hs, h⟩ := h
  have h := Except.ok.inj h
  subst h
  unfold load_pad_sizes at hs
  simp only at hs
  rw [if_neg hp, except_bind_ok] at hs
  obtain ⟨lines, hl, hs⟩ := hs
  unfold openCsv at hl
  rcases hcsv : fs.csv p.geometry_path with _ | lines'
  · rw [hcsv] at hl; cases hl
  · rw [hcsv] at hl
    have hl := Except.ok.inj hl
    subst hl
    rw [loadLines_ok_iff _ _ _ _ _ (Nat.zero_le _)] at hs
    obtain ⟨vals, h1, h2, h3⟩ := hs
    refine ⟨lines', vals, rfl, h1, ?_⟩
    simp only
    rw [h3, zero_add, List.take_zero, List.nil_append, List.drop_replicate]
    rfl

end Verif.Detector
