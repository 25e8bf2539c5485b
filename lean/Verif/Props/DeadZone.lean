import Verif.Props.Charge
import Verif.Props.Drift

/-! # C115: which part of the active volume is recorded -/

namespace Verif.Detector

open Verif.Spec Verif.Kinematics

/-- Electrons released at height `z` arrive in a recorded time bucket: one of the 512 of the
electronics. -/
def RecordedHeight (config : Config) (z : ℝ) : Prop :=
  0 ≤ pyInt (to_time_bucket config z) ∧ pyInt (to_time_bucket config z) < 512

/-- The height above the far end of the chamber up to which electrons arrive after the last time
bucket. -/
noncomputable def deadLength (d : DetectorParams) (e : ElectronicsParams) : ℝ :=
  d.length * ((e.windows_edge : ℝ) - 512) / ((e.windows_edge : ℝ) - (e.micromegas_edge : ℝ))

/-- The time bucket as a function of the height, with the two edges. -/
theorem time_bucket_eq {fs : FileSystem} {d : DetectorParams} {e : ElectronicsParams} {p : PadParams}
    {config : Config} (hc : mkConfig fs d e p = .ok config) (hL : 0 < d.length) (z : ℝ) :
    to_time_bucket config z = (e.windows_edge : ℝ)
      - z * ((e.windows_edge : ℝ) - (e.micromegas_edge : ℝ)) / d.length := by
  obtain ⟨hv, hne, hd, he⟩ := C60_drift_velocity fs d e p config hc
  rw [he, hd] at hv
  have hW : (e.windows_edge : ℝ) - (e.micromegas_edge : ℝ) ≠ 0 := by
    rw [he] at hne
    exact sub_ne_zero.2 (by exact_mod_cast hne)
  have hv0 : config.drift_velocity ≠ 0 := by
    intro h0
    rw [h0, zero_mul] at hv
    exact hL.ne hv
  unfold to_time_bucket
  rw [hd, he]
  generalize (e.windows_edge : ℝ) = we at *
  generalize (e.micromegas_edge : ℝ) = mm at *
  rw [← hv]
  field_simp
  ring

/-- **C115.** In a chamber with a non-negative micromegas edge, the recorded heights are exactly those
above the dead zone. -/
theorem C115_boundary_partial {fs : FileSystem} {d : DetectorParams} {e : ElectronicsParams}
    {p : PadParams} {config : Config} (hc : mkConfig fs d e p = .ok config) (hL : 0 < d.length)
    (hm : 0 ≤ e.micromegas_edge) (hedges : e.micromegas_edge < e.windows_edge) {z : ℝ}
    (hz : z ≤ d.length) : RecordedHeight config z ↔ deadLength d e < z := by
  have hW : (0 : ℝ) < (e.windows_edge : ℝ) - (e.micromegas_edge : ℝ) := by
    have : (e.micromegas_edge : ℝ) < e.windows_edge := by exact_mod_cast hedges
    linarith
  have hm' : (0 : ℝ) ≤ e.micromegas_edge := by exact_mod_cast hm
  unfold RecordedHeight deadLength
  rw [pyInt_window, time_bucket_eq hc hL, div_lt_iff₀ hW]
  generalize (e.windows_edge : ℝ) = we at *
  generalize (e.micromegas_edge : ℝ) = mm at *
  have h1 : z * (we - mm) / d.length ≤ we - mm := by
    rw [div_le_iff₀ hL]
    nlinarith
  constructor
  · rintro ⟨-, h⟩
    have : we - 512 < z * (we - mm) / d.length := by linarith
    rw [lt_div_iff₀ hL] at this
    linarith
  · intro h
    refine ⟨by linarith, ?_⟩
    have : we - 512 < z * (we - mm) / d.length := by
      rw [lt_div_iff₀ hL]
      linarith
    linarith

/-- **C115.** Exactly which settings record the whole active volume: the micromegas edge must not be
negative and the window edge must be one of the recorded time buckets. -/
theorem C115_exact_partial {fs : FileSystem} {d : DetectorParams} {e : ElectronicsParams}
    {p : PadParams} {config : Config} (hc : mkConfig fs d e p = .ok config) (hL : 0 < d.length)
    (hedges : e.micromegas_edge < e.windows_edge) :
    (∀ z, 0 ≤ z → z ≤ d.length → RecordedHeight config z)
      ↔ 0 ≤ e.micromegas_edge ∧ e.windows_edge ≤ 511 := by
  constructor
  · intro h
    have h0 := h 0 le_rfl hL.le
    have h1 := h d.length hL.le le_rfl
    unfold RecordedHeight at h0 h1
    rw [pyInt_window, time_bucket_eq hc hL] at h0 h1
    have e0 : (e.windows_edge : ℝ) - 0 * ((e.windows_edge : ℝ) - (e.micromegas_edge : ℝ)) / d.length
        = e.windows_edge := by simp
    have e1 : (e.windows_edge : ℝ)
        - d.length * ((e.windows_edge : ℝ) - (e.micromegas_edge : ℝ)) / d.length
        = e.micromegas_edge := by
      field_simp
      ring
    rw [e0] at h0
    rw [e1] at h1
    have a0 : e.windows_edge < 512 := by exact_mod_cast h0.2
    have a1 : -1 < e.micromegas_edge := by exact_mod_cast h1.1
    exact ⟨by omega, by omega⟩
  · rintro ⟨hm, hw⟩ z hz0 hz
    rw [C115_boundary_partial hc hL hm hedges hz]
    have hW : (0 : ℝ) < (e.windows_edge : ℝ) - (e.micromegas_edge : ℝ) := by
      have : (e.micromegas_edge : ℝ) < e.windows_edge := by exact_mod_cast hedges
      linarith
    have hw' : (e.windows_edge : ℝ) ≤ 511 := by exact_mod_cast hw
    have : deadLength d e < 0 := by
      unfold deadLength
      apply div_neg_of_neg_of_pos _ hW
      apply mul_neg_of_pos_of_neg hL
      linarith
    linarith

/-- **C115.** An event none of whose track points is at a recorded height leaves an empty cloud, with or
without diffusion. -/
theorem C115_nothing_partial {σ : Type} {env : SimEnv} {momenta : List Vec4} {vertex : ℝ × ℝ × ℝ}
    {Zs As : List ℤ} {config : Config} {grid : PadGrid} {g : GridEdges} (hb : 0 < g.bin)
    (hgrid : config.pad_grid = some (grid, g)) {rng : Gen σ} (hr : LawfulGen rng)
    {indices : List ℤ} {s s' : σ} {cloud : List CloudPoint} {labels : List ℤ}
    (h : simulate env momenta vertex Zs As config rng indices s = .ok ((cloud, labels), s'))
    (hdead : ∀ idx ∈ indices, ∀ z a nucleus momentum track, pyGet Zs idx = .ok z → z ≠ 0 →
      pyGet As idx = .ok a → env.get_data z a = .ok nucleus → pyGet momenta idx = .ok momentum →
      generate_trajectory env.solve_ivp vertex (momentum.px, momentum.py, momentum.pz) nucleus
        config.det_params = .ok track → ∀ r ∈ track, ¬ RecordedHeight config r.z) :
    cloud = [] ∧ labels = [] := by
  obtain ⟨tr, s₁, htr, hlen, cells, hnd, hmem, hdesc⟩ := simulate_cells hb hgrid hr h
  have hcells : cells = [] := by
    apply List.eq_nil_iff_forall_not_mem.2
    rintro ⟨tb, pad⟩ hcell
    obtain ⟨⟨dep, hdep, htb, -⟩, h0, h1, -⟩ := (hmem tb pad).1 hcell
    unfold history at hdep
    obtain ⟨x, hx, hdep⟩ := List.mem_flatMap.1 hdep
    obtain ⟨z, a, nucleus, momentum, track, primary, s₀, s₂, hz, hz0, ha, hn, hm, ht, -, hx2⟩ :=
      htr.entry x hx (List.ne_nil_of_mem hdep)
    rw [hx2] at hdep
    obtain ⟨-, -, re, hre, -, htb'⟩ := mem_nucleusDeposits hdep
    have hidx : x.1 ∈ indices := by
      rw [← htr.labels]
      exact List.mem_map_of_mem hx
    refine hdead x.1 hidx z a nucleus momentum track hz hz0 ha hn hm ht re.1
      (List.of_mem_zip hre).1 ?_
    have he : pyInt (to_time_bucket config re.1.z) = tb := by
      rw [← htb, htb']
      rfl
    unfold RecordedHeight
    rw [he]
    exact ⟨h0, h1⟩
  rw [hcells] at hdesc
  have hzip : cloud.zip labels = [] := List.forall₂_nil_left_iff.1 hdesc
  have hl := congrArg List.length hzip
  rw [List.length_zip, ← hlen, min_self, List.length_nil] at hl
  exact ⟨List.length_eq_zero_iff.1 hl, List.length_eq_zero_iff.1 (hlen ▸ hl)⟩

/-- **C115.** In a chamber built from its settings, an event whose tracks stay in the dead zone leaves an
empty cloud. -/
theorem C115_dead_zone_partial {σ : Type} {fs : FileSystem} {d : DetectorParams} {e : ElectronicsParams}
    {p : PadParams} {config : Config} (hc : mkConfig fs d e p = .ok config) (hL : 0 < d.length)
    (hm : 0 ≤ e.micromegas_edge) (hedges : e.micromegas_edge < e.windows_edge)
    {env : SimEnv} {momenta : List Vec4} {vertex : ℝ × ℝ × ℝ}
    {Zs As : List ℤ} {grid : PadGrid} {g : GridEdges} (hb : 0 < g.bin)
    (hgrid : config.pad_grid = some (grid, g)) {rng : Gen σ} (hr : LawfulGen rng)
    {indices : List ℤ} {s s' : σ} {cloud : List CloudPoint} {labels : List ℤ}
    (h : simulate env momenta vertex Zs As config rng indices s = .ok ((cloud, labels), s'))
    (hdead : ∀ idx ∈ indices, ∀ z a nucleus momentum track, pyGet Zs idx = .ok z → z ≠ 0 →
      pyGet As idx = .ok a → env.get_data z a = .ok nucleus → pyGet momenta idx = .ok momentum →
      generate_trajectory env.solve_ivp vertex (momentum.px, momentum.py, momentum.pz) nucleus
        config.det_params = .ok track → ∀ r ∈ track, r.z ≤ d.length ∧ r.z ≤ deadLength d e) :
    cloud = [] ∧ labels = [] := by
  refine C115_nothing_partial hb hgrid hr h ?_
  intro idx hidx z a nucleus momentum track hz hz0 ha hn hm' ht r hr
  obtain ⟨h1, h2⟩ := hdead idx hidx z a nucleus momentum track hz hz0 ha hn hm' ht r hr
  rw [C115_boundary_partial hc hL hm hedges h1]
  exact not_lt.2 h2

open Classical in
/-- The number of electrons released above active pads, at any height. -/
noncomputable def releasedAbove (grid : PadGrid) (g : GridEdges) (track : List Row) (primary : List ℤ) : ℤ :=
  (((track.zip primary).filter fun re => decide (1 ≤ re.2 ∧
    ∃ pad, activePad grid g (re.1.x, re.1.y) = some pad ∧ 0 ≤ pad)).map (·.2)).sum

theorem event_total_congr {σ : Type} {f f' : List Row → List ℤ → ℤ} {env : SimEnv} {momenta : List Vec4}
    {vertex : ℝ × ℝ × ℝ} {Zs As : List ℤ} {config : Config} {rng : Gen σ} {indices : List ℤ} {s s' : σ}
    {n : ℤ} (hf : ∀ momentum nucleus track primary,
      generate_trajectory env.solve_ivp vertex momentum nucleus config.det_params = .ok track →
      f track primary = f' track primary)
    (h : EventTotal f env momenta vertex Zs As config rng indices s n s') :
    EventTotal f' env momenta vertex Zs As config rng indices s n s' := by
  induction h with
  | nil s => exact .nil s
  | neutral idx rest s s' n hz _ ih => exact .neutral idx rest s s' n hz ih
  | charged idx z a nucleus momentum track primary rest s s₁ s' n hz hz0 ha hn hm ht he _ ih =>
    rw [hf _ _ _ primary ht]
    exact .charged idx z a nucleus momentum track primary rest s s₁ s' n hz hz0 ha hn hm ht he ih

/-- **C115.** With a window edge of at most 511, a non-negative micromegas edge and a chamber of at least
one metre, nothing released above an active pad is lost: without diffusion the charge of the cloud is
the gain times all electrons released above active pads. -/
theorem C115_recorded_partial {σ : Type} {fs : FileSystem} {d : DetectorParams} {e : ElectronicsParams}
    {p : PadParams} {config : Config} (hc : mkConfig fs d e p = .ok config) (hL : 1 ≤ d.length)
    (hm : 0 ≤ e.micromegas_edge) (hedges : e.micromegas_edge < e.windows_edge)
    (hw : e.windows_edge ≤ 511) {env : SimEnv} (hivp : RespectsEvents env.solve_ivp)
    {momenta : List Vec4} {vertex : ℝ × ℝ × ℝ} (hvol : InVolume vertex)
    {Zs As : List ℤ} {grid : PadGrid} {g : GridEdges} (hb : 0 < g.bin)
    (hgrid : config.pad_grid = some (grid, g)) {rng : Gen σ} (hr : LawfulGen rng)
    (hD : d.diffusion = 0) {indices : List ℤ} {s s' : σ} {cloud : List CloudPoint} {labels : List ℤ}
    (h : simulate env momenta vertex Zs As config rng indices s = .ok ((cloud, labels), s')) :
    ∃ n s₁, EventTotal (releasedAbove grid g) env momenta vertex Zs As config rng indices s n s₁ ∧
      (cloud.map (·.e)).sum = ((d.mpgd_gain * n : ℤ) : ℝ) := by
  obtain ⟨-, -, hd, he⟩ := C60_drift_velocity fs d e p config hc
  have hL0 : 0 < d.length := by linarith
  obtain ⟨n, s₁, h1, h2⟩ := C76_no_diffusion hb hgrid hr (by rw [hd]; exact hD) h
  rw [hd] at h2
  refine ⟨n, s₁, event_total_congr ?_ h1, h2⟩
  intro momentum nucleus track primary ht
  unfold collected releasedAbove
  congr 2
  apply List.filter_congr
  intro re hre
  rw [decide_eq_decide]
  have hmem := (List.of_mem_zip hre).1
  obtain ⟨b1, b2, -⟩ := trajectory_bounds hivp hvol ht re.1 hmem
  have hrec := (C115_exact_partial hc hL0 hedges).2 ⟨hm, hw⟩ re.1.z b1 (by linarith)
  have hrec := pyInt_window.1 hrec
  exact ⟨fun h => ⟨h.1, h.2.1⟩, fun h => ⟨h.1, h.2, hrec⟩⟩

/-! ## The documented settings -/

/-- The documented electronics settings, with another window edge. -/
noncomputable def docElec (we : ℤ) : ElectronicsParams :=
  { clock_freq := 6.25, amp_gain := 900, shaping_time := 1000, micromegas_edge := 10
    windows_edge := we, adc_threshold := 40 }

/-- A track of two points five centimetres from the far end of the chamber. -/
noncomputable def lowSolution : List (ℝ × Row) :=
  [(0, { exTrack0 with z := 0.05 }), (1e-10, { exTrack1 with z := 0.05 })]

/-- An environment in which every nucleus takes this track. -/
noncomputable def lowEnv : SimEnv :=
  { get_data := fun _ _ => .ok exNucleus, solve_ivp := safeSolver lowSolution }

theorem low_trajectory (vertex momentum : ℝ × ℝ × ℝ) (d : DetectorParams) :
    generate_trajectory (safeSolver lowSolution) vertex momentum exNucleus d
      = .ok [{ exTrack0 with z := 0.05 }, { exTrack1 with z := 0.05 }] := by
  unfold generate_trajectory
  rw [safeSolver_eq]
  · rfl
  · intro ty hty
    simp only [lowSolution, List.mem_cons, List.not_mem_nil, or_false] at hty
    rcases hty with rfl | rfl
    · exact ⟨by norm_num, by norm_num, rfl, rfl, exStop0 0.05⟩
    · exact ⟨by norm_num, by norm_num, rfl, rfl, exStop1 0.05⟩

/-- The event is simulated without error. -/
theorem low_simulated {we : ℤ} (hwe : 10 < we) {config : Config}
    (hc : mkConfig exFS (exDet 100 0) (docElec we) {} = .ok config) :
    ∃ cloud labels, simulate lowEnv exMomenta (0, 0, 0.05) [1, 1, 1] [1, 1, 1] config exGen [2] ()
      = .ok ((cloud, labels), ()) := by
  obtain ⟨-, -, hd, -⟩ := C60_drift_velocity _ _ _ _ _ hc
  have hel := exElectrons' config.det_params (by rw [hd]; rfl) (by rw [hd]; rfl) 0.05 0.05
  have hp : ∃ points, simulate_nucleus lowEnv exMomenta (0, 0, 0.05) [1, 1, 1] [1, 1, 1] config exGen
      ([], ()) 2 = .ok (points, ()) := by
    have := generate_point_cloud_of (ivp := safeSolver lowSolution) (momentum := (0, 0, 4.5))
      (vertex := (0, 0, 0.05)) (nucleus := exNucleus) exEdges_bin (config := config) (grid := exGrid)
      (mkConfig_grid hc) [] 2 (low_trajectory _ _ _) hel (by
        intro re hre
        rw [hd]
        exact ⟨by norm_num [exDet], by simp [exDet]⟩)
    exact ⟨_, this⟩
  obtain ⟨points, hp⟩ := hp
  unfold simulate
  simp only [List.foldlM_cons, List.foldlM_nil, hp, bind, Except.bind, pure, Except.pure]
  exact ⟨_, _, rfl⟩

/-- **C115** is false. With the documented settings (a chamber of one metre, edges 10 and 560) a proton
five centimetres from the far end releases an electron above an active pad, and the cloud of the event
is empty. The dead zone is 48/550 of the chamber. -/
theorem C115_refuted : ∃ config env, mkConfig exFS (exDet 100 0) (docElec 560) {} = .ok config ∧
    RespectsEvents env.solve_ivp ∧ InVolume (0, 0, 0.05) ∧
    deadLength (exDet 100 0) (docElec 560) = 48 / 550 ∧
    (∃ n s₁, EventTotal (releasedAbove exGrid exEdges) env exMomenta (0, 0, 0.05) [1, 1, 1] [1, 1, 1] config
      exGen [2] () n s₁ ∧ n = 1) ∧
    simulate env exMomenta (0, 0, 0.05) [1, 1, 1] [1, 1, 1] config exGen [2] () = .ok (([], []), ()) := by
  obtain ⟨config, hc⟩ := exConfig_built (exDet 100 0) (docElec 560) (by norm_num [docElec])
  obtain ⟨-, -, hd, he⟩ := C60_drift_velocity _ _ _ _ _ hc
  have hdead : deadLength (exDet 100 0) (docElec 560) = 48 / 550 := by
    norm_num [deadLength, exDet, docElec]
  refine ⟨config, lowEnv, hc, safeSolver_respects _, ⟨by norm_num, by norm_num, by norm_num⟩, hdead, ?_, ?_⟩
  · have hel := exElectrons' config.det_params (by rw [hd]; rfl) (by rw [hd]; rfl) 0.05 0.05
    refine ⟨_, (), .charged 2 1 1 exNucleus ⟨0, 0, 4.5, 7.5⟩
      [{ exTrack0 with z := 0.05 }, { exTrack1 with z := 0.05 }] [0, 1] [] () () () 0 rfl (by norm_num)
      rfl rfl rfl (low_trajectory _ _ _) hel (.nil ()), ?_⟩
    unfold releasedAbove
    have ha : activePad exGrid exEdges (0, 0) = some 5 := exRow_active
    have hx : exTrack1.x = 0 := rfl
    have hy : exTrack1.y = 0 := rfl
    simp [List.filter_cons, hx, hy, ha]
  · obtain ⟨cloud, labels, hsim⟩ := low_simulated (by norm_num) hc
    obtain ⟨h1, h2⟩ := C115_dead_zone_partial hc (by norm_num [exDet]) (by norm_num [docElec])
      (by norm_num [docElec]) exEdges_bin (mkConfig_grid hc) exGen_lawful hsim (by
        intro idx hidx z a nucleus momentum track hz hz0 ha hn hm ht r hr
        cases Except.ok.inj hn
        have ht' : [{ exTrack0 with z := 0.05 }, { exTrack1 with z := 0.05 }] = track :=
          Except.ok.inj ((low_trajectory _ _ _).symm.trans ht)
        rw [← ht'] at hr
        rw [hdead]
        simp only [List.mem_cons, List.not_mem_nil, or_false] at hr
        rcases hr with rfl | rfl <;> norm_num [exDet])
    rw [h1, h2] at hsim
    exact hsim

/-- The same event with the window edge at 511: the charge of the cloud is that of one electron, times
the gain. -/
example : ∃ config cloud labels, mkConfig exFS (exDet 100 0) (docElec 511) {} = .ok config ∧
    simulate lowEnv exMomenta (0, 0, 0.05) [1, 1, 1] [1, 1, 1] config exGen [2] ()
      = .ok ((cloud, labels), ()) ∧ (cloud.map (·.e)).sum = 100 := by
  obtain ⟨config, hc⟩ := exConfig_built (exDet 100 0) (docElec 511) (by norm_num [docElec])
  obtain ⟨-, -, hd, he⟩ := C60_drift_velocity _ _ _ _ _ hc
  obtain ⟨cloud, labels, hsim⟩ := low_simulated (by norm_num) hc
  refine ⟨config, cloud, labels, hc, hsim, ?_⟩
  obtain ⟨n, s₁, h1, h2⟩ := C115_recorded_partial hc (by norm_num [exDet]) (by norm_num [docElec])
    (by norm_num [docElec]) (by norm_num [docElec]) (safeSolver_respects _)
    ⟨by norm_num, by norm_num, by norm_num⟩ exEdges_bin (mkConfig_grid hc) exGen_lawful rfl hsim
  have hn : n = 1 := by
    cases h1 with
    | neutral _ _ _ _ _ hz _ => cases Except.ok.inj hz
    | charged _ z a nucleus momentum track primary _ _ _ _ m hz hz0 ha hn hm ht hel hrest =>
      cases hrest
      cases Except.ok.inj hn
      have ht' : [{ exTrack0 with z := 0.05 }, { exTrack1 with z := 0.05 }] = track :=
        Except.ok.inj ((low_trajectory _ _ _).symm.trans ht)
      subst ht'
      have hel' := exElectrons' config.det_params (by rw [hd]; rfl) (by rw [hd]; rfl) 0.05 0.05
      have hpr : ([0, 1] : List ℤ) = primary :=
        congrArg Prod.fst (Except.ok.inj (hel'.symm.trans hel))
      subst hpr
      unfold releasedAbove
      have ha : activePad exGrid exEdges (0, 0) = some 5 := exRow_active
      have hx : exTrack1.x = 0 := rfl
      have hy : exTrack1.y = 0 := rfl
      simp [List.filter_cons, hx, hy, ha]
  rw [h2, hn]
  norm_num [exDet]

end Verif.Detector
