import Verif.Props.Translation
import Verif.Props.DeadZone

/-! # C158: the position of the recorded window in time -/

namespace Verif.Detector

open Verif.Spec Verif.Kinematics

/-- The electronics with both edges `k` time buckets later: the same chamber read out with an earlier trigger. -/
def laterElec (k : ℤ) (e : ElectronicsParams) : ElectronicsParams :=
  { e with micromegas_edge := e.micromegas_edge + k, windows_edge := e.windows_edge + k }

/-- The configuration with both edges `k` time buckets later. -/
def laterConfig (k : ℤ) (config : Config) : Config := { config with elec_params := laterElec k config.elec_params }

/-- A stored row with its time `k` buckets later. -/
noncomputable def laterRow (k : ℤ) (r : SpyralRow) : SpyralRow := { r with tb := r.tb + k }

/-- **C158.** The drift velocity and everything else in the configuration stay the same. -/
theorem C158_config (k : ℤ) (fs : FileSystem) (d : DetectorParams) (e : ElectronicsParams) (p : PadParams) :
    mkConfig fs d (laterElec k e) p = (mkConfig fs d e p).map (laterConfig k) := by
  have hv : calculate_drift_velocity d (laterElec k e) = calculate_drift_velocity d e := by
    unfold calculate_drift_velocity laterElec
    simp only [add_sub_add_right_eq_sub]
  unfold mkConfig
  rw [hv]
  rcases calculate_drift_velocity d e with e1 | v
  · rfl
  · rcases h2 : load_pad_grid fs p with e2 | g
    · rfl
    · rcases h3 : load_pad_centers fs p with e3 | c
      · rfl
      · rcases h4 : load_pad_sizes fs p with e4 | z
        · rfl
        · rfl

/-- **C158.** Every point arrives `k` buckets later. -/
theorem C158_drift (k : ℤ) (config : Config) (z : ℝ) :
    to_time_bucket (laterConfig k config) z = to_time_bucket config z + k := by
  unfold to_time_bucket laterConfig laterElec
  push_cast
  ring

section

variable {σ : Type} {k : ℤ} {grid : PadGrid} {g : GridEdges} {config : Config} {ivp : IvpSolver}

/-- One nucleus. -/
theorem cloud_later (hgrid : config.pad_grid = some (grid, g)) (hg : PlainGrid grid g)
    (hD : config.det_params.diffusion = 0) (hE : config.det_params.efield ≠ 0)
    {vertex momentum : ℝ × ℝ × ℝ} {n : Nucleus}
    (hwin : ∀ track, generate_trajectory ivp vertex momentum n config.det_params = .ok track →
      ∀ r ∈ track, TimeInWindow k (to_time_bucket config r.z))
    (rng : Gen σ) {p q : Points} (h : Delayed k p q) (label : ℤ) (s : σ) :
    (∃ e, generate_point_cloud ivp momentum vertex n config rng p label s = .error e ∧
      generate_point_cloud ivp momentum vertex n (laterConfig k config) rng q label s = .error e) ∨
    ∃ p' q' s', generate_point_cloud ivp momentum vertex n config rng p label s = .ok (p', s') ∧
      generate_point_cloud ivp momentum vertex n (laterConfig k config) rng q label s = .ok (q', s') ∧
      Delayed k p' q' := by
  have hd : (laterConfig k config).det_params = config.det_params := rfl
  have hp : (laterConfig k config).pad_grid = config.pad_grid := rfl
  have hdv : (laterConfig k config).drift_velocity = config.drift_velocity := rfl
  rcases ht : generate_trajectory ivp vertex momentum n config.det_params with e | track
  · left
    refine ⟨e, ?_, ?_⟩ <;>
    · unfold generate_point_cloud
      simp only [bind, Except.bind, hd, ht]
  · rcases hel : generate_electrons track n config.det_params rng s with e | ⟨electrons, s'⟩
    · left
      refine ⟨e, ?_, ?_⟩ <;>
      · unfold generate_point_cloud
        simp only [bind, Except.bind, hd, ht, hel]
    · right
      obtain ⟨p', q', e1, e2, h'⟩ := track_delayed (k := k) (dv := config.drift_velocity) hg hE label
        ((maskSel (electrons.map fun e => decide (1 ≤ e)) track).map
          fun r => { r with z := to_time_bucket config r.z })
        ((maskSel (electrons.map fun e => decide (1 ≤ e)) electrons).map (· * config.det_params.mpgd_gain)) h (by
          intro r hr
          obtain ⟨r0, hr0, rfl⟩ := List.mem_map.1 hr
          exact hwin track ht r0 (maskSel_subset _ _ _ hr0))
      refine ⟨p', q', s', ?_, ?_, h'⟩
      · unfold generate_point_cloud
        simp only [bind, Except.bind, ht, hel, hgrid, hD, e1]
        rfl
      · unfold generate_point_cloud
        simp only [bind, Except.bind, hd, hp, hdv, ht, hel, hgrid, hD]
        rw [List.map_map] at e2
        have hf : (fun r : Row => ({ r with z := to_time_bucket (laterConfig k config) r.z } : Row))
            = ((fun r : Row => ({ r with z := r.z + k } : Row)) ∘
              fun r => { r with z := to_time_bucket config r.z }) := by
          funext r
          simp only [Function.comp_apply, C158_drift]
        rw [hf, e2]
        rfl

variable {env : SimEnv} {momenta : List Vec4} {vertex : ℝ × ℝ × ℝ} {Zs As : List ℤ}

/-- The tracks of all charged nuclei of the event drift into the recorded window, before and after the delay. -/
def ArriveInWindow (env : SimEnv) (config : Config) (k : ℤ) (momenta : List Vec4) (vertex : ℝ × ℝ × ℝ)
    (Zs As indices : List ℤ) : Prop :=
  ∀ idx ∈ indices, ∀ z a n m, pyGet Zs idx = .ok z → z ≠ 0 → pyGet As idx = .ok a → env.get_data z a = .ok n →
    pyGet momenta idx = .ok m → ∀ track,
      generate_trajectory env.solve_ivp vertex (m.px, m.py, m.pz) n config.det_params = .ok track →
      ∀ r ∈ track, TimeInWindow k (to_time_bucket config r.z)

theorem nuclei_later (hgrid : config.pad_grid = some (grid, g)) (hg : PlainGrid grid g)
    (hD : config.det_params.diffusion = 0) (hE : config.det_params.efield ≠ 0)
    (rng : Gen σ) : ∀ (indices : List ℤ), ArriveInWindow env config k momenta vertex Zs As indices →
    ∀ {p q : Points}, Delayed k p q → ∀ s : σ,
    (∃ e, indices.foldlM (simulate_nucleus env momenta vertex Zs As config rng) (p, s) = .error e ∧
      indices.foldlM (simulate_nucleus env momenta vertex Zs As (laterConfig k config) rng) (q, s) = .error e) ∨
    ∃ p' q' s', indices.foldlM (simulate_nucleus env momenta vertex Zs As config rng) (p, s) = .ok (p', s') ∧
      indices.foldlM (simulate_nucleus env momenta vertex Zs As (laterConfig k config) rng) (q, s) = .ok (q', s') ∧
      Delayed k p' q'
  | [], _, p, q, h, s => Or.inr ⟨p, q, s, rfl, rfl, h⟩
  | idx :: indices, ht, p, q, h, s => by
    have hstep : (∃ e, simulate_nucleus env momenta vertex Zs As config rng (p, s) idx = .error e ∧
        simulate_nucleus env momenta vertex Zs As (laterConfig k config) rng (q, s) idx = .error e) ∨
        ∃ p' q' s', simulate_nucleus env momenta vertex Zs As config rng (p, s) idx = .ok (p', s') ∧
        simulate_nucleus env momenta vertex Zs As (laterConfig k config) rng (q, s) idx = .ok (q', s') ∧
        Delayed k p' q' := by
      unfold simulate_nucleus
      rcases hz : pyGet Zs idx with e | z
      · exact Or.inl ⟨e, rfl, rfl⟩
      · by_cases hz0 : z = 0
        · simp only [hz0, bind, Except.bind, if_true]
          exact Or.inr ⟨p, q, s, rfl, rfl, h⟩
        · rcases ha : pyGet As idx with e | a
          · simp only [bind, Except.bind, if_neg hz0]
            exact Or.inl ⟨e, rfl, rfl⟩
          · rcases hn : env.get_data z a with e | n
            · simp only [bind, Except.bind, if_neg hz0, hn]
              exact Or.inl ⟨e, rfl, rfl⟩
            · rcases hm : pyGet momenta idx with e | m
              · simp only [bind, Except.bind, if_neg hz0, hn]
                exact Or.inl ⟨e, rfl, rfl⟩
              · simp only [bind, Except.bind, if_neg hz0, hn]
                exact cloud_later hgrid hg hD hE (ht idx (by simp) z a n m hz hz0 ha hn hm) rng h idx s
    rcases hstep with ⟨e, h1, h2⟩ | ⟨p', q', s', h1, h2, h'⟩
    · left
      refine ⟨e, ?_, ?_⟩
      · rw [List.foldlM_cons, h1]
        rfl
      · rw [List.foldlM_cons, h2]
        rfl
    · rw [List.foldlM_cons, List.foldlM_cons, h1, h2]
      exact nuclei_later hgrid hg hD hE rng indices (fun i hi => ht i (by simp [hi])) h' s'

/-- **C158.** Without diffusion, moving both edges by `k` time buckets moves the cloud by `k` buckets and changes
nothing else, as long as it stays inside the recorded window. -/
theorem C158_cloud (hgrid : config.pad_grid = some (grid, g)) (hg : PlainGrid grid g)
    (hD : config.det_params.diffusion = 0) (hE : config.det_params.efield ≠ 0)
    {rng : Gen σ} (hr : LawfulGen rng) {indices : List ℤ}
    (ht : ArriveInWindow env config k momenta vertex Zs As indices) (s : σ) :
    simulate env momenta vertex Zs As (laterConfig k config) rng indices s
      = (simulate env momenta vertex Zs As config rng indices s).map
          fun r => ((r.1.1.map (delayPoint k), r.1.2), r.2) :=
  simulate_delayed hr (nuclei_later hgrid hg hD hE rng indices ht .nil s)

/-- **C158.** For a vertex in a chamber of at least one metre and a solver that stops at the bounds, it is enough that
both windows lie within the recorded time buckets. -/
theorem C158_inside {fs : FileSystem} {d : DetectorParams} {e : ElectronicsParams} {pp : PadParams}
    (hc : mkConfig fs d e pp = .ok config) (hL : 1 ≤ d.length) (h0 : 0 ≤ e.micromegas_edge)
    (hedges : e.micromegas_edge < e.windows_edge) (hw : e.windows_edge < NUM_TB)
    (h0' : 0 ≤ e.micromegas_edge + k) (hw' : e.windows_edge + k < NUM_TB)
    (hivp : RespectsEvents env.solve_ivp) (hvol : InVolume vertex) (indices : List ℤ) :
    ArriveInWindow env config k momenta vertex Zs As indices := by
  intro idx _ z a n m _ _ _ _ _ track htr r hr
  obtain ⟨h1, h2⟩ := C18_trajectory_partial hc hL hedges hivp hvol htr r hr
  have a1 : (0 : ℝ) ≤ e.micromegas_edge := by exact_mod_cast h0
  have a2 : (e.windows_edge : ℝ) < NUM_TB := by exact_mod_cast hw
  have a3 : (0 : ℝ) ≤ e.micromegas_edge + k := by exact_mod_cast h0'
  have a4 : (e.windows_edge : ℝ) + k < NUM_TB := by exact_mod_cast hw'
  exact ⟨by linarith, by linarith, by linarith, by linarith⟩

/-- **C158.** Both together: the whole event of a configuration built from parameters. -/
theorem C158_event {fs : FileSystem} {d : DetectorParams} {e : ElectronicsParams} {pp : PadParams}
    (hc : mkConfig fs d e pp = .ok config) (hL : 1 ≤ d.length) (h0 : 0 ≤ e.micromegas_edge)
    (hedges : e.micromegas_edge < e.windows_edge) (hw : e.windows_edge < NUM_TB)
    (h0' : 0 ≤ e.micromegas_edge + k) (hw' : e.windows_edge + k < NUM_TB)
    (hgrid : config.pad_grid = some (grid, g)) (hg : PlainGrid grid g)
    (hD : config.det_params.diffusion = 0) (hE : config.det_params.efield ≠ 0)
    (hivp : RespectsEvents env.solve_ivp) (hvol : InVolume vertex) {rng : Gen σ} (hr : LawfulGen rng)
    (indices : List ℤ) (s : σ) :
    ∃ config', mkConfig fs d (laterElec k e) pp = .ok config' ∧
      simulate env momenta vertex Zs As config' rng indices s
        = (simulate env momenta vertex Zs As config rng indices s).map
            fun r => ((r.1.1.map (delayPoint k), r.1.2), r.2) := by
  refine ⟨laterConfig k config, by rw [C158_config, hc]; rfl, ?_⟩
  exact C158_cloud hgrid hg hD hE hr (C158_inside hc hL h0 hedges hw h0' hw' hivp hvol indices) s

end

/-! ## What is stored -/

theorem mapM_image {α β α' β' : Type} {f : α → Except PyErr β} {f' : α' → Except PyErr β'} {g : α → α'} {h : β → β'}
    (hf : ∀ a, f' (g a) = (f a).map h) : ∀ l : List α, (l.map g).mapM f' = (l.mapM f).map (List.map h)
  | [] => rfl
  | a :: l => by
    rw [List.map_cons, List.mapM_cons, List.mapM_cons, hf, mapM_image hf l]
    rcases f a with e | b
    · rfl
    · rcases l.mapM f with e | bs
      · rfl
      · rfl

/-- **C158.** The writer gives a delayed point the same position, amplitude and integral. -/
theorem C158_point (k window_edge mm_edge : ℤ) (length : ℝ) (response : List ℝ) (pad_centers : List (ℝ × ℝ))
    (pad_sizes : List ℝ) (point : CloudPoint) :
    convert_point (window_edge + k) (mm_edge + k) length response pad_centers pad_sizes (delayPoint k point)
      = (convert_point window_edge mm_edge length response pad_centers pad_sizes point).map (laterRow k) := by
  unfold convert_point delayPoint
  simp only [add_sub_add_right_eq_sub]
  rcases numbaGet pad_centers (pyInt point.pad) with e | c
  · rfl
  · by_cases h0 : window_edge - mm_edge = 0
    · simp only [bind, Except.bind, h0, if_true]
      rfl
    · rcases numbaGet pad_sizes (pyInt point.pad) with e | z
      · simp only [bind, Except.bind, h0, if_false]
        rfl
      · simp only [bind, Except.bind, h0, if_false, pure, Except.pure, Except.map, laterRow, Except.ok.injEq,
          SpyralRow.mk.injEq, true_and, and_true]
        push_cast
        ring

/-- **C158.** Of the delayed cloud the same rows are stored, in the same order and with the same labels: only the
column of the times differs, by `k`. -/
theorem C158_stored (k : ℤ) (argsort : Argsort) (response : List ℝ) (data : List CloudPoint) (labels : List ℤ)
    (config : Config) :
    format_event argsort response (data.map (delayPoint k)) labels (laterConfig k config)
      = (format_event argsort response data labels config).map fun r => (r.1.map (laterRow k), r.2) := by
  unfold format_event
  have hp : (laterConfig k config).pad_centers = config.pad_centers := rfl
  rw [hp]
  rcases config.pad_centers with _ | centers
  · rfl
  · have hconv : convert_to_spyral (data.map (delayPoint k)) (laterConfig k config).elec_params.windows_edge
        (laterConfig k config).elec_params.micromegas_edge (laterConfig k config).det_params.length response centers
        (laterConfig k config).pad_sizes
        = (convert_to_spyral data config.elec_params.windows_edge config.elec_params.micromegas_edge
          config.det_params.length response centers config.pad_sizes).map (List.map (laterRow k)) :=
      mapM_image (fun a => C158_point k _ _ _ _ _ _ a) data
    simp only
    rw [hconv]
    rcases convert_to_spyral data config.elec_params.windows_edge config.elec_params.micromegas_edge
          config.det_params.length response centers config.pad_sizes with e | rows
    · rfl
    · have hm : (rows.map (laterRow k)).map
          (fun r => decide (r.amp > ((laterConfig k config).elec_params.adc_threshold : ℝ)))
          = rows.map fun r => decide (r.amp > (config.elec_params.adc_threshold : ℝ)) := by
        rw [List.map_map]
        rfl
      have hz : ∀ l : List SpyralRow, (l.map (laterRow k)).map (·.z) = l.map (·.z) := by
        intro l
        rw [List.map_map]
        rfl
      simp only [Except.map, bind, Except.bind, pure, Except.pure, hm, maskSel_map_comm, hz, takeIdx_map]

/-- The response of the electronics does not depend on the edges. -/
theorem C158_response (k : ℤ) (config : Config) : get_response (laterConfig k config) = get_response config := rfl

/-- The event of the examples of C07 with both edges 20 buckets later: the cloud arrives 20 buckets later. -/
example : ∃ cloud labels,
    simulate exEnv exMomenta (0, 0, 0.5) [1, 1, 1] [1, 1, 1] (exConfig 7 0) exGen [2] () = .ok ((cloud, labels), ()) ∧
    simulate exEnv exMomenta (0, 0, 0.5) [1, 1, 1] [1, 1, 1] (laterConfig 20 (exConfig 7 0)) exGen [2] ()
      = .ok ((cloud.map (delayPoint 20), labels), ()) := by
  obtain ⟨cloud, labels, h⟩ := exSimulate 7 0 le_rfl
  refine ⟨cloud, labels, h, ?_⟩
  have := C158_cloud (k := 20) (env := exEnv) (momenta := exMomenta) (vertex := (0, 0, 0.5)) (Zs := [1, 1, 1])
    (As := [1, 1, 1]) (config := exConfig 7 0) rfl exPlain rfl (by norm_num [exConfig, exDet]) exGen_lawful
    (indices := [2]) (by
      intro idx hidx z a n m _ _ _ _ _ track htr r hr
      obtain rfl : [exTrack0, exTrack1] = track := Except.ok.inj htr
      have hz : r.z = 0.5 := by
        simp only [List.mem_cons, List.not_mem_nil, or_false] at hr
        rcases hr with rfl | rfl <;> rfl
      rw [hz]
      norm_num [TimeInWindow, to_time_bucket, exConfig, exDet, exElec, NUM_TB]) ()
  rw [h] at this
  exact this

end Verif.Detector
