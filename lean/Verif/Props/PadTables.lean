import Verif.Props.TriggerRun

/-! # C162: the tables of pad centers and pad sizes enter only the columns x, y and scale -/

namespace Verif.Detector

open Verif.Spec Verif.Kinematics Verif.Props

/-- Two configurations that differ at most in the tables of pad centers and pad sizes (and in the names of the files
they come from); the tables describe as many pads. -/
structure OtherTables (config config' : Config) (centers centers' : List (ℝ × ℝ)) : Prop where
  det : config'.det_params = config.det_params
  elec : config'.elec_params = config.elec_params
  grid : config'.pad_grid = config.pad_grid
  drift : config'.drift_velocity = config.drift_velocity
  table : config.pad_centers = some centers
  table' : config'.pad_centers = some centers'
  pads : centers'.length = centers.length
  sizes : config'.pad_sizes.length = config.pad_sizes.length

/-- A stored row with the center and the size that the given tables hold for its pad. -/
noncomputable def padRow (centers : List (ℝ × ℝ)) (sizes : List ℝ) (r : SpyralRow) : SpyralRow :=
  match numbaGet centers (pyInt r.pad), numbaGet sizes (pyInt r.pad) with
  | .ok c, .ok size => { r with x := c.1, y := c.2, scale := size }
  | _, _ => r

/-- **C162.** For a row on pad number `i` these are the entries number `i` of the tables. -/
theorem C162_row {centers : List (ℝ × ℝ)} {sizes : List ℝ} {r : SpyralRow} {i : ℕ} (hp : r.pad = i)
    (hc : i < centers.length) (hs : i < sizes.length) :
    padRow centers sizes r = { r with x := centers[i].1, y := centers[i].2, scale := sizes[i] } := by
  have hi : pyInt r.pad = i := by
    rw [hp, pyInt_of_nonneg (Nat.cast_nonneg i), Int.floor_natCast]
  have h0 : ¬ ((i : ℤ) < 0) := by omega
  have h1 : numbaGet centers (i : ℤ) = .ok centers[i] := by
    simp only [numbaGet, pyGet, h0, if_false, Int.toNat_natCast, List.getElem?_eq_getElem hc]
  have h2 : numbaGet sizes (i : ℤ) = .ok sizes[i] := by
    simp only [numbaGet, pyGet, h0, if_false, Int.toNat_natCast, List.getElem?_eq_getElem hs]
  simp only [padRow, hi, h1, h2]

/-- **C162.** Configurations made from the same parameters, except for the files of centers and sizes. -/
theorem C162_config {fs : FileSystem} {d : DetectorParams} {e : ElectronicsParams} {p p' : PadParams}
    (hgrid : p'.grid_path = p.grid_path) {config config' : Config} (hc : mkConfig fs d e p = .ok config)
    (hc' : mkConfig fs d e p' = .ok config') :
    ∃ centers centers', load_pad_centers fs p = .ok centers ∧ load_pad_centers fs p' = .ok centers' ∧
      load_pad_sizes fs p = .ok config.pad_sizes ∧ load_pad_sizes fs p' = .ok config'.pad_sizes ∧
      (centers'.length = centers.length → config'.pad_sizes.length = config.pad_sizes.length →
        OtherTables config config' centers centers') := by
  have hload : load_pad_grid fs p' = load_pad_grid fs p := by
    unfold load_pad_grid
    rw [hgrid]
  unfold mkConfig at hc hc'
  rw [hload] at hc'
  simp only [except_bind_ok] at hc hc'
  obtain ⟨v, hv, g, hg, c, hcen, z, hz, hc⟩ := hc
  obtain ⟨v', hv', g', hg', c', hcen', z', hz', hc'⟩ := hc'
  obtain rfl := Except.ok.inj hc
  obtain rfl := Except.ok.inj hc'
  obtain rfl := Except.ok.inj (hv.symm.trans hv')
  obtain rfl := Except.ok.inj (hg.symm.trans hg')
  exact ⟨c, c', hcen, hcen', hz, hz', fun h1 h2 => ⟨rfl, rfl, rfl, rfl, rfl, rfl, h1, h2⟩⟩

section

theorem numbaGet_alike {α β : Type} {l : List α} {l' : List β} (h : l'.length = l.length) (i : ℤ) :
    (numbaGet l i = .error .undefinedRead ∧ numbaGet l' i = .error .undefinedRead) ∨
      ∃ a a', numbaGet l i = .ok a ∧ numbaGet l' i = .ok a' := by
  unfold numbaGet pyGet
  simp only
  rw [h]
  generalize (if i < 0 then i + (l.length : ℤ) else i) = j
  by_cases hj : j < 0
  · left
    simp [hj]
  · simp only [hj, if_false]
    by_cases hl : j.toNat < l.length
    · right
      refine ⟨l[j.toNat], l'[j.toNat]'(h ▸ hl), ?_, ?_⟩
      · rw [List.getElem?_eq_getElem hl]
      · rw [List.getElem?_eq_getElem (h ▸ hl)]
    · left
      rw [List.getElem?_eq_none (by omega), List.getElem?_eq_none (by omega)]
      exact ⟨rfl, rfl⟩

/-- **C162.** One point: the same row with the center and size of the other tables. -/
theorem C162_point (window_edge mm_edge : ℤ) (length : ℝ) (response : List ℝ) {centers centers' : List (ℝ × ℝ)}
    {sizes sizes' : List ℝ} (hc : centers'.length = centers.length) (hs : sizes'.length = sizes.length)
    (point : CloudPoint) :
    convert_point window_edge mm_edge length response centers' sizes' point
      = (convert_point window_edge mm_edge length response centers sizes point).map (padRow centers' sizes') := by
  unfold convert_point
  rcases numbaGet_alike hc (pyInt point.pad) with ⟨h1, h2⟩ | ⟨c, c', h1, h2⟩
  · rw [h1, h2]
    rfl
  · rw [h1, h2]
    by_cases h0 : window_edge - mm_edge = 0
    · simp only [bind, Except.bind, Except.map, h0, if_true]
    · rcases numbaGet_alike hs (pyInt point.pad) with ⟨h3, h4⟩ | ⟨z, z', h3, h4⟩
      · simp only [bind, Except.bind, Except.map, h0, if_false, h3, h4]
      · simp only [bind, Except.bind, Except.map, h0, if_false, h3, h4, pure, Except.pure, padRow, h2]

variable {config config' : Config} {centers centers' : List (ℝ × ℝ)}

/-- **C162.** With other tables the same rows are stored in the same order and with the same labels; only the pad center
and the pad size of each row are those of the other tables. -/
theorem C162_stored (H : OtherTables config config' centers centers') (argsort : Argsort) (response : List ℝ)
    (data : List CloudPoint) (labels : List ℤ) :
    format_event argsort response data labels config'
      = (format_event argsort response data labels config).map
          fun r => (r.1.map (padRow centers' config'.pad_sizes), r.2) := by
  unfold format_event
  have hkeep : ∀ r : SpyralRow, (padRow centers' config'.pad_sizes r).amp = r.amp ∧
      (padRow centers' config'.pad_sizes r).z = r.z := by
    intro r
    unfold padRow
    split <;> exact ⟨rfl, rfl⟩
  have hconv : convert_to_spyral data config.elec_params.windows_edge config.elec_params.micromegas_edge
      config.det_params.length response centers' config'.pad_sizes
      = (convert_to_spyral data config.elec_params.windows_edge config.elec_params.micromegas_edge
        config.det_params.length response centers config.pad_sizes).map
          (List.map (padRow centers' config'.pad_sizes)) := by
    have := mapM_image (g := id) (fun a => C162_point config.elec_params.windows_edge
      config.elec_params.micromegas_edge config.det_params.length response H.pads H.sizes a) data
    rw [List.map_id] at this
    exact this
  simp only [H.table, H.table', H.elec, H.det]
  rw [hconv]
  rcases convert_to_spyral data config.elec_params.windows_edge config.elec_params.micromegas_edge
        config.det_params.length response centers config.pad_sizes with e | rows
  · rfl
  · have hm : (rows.map (padRow centers' config'.pad_sizes)).map
        (fun r => decide (r.amp > (config.elec_params.adc_threshold : ℝ)))
        = rows.map fun r => decide (r.amp > (config.elec_params.adc_threshold : ℝ)) := by
      rw [List.map_map]
      exact List.map_congr_left fun r _ => by simp only [Function.comp, (hkeep r).1]
    have hz : ∀ l : List SpyralRow, (l.map (padRow centers' config'.pad_sizes)).map (·.z) = l.map (·.z) := by
      intro l
      rw [List.map_map]
      exact List.map_congr_left fun r _ => (hkeep r).2
    simp only [Except.map, bind, Except.bind, pure, Except.pure, hm, maskSel_map_comm, hz, takeIdx_map]

/-- **C162.** The simulated clouds are the same. -/
theorem C162_cloud {σ : Type} (H : OtherTables config config' centers centers') (env : SimEnv) (momenta : List Vec4)
    (vertex : ℝ × ℝ × ℝ) (Zs As : List ℤ) (rng : Gen σ) (indices : List ℤ) (s : σ) :
    simulate env momenta vertex Zs As config' rng indices s = simulate env momenta vertex Zs As config rng indices s := by
  obtain ⟨h1, h2, h3, h4, -, -, -, -⟩ := H
  obtain ⟨d, e, p, g, c, z, v⟩ := config
  obtain ⟨d', e', p', g', c', z', v'⟩ := config'
  simp only at h1 h2 h3 h4
  subst h1 h2 h3 h4
  rfl

/-- **C162.** One call of `write` with the other tables. -/
theorem C162_write (H : OtherTables config config' centers centers') (argsort : Argsort) (data : List CloudPoint)
    (labels : List ℤ) (event : ℤ) (w : Writer) :
    (editWriter (padRow centers' config'.pad_sizes) w).write argsort data labels config' event
      = ((w.write argsort data labels config event).1,
          editWriter (padRow centers' config'.pad_sizes) (w.write argsort data labels config event).2) := by
  unfold Writer.write
  rw [rollover_edit]
  rcases w.rollover event with ⟨r, w1⟩
  rcases r with e | u
  · rfl
  simp only
  have hresp : (editWriter (padRow centers' config'.pad_sizes) w1).response = w1.response := rfl
  rw [hresp, C162_stored H]
  rcases format_event argsort w1.response data labels config with e | ⟨rows, ls⟩
  · rfl
  · simp only [Except.map]
    have h1 : (editWriter (padRow centers' config'.pad_sizes) w1).file = w1.file := rfl
    have h2 : (editWriter (padRow centers' config'.pad_sizes) w1).run_number = w1.run_number := rfl
    rw [h1, h2, ← event_ops_edit w1.file w1.run_number event rows ls, ops_edit]
    rcases w1.ops (event_ops w1.file w1.run_number event rows ls) with ⟨r, w2⟩
    rcases r with e | u
    · rfl
    · rfl

variable {σ : Type} {env : SimEnv}

theorem run_events_tables (H : OtherTables config config' centers centers') (rng : Gen σ)
    (file : KinFile (List Vec4)) (zs as : List ℤ) (cs : ℕ) (indices : List ℤ)
    (argsort : Argsort) (n : ℕ) : ∀ (start : ℕ) (s : σ) (w : Writer),
    run_events env config' file zs as cs indices rng (spyralWriter argsort) n start
        ⟨s, editWriter (padRow centers' config'.pad_sizes) w⟩
      = ((run_events env config file zs as cs indices rng (spyralWriter argsort) n start ⟨s, w⟩).1,
        editState (padRow centers' config'.pad_sizes)
          (run_events env config file zs as cs indices rng (spyralWriter argsort) n start ⟨s, w⟩).2) := by
  induction n with
  | zero =>
    intro start s w
    rfl
  | succ n ih =>
    intro start s w
    unfold run_events run_event
    simp only
    rcases hread : read_event file cs start with e | ⟨momenta, vertex⟩
    · rfl
    simp only
    rw [C162_cloud H env momenta vertex zs as rng indices s]
    rcases simulate env momenta vertex zs as config rng indices s with e | ⟨⟨cloud, labels⟩, s1⟩
    · rfl
    simp only
    by_cases hc : cloud.length = 0
    · rw [if_pos hc, if_pos hc]
      exact ih (start + 1) s1 w
    · rw [if_neg hc, if_neg hc]
      simp only [spyralWriter]
      rw [C162_write H]
      rcases w.write argsort cloud labels config (start : ℤ) with ⟨r, w1⟩
      rcases r with e | u
      · rfl
      · exact ih (start + 1) s1 w1

/-- **C162.** A whole run with other tables ends like the original run, after the same random numbers, and leaves at every
moment the same files except that every row has the center and the size of the other tables. -/
theorem C162_run (H : OtherTables config config' centers centers') (rng : Gen σ)
    (file : KinFile (List Vec4)) (indices : Option (List ℤ))
    (argsort : Argsort) (s : σ) (w : Writer) :
    run_simulation env config' file (spyralWriter argsort) indices rng
        ⟨s, editWriter (padRow centers' config'.pad_sizes) w⟩
      = ((run_simulation env config file (spyralWriter argsort) indices rng ⟨s, w⟩).1,
        editState (padRow centers' config'.pad_sizes)
          (run_simulation env config file (spyralWriter argsort) indices rng ⟨s, w⟩).2) := by
  rcases attrs_or_missing file with hmiss | ⟨zs, as, n, cs, nc, a1, a2, a3, a4, a5⟩
  · rw [run_simulation_missing _ _ _ _ _ _ _ hmiss, run_simulation_missing _ _ _ _ _ _ _ hmiss]
    rfl
  · rw [run_simulation_eq _ _ _ _ _ _ _ a1 a2 a3 a4 a5, run_simulation_eq _ _ _ _ _ _ _ a1 a2 a3 a4 a5,
      run_events_tables H rng file zs as cs _ argsort]
    rcases run_events env config file zs as cs (indices.getD (default_indices zs.length)) rng (spyralWriter argsort)
      n.toNat 0 ⟨s, w⟩ with ⟨r, st⟩
    rcases r with e | u
    · rfl
    · simp only [editState, spyralWriter]
      rw [close_edit]

/-- **C162.** The files a whole run leaves in an empty directory. -/
theorem C162_files (H : OtherTables config config' centers centers') (rng : Gen σ) (file : KinFile (List Vec4))
    (indices : Option (List ℤ)) (argsort : Argsort) (s : σ) (m first : ℤ) {res : Except PyErr Unit}
    {final : RunState σ Writer}
    (hrun : run_simulation env config file (spyralWriter argsort) indices rng
      ⟨s, newWriter (fun _ => none) config m first⟩ = (res, final)) :
    ∃ final', run_simulation env config' file (spyralWriter argsort) indices rng
        ⟨s, newWriter (fun _ => none) config' m first⟩ = (res, final') ∧
      final'.gen = final.gen ∧
      final'.writer.disk = editDisk (padRow centers' config'.pad_sizes) final.writer.disk ∧
      final'.writer.trace = final.writer.trace.map (editDisk (padRow centers' config'.pad_sizes)) := by
  have hw : newWriter (fun _ => none) config' m first
      = editWriter (padRow centers' config'.pad_sizes) (newWriter (fun _ => none) config m first) := by
    have hresp : get_response config' = get_response config := by
      unfold get_response
      rw [H.elec]
    rw [newWriter_bare, newWriter_bare, hresp]
    generalize get_response config = r
    have h := ops_edit (φ := padRow centers' config'.pad_sizes)
      [.createFile (run_name first), .createGroup (run_name first)] (bareWriter r (fun _ => none) m first)
    exact congrArg Prod.snd h
  refine ⟨editState (padRow centers' config'.pad_sizes) final, ?_, rfl, rfl, rfl⟩
  rw [hw, C162_run H rng file indices argsort, hrun]

end

/-- The example run with the pads somewhere else and of another size. -/
example : ∃ final final',
    run_simulation exEnv exRunConfig exKinFile (spyralWriter exArgsort) (some [2]) exGen
      ⟨(), newWriter (fun _ => none) exRunConfig 1 7⟩ = (.ok (), final) ∧
    run_simulation exEnv { exRunConfig with pad_centers := some (List.replicate 10 (5, 6)),
                                            pad_sizes := List.replicate 10 0.5 }
      exKinFile (spyralWriter exArgsort) (some [2]) exGen
      ⟨(), newWriter (fun _ => none) { exRunConfig with pad_centers := some (List.replicate 10 (5, 6)),
                                                         pad_sizes := List.replicate 10 0.5 } 1 7⟩ = (.ok (), final') ∧
    final'.writer.disk
      = editDisk (padRow (List.replicate 10 (5, 6)) (List.replicate 10 0.5)) final.writer.disk := by
  obtain ⟨final, hrun, -⟩ := exRun_complete (fun _ => none)
  obtain ⟨final', h1, -, h2, -⟩ := C162_files (config := exRunConfig)
    (config' := { exRunConfig with pad_centers := some (List.replicate 10 (5, 6)), pad_sizes := List.replicate 10 0.5 })
    (centers := List.replicate 10 (1, 2)) (centers' := List.replicate 10 (5, 6))
    ⟨rfl, rfl, rfl, rfl, rfl, rfl, by simp, by simp [exRunConfig]⟩ exGen exKinFile (some [2]) exArgsort () 1 7 hrun
  exact ⟨final, final', hrun, h1, h2⟩

end Verif.Detector
