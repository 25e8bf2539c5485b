import Verif.Props.TriggerRun
import Verif.Props.Determined

/-! # C156 for whole runs: all vertices moved along the beam axis, the files of the run -/

namespace Verif.Detector

open Verif.Spec Verif.Kinematics Verif.Props

/-! ## What is stored -/

/-- The distance in mm between the positions that the writer gives to neighbouring time buckets. -/
noncomputable def bucketLength (config : Config) : ℝ :=
  config.det_params.length * 1000
    / ((config.elec_params.windows_edge - config.elec_params.micromegas_edge : ℤ) : ℝ)

/-- A stored row `k` time buckets later, and by as much closer to the window. -/
noncomputable def movedRow (k : ℤ) (config : Config) (r : SpyralRow) : SpyralRow :=
  { r with tb := r.tb + k, z := r.z - k * bucketLength config }

/-- A sorting function that only compares: it orders equally ordered keys alike, whatever they are. -/
def ComparesOnly (argsort : Argsort) : Prop :=
  ∀ f : ℝ → ℝ, StrictMono f → ∀ keys : List ℝ, argsort (keys.map f) = argsort keys

theorem C156_point (k : ℤ) (config : Config) (response : List ℝ) (pad_centers : List (ℝ × ℝ)) (point : CloudPoint) :
    convert_point config.elec_params.windows_edge config.elec_params.micromegas_edge config.det_params.length response
        pad_centers config.pad_sizes (delayPoint k point)
      = (convert_point config.elec_params.windows_edge config.elec_params.micromegas_edge config.det_params.length response
        pad_centers config.pad_sizes point).map (movedRow k config) := by
  unfold convert_point delayPoint
  simp only
  rcases numbaGet pad_centers (pyInt point.pad) with e | c
  · rfl
  · by_cases h0 : config.elec_params.windows_edge - config.elec_params.micromegas_edge = 0
    · simp only [bind, Except.bind, h0, if_true]
      rfl
    · rcases numbaGet config.pad_sizes (pyInt point.pad) with e | z
      · simp only [bind, Except.bind, h0, if_false]
        rfl
      · simp only [bind, Except.bind, h0, if_false, pure, Except.pure, Except.map, movedRow, bucketLength,
          Except.ok.injEq, SpyralRow.mk.injEq, true_and, and_true]
        ring

/-- **C156.** Of the delayed cloud the same rows are stored, in the same order and with the same labels: the times are
`k` buckets larger and the positions along the axis smaller by the length of `k` buckets. -/
theorem C156_stored (k : ℤ) {argsort : Argsort} (hA : ComparesOnly argsort) (response : List ℝ) (data : List CloudPoint)
    (labels : List ℤ) (config : Config) :
    format_event argsort response (data.map (delayPoint k)) labels config
      = (format_event argsort response data labels config).map fun r => (r.1.map (movedRow k config), r.2) := by
  unfold format_event
  rcases config.pad_centers with _ | centers
  · rfl
  · have hconv : convert_to_spyral (data.map (delayPoint k)) config.elec_params.windows_edge
        config.elec_params.micromegas_edge config.det_params.length response centers config.pad_sizes
        = (convert_to_spyral data config.elec_params.windows_edge config.elec_params.micromegas_edge
          config.det_params.length response centers config.pad_sizes).map (List.map (movedRow k config)) :=
      mapM_image (fun a => C156_point k config response centers a) data
    simp only
    rw [hconv]
    rcases convert_to_spyral data config.elec_params.windows_edge config.elec_params.micromegas_edge
          config.det_params.length response centers config.pad_sizes with e | rows
    · rfl
    · have hm : (rows.map (movedRow k config)).map
          (fun r => decide (r.amp > (config.elec_params.adc_threshold : ℝ)))
          = rows.map fun r => decide (r.amp > (config.elec_params.adc_threshold : ℝ)) := by
        rw [List.map_map]
        rfl
      have hz : ∀ l : List SpyralRow, argsort ((l.map (movedRow k config)).map (·.z)) = argsort (l.map (·.z)) := by
        intro l
        rw [← hA (fun z => z - k * bucketLength config) (fun a b h => by simpa using h) (l.map (·.z)), List.map_map,
          List.map_map]
        rfl
      simp only [Except.map, bind, Except.bind, pure, Except.pure, hm, maskSel_map_comm, hz, takeIdx_map]

/-- **C156.** One call of `write` with the delayed cloud. -/
theorem C156_write (k : ℤ) {argsort : Argsort} (hA : ComparesOnly argsort) (data : List CloudPoint) (labels : List ℤ)
    (config : Config) (event : ℤ) (w : Writer) :
    (editWriter (movedRow k config) w).write argsort (data.map (delayPoint k)) labels config event
      = ((w.write argsort data labels config event).1,
          editWriter (movedRow k config) (w.write argsort data labels config event).2) := by
  unfold Writer.write
  rw [rollover_edit]
  rcases w.rollover event with ⟨r, w1⟩
  rcases r with e | u
  · rfl
  simp only
  have hresp : (editWriter (movedRow k config) w1).response = w1.response := rfl
  rw [hresp, C156_stored k hA]
  rcases format_event argsort w1.response data labels config with e | ⟨rows, ls⟩
  · rfl
  · simp only [Except.map]
    have h1 : (editWriter (movedRow k config) w1).file = w1.file := rfl
    have h2 : (editWriter (movedRow k config) w1).run_number = w1.run_number := rfl
    rw [h1, h2, ← event_ops_edit w1.file w1.run_number event rows ls, ops_edit]
    rcases w1.ops (event_ops w1.file w1.run_number event rows ls) with ⟨r, w2⟩
    rcases r with e | u
    · rfl
    · rfl

/-! ## Kinematics files -/

/-- An event with its vertex moved by `δ` along the beam axis. -/
noncomputable def moveDset {ρ : Type} (δ : ℝ) (d : EventDset ρ) : EventDset ρ :=
  { d with vertex_z := d.vertex_z.map (· + δ) }

/-- A chunk with all vertices moved by `δ` along the beam axis. -/
noncomputable def moveGroup {ρ : Type} (δ : ℝ) (group : ChunkGroup ρ) : ChunkGroup ρ :=
  { group with events := group.events.map fun e => (e.1, moveDset δ e.2) }

/-- A kinematics file with all vertices moved by `δ` along the beam axis. -/
noncomputable def moveVertices {ρ : Type} (δ : ℝ) (file : KinFile ρ) : KinFile ρ :=
  { file with chunks := file.chunks.map fun c => (c.1, moveGroup δ c.2) }

theorem lookupName_image {α β : Type} (f : α → β) (l : List (String × α)) (name : String) :
    lookupName (l.map fun c => (c.1, f c.2)) name = (lookupName l name).map f := by
  unfold lookupName
  induction l with
  | nil => rfl
  | cons c l ih =>
    obtain ⟨k, a⟩ := c
    rw [List.map_cons, List.lookup_cons, List.lookup_cons]
    cases name == k
    · exact ih
    · rfl

/-- **C156.** From the moved file the same momenta and the moved vertices are read. -/
theorem C156_read {ρ : Type} (δ : ℝ) (file : KinFile ρ) (cs ev : ℕ) :
    read_event (moveVertices δ file) cs ev
      = (read_event file cs ev).map fun r => (r.1, shiftPoint δ r.2) := by
  unfold read_event
  simp only
  have h1 : (moveVertices δ file).chunks = file.chunks.map fun c => (c.1, moveGroup δ c.2) := rfl
  rw [h1, lookupName_image]
  rcases lookupName file.chunks (chunk_name (ev / cs)) with e | group
  · rfl
  · have h2 : (moveGroup δ group).events = group.events.map fun e => (e.1, moveDset δ e.2) := rfl
    simp only [Except.map, bind, Except.bind]
    rw [h2, lookupName_image]
    rcases lookupName group.events (event_name ev) with e | ⟨data, vx, vy, vz⟩
    · rfl
    · cases vx <;> cases vy <;> cases vz <;> rfl

/-! ## Runs -/

section

variable {σ : Type} {k : ℤ} {grid : PadGrid} {g : GridEdges} {config : Config} {env : SimEnv}

theorem run_events_moved (hgrid : config.pad_grid = some (grid, g)) (hg : PlainGrid grid g)
    (hv : config.drift_velocity ≠ 0) (hD : config.det_params.diffusion = 0) (hE : config.det_params.efield ≠ 0)
    {rng : Gen σ} (hr : LawfulGen rng) {file : KinFile (List Vec4)} {zs as : List ℤ} {cs : ℕ} {indices : List ℤ}
    (hev : ∀ ev momenta vertex, read_event file cs ev = .ok (momenta, vertex) →
      TracksAlong env config k momenta vertex zs as indices)
    {argsort : Argsort} (hA : ComparesOnly argsort) (n : ℕ) : ∀ (start : ℕ) (s : σ) (w : Writer),
    run_events env config (moveVertices (-(k * config.drift_velocity)) file) zs as cs indices rng (spyralWriter argsort)
        n start ⟨s, editWriter (movedRow k config) w⟩
      = ((run_events env config file zs as cs indices rng (spyralWriter argsort) n start ⟨s, w⟩).1,
        editState (movedRow k config)
          (run_events env config file zs as cs indices rng (spyralWriter argsort) n start ⟨s, w⟩).2) := by
  induction n with
  | zero =>
    intro start s w
    rfl
  | succ n ih =>
    intro start s w
    unfold run_events run_event
    simp only
    rw [C156_read]
    rcases hread : read_event file cs start with e | ⟨momenta, vertex⟩
    · rfl
    simp only [Except.map]
    rw [C156_cloud hgrid hg hv hD hE hr (hev start momenta vertex hread) s]
    rcases simulate env momenta vertex zs as config rng indices s with e | ⟨⟨cloud, labels⟩, s1⟩
    · rfl
    simp only [Except.map, List.length_map]
    by_cases hc : cloud.length = 0
    · rw [if_pos hc, if_pos hc]
      exact ih (start + 1) s1 w
    · rw [if_neg hc, if_neg hc]
      simp only [spyralWriter]
      rw [C156_write k hA]
      rcases w.write argsort cloud labels config (start : ℤ) with ⟨r, w1⟩
      rcases r with e | u
      · rfl
      · exact ih (start + 1) s1 w1

/-- **C156.** A whole run on a kinematics file with all vertices moved away from the micromegas by the drift of `k` time
buckets ends like the original run, after the same random numbers, and leaves at every moment the same files except that
all times are `k` larger and all positions along the axis smaller by the length of `k` buckets. -/
theorem C156_run (hgrid : config.pad_grid = some (grid, g)) (hg : PlainGrid grid g)
    (hv : config.drift_velocity ≠ 0) (hD : config.det_params.diffusion = 0) (hE : config.det_params.efield ≠ 0)
    {rng : Gen σ} (hr : LawfulGen rng) {file : KinFile (List Vec4)} {indices : Option (List ℤ)}
    (hev : ∀ zs as cs ev momenta vertex, file.proton_numbers = some zs → file.mass_numbers = some as →
      read_event file cs ev = .ok (momenta, vertex) →
      TracksAlong env config k momenta vertex zs as (indices.getD (default_indices zs.length)))
    {argsort : Argsort} (hA : ComparesOnly argsort) (s : σ) (w : Writer) :
    run_simulation env config (moveVertices (-(k * config.drift_velocity)) file) (spyralWriter argsort) indices rng
        ⟨s, editWriter (movedRow k config) w⟩
      = ((run_simulation env config file (spyralWriter argsort) indices rng ⟨s, w⟩).1,
        editState (movedRow k config)
          (run_simulation env config file (spyralWriter argsort) indices rng ⟨s, w⟩).2) := by
  rcases attrs_or_missing file with hmiss | ⟨zs, as, n, cs, nc, a1, a2, a3, a4, a5⟩
  · rw [run_simulation_missing _ _ _ _ _ _ _ hmiss,
      run_simulation_missing _ _ (moveVertices (-(k * config.drift_velocity)) file) _ _ _ _ hmiss]
    rfl
  · rw [run_simulation_eq _ _ file _ _ _ _ a1 a2 a3 a4 a5,
      run_simulation_eq _ _ (moveVertices (-(k * config.drift_velocity)) file) _ _ _ _ a1 a2 a3 a4 a5,
      run_events_moved hgrid hg hv hD hE hr (hev zs as cs · · · a1 a2) hA]
    rcases run_events env config file zs as cs (indices.getD (default_indices zs.length)) rng (spyralWriter argsort)
      n.toNat 0 ⟨s, w⟩ with ⟨r, st⟩
    rcases r with e | u
    · rfl
    · simp only [editState, spyralWriter]
      rw [close_edit]

/-- **C156.** The files a whole run leaves in an empty directory. -/
theorem C156_files (hgrid : config.pad_grid = some (grid, g)) (hg : PlainGrid grid g)
    (hv : config.drift_velocity ≠ 0) (hD : config.det_params.diffusion = 0) (hE : config.det_params.efield ≠ 0)
    {rng : Gen σ} (hr : LawfulGen rng) {file : KinFile (List Vec4)} {indices : Option (List ℤ)}
    (hev : ∀ zs as cs ev momenta vertex, file.proton_numbers = some zs → file.mass_numbers = some as →
      read_event file cs ev = .ok (momenta, vertex) →
      TracksAlong env config k momenta vertex zs as (indices.getD (default_indices zs.length)))
    {argsort : Argsort} (hA : ComparesOnly argsort) (s : σ) (wconfig : Config) (m first : ℤ)
    {res : Except PyErr Unit} {final : RunState σ Writer}
    (hrun : run_simulation env config file (spyralWriter argsort) indices rng
      ⟨s, newWriter (fun _ => none) wconfig m first⟩ = (res, final)) :
    ∃ final', run_simulation env config (moveVertices (-(k * config.drift_velocity)) file) (spyralWriter argsort) indices
        rng ⟨s, newWriter (fun _ => none) wconfig m first⟩ = (res, final') ∧
      final'.gen = final.gen ∧ final'.writer.disk = editDisk (movedRow k config) final.writer.disk ∧
      final'.writer.trace = final.writer.trace.map (editDisk (movedRow k config)) := by
  have hw : newWriter (fun _ => none) wconfig m first
      = editWriter (movedRow k config) (newWriter (fun _ => none) wconfig m first) := by
    rw [newWriter_bare]
    generalize get_response wconfig = r
    have h := ops_edit (φ := movedRow k config) [.createFile (run_name first), .createGroup (run_name first)]
      (bareWriter r (fun _ => none) m first)
    exact congrArg Prod.snd h
  refine ⟨editState (movedRow k config) final, ?_, rfl, rfl, rfl⟩
  have h := C156_run hgrid hg hv hD hE hr hev hA s (newWriter (fun _ => none) wconfig m first)
  rw [← hw, hrun] at h
  exact h

end

/-! ## Example -/

/-- Insertion sort only compares. -/
theorem exArgsort_compares : ComparesOnly exArgsort := by
  intro f hf keys
  have hget : ∀ i, i < keys.length → (keys.map f).getD i 0 = f (keys.getD i 0) := by
    intro i hi
    simp [List.getD, hi]
  have hins : ∀ (i : ℕ) (l : List ℕ), i < keys.length → (∀ j ∈ l, j < keys.length) →
      insertKey (keys.map f) i l = insertKey keys i l := by
    intro i l hi
    induction l with
    | nil => intro _; rfl
    | cons j js ih =>
      intro hl
      unfold insertKey
      rw [hget i hi, hget j (hl j (by simp)), ih fun j hj => hl j (by simp [hj])]
      simp only [hf.le_iff_le]
  have hperm : ∀ l : List ℕ, (l.foldr (insertKey keys) []).Perm l := by
    intro l
    induction l with
    | nil => exact List.Perm.refl _
    | cons i l ih => exact (insertKey_perm keys i _).trans (ih.cons i)
  have hall : ∀ l : List ℕ, (∀ i ∈ l, i < keys.length) →
      l.foldr (insertKey (keys.map f)) [] = l.foldr (insertKey keys) [] := by
    intro l
    induction l with
    | nil => intro _; rfl
    | cons i l ih =>
      intro hl
      rw [List.foldr_cons, List.foldr_cons, ih fun i hi => hl i (by simp [hi])]
      exact hins i _ (hl i (by simp)) fun j hj => hl j (by simp [(hperm l).mem_iff.1 hj])
  unfold exArgsort
  rw [List.length_map]
  exact hall _ fun i hi => List.mem_range.1 hi

theorem exKinFile_vertex {cs ev : ℕ} {momenta : List Vec4} {vertex : ℝ × ℝ × ℝ}
    (h : read_event exKinFile cs ev = .ok (momenta, vertex)) : vertex = (0, 0, 0.5) := by
  unfold read_event at h
  simp only at h
  rcases hg : lookupName exKinFile.chunks (chunk_name (ev / cs)) with e | group
  · rw [hg] at h
    cases h
  rw [hg] at h
  simp only [bind, Except.bind] at h
  rcases hd : lookupName group.events (event_name ev) with e | d
  · rw [hd] at h
    cases h
  rw [hd] at h
  have hc := lookupName_mem hg
  have hc' := lookupName_mem hd
  have hgroup : group.events = [("event_0", ⟨exMomenta, some 0, some 0, some 0.5⟩)] ∨
      group.events = [("event_1", ⟨exMomenta, some 0, some 0, some 0.5⟩)] := by
    simp only [exKinFile, List.mem_cons, List.not_mem_nil, or_false, Prod.mk.injEq] at hc
    rcases hc with ⟨-, rfl⟩ | ⟨-, rfl⟩
    · exact .inl rfl
    · exact .inr rfl
  obtain rfl : d = ⟨exMomenta, some 0, some 0, some 0.5⟩ := by
    rcases hgroup with e | e <;>
    · rw [e] at hc'
      simp only [List.mem_cons, List.not_mem_nil, or_false, Prod.mk.injEq] at hc'
      exact hc'.2
  exact (Prod.mk.inj (Except.ok.inj h)).2.symm

/-- The example run, of two events in two files, with both vertices moved by seven time buckets. -/
example : ∃ final final',
    run_simulation ⟨fun _ _ => .ok exNucleus, exMovingSolver⟩ exRunConfig exKinFile (spyralWriter exArgsort) (some [2])
      exGen ⟨(), newWriter (fun _ => none) exRunConfig 1 7⟩ = (.ok (), final) ∧
    run_simulation ⟨fun _ _ => .ok exNucleus, exMovingSolver⟩ exRunConfig
      (moveVertices (-(((7 : ℤ) : ℝ) * exRunConfig.drift_velocity)) exKinFile) (spyralWriter exArgsort) (some [2])
      exGen ⟨(), newWriter (fun _ => none) exRunConfig 1 7⟩ = (.ok (), final') ∧
    final'.writer.disk = editDisk (movedRow 7 exRunConfig) final.writer.disk := by
  obtain ⟨final, hrun, -⟩ := exRun_complete (fun _ => none)
  have hrun' : run_simulation ⟨fun _ _ => .ok exNucleus, exMovingSolver⟩ exRunConfig exKinFile (spyralWriter exArgsort)
      (some [2]) exGen ⟨(), newWriter (fun _ => none) exRunConfig 1 7⟩ = (.ok (), final) := hrun
  obtain ⟨final', h1, -, h2, -⟩ := C156_files (k := 7) (env := ⟨fun _ _ => .ok exNucleus, exMovingSolver⟩)
    (config := exRunConfig) rfl exPlain (by norm_num [exRunConfig, exConfig]) rfl
    (by norm_num [exRunConfig, exConfig, exDet]) exGen_lawful (file := exKinFile) (indices := some [2]) (by
      intro zs as cs ev momenta vertex _ _ hread idx hidx z a n m _ _ _ _ _
      obtain rfl := exKinFile_vertex hread
      refine ⟨_, rfl, rfl, fun tr htr => ?_⟩
      have hz : tr.2.z = 0.5 := by
        simp only [trajectory_problem, List.mem_cons, List.not_mem_nil, or_false] at htr
        rcases htr with rfl | rfl <;> rfl
      rw [hz]
      norm_num [TimeInWindow, to_time_bucket, exRunConfig, exConfig, exDet, exElec, NUM_TB]) exArgsort_compares () exRunConfig 1 7 hrun'
  exact ⟨final, final', hrun', h1, h2⟩

end Verif.Detector
