import Verif.Props.Trigger
import Verif.Props.Readout

/-! # C158 for whole runs: both edges later, the files of the run -/

namespace Verif.Detector

open Verif.Spec Verif.Kinematics Verif.Props

/-! ## Directories with other rows -/

/-- A dataset with other rows. -/
def editDset (φ : SpyralRow → SpyralRow) : Dset → Dset
  | .cloud rows attrs => .cloud (rows.map φ) attrs
  | .labels ls => .labels ls

variable {φ : SpyralRow → SpyralRow}


/-- A file with other rows in its point clouds. -/
def editFile (φ : SpyralRow → SpyralRow) (h : H5File) : H5File :=
  { h with dsets := h.dsets.map fun nd => (nd.1, (editDset φ) nd.2) }

/-- A directory with other rows in its point clouds. -/
def editDisk (φ : SpyralRow → SpyralRow) (d : Disk) : Disk := fun file => (d file).map (editFile φ)

/-- The same operation on such a directory. -/
def editOp (φ : SpyralRow → SpyralRow) : DiskOp → DiskOp
  | .createDset file name ds => .createDset file name ((editDset φ) ds)
  | o => o

theorem editDisk_update (d : Disk) (file : String) (h : H5File) :
    (editDisk φ) (Function.update d file (some h)) = Function.update ((editDisk φ) d) file (some ((editFile φ) h)) := by
  funext f
  unfold editDisk
  by_cases hf : f = file
  · subst hf
    simp
  · simp [hf]

theorem onOpen_edit (d : Disk) (file : String) (f f' : H5File → Except PyErr H5File)
    (hf : ∀ h, f' ((editFile φ) h) = (f h).map (editFile φ)) :
    ((editDisk φ) d).onOpen file f' = (d.onOpen file f).map (editDisk φ) := by
  unfold Disk.onOpen
  rcases hd : d file with _ | h
  · simp [editDisk, hd, Except.map]
  · have : (editDisk φ) d file = some ((editFile φ) h) := by simp [editDisk, hd]
    rw [this]
    simp only
    have hc : ((editFile φ) h).closed = h.closed := rfl
    rw [hc]
    split_ifs with hcl
    · rfl
    · rw [hf]
      rcases f h with e | h'
      · rfl
      · simp only [Except.map]
        rw [editDisk_update]

theorem lookup_edit (l : List (String × Dset)) (name : String) :
    ((l.map fun nd => (nd.1, (editDset φ) nd.2)).lookup name).isSome = (l.lookup name).isSome := by
  induction l with
  | nil => rfl
  | cons nd l ih =>
    obtain ⟨k, ds⟩ := nd
    rw [List.map_cons, List.lookup_cons, List.lookup_cons]
    cases name == k
    · exact ih
    · rfl

theorem apply_edit (d : Disk) (o : DiskOp) :
    DiskOp.apply ((editDisk φ) d) ((editOp φ) o) = (DiskOp.apply d o).map (editDisk φ) := by
  cases o with
  | createFile file =>
    simp only [editOp, DiskOp.apply, Except.map]
    rw [editDisk_update]
    rfl
  | createGroup file =>
    simp only [editOp, DiskOp.apply]
    refine onOpen_edit d file _ _ fun h => ?_
    rfl
  | setMin file v =>
    simp only [editOp, DiskOp.apply]
    refine onOpen_edit d file _ _ fun h => ?_
    rfl
  | setMax file v =>
    simp only [editOp, DiskOp.apply]
    refine onOpen_edit d file _ _ fun h => ?_
    rfl
  | close file =>
    simp only [editOp, DiskOp.apply]
    rcases hd : d file with _ | h
    · simp [editDisk, hd, Except.map]
    · have : (editDisk φ) d file = some ((editFile φ) h) := by simp [editDisk, hd]
      rw [this]
      simp only [Except.map]
      rw [editDisk_update]
      rfl
  | createDset file name ds =>
    simp only [editOp, DiskOp.apply]
    refine onOpen_edit d file _ _ fun h => ?_
    have hl := lookup_edit (φ := φ) h.dsets name
    have hl' : (((editFile φ) h).dsets.lookup name).isSome = (h.dsets.lookup name).isSome := hl
    by_cases hs : (h.dsets.lookup name).isSome
    · rw [if_pos (by rw [hl', hs]), if_pos hs]
      rfl
    · rw [if_neg (by rw [hl']; exact hs), if_neg hs]
      simp [Except.map, editFile]
  | setAttr file name key v =>
    simp only [editOp, DiskOp.apply]
    refine onOpen_edit d file _ _ fun h => ?_
    simp only [editFile, Except.map, List.map_map]
    congr 2
    apply List.map_congr_left
    rintro ⟨k, ds⟩ -
    simp only [Function.comp]
    split_ifs
    · cases ds <;> rfl
    · rfl

/-- A writer with other rows in its files. -/
def editWriter (φ : SpyralRow → SpyralRow) (w : Writer) : Writer :=
  { w with disk := (editDisk φ) w.disk, trace := w.trace.map (editDisk φ) }

theorem op_edit (o : DiskOp) (w : Writer) :
    ((editWriter φ) w).op ((editOp φ) o) = ((w.op o).1, (editWriter φ) (w.op o).2) := by
  unfold Writer.op
  have h : DiskOp.apply ((editWriter φ) w).disk ((editOp φ) o) = (DiskOp.apply w.disk o).map (editDisk φ) :=
    apply_edit w.disk o
  rw [h]
  rcases DiskOp.apply w.disk o with e | d
  · rfl
  · rfl

theorem ops_edit (os : List DiskOp) (w : Writer) :
    ((editWriter φ) w).ops (os.map (editOp φ)) = ((w.ops os).1, (editWriter φ) (w.ops os).2) := by
  induction os generalizing w with
  | nil => rfl
  | cons o os ih =>
    rw [List.map_cons]
    unfold Writer.ops
    rw [op_edit]
    rcases h : w.op o with ⟨r, w1⟩
    rcases r with e | u
    · rfl
    · exact ih w1

theorem close_edit (w : Writer) : ((editWriter φ) w).close = (w.close.1, (editWriter φ) w.close.2) :=
  ops_edit [.setMin w.file w.starting_event, .setMax w.file w.last_event, .close w.file] w

theorem create_next_file_edit (w : Writer) :
    ((editWriter φ) w).create_next_file = (w.create_next_file.1, (editWriter φ) w.create_next_file.2) :=
  ops_edit [.createFile (run_name (w.run_number + 1)), .createGroup (run_name (w.run_number + 1))]
    { w with run_number := w.run_number + 1, file := run_name (w.run_number + 1) }

theorem rollover_edit (w : Writer) (event : ℤ) :
    ((editWriter φ) w).rollover event = ((w.rollover event).1, (editWriter φ) (w.rollover event).2) := by
  unfold Writer.rollover
  have h1 : ((editWriter φ) w).events_written = w.events_written := rfl
  have h2 : ((editWriter φ) w).max_events_per_file = w.max_events_per_file := rfl
  rw [h1, h2]
  split_ifs
  · rw [close_edit]
    rcases w.close with ⟨r, w1⟩
    rcases r with e | u
    · rfl
    · simp only
      rw [create_next_file_edit]
      rcases w1.create_next_file with ⟨r, w2⟩
      rcases r with e | u
      · rfl
      · rfl
  · rfl


theorem event_ops_edit (file : String) (run event : ℤ) (rows : List SpyralRow) (labels : List ℤ) :
    (event_ops file run event rows labels).map (editOp φ) = event_ops file run event (rows.map φ) labels := rfl

/-! ## Runs -/

section

variable {σ : Type} {k : ℤ} {grid : PadGrid} {g : GridEdges} {config : Config} {env : SimEnv}

/-- **C158.** One call of `write` with the delayed cloud. -/
theorem C158_write (k : ℤ) (argsort : Argsort) (data : List CloudPoint) (labels : List ℤ) (config : Config)
    (event : ℤ) (w : Writer) :
    (editWriter (laterRow k) w).write argsort (data.map (delayPoint k)) labels (laterConfig k config) event
      = ((w.write argsort data labels config event).1,
          editWriter (laterRow k) (w.write argsort data labels config event).2) := by
  unfold Writer.write
  rw [rollover_edit]
  rcases w.rollover event with ⟨r, w1⟩
  rcases r with e | u
  · rfl
  simp only
  have hresp : (editWriter (laterRow k) w1).response = w1.response := rfl
  rw [hresp, C158_stored]
  rcases format_event argsort w1.response data labels config with e | ⟨rows, ls⟩
  · rfl
  · simp only [Except.map]
    have h1 : (editWriter (laterRow k) w1).file = w1.file := rfl
    have h2 : (editWriter (laterRow k) w1).run_number = w1.run_number := rfl
    rw [h1, h2, ← event_ops_edit w1.file w1.run_number event rows ls, ops_edit]
    rcases w1.ops (event_ops w1.file w1.run_number event rows ls) with ⟨r, w2⟩
    rcases r with e | u
    · rfl
    · rfl

/-- The state of a run with other rows in its files. -/
def editState (φ : SpyralRow → SpyralRow) (st : RunState σ Writer) : RunState σ Writer :=
  ⟨st.gen, editWriter φ st.writer⟩

theorem run_events_later (hgrid : config.pad_grid = some (grid, g)) (hg : PlainGrid grid g)
    (hD : config.det_params.diffusion = 0) (hE : config.det_params.efield ≠ 0) {rng : Gen σ} (hr : LawfulGen rng)
    {file : KinFile (List Vec4)} {zs as : List ℤ} {cs : ℕ} {indices : List ℤ}
    (hev : ∀ ev momenta vertex, read_event file cs ev = .ok (momenta, vertex) →
      ArriveInWindow env config k momenta vertex zs as indices)
    (argsort : Argsort) (n : ℕ) : ∀ (start : ℕ) (s : σ) (w : Writer),
    run_events env (laterConfig k config) file zs as cs indices rng (spyralWriter argsort) n start
        ⟨s, editWriter (laterRow k) w⟩
      = ((run_events env config file zs as cs indices rng (spyralWriter argsort) n start ⟨s, w⟩).1,
        editState (laterRow k) (run_events env config file zs as cs indices rng (spyralWriter argsort) n start ⟨s, w⟩).2) := by
  induction n with
  | zero =>
    intro start s w
    rfl
  | succ n ih =>
    intro start s w
    unfold run_events run_event
    simp only
    rcases hread : read_event file cs start with e | ⟨momenta, vertex⟩
    · rfl
    simp only
    rw [C158_cloud hgrid hg hD hE hr (hev start momenta vertex hread) s]
    rcases simulate env momenta vertex zs as config rng indices s with e | ⟨⟨cloud, labels⟩, s1⟩
    · rfl
    simp only [Except.map, List.length_map]
    by_cases hc : cloud.length = 0
    · rw [if_pos hc, if_pos hc]
      exact ih (start + 1) s1 w
    · rw [if_neg hc, if_neg hc]
      simp only [spyralWriter]
      rw [C158_write]
      rcases w.write argsort cloud labels config (start : ℤ) with ⟨r, w1⟩
      rcases r with e | u
      · rfl
      · exact ih (start + 1) s1 w1

/-- **C158.** A whole run with both edges `k` buckets later, without diffusion and with all tracks inside the recorded
time buckets, ends like the original run, after the same random numbers, and leaves at every moment the same files
except that all times are `k` larger. -/
theorem C158_run (hgrid : config.pad_grid = some (grid, g)) (hg : PlainGrid grid g)
    (hD : config.det_params.diffusion = 0) (hE : config.det_params.efield ≠ 0) {rng : Gen σ} (hr : LawfulGen rng)
    {file : KinFile (List Vec4)} {indices : Option (List ℤ)}
    (hev : ∀ zs as cs ev momenta vertex, file.proton_numbers = some zs → file.mass_numbers = some as →
      read_event file cs ev = .ok (momenta, vertex) →
      ArriveInWindow env config k momenta vertex zs as (indices.getD (default_indices zs.length)))
    (argsort : Argsort) (s : σ) (w : Writer) :
    run_simulation env (laterConfig k config) file (spyralWriter argsort) indices rng ⟨s, editWriter (laterRow k) w⟩
      = ((run_simulation env config file (spyralWriter argsort) indices rng ⟨s, w⟩).1,
        editState (laterRow k) (run_simulation env config file (spyralWriter argsort) indices rng ⟨s, w⟩).2) := by
  rcases attrs_or_missing file with hmiss | ⟨zs, as, n, cs, nc, a1, a2, a3, a4, a5⟩
  · rw [run_simulation_missing _ _ _ _ _ _ _ hmiss, run_simulation_missing _ _ _ _ _ _ _ hmiss]
    rfl
  · rw [run_simulation_eq _ _ _ _ _ _ _ a1 a2 a3 a4 a5, run_simulation_eq _ _ _ _ _ _ _ a1 a2 a3 a4 a5,
      run_events_later hgrid hg hD hE hr (hev zs as cs · · · a1 a2) argsort]
    rcases run_events env config file zs as cs (indices.getD (default_indices zs.length)) rng (spyralWriter argsort)
      n.toNat 0 ⟨s, w⟩ with ⟨r, st⟩
    rcases r with e | u
    · rfl
    · simp only [editState, spyralWriter]
      rw [close_edit]

/-- **C158.** The writers at the start of both runs; the directory may hold earlier files. -/
theorem C158_start (k : ℤ) (disk0 : Disk) (wconfig : Config) (m first : ℤ) :
    newWriter (editDisk (laterRow k) disk0) (laterConfig k wconfig) m first
      = editWriter (laterRow k) (newWriter disk0 wconfig m first) := by
  rw [newWriter_bare, newWriter_bare, C158_response]
  generalize get_response wconfig = r
  have h := ops_edit (φ := laterRow k) [.createFile (run_name first), .createGroup (run_name first)]
    (bareWriter r disk0 m first)
  exact congrArg Prod.snd h

/-- **C158.** The files a whole run leaves in an empty directory. -/
theorem C158_files (hgrid : config.pad_grid = some (grid, g)) (hg : PlainGrid grid g)
    (hD : config.det_params.diffusion = 0) (hE : config.det_params.efield ≠ 0) {rng : Gen σ} (hr : LawfulGen rng)
    {file : KinFile (List Vec4)} {indices : Option (List ℤ)}
    (hev : ∀ zs as cs ev momenta vertex, file.proton_numbers = some zs → file.mass_numbers = some as →
      read_event file cs ev = .ok (momenta, vertex) →
      ArriveInWindow env config k momenta vertex zs as (indices.getD (default_indices zs.length)))
    (argsort : Argsort) (s : σ) (m first : ℤ) {res : Except PyErr Unit} {final : RunState σ Writer}
    (hrun : run_simulation env config file (spyralWriter argsort) indices rng
      ⟨s, newWriter (fun _ => none) config m first⟩ = (res, final)) :
    ∃ final', run_simulation env (laterConfig k config) file (spyralWriter argsort) indices rng
        ⟨s, newWriter (fun _ => none) (laterConfig k config) m first⟩ = (res, final') ∧
      final'.gen = final.gen ∧ final'.writer.disk = editDisk (laterRow k) final.writer.disk ∧
      final'.writer.trace = final.writer.trace.map (editDisk (laterRow k)) := by
  refine ⟨editState (laterRow k) final, ?_, rfl, rfl, rfl⟩
  rw [show newWriter (fun _ => none) (laterConfig k config) m first
      = editWriter (laterRow k) (newWriter (fun _ => none) config m first) from C158_start k (fun _ => none) config m first,
    C158_run hgrid hg hD hE hr hev argsort, hrun]

end

/-- The example run, of two events in two files, with both edges twenty buckets later. -/
example : ∃ final final',
    run_simulation exEnv exRunConfig exKinFile (spyralWriter exArgsort) (some [2]) exGen
      ⟨(), newWriter (fun _ => none) exRunConfig 1 7⟩ = (.ok (), final) ∧
    run_simulation exEnv (laterConfig 20 exRunConfig) exKinFile (spyralWriter exArgsort) (some [2]) exGen
      ⟨(), newWriter (fun _ => none) (laterConfig 20 exRunConfig) 1 7⟩ = (.ok (), final') ∧
    final'.writer.disk = editDisk (laterRow 20) final.writer.disk := by
  obtain ⟨final, hrun, -⟩ := exRun_complete (fun _ => none)
  obtain ⟨final', h1, -, h2, -⟩ := C158_files (k := 20) (env := exEnv) (config := exRunConfig) rfl exPlain rfl
    (by norm_num [exRunConfig, exConfig, exDet]) exGen_lawful (file := exKinFile) (indices := some [2]) (by
      intro zs as cs ev momenta vertex _ _ _ idx hidx z a n m _ _ _ _ _ track htr r hr
      obtain rfl : [exTrack0, exTrack1] = track := Except.ok.inj htr
      have hz : r.z = 0.5 := by
        simp only [List.mem_cons, List.not_mem_nil, or_false] at hr
        rcases hr with rfl | rfl <;> rfl
      rw [hz]
      norm_num [TimeInWindow, to_time_bucket, exRunConfig, exConfig, exDet, exElec, NUM_TB]) exArgsort () 1 7 hrun
  exact ⟨final, final', hrun, h1, h2⟩

end Verif.Detector
