import Verif.Props.RunFiles

/-! # C117: the electronics settings influence the contents of the stored events, nothing else -/

namespace Verif.Detector

open Verif.Spec Verif.Kinematics Verif.Props

/-- Two configurations that differ in clock, amplifier gain, shaping time and threshold only. -/
structure SameChamber (config config' : Config) : Prop where
  det_params : config.det_params = config'.det_params
  pad_grid : config.pad_grid = config'.pad_grid
  pad_centers : config.pad_centers = config'.pad_centers
  pad_sizes : config.pad_sizes = config'.pad_sizes
  drift_velocity : config.drift_velocity = config'.drift_velocity
  micromegas_edge : config.elec_params.micromegas_edge = config'.elec_params.micromegas_edge
  windows_edge : config.elec_params.windows_edge = config'.elec_params.windows_edge

/-- C117: the point cloud of an event does not depend on these settings. -/
theorem C117_cloud {σ : Type} {config config' : Config} (h : SameChamber config config')
    (env : SimEnv) (momenta : List Vec4) (vertex : ℝ × ℝ × ℝ) (Zs As : List ℤ) (rng : Gen σ) :
    simulate env momenta vertex Zs As config rng = simulate env momenta vertex Zs As config' rng := by
  have h1 : generate_point_cloud (σ := σ) env.solve_ivp = fun momentum vertex nucleus config rng =>
    generate_point_cloud env.solve_ivp momentum vertex nucleus config rng := rfl
  have key : ∀ momentum nucleus points label s,
      generate_point_cloud env.solve_ivp momentum vertex nucleus config rng points label s
        = generate_point_cloud env.solve_ivp momentum vertex nucleus config' rng points label s := by
    intro momentum nucleus points label s
    unfold generate_point_cloud to_time_bucket
    simp only [h.det_params, h.pad_grid, h.drift_velocity, h.micromegas_edge]
  have hn : simulate_nucleus env momenta vertex Zs As config rng
      = simulate_nucleus env momenta vertex Zs As config' rng := by
    funext ps idx
    unfold simulate_nucleus
    simp only [key]
  funext indices s
  unfold simulate
  rw [hn]

/-! ## The directory without the contents of the datasets -/

/-- A dataset without its rows. -/
def shapeDset : Dset → Dset
  | .cloud _ attrs => .cloud [] attrs
  | .labels _ => .labels []

/-- A file without the contents of its datasets: their names and attributes, and the range of events. -/
def shapeFile (h : H5File) : H5File :=
  { h with dsets := h.dsets.map fun nd => (nd.1, shapeDset nd.2) }

/-- A directory without the contents of the datasets. -/
def shapeDisk (d : Disk) : Disk := fun file => (d file).map shapeFile

/-- The same operation on such a directory. -/
def shapeOp : DiskOp → DiskOp
  | .createDset file name ds => .createDset file name (shapeDset ds)
  | o => o

theorem shapeDisk_update (d : Disk) (file : String) (h : H5File) :
    shapeDisk (Function.update d file (some h)) = Function.update (shapeDisk d) file (some (shapeFile h)) := by
  funext f
  unfold shapeDisk
  by_cases hf : f = file
  · subst hf
    simp
  · simp [hf]

theorem onOpen_shape (d : Disk) (file : String) (f f' : H5File → Except PyErr H5File)
    (hf : ∀ h, f' (shapeFile h) = (f h).map shapeFile) :
    (shapeDisk d).onOpen file f' = (d.onOpen file f).map shapeDisk := by
  unfold Disk.onOpen
  rcases hd : d file with _ | h
  · simp [shapeDisk, hd, Except.map]
  · have : shapeDisk d file = some (shapeFile h) := by simp [shapeDisk, hd]
    rw [this]
    simp only
    have hc : (shapeFile h).closed = h.closed := rfl
    rw [hc]
    split_ifs with hcl
    · rfl
    · rw [hf]
      rcases f h with e | h'
      · rfl
      · simp only [Except.map]
        rw [shapeDisk_update]

theorem lookup_shape (l : List (String × Dset)) (name : String) :
    ((l.map fun nd => (nd.1, shapeDset nd.2)).lookup name).isSome = (l.lookup name).isSome := by
  induction l with
  | nil => rfl
  | cons nd l ih =>
    obtain ⟨k, ds⟩ := nd
    rw [List.map_cons, List.lookup_cons, List.lookup_cons]
    cases name == k
    · exact ih
    · rfl

theorem apply_shape (d : Disk) (o : DiskOp) :
    DiskOp.apply (shapeDisk d) (shapeOp o) = (DiskOp.apply d o).map shapeDisk := by
  cases o with
  | createFile file =>
    simp only [shapeOp, DiskOp.apply, Except.map]
    rw [shapeDisk_update]
    rfl
  | createGroup file =>
    simp only [shapeOp, DiskOp.apply]
    refine onOpen_shape d file _ _ fun h => ?_
    rfl
  | setMin file v =>
    simp only [shapeOp, DiskOp.apply]
    refine onOpen_shape d file _ _ fun h => ?_
    rfl
  | setMax file v =>
    simp only [shapeOp, DiskOp.apply]
    refine onOpen_shape d file _ _ fun h => ?_
    rfl
  | close file =>
    simp only [shapeOp, DiskOp.apply]
    rcases hd : d file with _ | h
    · simp [shapeDisk, hd, Except.map]
    · have : shapeDisk d file = some (shapeFile h) := by simp [shapeDisk, hd]
      rw [this]
      simp only [Except.map]
      rw [shapeDisk_update]
      rfl
  | createDset file name ds =>
    simp only [shapeOp, DiskOp.apply]
    refine onOpen_shape d file _ _ fun h => ?_
    have hl := lookup_shape h.dsets name
    have hl' : ((shapeFile h).dsets.lookup name).isSome = (h.dsets.lookup name).isSome := hl
    by_cases hs : (h.dsets.lookup name).isSome
    · rw [if_pos (by rw [hl', hs]), if_pos hs]
      rfl
    · rw [if_neg (by rw [hl']; exact hs), if_neg hs]
      simp [Except.map, shapeFile]
  | setAttr file name key v =>
    simp only [shapeOp, DiskOp.apply]
    refine onOpen_shape d file _ _ fun h => ?_
    simp only [shapeFile, Except.map, List.map_map]
    congr 2
    apply List.map_congr_left
    rintro ⟨k, ds⟩ -
    simp only [Function.comp]
    split_ifs
    · cases ds <;> rfl
    · rfl

/-- A writer without the contents of the datasets and without its response. -/
def shapeWriter (w : Writer) : Writer :=
  { w with response := [], disk := shapeDisk w.disk, trace := w.trace.map shapeDisk }

theorem op_shape (o : DiskOp) (w : Writer) :
    (shapeWriter w).op (shapeOp o) = ((w.op o).1, shapeWriter (w.op o).2) := by
  unfold Writer.op
  have h : DiskOp.apply (shapeWriter w).disk (shapeOp o) = (DiskOp.apply w.disk o).map shapeDisk :=
    apply_shape w.disk o
  rw [h]
  rcases DiskOp.apply w.disk o with e | d
  · rfl
  · rfl

theorem ops_shape (os : List DiskOp) (w : Writer) :
    (shapeWriter w).ops (os.map shapeOp) = ((w.ops os).1, shapeWriter (w.ops os).2) := by
  induction os generalizing w with
  | nil => rfl
  | cons o os ih =>
    rw [List.map_cons]
    unfold Writer.ops
    rw [op_shape]
    rcases h : w.op o with ⟨r, w1⟩
    rcases r with e | u
    · rfl
    · exact ih w1

theorem close_shape (w : Writer) : (shapeWriter w).close = (w.close.1, shapeWriter w.close.2) :=
  ops_shape [.setMin w.file w.starting_event, .setMax w.file w.last_event, .close w.file] w

theorem create_next_file_shape (w : Writer) :
    (shapeWriter w).create_next_file = (w.create_next_file.1, shapeWriter w.create_next_file.2) :=
  ops_shape [.createFile (run_name (w.run_number + 1)), .createGroup (run_name (w.run_number + 1))]
    { w with run_number := w.run_number + 1, file := run_name (w.run_number + 1) }

theorem rollover_shape (w : Writer) (event : ℤ) :
    (shapeWriter w).rollover event = ((w.rollover event).1, shapeWriter (w.rollover event).2) := by
  unfold Writer.rollover
  have h1 : (shapeWriter w).events_written = w.events_written := rfl
  have h2 : (shapeWriter w).max_events_per_file = w.max_events_per_file := rfl
  rw [h1, h2]
  split_ifs
  · rw [close_shape]
    rcases w.close with ⟨r, w1⟩
    rcases r with e | u
    · rfl
    · simp only
      rw [create_next_file_shape]
      rcases w1.create_next_file with ⟨r, w2⟩
      rcases r with e | u
      · rfl
      · rfl
  · rfl

/-- What `write` does to a writer without contents, depending on whether the cloud can be formatted. -/
noncomputable def writeShape (status : Except PyErr Unit) (event : ℤ) (w : Writer) :
    Except PyErr Unit × Writer :=
  match w.rollover event with
  | (.error e, w) => (.error e, w)
  | (.ok _, w) =>
    match status with
    | .error e => (.error e, w)
    | .ok _ =>
      match w.ops (event_ops w.file w.run_number event [] []) with
      | (.error e, w) => (.error e, w)
      | (.ok _, w) => (.ok (), { w with last_event := event, events_written := w.events_written + 1 })

theorem event_ops_shape (file : String) (run event : ℤ) (rows : List SpyralRow) (labels : List ℤ) :
    (event_ops file run event rows labels).map shapeOp = event_ops file run event [] [] := rfl

theorem rollover_response (w : Writer) (event : ℤ) : (w.rollover event).2.response = w.response := by
  have hops : ∀ (os : List DiskOp) (w : Writer), (w.ops os).2.response = w.response := by
    intro os
    induction os with
    | nil => intro w; rfl
    | cons o os ih =>
      intro w
      unfold Writer.ops
      have ho : (w.op o).2.response = w.response := by
        unfold Writer.op
        split <;> rfl
      rcases h : w.op o with ⟨r, w1⟩
      rw [h] at ho
      rcases r with e | u
      · exact ho
      · exact (ih w1).trans ho
  unfold Writer.rollover
  split_ifs
  · have h1 : w.close.2.response = w.response := hops _ _
    rcases hc : w.close with ⟨r, w1⟩
    rw [hc] at h1
    rcases r with e | u
    · exact h1
    · simp only
      have h2 : w1.create_next_file.2.response = w1.response := hops _ _
      rcases hn : w1.create_next_file with ⟨r, w2⟩
      rw [hn] at h2
      rcases r with e | u
      · exact h2.trans h1
      · exact h2.trans h1
  · rfl

theorem write_shape (argsort : Argsort) (data : List CloudPoint) (labels : List ℤ) (config : Config)
    (event : ℤ) (w : Writer) :
    writeShape ((format_event argsort w.response data labels config).map fun _ => ()) event (shapeWriter w)
      = ((w.write argsort data labels config event).1,
          shapeWriter (w.write argsort data labels config event).2) := by
  unfold writeShape Writer.write
  rw [rollover_shape]
  have hresp := rollover_response w event
  rcases hro : w.rollover event with ⟨r, w1⟩
  rw [hro] at hresp
  rcases r with e | u
  · rfl
  simp only at hresp ⊢
  rw [hresp]
  rcases format_event argsort w.response data labels config with e | ⟨rows, ls⟩
  · rfl
  · simp only [Except.map]
    have h1 : (shapeWriter w1).file = w1.file := rfl
    have h2 : (shapeWriter w1).run_number = w1.run_number := rfl
    rw [h1, h2, ← event_ops_shape w1.file w1.run_number event rows ls, ops_shape]
    rcases w1.ops (event_ops w1.file w1.run_number event rows ls) with ⟨r, w2⟩
    rcases r with e | u
    · rfl
    · rfl

/-- Whether a point can be converted does not depend on the response. -/
theorem convert_point_status (we mm : ℤ) (length : ℝ) (response response' : List ℝ)
    (centers : List (ℝ × ℝ)) (sizes : List ℝ) (p : CloudPoint) :
    (convert_point we mm length response centers sizes p).map (fun _ => ())
      = (convert_point we mm length response' centers sizes p).map fun _ => () := by
  unfold convert_point
  rcases numbaGet centers (pyInt p.pad) with e | pad
  · rfl
  · simp only [bind, Except.bind]
    split_ifs
    · rfl
    · rcases numbaGet sizes (pyInt p.pad) with e | size <;> rfl

theorem mapM_status {α β : Type} {f f' : α → Except PyErr β}
    (h : ∀ a, (f a).map (fun _ => ()) = (f' a).map fun _ => ()) (l : List α) :
    (l.mapM f).map (fun _ => ()) = (l.mapM f').map fun _ => () := by
  induction l with
  | nil => rfl
  | cons a l ih =>
    rw [List.mapM_cons, List.mapM_cons]
    have ha := h a
    rcases h1 : f a with e | b <;> rcases h2 : f' a with e' | b' <;> rw [h1, h2] at ha
    · have he : e = e' := by simpa [Except.map] using ha
      subst he
      rfl
    · simp [Except.map] at ha
    · simp [Except.map] at ha
    · simp only [bind, Except.bind]
      rcases h3 : l.mapM f with e | bs <;> rcases h4 : l.mapM f' with e' | bs' <;> rw [h3, h4] at ih
      · simpa [Except.map] using ih
      · simp [Except.map] at ih
      · simp [Except.map] at ih
      · rfl

/-- Whether an event can be formatted does not depend on the electronics settings. -/
theorem format_status {config config' : Config} (h : SameChamber config config')
    (argsort argsort' : Argsort) (response response' : List ℝ) (data : List CloudPoint)
    (labels : List ℤ) :
    (format_event argsort response data labels config).map (fun _ => ())
      = (format_event argsort' response' data labels config').map fun _ => () := by
  unfold format_event
  rw [h.pad_centers, h.pad_sizes, h.windows_edge, h.micromegas_edge, h.det_params]
  rcases config'.pad_centers with _ | centers
  · rfl
  · simp only
    have := mapM_status (convert_point_status config'.elec_params.windows_edge
      config'.elec_params.micromegas_edge config'.det_params.length response response' centers
      config'.pad_sizes) data
    unfold convert_to_spyral
    rcases h1 : data.mapM (convert_point config'.elec_params.windows_edge
      config'.elec_params.micromegas_edge config'.det_params.length response centers
      config'.pad_sizes) with e | rows <;>
    rcases h2 : data.mapM (convert_point config'.elec_params.windows_edge
      config'.elec_params.micromegas_edge config'.det_params.length response' centers
      config'.pad_sizes) with e' | rows' <;> rw [h1, h2] at this
    · simpa [Except.map] using this
    · simp [Except.map] at this
    · simp [Except.map] at this
    · rfl

/-- One call of `write` with different electronics settings: the same result, and writers that differ in
contents of datasets only. -/
theorem write_alike {config config' : Config} (h : SameChamber config config')
    (argsort argsort' : Argsort) (data : List CloudPoint) (labels : List ℤ) (event : ℤ) {w w' : Writer}
    (hw : shapeWriter w = shapeWriter w') :
    (w.write argsort data labels config event).1 = (w'.write argsort' data labels config' event).1 ∧
    shapeWriter (w.write argsort data labels config event).2
      = shapeWriter (w'.write argsort' data labels config' event).2 := by
  have h1 := write_shape argsort data labels config event w
  have h2 := write_shape argsort' data labels config' event w'
  rw [format_status h argsort argsort' w.response w'.response, hw, h2] at h1
  exact ⟨(congrArg Prod.fst h1).symm, (congrArg Prod.snd h1).symm⟩

theorem run_events_alike {σ : Type} {config config' : Config} (h : SameChamber config config')
    (env : SimEnv) (file : KinFile (List Vec4)) (zs as : List ℤ) (cs : ℕ) (indices : List ℤ) (rng : Gen σ)
    (argsort argsort' : Argsort) (n : ℕ) : ∀ (start : ℕ) (s : σ) (w w' : Writer),
    shapeWriter w = shapeWriter w' → ∀ q q',
    run_events env config file zs as cs indices rng (spyralWriter argsort) n start ⟨s, w⟩ = q →
    run_events env config' file zs as cs indices rng (spyralWriter argsort') n start ⟨s, w'⟩ = q' →
    q.1 = q'.1 ∧ q.2.gen = q'.2.gen ∧ shapeWriter q.2.writer = shapeWriter q'.2.writer := by
  induction n with
  | zero =>
    rintro start s w w' hw q q' rfl rfl
    exact ⟨rfl, rfl, hw⟩
  | succ n ih =>
    rintro start s w w' hw q q' hq hq'
    unfold run_events run_event at hq hq'
    simp only at hq hq'
    rcases hread : read_event file cs start with e | ⟨momenta, vertex⟩
    · rw [hread] at hq hq'
      subst hq hq'
      exact ⟨rfl, rfl, hw⟩
    rw [hread] at hq hq'
    simp only at hq hq'
    rw [← C117_cloud h] at hq'
    rcases hsim : simulate env momenta vertex zs as config rng indices s with e | ⟨⟨cloud, labels⟩, s1⟩
    · rw [hsim] at hq hq'
      subst hq hq'
      exact ⟨rfl, rfl, hw⟩
    rw [hsim] at hq hq'
    simp only at hq hq'
    by_cases hc : cloud.length = 0
    · rw [if_pos hc] at hq hq'
      exact ih (start + 1) s1 w w' hw q q' hq hq'
    · rw [if_neg hc] at hq hq'
      obtain ⟨h1, h2⟩ := write_alike h argsort argsort' cloud labels (start : ℤ) hw
      simp only [spyralWriter] at hq hq'
      rcases hw1 : w.write argsort cloud labels config (start : ℤ) with ⟨r, w1⟩
      rcases hw2 : w'.write argsort' cloud labels config' (start : ℤ) with ⟨r', w2⟩
      rw [hw1] at h1 h2 hq
      rw [hw2] at h1 h2 hq'
      simp only at h1 h2 hq hq'
      subst h1
      rcases r with e | u
      · subst hq hq'
        exact ⟨rfl, rfl, h2⟩
      · exact ih (start + 1) s1 w1 w2 h2 q q' hq hq'

/-- The writer of a new output directory, before its first operation. -/
def bareWriter (response : List ℝ) (disk0 : Disk) (m first : ℤ) : Writer :=
  { response := response, max_events_per_file := m, run_number := first, starting_event := 0
    last_event := 0, events_written := 0, file := run_name first, disk := disk0, trace := [disk0] }

theorem bareWriter_shape (response response' : List ℝ) (disk0 : Disk) (m first : ℤ) :
    shapeWriter (bareWriter response disk0 m first) = shapeWriter (bareWriter response' disk0 m first) := rfl

theorem newWriter_bare (disk0 : Disk) (wconfig : Config) (m first : ℤ) :
    newWriter disk0 wconfig m first = ((bareWriter (get_response wconfig) disk0 m first).ops
      [.createFile (run_name first), .createGroup (run_name first)]).2 := rfl

theorem init_alike (disk0 : Disk) (wconfig wconfig' : Config) (m first : ℤ) :
    shapeWriter (newWriter disk0 wconfig m first) = shapeWriter (newWriter disk0 wconfig' m first) := by
  rw [newWriter_bare, newWriter_bare]
  generalize get_response wconfig = r
  generalize get_response wconfig' = r'
  have h1 := ops_shape [.createFile (run_name first), .createGroup (run_name first)] (bareWriter r disk0 m first)
  have h2 := ops_shape [.createFile (run_name first), .createGroup (run_name first)] (bareWriter r' disk0 m first)
  rw [bareWriter_shape r r', h2] at h1
  exact (congrArg Prod.snd h1).symm

/-- **C117.** Two runs on the same kinematics, in the same chamber and with the same random numbers, but
with different clock, amplifier gain, shaping time and threshold (and different orders of ties), end in
the same way: the same exception or none, the same random numbers consumed, and at every moment the same
files with the same datasets, attributes and ranges of events. Only the contents of the datasets may
differ. -/
theorem C117_outcome {σ : Type} {config config' : Config} (h : SameChamber config config')
    (wconfig wconfig' : Config) (env : SimEnv) (file : KinFile (List Vec4)) (indices : Option (List ℤ))
    (rng : Gen σ) (argsort argsort' : Argsort) (disk0 : Disk) (m first : ℤ) (s : σ)
    (res res' : Except PyErr Unit) (final final' : RunState σ Writer)
    (hrun : run_simulation env config file (spyralWriter argsort) indices rng
      ⟨s, newWriter disk0 wconfig m first⟩ = (res, final))
    (hrun' : run_simulation env config' file (spyralWriter argsort') indices rng
      ⟨s, newWriter disk0 wconfig' m first⟩ = (res', final')) :
    res = res' ∧ final.gen = final'.gen ∧ shapeDisk final.writer.disk = shapeDisk final'.writer.disk ∧
      final.writer.trace.map shapeDisk = final'.writer.trace.map shapeDisk := by
  have hw := init_alike disk0 wconfig wconfig' m first
  have main : res = res' ∧ final.gen = final'.gen ∧
      shapeWriter final.writer = shapeWriter final'.writer := by
    rcases attrs_or_missing file with hmiss | ⟨zs, as, n, cs, nc, a1, a2, a3, a4, a5⟩
    · rw [run_simulation_missing _ _ _ _ _ _ _ hmiss] at hrun hrun'
      obtain ⟨rfl, rfl⟩ := Prod.mk.inj hrun
      obtain ⟨rfl, rfl⟩ := Prod.mk.inj hrun'
      exact ⟨rfl, rfl, hw⟩
    · rw [run_simulation_eq _ _ _ _ _ _ _ a1 a2 a3 a4 a5] at hrun hrun'
      generalize indices.getD (default_indices zs.length) = idx at hrun hrun'
      rcases hq : run_events env config file zs as cs idx rng (spyralWriter argsort) n.toNat 0
        ⟨s, newWriter disk0 wconfig m first⟩ with ⟨r, st⟩
      rcases hq' : run_events env config' file zs as cs idx rng (spyralWriter argsort') n.toNat 0
        ⟨s, newWriter disk0 wconfig' m first⟩ with ⟨r', st'⟩
      obtain ⟨h1, h2, h3⟩ := run_events_alike h env file zs as cs idx rng argsort argsort' n.toNat 0 s _ _
        hw _ _ hq hq'
      rw [hq] at hrun
      rw [hq'] at hrun'
      simp only at h1 h2 h3
      subst h1
      rcases r with e | u
      · obtain ⟨rfl, rfl⟩ := Prod.mk.inj hrun
        obtain ⟨rfl, rfl⟩ := Prod.mk.inj hrun'
        exact ⟨rfl, h2, h3⟩
      · simp only [spyralWriter] at hrun hrun'
        have c1 := close_shape st.writer
        have c2 := close_shape st'.writer
        rw [h3, c2] at c1
        obtain ⟨d1, d2⟩ := Prod.mk.inj c1
        obtain ⟨rfl, rfl⟩ := Prod.mk.inj hrun
        obtain ⟨rfl, rfl⟩ := Prod.mk.inj hrun'
        exact ⟨d1.symm, h2, d2.symm⟩
  exact ⟨main.1, main.2.1, congrArg Writer.disk main.2.2, congrArg Writer.trace main.2.2⟩

theorem simulated_unique {σ : Type} {env : SimEnv} {config : Config} {file : KinFile (List Vec4)}
    {zs as : List ℤ} {cs : ℕ} {indices : List ℤ} {rng : Gen σ} {k : ℕ} {s s' s'' : σ}
    {evs evs' : List EventOut} (h : Simulated env config file zs as cs indices rng k s evs s')
    (h' : Simulated env config file zs as cs indices rng k s evs' s'') (hl : evs.length = evs'.length) :
    evs = evs' := by
  induction h generalizing evs' with
  | nil k s =>
    cases h' with
    | nil => rfl
    | cons => simp at hl
  | cons hread hsim _ ih =>
    cases h' with
    | nil => simp at hl
    | cons hread' hsim' hrest' =>
      rw [hread] at hread'
      obtain ⟨rfl, rfl⟩ := Prod.mk.inj (Except.ok.inj hread')
      rw [hsim] at hsim'
      obtain ⟨h1, rfl⟩ := Prod.mk.inj (Except.ok.inj hsim')
      obtain ⟨rfl, rfl⟩ := Prod.mk.inj h1
      rw [ih hrest' (by simpa using hl)]

theorem simulated_alike {σ : Type} {env : SimEnv} {config config' : Config}
    (h : SameChamber config config') {file : KinFile (List Vec4)}
    {zs as : List ℤ} {cs : ℕ} {indices : List ℤ} {rng : Gen σ} {k : ℕ} {s s' : σ}
    {evs : List EventOut} (hs : Simulated env config file zs as cs indices rng k s evs s') :
    Simulated env config' file zs as cs indices rng k s evs s' := by
  induction hs with
  | nil k s => exact .nil k s
  | cons hread hsim _ ih =>
    rw [C117_cloud h] at hsim
    exact .cons hread hsim ih

/-- The row of a point is determined by the point. -/
theorem row_unique {config : Config} {centers : List (ℝ × ℝ)} {response : List ℝ} {p : CloudPoint}
    {r r' : SpyralRow} (h : RowOf config centers response p r) (h' : RowOf config centers response p r') :
    r = r' := by
  obtain ⟨n, hn, h1, h2⟩ := h.pad_ok
  obtain ⟨n', hn', h1', h2'⟩ := h'.pad_ok
  have : n = n' := by
    rw [hn] at hn'
    exact_mod_cast hn'
  subst this
  rw [h1] at h1'
  rw [h2] at h2'
  have e1 := Prod.mk.inj (Option.some.inj h1')
  have e2 := Option.some.inj h2'
  have e3 := Prod.mk.inj (h.signal.trans h'.signal.symm)
  have e4 := h.height.trans h'.height.symm
  have e5 := h.pad.trans h'.pad.symm
  have e6 := h.tb.trans h'.tb.symm
  cases r
  cases r'
  simp only at *
  simp only [SpyralRow.mk.injEq]
  exact ⟨e1.1, e1.2, e4, e3.1, e3.2, e5, e6, e2⟩

theorem rows_unique {config : Config} {centers : List (ℝ × ℝ)} {response : List ℝ} {ps : List CloudPoint}
    {rs rs' : List SpyralRow} (h : List.Forall₂ (RowOf config centers response) ps rs)
    (h' : List.Forall₂ (RowOf config centers response) ps rs') : rs = rs' := by
  induction h generalizing rs' with
  | nil => cases h'; rfl
  | cons h1 _ ih =>
    cases h' with
    | cons h2 h3 => rw [row_unique h1 h2, ih h3]

/-- A configuration with another threshold. -/
def withThreshold (config : Config) (threshold : ℤ) : Config :=
  { config with elec_params := { config.elec_params with adc_threshold := threshold } }

/-- The event `b` is what is left of the event `a` at a higher threshold. -/
structure Cut (threshold : ℤ) (a b : Stored) : Prop where
  event : b.event = a.event
  aligned : b.rows.length = b.labels.length
  rows : (b.rows.zip b.labels).Perm
    ((a.rows.zip a.labels).filter fun rl => decide ((threshold : ℝ) < rl.1.amp))
  sorted : b.rows.Pairwise fun x y => x.z ≤ y.z

theorem cut_of_stored {config : Config} {response : List ℝ} {t : ℤ}
    (ht : config.elec_params.adc_threshold ≤ t) {ev : EventOut} {a b : Stored}
    (ha : StoredCompletely config response ev a)
    (hb : StoredCompletely (withThreshold config t) response ev b) : Cut t a b := by
  obtain ⟨centers, conv, hc, hrows, hla, hperm, -⟩ := ha.content
  obtain ⟨centers', conv', hc', hrows', hlb, hperm', hsort⟩ := hb.content
  have : centers = centers' := Option.some.inj (hc.symm.trans hc')
  subst this
  have hconv : conv = conv' := by
    refine rows_unique hrows ?_
    exact hrows'.imp fun p r h => ⟨h.pad_ok, h.height, h.signal, h.pad, h.tb⟩
  subst hconv
  refine ⟨hb.number.trans ha.number.symm, hlb, hperm'.trans ?_, hsort⟩
  have hthr : (withThreshold config t).elec_params.adc_threshold = t := rfl
  rw [hthr]
  have := (hperm.filter fun rl => decide ((t : ℝ) < rl.1.amp)).symm
  rw [List.filter_filter] at this
  refine List.Perm.trans ?_ this
  apply List.Perm.of_eq
  apply List.filter_congr
  intro rl _
  have hle : (config.elec_params.adc_threshold : ℝ) ≤ (t : ℝ) := by exact_mod_cast ht
  by_cases h1 : (t : ℝ) < rl.1.amp
  · simp [h1, hle.trans_lt h1]
  · simp [h1]

/-- **C117.** Raising the threshold only removes points: if a run ends normally, so does the run with the
higher threshold; it simulates the same events and stores them in the same files, and of every event
exactly the points above the new threshold are left, with their labels. -/
theorem C117_threshold {σ : Type} (env : SimEnv) (config wconfig : Config) (t : ℤ)
    (ht : config.elec_params.adc_threshold ≤ t)
    (file : KinFile (List Vec4)) (indices : Option (List ℤ)) (rng : Gen σ) (hr : LawfulGen rng)
    (s : σ) (argsort : Argsort) (hA : IsArgsort argsort) (disk0 : Disk) (m first : ℤ) (hm : 1 ≤ m)
    {grid : PadGrid} {g : GridEdges} (hb : 0 < g.bin) (hN : g.high - g.low ≤ grid.size * g.bin)
    (hgrid : config.pad_grid = some (grid, g)) (final : RunState σ Writer)
    (hrun : run_simulation env config file (spyralWriter argsort) indices rng
      ⟨s, newWriter disk0 wconfig m first⟩ = (.ok (), final)) :
    ∃ final', run_simulation env (withThreshold config t) file (spyralWriter argsort) indices rng
        ⟨s, newWriter disk0 wconfig m first⟩ = (.ok (), final') ∧
      shapeDisk final'.writer.disk = shapeDisk final.writer.disk ∧ final'.gen = final.gen ∧
      ∃ files files' : List (List Stored), Holds disk0 final.writer.disk first files ∧
        Holds disk0 final'.writer.disk first files' ∧
        List.Forall₂ (Cut t) files.flatten files'.flatten := by
  have hsame : SameChamber config (withThreshold config t) := ⟨rfl, rfl, rfl, rfl, rfl, rfl, rfl⟩
  rcases hrun' : run_simulation env (withThreshold config t) file (spyralWriter argsort) indices rng
    ⟨s, newWriter disk0 wconfig m first⟩ with ⟨res', final'⟩
  obtain ⟨h1, h2, h3, -⟩ := C117_outcome hsame wconfig wconfig env file indices rng argsort argsort disk0 m
    first s _ _ _ _ hrun hrun'
  subst h1
  refine ⟨final', rfl, h3.symm, h2.symm, ?_⟩
  obtain ⟨zs, as, n, cs, evs, files, a1, a2, a3, a4, a5, a6, a7, -, -, a8, -⟩ :=
    C62_complete_run env config wconfig file indices rng hr s argsort hA disk0 m first hm hb hN hgrid final
      hrun
  obtain ⟨zs', as', n', cs', evs', files', b1, b2, b3, b4, b5, b6, b7, -, -, b8, -⟩ :=
    C62_complete_run env (withThreshold config t) wconfig file indices rng hr s argsort hA disk0 m first hm
      hb hN hgrid final' hrun'
  rw [a1] at b1
  rw [a2] at b2
  rw [a3] at b3
  rw [a4] at b4
  obtain rfl := Option.some.inj b1
  obtain rfl := Option.some.inj b2
  obtain rfl := Option.some.inj b3
  obtain rfl := Option.some.inj b4
  have hl : evs.length = evs'.length := by
    have := congrArg List.length (a6.trans b6.symm)
    simpa using this
  obtain rfl := simulated_unique (simulated_alike hsame a5) b5 hl
  refine ⟨files, files', a8, b8, ?_⟩
  clear a8 b8 a5 a6 b5 b6 hl
  generalize evs.filter (fun ev => decide (ev.cloud ≠ [])) = l at a7 b7
  generalize files.flatten = x at a7 ⊢
  generalize files'.flatten = y at b7 ⊢
  induction a7 generalizing y with
  | nil => cases b7; exact .nil
  | cons e1 _ ih =>
    cases b7 with
    | cons e2 e3 => exact .cons (cut_of_stored ht e1 e2) (ih _ e3)

/-- The example run at the threshold 4000 instead of 10. -/
example (disk0 : Disk) : ∃ final final',
    run_simulation exEnv exRunConfig exKinFile (spyralWriter exArgsort) (some [2]) exGen
      ⟨(), newWriter disk0 exRunConfig 1 7⟩ = (.ok (), final) ∧
    run_simulation exEnv (withThreshold exRunConfig 4000) exKinFile (spyralWriter exArgsort) (some [2]) exGen
      ⟨(), newWriter disk0 exRunConfig 1 7⟩ = (.ok (), final') ∧
    shapeDisk final'.writer.disk = shapeDisk final.writer.disk := by
  obtain ⟨final, hrun, -⟩ := exRun_complete disk0
  obtain ⟨final', h1, h2, -⟩ := C117_threshold exEnv exRunConfig exRunConfig 4000
    (by norm_num [exRunConfig, exConfig, exElec]) exKinFile (some [2]) exGen exGen_lawful () exArgsort
    exArgsort_ok disk0 1 7 le_rfl exEdges_bin (by norm_num [exEdges, exGrid]) rfl final hrun
  exact ⟨final, final', hrun, h1, h2⟩

end Verif.Detector
