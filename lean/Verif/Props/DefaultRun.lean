import Verif.Props.Drift
import Verif.Props.Format
import Verif.Props.Loading
import Verif.Props.RunFiles

/-! # C67: with the packaged pad data the writer never fails -/

namespace Verif.Detector

open Verif.Spec Verif.Kinematics

theorem activePad_lookup {grid : PadGrid} {g : GridEdges} (hb : 0 < g.bin) {pos : ℝ × ℝ} {pad : ℤ}
    (h : activePad grid g pos = some pad) : lookupPad (grid, g) pos = some pad := by
  obtain ⟨i, j, hi, hj, hc, h1, -⟩ := activePad_some h
  unfold lookupPad
  simp only
  rw [position_to_index_eq g hb, hi, hj]
  simp only
  have := gridIndex_nonneg hb hi
  rw [if_neg (by intro he; have := congrArg Prod.fst he; simp only at this; omega), ← hc, if_neg h1]

theorem lookup_activePad {grid : PadGrid} {g : GridEdges} (hb : 0 < g.bin) {pos : ℝ × ℝ} {pad : ℤ}
    (h : lookupPad (grid, g) pos = some pad) (hbeam : pad ∉ BEAM_PADS) :
    activePad grid g pos = some pad := by
  unfold lookupPad at h
  simp only at h
  rw [position_to_index_eq g hb] at h
  unfold activePad
  rcases hx : gridIndex g pos.1 with _ | i
  · simp [hx] at h
  · rcases hy : gridIndex g pos.2 with _ | j
    · simp [hx, hy] at h
    · simp only [hx, hy] at h ⊢
      split_ifs at h with h1 h2
      have h := Option.some.inj h
      subst h
      rw [if_neg (by simp [h2, hbeam])]

/-- The pads of a simulated cloud are pads of the plane. -/
theorem cloud_pads {σ : Type} {fs : FileSystem} (hfs : PackagedFiles fs) {env : SimEnv}
    {momenta : List Vec4} {vertex : ℝ × ℝ × ℝ} {Zs As : List ℤ} {config : Config}
    (hgrid : config.pad_grid = some fs.packaged_grid) {rng : Gen σ} (hr : LawfulGen rng)
    {indices : List ℤ} {s s' : σ} {cloud : List CloudPoint} {labels : List ℤ}
    (h : simulate env momenta vertex Zs As config rng indices s = .ok ((cloud, labels), s')) :
    ∀ row ∈ cloud, ∃ n : ℕ, row.pad = n ∧ n < 10240 ∧ (n : ℤ) ∉ BEAM_PADS := by
  have hb : 0 < fs.packaged_grid.2.bin := by rw [hfs.edges]; norm_num [packagedEdges]
  obtain ⟨tr, s₁, htr, hlen, cells, hnd, hmem, hdesc⟩ :=
    simulate_cells (grid := fs.packaged_grid.1) (g := fs.packaged_grid.2) hb hgrid hr h
  intro row hrow
  obtain ⟨l, hl⟩ := row_label hlen hrow
  obtain ⟨cell, hcell, hd⟩ := row_cell hdesc hl
  have hin := (hmem cell.1 cell.2).1 hcell
  obtain ⟨⟨d, hdm, -, hdp⟩, -, -, h0⟩ := hin
  obtain ⟨x, -, -, -, pos, hpos⟩ := htr.deposit hdm
  obtain ⟨n, hn, hlt, -⟩ := Props.C66_lookup_near hfs pos d.pad (activePad_lookup hb hpos)
  obtain ⟨i, j, -, -, hc, -, hbeam⟩ := activePad_some hpos
  refine ⟨n, ?_, hlt, by rw [← hn]; exact hbeam⟩
  rw [hd.1, ← hdp, hn]
  simp

section
variable {σ : Type} (env : SimEnv) (config : Config) (file : KinFile (List Vec4))
  (zs as : List ℤ) (chunk_size : ℕ) (indices : List ℤ) (rng : Gen σ) (argsort : Argsort)

/-- The reason why the event loop stopped early: event `k` could not be read or not be simulated. -/
def EventFails (k : ℕ) (s : σ) (err : PyErr) : Prop :=
  read_event file chunk_size k = .error err ∨
  ∃ momenta vertex, read_event file chunk_size k = .ok (momenta, vertex) ∧
    simulate env momenta vertex zs as config rng indices s = .error err

/-- If every simulated event can be formatted, the event loop stops early only because of an event
that cannot be read or simulated. -/
theorem run_events_healthy {disk0 : Disk} {first m : ℤ} {response : List ℝ}
    (hfmt : ∀ momenta vertex s cloud labels s',
      simulate env momenta vertex zs as config rng indices s = .ok ((cloud, labels), s') →
      ∃ r, format_event argsort response cloud labels config = .ok r) (n : ℕ) :
    ∀ (start : ℕ) (st : RunState σ Writer) (a : AState), Rel disk0 first m response a st.writer →
      (∀ e ∈ a.cur, e.event < start) → ∀ q,
      run_events env config file zs as chunk_size indices rng (spyralWriter argsort) n start st = q →
      (q.1 = .ok () ∧ ∃ a', Rel disk0 first m response a' q.2.writer) ∨
      ∃ evs s' err, Simulated env config file zs as chunk_size indices rng start st.gen evs s' ∧
        evs.length < n ∧ q.1 = .error err ∧
        EventFails env config file zs as chunk_size indices rng (start + evs.length) s' err := by
  induction n with
  | zero =>
    intro start st a hrel _ q hq
    subst hq
    exact .inl ⟨rfl, a, hrel⟩
  | succ n ih =>
    intro start st a hrel hlt q hq
    cases hread : read_event file chunk_size start with
    | error e =>
      right
      refine ⟨[], st.gen, e, .nil _ _, by simp, ?_, .inl (by simpa using hread)⟩
      rw [← hq]
      simp [run_events, run_event, hread]
    | ok mv =>
      obtain ⟨momenta, vertex⟩ := mv
      cases hsim : simulate env momenta vertex zs as config rng indices st.gen with
      | error e =>
        right
        refine ⟨[], st.gen, e, .nil _ _, by simp, ?_,
          .inr ⟨momenta, vertex, by simpa using hread, hsim⟩⟩
        rw [← hq]
        simp [run_events, run_event, hread, hsim]
      | ok cls =>
        obtain ⟨⟨cloud, labels⟩, s1⟩ := cls
        -- both continuations lead to the induction hypothesis
        have key : ∀ w a', Rel disk0 first m response a' w → (∀ e ∈ a'.cur, e.event < (start + 1 : ℕ)) →
            run_events env config file zs as chunk_size indices rng (spyralWriter argsort) n
              (start + 1) ⟨s1, w⟩ = q →
            (q.1 = .ok () ∧ ∃ a', Rel disk0 first m response a' q.2.writer) ∨
            ∃ evs s' err, Simulated env config file zs as chunk_size indices rng start st.gen evs s' ∧
              evs.length < n + 1 ∧ q.1 = .error err ∧
              EventFails env config file zs as chunk_size indices rng (start + evs.length) s' err := by
          intro w a' h1 h2 h3
          rcases ih (start + 1) ⟨s1, w⟩ a' h1 h2 q h3 with h | ⟨evs, s', err, h4, h5, h6, h7⟩
          · exact .inl h
          · refine .inr ⟨_, s', err, .cons hread hsim h4, by simpa using h5, h6, ?_⟩
            rw [List.length_cons, show start + (evs.length + 1) = start + 1 + evs.length by omega]
            exact h7
        by_cases hc : cloud = []
        · refine key st.writer a hrel (fun e he => lt_trans (hlt e he) (by push_cast; omega)) ?_
          rw [← hq]
          simp [run_events, run_event, hread, hsim, hc]
        · obtain ⟨⟨rows, ls⟩, hf⟩ := hfmt _ _ _ _ _ _ hsim
          obtain ⟨res, w', hw, hrel', hb⟩ := write_rel hrel argsort ⟨cloud, labels, config, start⟩
          have hst : (⟨cloud, labels, config, start⟩ : WriteReq).stored argsort response
              = some ⟨start, rows, ls⟩ := by
            unfold WriteReq.stored
            simp only [hf]
          have hroll : ∀ e ∈ (a.roll m start).cur, e.event < start := by
            unfold AState.roll
            split_ifs
            · simp
            · exact hlt
          have hstep : a.step m start (some ⟨start, rows, ls⟩)
              = (true, { a.roll m start with
                  cur := (a.roll m start).cur ++ [⟨start, rows, ls⟩], last := start }) := by
            unfold AState.step
            simp only
            rw [if_neg]
            intro hm
            obtain ⟨e, he, he'⟩ := List.mem_map.1 hm
            have := hroll e he
            omega
          simp only [hst, hstep] at hrel' hb
          obtain rfl := hb.1 trivial
          refine key w' _ hrel' ?_ ?_
          · intro e he
            simp only at he
            rcases List.mem_append.1 he with he | he
            · exact lt_trans (hroll e he) (by push_cast; omega)
            · obtain rfl := List.mem_singleton.1 he
              push_cast
              omega
          · rw [← hq]
            have hw' : (spyralWriter argsort).write cloud labels config start st.writer
                = (.ok (), w') := hw
            simp [run_events, run_event, hread, hsim, hc, hw']

end

end Verif.Detector

namespace Verif.Props

open Verif.Detector Verif.Spec Verif.Kinematics

/-- **C67.** With the packaged pad data and default paths, formatting a simulated event for writing
never fails. -/
theorem C67_format {σ : Type} {fs : FileSystem} (hfs : PackagedFiles fs) {d : DetectorParams}
    {e : ElectronicsParams} {config : Config} (hconf : mkConfig fs d e {} = .ok config)
    {env : SimEnv} {momenta : List Vec4} {vertex : ℝ × ℝ × ℝ} {Zs As : List ℤ} {rng : Gen σ}
    (hr : LawfulGen rng) {indices : List ℤ} {s s' : σ} {cloud : List CloudPoint} {labels : List ℤ}
    (h : simulate env momenta vertex Zs As config rng indices s = .ok ((cloud, labels), s'))
    (argsort : Argsort) (response : List ℝ) :
    ∃ r, format_event argsort response cloud labels config = .ok r := by
  obtain ⟨hgrid, hcent, hsize⟩ := (C67_default_config hfs d e).2 config hconf
  obtain ⟨-, hedge, -, -⟩ := C60_drift_velocity fs d e {} config hconf
  refine C27_no_error argsort response cloud labels config _ hcent hedge ?_
  intro p hp
  obtain ⟨n, hn, hlt, -⟩ := cloud_pads hfs hgrid hr h p hp
  refine ⟨n, hn, by simpa using hlt, ?_⟩
  rw [hsize]
  simpa using hlt

/-- **C67.** A run with the packaged pad data and a `SpyralWriter` on any directory either returns
normally or fails because the kinematics file lacks an attribute, or an event could not be read or
could not be simulated; the writer never raises. -/
theorem C67_run {σ : Type} {fs : FileSystem} (hfs : PackagedFiles fs) {d : DetectorParams}
    {e : ElectronicsParams} {config : Config} (hconf : mkConfig fs d e {} = .ok config)
    (wconfig : Config) (env : SimEnv) (file : KinFile (List Vec4)) (indices : Option (List ℤ))
    (rng : Gen σ) (hr : LawfulGen rng) (s : σ) (argsort : Argsort) (disk0 : Disk) (m first : ℤ)
    (zs as : List ℤ) (n : ℤ) (cs nc : ℕ)
    (hz : file.proton_numbers = some zs) (ha : file.mass_numbers = some as)
    (hn : file.n_events = some n) (hcs : file.chunk_size = some cs) (hnc : file.n_chunks = some nc)
    (res : Except PyErr Unit) (final : RunState σ Writer)
    (hrun : run_simulation env config file (spyralWriter argsort) indices rng
      ⟨s, newWriter disk0 wconfig m first⟩ = (res, final)) :
    res = .ok () ∨
    ∃ evs s' err, Simulated env config file zs as cs (indices.getD (default_indices zs.length)) rng
        0 s evs s' ∧ (evs.length : ℤ) < n ∧ res = .error err ∧
      EventFails env config file zs as cs (indices.getD (default_indices zs.length)) rng
        evs.length s' err := by
  rw [run_simulation_eq _ _ _ _ _ _ _ hz ha hn hcs hnc] at hrun
  obtain ⟨q, hq⟩ : ∃ q, run_events env config file zs as cs
      (indices.getD (default_indices zs.length)) rng (spyralWriter argsort) n.toNat 0
      ⟨s, newWriter disk0 wconfig m first⟩ = q := ⟨_, rfl⟩
  have key := run_events_healthy env config file zs as cs (indices.getD (default_indices zs.length))
    rng argsort (response := get_response wconfig)
    (fun _ _ _ _ _ _ h => C67_format hfs hconf hr h argsort _) n.toNat 0
    ⟨s, newWriter disk0 wconfig m first⟩ ⟨[], [], 0, 0⟩ (init_rel disk0 wconfig m first).2
    (by simp) q hq
  rcases key with ⟨h1, a', hrel⟩ | ⟨evs, s', err, h1, h2, h3, h4⟩
  · left
    rw [hq] at hrun
    obtain ⟨r, st⟩ := q
    simp only at h1 hrel
    subst h1
    obtain ⟨tr, hclose, -⟩ := close_rel hrel
    have hclose' : (spyralWriter argsort).close st.writer = st.writer.close := rfl
    simp only [hclose', hclose] at hrun
    exact (congrArg Prod.fst hrun).symm
  · right
    refine ⟨evs, s', err, h1, by omega, ?_, by simpa using h4⟩
    rw [hq] at hrun
    obtain ⟨r, st⟩ := q
    simp only at h3
    subst h3
    exact (congrArg Prod.fst hrun).symm

/-- The example track moved to the centre of pad 0. -/
noncomputable def exPadTrack : List Row :=
  [{ exTrack0 with x := (ownCenter 0).1, y := (ownCenter 0).2 },
   { exTrack1 with x := (ownCenter 0).1, y := (ownCenter 0).2 }]

/-- The environment whose solver returns that track. -/
noncomputable def exPadEnv : SimEnv where
  get_data := fun _ _ => .ok exNucleus
  solve_ivp := fun _ => .ok (exPadTrack.map fun r => (0, r))

/-- The hypotheses of C67 can be met: with the packaged files and default paths there is a
configuration, and an event simulated with it has a point with 100 electrons on pad 0. -/
theorem exPad_simulate : ∃ config, mkConfig exPackaged (exDet 100 0) exElec {} = .ok config ∧
    ∃ cloud labels, simulate exPadEnv exMomenta (0, 0, 0.5) [1, 1, 1] [1, 1, 1] config exGen [2] ()
      = .ok ((cloud, labels), ()) ∧ ∃ row ∈ cloud, row.pad = 0 ∧ row.e = 100 := by
  obtain ⟨config, hconf⟩ := (C67_default_config exPackaged_ok (exDet 100 0) exElec).1.1
    (by simp [exElec])
  refine ⟨config, hconf, ?_⟩
  obtain ⟨hgrid, -, -⟩ := (C67_default_config exPackaged_ok (exDet 100 0) exElec).2 config hconf
  obtain ⟨hv, -, hdet, helec⟩ := C60_drift_velocity _ _ _ _ config hconf
  have hb : 0 < exPackaged.packaged_grid.2.bin := by
    rw [exPackaged_ok.edges]; norm_num [packagedEdges]
  have hdv : config.drift_velocity = 0.01 := by
    rw [hdet, helec] at hv
    simp only [exDet, exElec] at hv
    push_cast at hv
    linarith
  have harr : arrival config 0.5 = 50 := by
    unfold arrival
    rw [helec, hdet]
    simp only [exElec, exDet, hdv]
    norm_num
  have hel : generate_electrons exPadTrack exNucleus config.det_params exGen () = .ok ([0, 1], ()) := by
    rw [hdet]
    exact exElectrons 100 0
  have hf : ((exPadTrack.zip [(0 : ℤ), 1]).filter fun re => decide (1 ≤ re.2))
      = [({ exTrack1 with x := (ownCenter 0).1, y := (ownCenter 0).2 }, 1)] := by
    simp [exPadTrack, List.filter_cons]
  have hpad : activePad exPackaged.packaged_grid.1 exPackaged.packaged_grid.2 (ownCenter 0)
      = some 0 := by
    refine lookup_activePad hb ?_ (by decide +kernel)
    rw [show (exPackaged.packaged_grid.1, exPackaged.packaged_grid.2) = exPackaged.packaged_grid
      from rfl, lookup_own exPackaged_ok 0 (by norm_num),
      padCell_of_cellF (p := 0) (by decide +kernel) (by norm_num)]
    norm_num
  have hdep : nucleusDeposits config exPackaged.packaged_grid.1 exPackaged.packaged_grid.2
      exPadTrack [0, 1] 2 = [⟨50, 0, 100, 2⟩] := by
    unfold nucleusDeposits
    rw [hf]
    have hz : exTrack1.z = 0.5 := rfl
    have h50 : pyInt (50 : ℝ) = 50 := by simp [pyInt]
    simp only [List.flatMap_cons, List.flatMap_nil, List.append_nil, hz, harr]
    unfold pointDeposits
    rw [hdet]
    simp [exDet, hpad, h50]
  have hp : simulate_nucleus exPadEnv exMomenta (0, 0, 0.5) [1, 1, 1] [1, 1, 1] config exGen
      ([], ()) 2 = .ok (applyDeposits [] [⟨50, 0, 100, 2⟩], ()) := by
    rw [← hdep]
    exact generate_point_cloud_of (ivp := exPadEnv.solve_ivp) (momentum := (0, 0, 4.5))
      (vertex := (0, 0, 0.5)) (nucleus := exNucleus) hb hgrid [] 2 (track := exPadTrack)
      rfl hel (by
        intro re _
        rw [hdet]
        refine ⟨by norm_num [exDet], ?_⟩
        simp [exDet])
  obtain ⟨cloud, labels, h⟩ : ∃ cloud labels, simulate exPadEnv exMomenta (0, 0, 0.5) [1, 1, 1]
      [1, 1, 1] config exGen [2] () = .ok ((cloud, labels), ()) := by
    unfold simulate
    simp only [List.foldlM_cons, List.foldlM_nil, hp, bind, Except.bind, pure, Except.pure]
    exact ⟨_, _, rfl⟩
  refine ⟨cloud, labels, h, ?_⟩
  obtain ⟨tr, s₁, htr, hlen, cells, hnd, hmem, hdesc⟩ := simulate_cells
    (grid := exPackaged.packaged_grid.1) (g := exPackaged.packaged_grid.2) hb hgrid exGen_lawful h
  have hh : history tr = [⟨50, 0, 100, 2⟩] := by
    cases htr with
    | neutral _ _ _ _ tr hz h => exact absurd (Except.ok.inj hz) (by decide)
    | charged idx z a nucleus momentum track primary rest s s₁ s' tr hz hz0 ha hn hm ht he h =>
      cases h
      have h1 : exNucleus = nucleus := Except.ok.inj hn
      have h2 : exPadTrack = track := Except.ok.inj ht
      subst h1 h2
      have h3 := he.symm.trans hel
      have h4 : primary = [0, 1] := congrArg Prod.fst (Except.ok.inj h3)
      subst h4
      rw [hdep]
      simp [history]
  obtain ⟨⟨row, l⟩, hrl, hd⟩ := cell_row hdesc ((hmem 50 0).2 ⟨by
    rw [hh]; exact ⟨_, List.mem_singleton.2 rfl, rfl, rfl⟩, by norm_num, by norm_num, by norm_num⟩)
  refine ⟨row, (List.of_mem_zip hrl).1, by rw [hd.1]; simp, ?_⟩
  have he : row.e = (chargeAt (history tr) 50 0 : ℝ) := hd.2.2.2.1
  rw [he, hh]
  norm_num [chargeAt, Deposit.at]

end Verif.Props
