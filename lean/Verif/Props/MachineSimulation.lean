import Verif.Machine.Simulation
import Verif.Proofs.Store
import Verif.Props.MachineEvent
import Verif.Props.MachineTemplate
import Verif.Props.Run
import Verif.Spec.Runs

/-! # C143: a whole simulation run in machine arithmetic -/

namespace Verif.Machine

open Verif.Detector Verif.Spec Verif.Kinematics Verif.Props

/-- `evs` are the consecutive events from number `k` on, read from the file and simulated in machine arithmetic, with
the generator starting in state `s` and ending in state `s'`. -/
inductive Simulated64 {σ : Type} (m : Math64) (std : σ → ℝ × σ) (env : SimEnv) (config : Config)
    (file : KinFile (List Vec4)) (zs as : List ℤ) (chunk_size : ℕ) (indices : List ℤ) (rng : Gen σ) :
    ℕ → σ → List EventOut → σ → Prop where
  | nil (k s) : Simulated64 m std env config file zs as chunk_size indices rng k s [] s
  | cons {k s momenta vertex cloud labels s' evs s''} :
    read_event file chunk_size k = .ok (momenta, vertex) →
    simulate64 m std env momenta vertex zs as config rng indices s = .ok ((cloud, labels), s') →
    Simulated64 m std env config file zs as chunk_size indices rng (k + 1) s' evs s'' →
    Simulated64 m std env config file zs as chunk_size indices rng k s (⟨k, cloud, labels⟩ :: evs) s''

/-- The event can be read, and its tracks stay inside the detector with a charge that fits into a double, whatever
numbers are drawn. -/
def EventReady {σ : Type} (env : SimEnv) (config : Config) (file : KinFile (List Vec4)) (zs as : List ℤ)
    (chunk_size : ℕ) (indices : List ℤ) (rng : Gen σ) (k : ℕ) : Prop :=
  ∃ momenta vertex, read_event file chunk_size k = .ok (momenta, vertex) ∧
    EventInside env momenta vertex zs as config indices ∧
    ∀ s, ∃ n s₁, EventTotal drawnAbove env momenta vertex zs as config rng indices s n s₁ ∧
      config.det_params.mpgd_gain * n < 2 ^ 53

/-- The cloud of an event has one row for each of its cells, on active pads and in recordable time buckets, with a
label of a charged nucleus for each row. -/
structure SoundCloud (config : Config) (grid : PadGrid) (zs indices : List ℤ) (ev : EventOut) : Prop where
  labels : ev.labels.length = ev.cloud.length
  cells : ∃ cells : List (ℤ × ℤ), cells.Nodup ∧
    List.Forall₂ (MachineRow grid config.elec_params.micromegas_edge config.elec_params.windows_edge) ev.cloud cells
  charged : ∀ l ∈ ev.labels, l ∈ indices ∧ ∃ z, pyGet zs l = .ok z ∧ z ≠ 0

/-- An event is stored completely: under its own number, with exactly the points above threshold and their labels,
sorted by height. -/
structure StoredCompletely64 (config : Config) (centers : List (ℝ × ℝ)) (rn : ℝ → ℝ) (response : List ℝ)
    (ev : EventOut) (st : Stored) : Prop where
  number : st.event = ev.number
  content : ∃ converted, List.Forall₂ (StoredRow64 config centers rn response) ev.cloud converted ∧
    st.labels.length = st.rows.length ∧
    (st.rows.zip st.labels).Perm ((converted.zip ev.labels).filter fun rl =>
      decide ((config.elec_params.adc_threshold : ℝ) < rl.1.amp)) ∧
    (st.rows.Pairwise fun a b => a.z ≤ b.z) ∧
    ∀ r ∈ st.rows, (config.elec_params.adc_threshold : ℝ) < r.amp ∧ r.amp ≤ 4095

/-- A call of `write` with an event number above all others succeeds if the cloud can be converted. -/
theorem write64_rel {disk0 : Disk} {first m B n : ℤ} (hm : 1 ≤ m) {response : List ℝ} {a : AState} {w : Writer}
    (h : Rel disk0 first m response a w) (hord : AOrd B a) (hn : B ≤ n) {rn : ℝ → ℝ} {argsort : Argsort}
    {data : List CloudPoint} {labels : List ℤ} {config : Config} {rows : List SpyralRow} {labels' : List ℤ}
    (hf : format_event64 rn argsort response data labels config = .ok (rows, labels')) :
    ∃ w', write64 rn argsort data labels config n w = (.ok (), w') ∧
      Rel disk0 first m response (a.step m n (some ⟨n, rows, labels'⟩)).2 w' := by
  obtain ⟨w₁, hroll, h₁⟩ := rollover_rel h n
  obtain ⟨-, hs, hne⟩ := step_new hm hord hn ⟨n, rows, labels'⟩
  obtain ⟨w₂, hops, h₂⟩ := store_rel h₁ ⟨n, rows, labels'⟩ hne
  rw [hs]
  refine ⟨_, ?_, h₂⟩
  unfold write64
  simp only [hroll, h₁.resp, hf]
  rw [hops]

theorem run_simulation64_eq {σ τ : Type} (m : Math64) (std : σ → ℝ × σ) (env : SimEnv) (config : Config)
    (file : KinFile (List Vec4)) (W : SimWriter τ) (indices : Option (List ℤ)) (rng : Gen σ) (st : RunState σ τ)
    {zs as : List ℤ} {n : ℤ} {cs nc : ℕ} (hz : file.proton_numbers = some zs) (ha : file.mass_numbers = some as)
    (hn : file.n_events = some n) (hcs : file.chunk_size = some cs) (hnc : file.n_chunks = some nc) :
    run_simulation64 m std env config file W indices rng st =
      match run_events64 m std env config file zs as cs (indices.getD (default_indices zs.length)) rng W
          n.toNat 0 st with
      | (.error e, st) => (.error e, st)
      | (.ok _, st) => ((W.close st.writer).1, { st with writer := (W.close st.writer).2 }) := by
  unfold run_simulation64
  rw [hz, ha, hn, hcs, hnc]
  cases indices <;> rfl

section
variable {σ : Type} {m : Math64} {std : σ → ℝ × σ} {env : SimEnv} {config : Config} {file : KinFile (List Vec4)}
  {zs as : List ℤ} {cs : ℕ} {indices : List ℤ} {rng : Gen σ} {argsort : Argsort} {grid : PadGrid} {g : GridEdges}
  {centers : List (ℝ × ℝ)} {response : List ℝ}

theorem Simulated64_numbers {k : ℕ} {s s' : σ} {evs : List EventOut}
    (h : Simulated64 m std env config file zs as cs indices rng k s evs s') :
    evs.map (·.number) = List.range' k evs.length := by
  induction h with
  | nil => rfl
  | cons h1 h2 h3 ih => simp [ih, List.range'_succ]

/-- The event loop. -/
theorem run_events64_stored (h : m.Ok) (hgrid : config.pad_grid = some (grid, g))
    (hpads : ∀ i j, -1 ≤ grid.cell i j ∧ grid.cell i j < 2 ^ 26) (hok : DriftOk config.det_params config.elec_params)
    (hsp : SpreadOk config.det_params config.elec_params) (hgain : 0 ≤ config.det_params.mpgd_gain)
    (hr : LawfulGen rng) (hstd : ShiftScale rng std) (hg : ∀ s, |(std s).1| ≤ 40)
    (hA : IsArgsort argsort) (hlen : response.length = NUM_TB) (hR : ∀ r ∈ response, 0 ≤ r)
    (hc : config.pad_centers = some centers)
    (hcell : ∀ i j, grid.cell i j < centers.length ∧ grid.cell i j < config.pad_sizes.length)
    {disk0 : Disk} {first per : ℤ} (hper : 1 ≤ per) (n : ℕ) :
    ∀ (start : ℕ) (st : RunState σ Writer) (a : AState) (B : ℤ), B ≤ start →
      (∀ k, start ≤ k → k < start + n → EventReady env config file zs as cs indices rng k) →
      Rel disk0 first per response a st.writer → AOk per a → AOrd B a →
      ∃ evs final a' B' stored,
        run_events64 m std env config file zs as cs indices rng (spyralWriter64 m.rn argsort) n start st
          = (.ok (), final) ∧
        Simulated64 m std env config file zs as cs indices rng start st.gen evs final.gen ∧ evs.length = n ∧
        (∀ ev ∈ evs, SoundCloud config grid zs indices ev) ∧
        List.Forall₂ (StoredCompletely64 config centers m.rn response)
          (evs.filter fun ev => decide (ev.cloud ≠ [])) stored ∧
        a'.files.flatten = a.files.flatten ++ stored ∧
        Rel disk0 first per response a' final.writer ∧ AOk per a' ∧ AOrd B' a' := by
  induction n with
  | zero =>
    intro start st a B _ _ hrel hao hord
    exact ⟨[], st, a, B, [], rfl, .nil _ _, rfl, by simp, .nil, by simp, hrel, hao, hord⟩
  | succ n ih =>
    intro start st a B hB hready hrel hao hord
    obtain ⟨momenta, vertex, hread, hin, htot⟩ := hready start le_rfl (by omega)
    obtain ⟨N, s₁, ht, hroom⟩ := htot st.gen
    obtain ⟨cloud, labels, s', cells, hsim, hl, hnd, hcells, hlab, -, -⟩ :=
      C124_event h hgrid hpads hok hsp hgain hr hstd hg ht hin hroom
    have hsound : SoundCloud config grid zs indices ⟨start, cloud, labels⟩ := ⟨hl, ⟨cells, hnd, hcells⟩, hlab⟩
    by_cases hcl : cloud = []
    · obtain ⟨evs, final, a', B', stored, i1, i2, i3, i4, i5, i6, i7, i8, i9⟩ :=
        ih (start + 1) { st with gen := s' } a B (by push_cast; omega)
          (fun k h1 h2 => hready k (by omega) (by omega)) hrel hao hord
      refine ⟨⟨start, cloud, labels⟩ :: evs, final, a', B', stored, ?_, .cons hread hsim i2, by simp [i3], ?_, ?_, i6,
        i7, i8, i9⟩
      · rw [run_events64, run_event64, hread]
        simp only [hsim, hcl, List.length_nil, if_true]
        exact i1
      · intro ev hev
        rcases List.mem_cons.1 hev with rfl | hev
        · exact hsound
        · exact i4 ev hev
      · rw [List.filter_cons_of_neg (by simp [hcl])]
        exact i5
    · obtain ⟨rows, labels', converted, hfmt, hconv, hl', hperm, hsort, hthr⟩ :=
        C124_stored hA hok h.rounding hlen hR hc hcell hl hcells
      obtain ⟨w', hw, hrel'⟩ := write64_rel hper hrel hord hB hfmt
      have hev : ∀ e, some (⟨(start : ℤ), rows, labels'⟩ : Stored) = some e → e.event = (start : ℤ) := by
        rintro e ⟨⟩
        rfl
      obtain ⟨evs, final, a', B', stored, i1, i2, i3, i4, i5, i6, i7, i8, i9⟩ :=
        ih (start + 1) ⟨s', w'⟩ _ (start + 1) (by push_cast; omega)
          (fun k h1 h2 => hready k (by omega) (by omega)) hrel' (hao.step hper _ _ hev) (hord.step hper hB _ hev)
      refine ⟨⟨start, cloud, labels⟩ :: evs, final, a', B', ⟨start, rows, labels'⟩ :: stored, ?_,
        .cons hread hsim i2, by simp [i3], ?_, ?_, ?_, i7, i8, i9⟩
      · rw [run_events64, run_event64, hread]
        have hne : cloud.length ≠ 0 := by simpa using hcl
        simp only [hsim, hne, if_false, spyralWriter64, hw]
        exact i1
      · intro ev hev
        rcases List.mem_cons.1 hev with rfl | hev
        · exact hsound
        · exact i4 ev hev
      · rw [List.filter_cons_of_pos (by simp [hcl])]
        exact .cons ⟨rfl, converted, hconv, hl', hperm, hsort, hthr⟩ i5
      · rw [i6, step_files_flatten, (step_new hper hord hB _).1]
        simp

/-- **C143.** A simulation run in machine arithmetic, with a new writer: if the events of the kinematics file can be
read and their tracks stay inside the detector, the run completes without exceptions. It simulates all events of the
file in order, each once; the clouds are sound; and afterwards consecutively numbered files hold exactly the events
with a non-empty cloud, in order and complete. All files but the last hold `per` events, no other file has been
touched, every file is closed with a recorded range of event numbers that contains its events, and the ranges do not
overlap. -/
theorem C143_run (h : m.Ok) (hgrid : config.pad_grid = some (grid, g))
    (hpads : ∀ i j, -1 ≤ grid.cell i j ∧ grid.cell i j < 2 ^ 26) (hok : DriftOk config.det_params config.elec_params)
    (hsp : SpreadOk config.det_params config.elec_params) (hgain : 0 ≤ config.det_params.mpgd_gain)
    (hr : LawfulGen rng) (hstd : ShiftScale rng std) (hg : ∀ s, |(std s).1| ≤ 40)
    (hA : IsArgsort argsort) (hc : config.pad_centers = some centers)
    (hcell : ∀ i j, grid.cell i j < centers.length ∧ grid.cell i j < config.pad_sizes.length)
    {np : NumpyMath} (hnp : np.Ok) {wconfig : Config} (he : TemplateOk wconfig.elec_params)
    {n : ℤ} {nc : ℕ} (hz : file.proton_numbers = some zs) (ha : file.mass_numbers = some as)
    (hn : file.n_events = some n) (hcs : file.chunk_size = some cs) (hnc : file.n_chunks = some nc)
    {indices : Option (List ℤ)}
    (hready : ∀ k < n.toNat,
      EventReady env config file zs as cs (indices.getD (default_indices zs.length)) rng k)
    (disk0 : Disk) {per first : ℤ} (hper : 1 ≤ per) (s : σ) :
    (init64 np disk0 wconfig per first).1 = .ok () ∧
    ∃ (final : RunState σ Writer) (evs : List EventOut) (files : List (List Stored)),
      run_simulation64 m std env config file (spyralWriter64 m.rn argsort) indices rng
        ⟨s, (init64 np disk0 wconfig per first).2⟩ = (.ok (), final) ∧
      Simulated64 m std env config file zs as cs (indices.getD (default_indices zs.length)) rng 0 s evs final.gen ∧
      evs.map (·.number) = List.range n.toNat ∧
      (∀ ev ∈ evs, SoundCloud config grid zs (indices.getD (default_indices zs.length)) ev) ∧
      List.Forall₂ (StoredCompletely64 config centers m.rn (get_response64 np wconfig))
        (evs.filter fun ev => decide (ev.cloud ≠ [])) files.flatten ∧
      (∀ (i : ℕ) (hi : i < files.length), i + 1 < files.length → (files[i].length : ℤ) = per) ∧
      (∀ f ∈ files, (f.length : ℤ) ≤ per) ∧
      Holds disk0 final.writer.disk first files ∧
      ∃ lo hi : ℕ → ℤ,
        (∀ (i : ℕ) (hi' : i < files.length), ∃ hf,
          final.writer.disk (run_name (first + i)) = some hf ∧ hf.closed = true ∧
          hf.min_event = some (lo i) ∧ hf.max_event = some (hi i) ∧
          ∀ e ∈ files[i], lo i ≤ e.event ∧ e.event ≤ hi i) ∧
        ∀ i j, i < j → j < files.length → hi i < lo j := by
  obtain ⟨h1, h2⟩ := start_rel disk0 per first (get_response64 np wconfig)
  obtain ⟨hlen, -, hall⟩ := C132_template hnp he
  have hR : ∀ r ∈ get_response64 np wconfig, 0 ≤ r := by
    intro r hmem
    obtain ⟨b, -, hb⟩ := forall₂_exists hall r hmem
    exact hb.1
  refine ⟨h1, ?_⟩
  obtain ⟨evs, final, a', B', stored, i1, i2, i3, i4, i5, i6, i7, i8, i9⟩ :=
    run_events64_stored (indices := indices.getD (default_indices zs.length)) h hgrid hpads hok hsp hgain hr hstd hg hA
      (hlen.trans (by norm_num [NUM_TB])) hR hc hcell hper n.toNat 0
      ⟨s, (init64 np disk0 wconfig per first).2⟩ ⟨[], [], 0, 0⟩ 0 (by simp)
      (fun k _ hk => hready k (by omega)) h2 (AOk.init hper)
      ⟨le_rfl, by simp, by simp, by simp, by simp, by simp⟩
  obtain ⟨w', lo, hi, c1, c2, c3, c4, c5, c6⟩ := closed_files hper i7 i8 i9
  refine ⟨{ final with writer := w' }, evs, a'.files, ?_, i2, ?_, i4, ?_, c2, c3, c4, lo, hi, ?_, c6⟩
  · rw [run_simulation64_eq m std env config file _ indices rng _ hz ha hn hcs hnc, i1]
    have hclose : (spyralWriter64 m.rn argsort).close final.writer = (.ok (), w') := c1
    simp only [hclose]
  · rw [Simulated64_numbers i2, i3, List.range_eq_range']
  · rw [i6]
    simpa [AState.files] using i5
  · intro i hi'
    obtain ⟨hf, d1, d2, d3, d4, d5, -⟩ := c5 i hi'
    exact ⟨hf, d1, d2, d3, d4, d5⟩

end

/-- The event of the example file stays inside the detector. -/
theorem exMachine_inside : EventInside exEnv exMomenta (0, 0, 0.5) [1, 1, 1] [1, 1, 1] exMachine [2] := by
  have hlor : ∀ v : ℝ, 0 ≤ v → v ≤ 1 → exNucleus.mass * lorentz v * (1.0e6 / exMachine.det_params.w_value) ≤ 1e9 := by
    intro v h0 h1
    have := lorentz_le h0
    change 6 * lorentz v * (1.0e6 / 1.0e6) ≤ 1e9
    norm_num
    linarith
  intro idx _ z a nucleus momentum track _ _ _ h4 _ h6
  have e4 : exNucleus = nucleus := Except.ok.inj h4
  subst e4
  have htr : generate_trajectory exEnv.solve_ivp (0, 0, 0.5) (momentum.px, momentum.py, momentum.pz) exNucleus
      exMachine.det_params = .ok [exTrack0, exTrack1] := rfl
  rw [htr] at h6
  have e6 := Except.ok.inj h6
  subst e6
  have g0 := exTrack0_gv
  have g1 := exTrack1_gv
  constructor
  · intro r hr
    simp only [List.mem_cons, List.not_mem_nil, or_false] at hr
    rcases hr with rfl | rfl <;> norm_num [exTrack0, exTrack1, exMachine, exConfig, exDet]
  · refine ⟨?_, ?_, ?_, ?_, ?_, ?_, ?_, ?_⟩
    · norm_num [exNucleus]
    · norm_num [exNucleus]
    · norm_num [exMachine, exConfig, exDet]
    · norm_num [exMachine, exConfig, exDet]
    · norm_num [exMachine, exConfig, exDet]
    · norm_num [exMachine, exConfig, exDet]
    · intro s hs
      simp only [List.mem_cons, List.not_mem_nil, or_false] at hs
      rcases hs with rfl | rfl
      · exact ⟨by rw [g0]; norm_num, by rw [g0]; norm_num⟩
      · exact ⟨by rw [g1]; norm_num, by rw [g1]; norm_num⟩
    · intro s hs
      simp only [List.mem_cons, List.not_mem_nil, or_false] at hs
      rcases hs with rfl | rfl
      · exact hlor _ (by rw [g0]; norm_num) (by rw [g0]; norm_num)
      · exact hlor _ (by rw [g1]; norm_num) (by rw [g1]; norm_num)

/-- Both events of the example file are ready. -/
theorem exMachine_ready : ∀ k < 2, EventReady exEnv exMachine exKinFile [1, 1, 1] [1, 1, 1] 1 [2] exGen k := by
  have htr : ∀ q : Vec4, generate_trajectory exEnv.solve_ivp (0, 0, 0.5) (q.px, q.py, q.pz) exNucleus
      exMachine.det_params = .ok [exTrack0, exTrack1] := fun _ => rfl
  have ht : EventTotal drawnAbove exEnv exMomenta (0, 0, 0.5) [1, 1, 1] [1, 1, 1] exMachine exGen [2] ()
      (drawnAbove [exTrack0, exTrack1] [0, 1] + 0) () :=
    .charged 2 1 1 exNucleus ⟨0, 0, 4.5, 7.5⟩ [exTrack0, exTrack1] [0, 1] [] () () () 0
      rfl (by norm_num) rfl rfl rfl (htr _) (exElectrons 1000 0.0001) (.nil ())
  have hn : drawnAbove [exTrack0, exTrack1] [0, 1] + 0 = 3 := by decide
  have hgain : exMachine.det_params.mpgd_gain = 1000 := rfl
  rw [hn] at ht
  intro k hk
  have hread : read_event exKinFile 1 k = .ok (exMomenta, (0, 0, 0.5)) := by
    interval_cases k <;> rfl
  exact ⟨_, _, hread, exMachine_inside, fun s => ⟨3, (), ht, by rw [hgain]; norm_num⟩⟩

/-- The example file of two events is simulated and stored completely, one event per file, whatever was on the disk. -/
example (m : Math64) (h : m.Ok) (np : NumpyMath) (hnp : np.Ok) (disk0 : Disk) :
    ∃ (final : RunState Unit Writer) (evs : List EventOut) (files : List (List Stored)),
      run_simulation64 m (fun s => (0, s)) exEnv exMachine exKinFile (spyralWriter64 m.rn exArgsort) (some [2]) exGen
        ⟨(), (init64 np disk0 { exMachine with elec_params := ⟨6.25, 900, 1000, 10, 560, 40⟩ } 1 7).2⟩
        = (.ok (), final) ∧
      evs.map (·.number) = [0, 1] ∧ (∀ f ∈ files, f.length ≤ 1) ∧ Holds disk0 final.writer.disk 7 files := by
  have hgain : exMachine.det_params.mpgd_gain = 1000 := rfl
  obtain ⟨-, final, evs, files, h1, -, h3, -, -, -, h7, h8, -⟩ :=
    C143_run (indices := some [2]) h (grid := exGrid) (g := exEdges) (config := exMachine) rfl
    (fun _ _ => ⟨by norm_num [exGrid], by norm_num [exGrid]⟩) exMachine_drift
    ⟨by norm_num [exMachine], by norm_num [exMachine, exConfig, exDet],
      Or.inr ⟨by norm_num [exMachine, exConfig, exDet], by norm_num [exMachine, exConfig, exDet],
        by norm_num [exMachine, exConfig, exDet], by norm_num [exMachine, exConfig, exDet]⟩⟩
    (by rw [hgain]; norm_num) exGen_lawful (std := fun s => (0, s)) (fun loc scale s => by simp [exGen])
    (fun _ => by norm_num) exArgsort_ok (centers := List.replicate 10 (3, 4)) rfl
    (fun i j => by constructor <;> norm_num [exGrid, exMachine]) hnp
    (wconfig := { exMachine with elec_params := ⟨6.25, 900, 1000, 10, 560, 40⟩ }) default_template
    (file := exKinFile) rfl rfl rfl rfl rfl exMachine_ready disk0 (per := 1) (first := 7) le_rfl ()
  exact ⟨final, evs, files, h1, h3, fun f hf => by exact_mod_cast h7 f hf, h8⟩

end Verif.Machine
