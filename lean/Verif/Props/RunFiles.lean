import Verif.Props.Run
import Verif.Props.Writer

/-! # C62: the files left by a simulation run -/

namespace Verif.Detector

open Verif.Spec Verif.Kinematics Verif.Props

/-- The calls of `write` due for a list of events. -/
def writeReqs (config : Config) (evs : List EventOut) : List WriteReq :=
  (evs.filter fun ev => decide (ev.cloud ≠ [])).map fun ev => ⟨ev.cloud, ev.labels, config, ev.number⟩

/-- An event is stored completely: under its own number, with exactly the converted points above
threshold and their labels, sorted by height. -/
structure StoredCompletely (config : Config) (response : List ℝ) (ev : EventOut) (st : Stored) :
    Prop where
  number : st.event = ev.number
  content : ∃ centers converted, config.pad_centers = some centers ∧
    List.Forall₂ (RowOf config centers response) ev.cloud converted ∧
    st.rows.length = st.labels.length ∧
    (st.rows.zip st.labels).Perm ((converted.zip ev.labels).filter fun rl =>
      decide ((config.elec_params.adc_threshold : ℝ) < rl.1.amp)) ∧
    st.rows.Pairwise fun a b => a.z ≤ b.z

section
variable {σ : Type} (env : SimEnv) (config : Config) (file : KinFile (List Vec4))
  (zs as : List ℤ) (chunk_size : ℕ) (indices : List ℤ) (rng : Gen σ) (argsort : Argsort)

/-- The event loop with a `SpyralWriter` is a sequence of calls of `write` that stops at the first
failure. -/
theorem run_events_attempts (n : ℕ) : ∀ (start : ℕ) (st : RunState σ Writer),
    ∃ evs s', Simulated env config file zs as chunk_size indices rng start st.gen evs s' ∧
      (attempts argsort (writeReqs config evs) st.writer).2 =
        (run_events env config file zs as chunk_size indices rng (spyralWriter argsort) n start
          st).2.writer ∧
      evs.length ≤ n ∧
      (∀ r ∈ (attempts argsort (writeReqs config evs) st.writer).1.dropLast, r = .ok ()) ∧
      ((run_events env config file zs as chunk_size indices rng (spyralWriter argsort) n start
          st).1 = .ok () → evs.length = n ∧
            s' = (run_events env config file zs as chunk_size indices rng (spyralWriter argsort) n
              start st).2.gen ∧
            ∀ r ∈ (attempts argsort (writeReqs config evs) st.writer).1, r = .ok ()) := by
  induction n with
  | zero =>
    intro start st
    exact ⟨[], st.gen, .nil _ _, rfl, le_rfl, by simp [writeReqs, attempts],
      fun _ => ⟨rfl, rfl, by simp [writeReqs, attempts]⟩⟩
  | succ n ih =>
    intro start st
    cases hread : read_event file chunk_size start with
    | error e =>
      refine ⟨[], st.gen, .nil _ _, ?_, by simp, by simp [writeReqs, attempts], ?_⟩
      · simp [run_events, run_event, hread, writeReqs, attempts]
      · simp [run_events, run_event, hread]
    | ok mv =>
      obtain ⟨momenta, vertex⟩ := mv
      cases hsim : simulate env momenta vertex zs as config rng indices st.gen with
      | error e =>
        refine ⟨[], st.gen, .nil _ _, ?_, by simp, by simp [writeReqs, attempts], ?_⟩
        · simp [run_events, run_event, hread, hsim, writeReqs, attempts]
        · simp [run_events, run_event, hread, hsim]
      | ok cls =>
        obtain ⟨⟨cloud, labels⟩, s1⟩ := cls
        by_cases hc : cloud = []
        · have hstep : run_events env config file zs as chunk_size indices rng (spyralWriter argsort)
              (n + 1) start st = run_events env config file zs as chunk_size indices rng
              (spyralWriter argsort) n (start + 1) { st with gen := s1 } := by
            simp [run_events, run_event, hread, hsim, hc]
          rw [hstep]
          obtain ⟨evs, s', h1, h2, h3, h4, h5⟩ := ih (start + 1) { st with gen := s1 }
          have hreq : writeReqs config (⟨start, cloud, labels⟩ :: evs) = writeReqs config evs := by
            simp [writeReqs, hc]
          refine ⟨_, s', .cons hread hsim h1, ?_, by simpa using h3, ?_, ?_⟩
          · rw [hreq]; exact h2
          · rw [hreq]; exact h4
          · intro hok
            obtain ⟨h6, h7⟩ := h5 hok
            rw [hreq]
            exact ⟨by simp [h6], h7⟩
        · have hreq : ∀ evs, writeReqs config (⟨start, cloud, labels⟩ :: evs)
              = ⟨cloud, labels, config, start⟩ :: writeReqs config evs := by
            intro evs
            simp [writeReqs, hc]
          have hatt : ∀ evs, attempts argsort (writeReqs config (⟨start, cloud, labels⟩ :: evs))
              st.writer = (((spyralWriter argsort).write cloud labels config start st.writer).1 ::
                (attempts argsort (writeReqs config evs)
                  ((spyralWriter argsort).write cloud labels config start st.writer).2).1,
                (attempts argsort (writeReqs config evs)
                  ((spyralWriter argsort).write cloud labels config start st.writer).2).2) := by
            intro evs
            rw [hreq]
            rfl
          cases hw : ((spyralWriter argsort).write cloud labels config start st.writer).1 with
          | error e =>
            refine ⟨_, s1, .cons hread hsim (.nil _ _), ?_, by simp, ?_, ?_⟩
            · rw [hatt]
              simp [run_events, run_event, hread, hsim, hc, hw, writeReqs, attempts]
            · rw [hatt]
              simp [writeReqs, attempts]
            · simp [run_events, run_event, hread, hsim, hc, hw]
          | ok u =>
            have hstep : run_events env config file zs as chunk_size indices rng
                (spyralWriter argsort) (n + 1) start st
                = run_events env config file zs as chunk_size indices rng (spyralWriter argsort) n
                  (start + 1) ⟨s1,
                    ((spyralWriter argsort).write cloud labels config start st.writer).2⟩ := by
              simp [run_events, run_event, hread, hsim, hc, hw]
            rw [hstep]
            obtain ⟨evs, s', h1, h2, h3, h4, h5⟩ := ih (start + 1) ⟨s1,
              ((spyralWriter argsort).write cloud labels config start st.writer).2⟩
            refine ⟨_, s', .cons hread hsim h1, ?_, by simpa using h3, ?_, ?_⟩
            · rw [hatt]; exact h2
            · rw [hatt]
              intro r hr
              rcases hl : (attempts argsort (writeReqs config evs)
                  ((spyralWriter argsort).write cloud labels config start st.writer).2).1 with _ | ⟨x, xs⟩
              · simp [hl] at hr
              · simp only [hl, List.dropLast_cons_cons, List.mem_cons] at hr
                rcases hr with rfl | hr
                · exact hw
                · exact h4 r (by rw [hl]; exact hr)
            · intro hok
              obtain ⟨h6, h8, h7⟩ := h5 hok
              rw [hatt]
              refine ⟨by simp [h6], h8, ?_⟩
              intro r hr
              rcases List.mem_cons.1 hr with rfl | hr
              · exact hw
              · exact h7 r hr

end

theorem asteps_stored (argsort : Argsort) (response : List ℝ) (m : ℤ) (reqs : List WriteReq) :
    ∀ a : AState, List.Forall₂ (fun (r : WriteReq) (b : Bool) => b = true →
      ∃ e, r.stored argsort response = some e) reqs (asteps argsort response m reqs a).1 := by
  induction reqs with
  | nil => intro a; exact .nil
  | cons r rs ih =>
    intro a
    exact .cons (fun hb => step_ok_some _ _ _ _ hb) (ih _)

/-- If only the last of a sequence of calls may have failed, the stored events are those of an
initial part of the calls: all of them, if none failed. -/
theorem accepted_prefix (argsort : Argsort) (response : List ℝ) :
    ∀ (reqs : List WriteReq) (results : List (Except PyErr Unit)),
    List.Forall₂ (fun (r : WriteReq) (b : Bool) => b = true →
      ∃ e, r.stored argsort response = some e) reqs (results.map okay) →
    (∀ r ∈ results.dropLast, r = .ok ()) →
    ∃ k, reqs.length ≤ k + 1 ∧ ((∀ r ∈ results, r = .ok ()) → reqs.length ≤ k) ∧
      List.Forall₂ (fun (r : WriteReq) (e : Stored) => r.stored argsort response = some e)
        (reqs.take k) (accepted argsort response reqs results) := by
  intro reqs
  induction reqs with
  | nil =>
    intro results _ _
    exact ⟨0, by simp, by simp, by simp [accepted]⟩
  | cons r rs ih =>
    intro results hst hdl
    rcases results with _ | ⟨x, xs⟩
    · simp at hst
    · rw [List.map_cons, List.forall₂_cons] at hst
      obtain ⟨hst1, hst2⟩ := hst
      rcases x with e | u
      · have hxs : xs = [] := by
          by_contra hne
          have : (Except.error e : Except PyErr Unit) ∈ (Except.error e :: xs).dropLast := by
            rw [List.dropLast_cons_of_ne_nil hne]
            simp
          exact absurd (hdl _ this) (by simp)
        subst hxs
        have hrs : rs = [] := by simpa using hst2
        subst hrs
        exact ⟨0, by simp, by simp, by simp [accepted]⟩
      · obtain ⟨e, he⟩ := hst1 rfl
        have hdl' : ∀ r ∈ xs.dropLast, r = .ok () := by
          intro y hy
          refine hdl y ?_
          rcases xs with _ | ⟨z, zs⟩
          · simp at hy
          · rw [List.dropLast_cons_of_ne_nil (by simp)]
            exact List.mem_cons_of_mem _ hy
        obtain ⟨k, k1, k2, k3⟩ := ih xs hst2 hdl'
        refine ⟨k + 1, by simpa using k1, ?_, ?_⟩
        · intro hall
          have := k2 fun y hy => hall y (List.mem_cons_of_mem _ hy)
          simpa using this
        · have : accepted argsort response (r :: rs) (.ok u :: xs)
              = e :: accepted argsort response rs xs := by
            simp [accepted, he]
          rw [this, List.take_succ_cons]
          exact .cons he k3

section
variable {σ : Type} {env : SimEnv} {config : Config} {file : KinFile (List Vec4)}
  {zs as : List ℤ} {chunk_size : ℕ} {indices : List ℤ} {rng : Gen σ} {argsort : Argsort}

/-- Events of a run have labels of the right length and whole pad numbers. -/
theorem Simulated_shape {grid : PadGrid} {g : GridEdges} (hb : 0 < g.bin)
    (hN : g.high - g.low ≤ grid.size * g.bin) (hgrid : config.pad_grid = some (grid, g))
    (hr : LawfulGen rng) {k : ℕ} {s s' : σ} {evs : List EventOut}
    (h : Simulated env config file zs as chunk_size indices rng k s evs s') :
    ∀ ev ∈ evs, ev.cloud.length = ev.labels.length ∧ ∀ p ∈ ev.cloud, ∃ n : ℕ, p.pad = n := by
  induction h with
  | nil => simp
  | cons h1 h2 h3 ih =>
    intro ev hev
    rcases List.mem_cons.1 hev with rfl | hev
    · refine ⟨(C10_labels hb hgrid hr h2).1, ?_⟩
      intro p hp
      obtain ⟨i, j, -, -, -, -, hpad, h0, -⟩ := C07_active_pads hb hN hgrid hr h2 p hp
      refine ⟨(grid.cell i j).toNat, ?_⟩
      rw [hpad, ← Int.cast_natCast, Int.toNat_of_nonneg h0]
    · exact ih ev hev

/-- What the request of an event stores is the complete event. -/
theorem stored_completely (hA : IsArgsort argsort) {response : List ℝ} {ev : EventOut} {st : Stored}
    (hlen : ev.cloud.length = ev.labels.length) (hpads : ∀ p ∈ ev.cloud, ∃ n : ℕ, p.pad = n)
    (h : (⟨ev.cloud, ev.labels, config, ev.number⟩ : WriteReq).stored argsort response = some st) :
    StoredCompletely config response ev st := by
  unfold WriteReq.stored at h
  simp only at h
  cases hf : format_event argsort response ev.cloud ev.labels config with
  | error e => rw [hf] at h; simp at h
  | ok x =>
    obtain ⟨rows, labels⟩ := x
    rw [hf] at h
    simp only [Option.some.injEq] at h
    subst h
    exact ⟨rfl, C27_content argsort hA response _ _ config hlen hpads rows labels hf⟩

end

theorem forall₂_stored' {config : Config} {argsort : Argsort} (hA : IsArgsort argsort)
    {response : List ℝ} {evs : List EventOut}
    (hshape : ∀ ev ∈ evs, ev.cloud.length = ev.labels.length ∧ ∀ p ∈ ev.cloud, ∃ n : ℕ, p.pad = n)
    {l : List Stored}
    (h : List.Forall₂ (fun (r : WriteReq) (e : Stored) => r.stored argsort response = some e)
      (evs.map fun ev => ⟨ev.cloud, ev.labels, config, ev.number⟩) l) :
    List.Forall₂ (StoredCompletely config response) evs l := by
  rw [List.forall₂_map_left_iff] at h
  induction h with
  | nil => exact .nil
  | cons h1 h2 ih =>
    refine .cons (stored_completely hA (hshape _ (by simp)).1 (hshape _ (by simp)).2 h1) ?_
    exact ih fun ev hev => hshape ev (List.mem_cons_of_mem _ hev)

theorem forall₂_stored {config : Config} {argsort : Argsort} (hA : IsArgsort argsort)
    {response : List ℝ} {evs : List EventOut}
    (hshape : ∀ ev ∈ evs, ev.cloud.length = ev.labels.length ∧ ∀ p ∈ ev.cloud, ∃ n : ℕ, p.pad = n)
    {l : List Stored}
    (h : List.Forall₂ (fun (r : WriteReq) (e : Stored) => r.stored argsort response = some e)
      (writeReqs config evs) l) :
    List.Forall₂ (StoredCompletely config response)
      (evs.filter fun ev => decide (ev.cloud ≠ [])) l :=
  forall₂_stored' hA (fun ev hev => hshape ev (List.mem_filter.1 hev).1) h

theorem writeReqs_nonneg (config : Config) (evs : List EventOut) :
    ∀ r ∈ writeReqs config evs, 0 ≤ r.event := by
  intro r hr
  obtain ⟨ev, -, rfl⟩ := List.mem_map.1 hr
  exact Int.natCast_nonneg _

theorem writeReqs_sorted {σ : Type} {env : SimEnv} {config : Config} {file : KinFile (List Vec4)}
    {zs as : List ℤ} {chunk_size : ℕ} {indices : List ℤ} {rng : Gen σ} {k : ℕ} {s s' : σ}
    {evs : List EventOut}
    (h : Simulated env config file zs as chunk_size indices rng k s evs s') :
    ((writeReqs config evs).map (·.event)).Pairwise (· < ·) := by
  have h1 : (evs.map (·.number)).Pairwise (· < ·) := by
    rw [Simulated_numbers h]
    exact List.pairwise_lt_range'
  have h2 : (writeReqs config evs).map (·.event)
      = ((evs.filter fun ev => decide (ev.cloud ≠ [])).map (·.number)).map (fun (n : ℕ) => (n : ℤ)) := by
    simp [writeReqs, Function.comp_def]
  rw [h2, List.pairwise_map]
  have h3 := h1.sublist (List.filter_sublist (l := evs) (p := fun ev => decide (ev.cloud ≠ [])) |>.map (·.number))
  exact h3.imp fun {a b} hab => by exact_mod_cast hab

end Verif.Detector

namespace Verif.Props

open Verif.Detector Verif.Kinematics Verif.Spec

/-- **C62.** A run of the simulation with a `SpyralWriter` that returns normally has simulated all
events of the kinematics file, in order, each once. On disk, consecutively numbered files hold
exactly the events with a non-empty cloud, in order and complete: every event under its own number,
with all its points above the threshold and their labels. All files but the last hold `m` events, no
other file has been touched, every file is closed with a recorded range of event numbers containing
its events, and the ranges do not overlap. -/
theorem C62_complete_run {σ : Type} (env : SimEnv) (config wconfig : Config)
    (file : KinFile (List Vec4)) (indices : Option (List ℤ)) (rng : Gen σ) (hr : LawfulGen rng)
    (s : σ) (argsort : Argsort) (hA : IsArgsort argsort) (disk0 : Disk) (m first : ℤ) (hm : 1 ≤ m)
    {grid : PadGrid} {g : GridEdges} (hb : 0 < g.bin) (hN : g.high - g.low ≤ grid.size * g.bin)
    (hgrid : config.pad_grid = some (grid, g)) (final : RunState σ Writer)
    (hrun : run_simulation env config file (spyralWriter argsort) indices rng
      ⟨s, newWriter disk0 wconfig m first⟩ = (.ok (), final)) :
    ∃ (zs as : List ℤ) (n : ℤ) (cs : ℕ) (evs : List EventOut) (files : List (List Stored)),
      file.proton_numbers = some zs ∧ file.mass_numbers = some as ∧
      file.n_events = some n ∧ file.chunk_size = some cs ∧
      Simulated env config file zs as cs (indices.getD (default_indices zs.length)) rng 0 s evs
        final.gen ∧
      evs.map (·.number) = List.range n.toNat ∧
      List.Forall₂ (StoredCompletely config (get_response wconfig))
        (evs.filter fun ev => decide (ev.cloud ≠ [])) files.flatten ∧
      (∀ (i : ℕ) (hi : i < files.length), i + 1 < files.length → (files[i].length : ℤ) = m) ∧
      (∀ f ∈ files, (f.length : ℤ) ≤ m) ∧
      Holds disk0 final.writer.disk first files ∧
      ∃ lo hi : ℕ → ℤ,
        (∀ (i : ℕ) (hi' : i < files.length), ∃ hf,
          final.writer.disk (run_name (first + i)) = some hf ∧ hf.closed = true ∧
          hf.min_event = some (lo i) ∧ hf.max_event = some (hi i) ∧
          ∀ e ∈ files[i], lo i ≤ e.event ∧ e.event ≤ hi i) ∧
        ∀ i j, i < j → j < files.length → hi i < lo j := by
  rcases attrs_or_missing file with h | ⟨zs, as, n, cs, nc, h1, h2, h3, h4, h5⟩
  · rw [run_simulation_missing _ _ _ _ _ _ _ h] at hrun
    simp at hrun
  · rw [run_simulation_eq _ _ _ _ _ _ _ h1 h2 h3 h4 h5] at hrun
    obtain ⟨evs, s', k1, k2, k3, k4, k5⟩ := run_events_attempts env config file zs as cs
      (indices.getD (default_indices zs.length)) rng argsort n.toNat 0
      ⟨s, newWriter disk0 wconfig m first⟩
    revert hrun k2 k5
    generalize run_events env config file zs as cs (indices.getD (default_indices zs.length)) rng
      (spyralWriter argsort) n.toNat 0 ⟨s, newWriter disk0 wconfig m first⟩ = q
    obtain ⟨a, gen, w⟩ := q
    intro hrun k2 k5
    rcases a with e | u
    · simp at hrun
    obtain ⟨k6, k7, k8⟩ := k5 rfl
    simp only at k1 k2 k4 k7 k8 hrun
    rcases hatt : attempts argsort (writeReqs config evs) (newWriter disk0 wconfig m first)
      with ⟨results, w1⟩
    rw [hatt] at k2 k4 k8
    simp only at k2 k4 k8
    subst k2 k7
    have hsorted := writeReqs_sorted k1
    obtain ⟨w', files, lo, hi, c1, c2, c3, c4, c5, c6, c7, c8⟩ := C30_ranges disk0 wconfig m first hm
      argsort _ results w1 hatt (writeReqs_nonneg config evs) hsorted
    have hclose : (spyralWriter argsort).close w1 = (.ok (), w') := c1
    rw [hclose] at hrun
    obtain ⟨-, rfl⟩ := Prod.mk.inj hrun
    refine ⟨zs, as, n, cs, evs, files, h1, h2, h3, h4, k1, ?_, ?_, c4, c5, c6, lo, hi, ?_, c8⟩
    · rw [Simulated_numbers k1, k6, List.range_eq_range']
    · have hres := (attempts_rel argsort (writeReqs config evs) (init_rel disk0 wconfig m first).2).2
      rw [show (Writer.init disk0 wconfig m first).2 = newWriter disk0 wconfig m first from rfl, hatt]
        at hres
      simp only at hres
      obtain ⟨k, -, j2, j3⟩ := accepted_prefix argsort (get_response wconfig) _ results
        (by rw [hres]; exact asteps_stored _ _ _ _ _) k4
      rw [List.take_of_length_le (j2 k8)] at j3
      rw [c3]
      have hshape := Simulated_shape hb hN hgrid hr k1
      exact forall₂_stored hA hshape j3
    · intro i hi'
      obtain ⟨hf, d1, d2, d3, d4, d5, -⟩ := c7 i hi'
      exact ⟨hf, d1, d2, d3, d4, d5⟩

/-- **C62.** Whenever the process stops (at the end, with an exception, or killed at any point: `d` is
any state the disk went through), there are closed, consecutively numbered, full files which hold, in
order and complete, the first non-empty events of the run; all other files of the directory, except the
file being written, are as before the run. -/
theorem C62_interrupted_run {σ : Type} (env : SimEnv) (config wconfig : Config)
    (file : KinFile (List Vec4)) (indices : Option (List ℤ)) (rng : Gen σ) (hr : LawfulGen rng)
    (s : σ) (argsort : Argsort) (hA : IsArgsort argsort) (disk0 : Disk) (m first : ℤ) (hm : 1 ≤ m)
    {grid : PadGrid} {g : GridEdges} (hb : 0 < g.bin) (hN : g.high - g.low ≤ grid.size * g.bin)
    (hgrid : config.pad_grid = some (grid, g)) {zs as : List ℤ} {n : ℤ} {cs nc : ℕ}
    (hz : file.proton_numbers = some zs) (ha : file.mass_numbers = some as)
    (hn : file.n_events = some n) (hcs : file.chunk_size = some cs) (hnc : file.n_chunks = some nc)
    (res : Except PyErr Unit) (final : RunState σ Writer)
    (hrun : run_simulation env config file (spyralWriter argsort) indices rng
      ⟨s, newWriter disk0 wconfig m first⟩ = (res, final)) (d : Disk) (hd : d ∈ final.writer.trace) :
    ∃ (evs : List EventOut) (s' : σ) (full : List (List Stored)) (k : ℕ), evs.length ≤ n.toNat ∧
      Simulated env config file zs as cs (indices.getD (default_indices zs.length)) rng 0 s evs s' ∧
      List.Forall₂ (StoredCompletely config (get_response wconfig))
        ((evs.filter fun ev => decide (ev.cloud ≠ [])).take k) full.flatten ∧
      (∀ (i : ℕ) (hi : i < full.length), (full[i].length : ℤ) = m ∧
        ∃ hf, d (run_name (first + i)) = some hf ∧ hf.closed = true ∧
          hf.min_event.isSome ∧ hf.max_event.isSome ∧
          hf.dsets = full[i].flatMap (Stored.dsets (first + i))) ∧
      ∀ name, (∀ i : ℕ, i ≤ full.length → name ≠ run_name (first + i)) → d name = disk0 name := by
  rw [run_simulation_eq _ _ _ _ _ _ _ hz ha hn hcs hnc] at hrun
  obtain ⟨evs, s', k1, k2, k3, k4, -⟩ := run_events_attempts env config file zs as cs
    (indices.getD (default_indices zs.length)) rng argsort n.toNat 0
    ⟨s, newWriter disk0 wconfig m first⟩
  revert hrun k2
  generalize run_events env config file zs as cs (indices.getD (default_indices zs.length)) rng
    (spyralWriter argsort) n.toNat 0 ⟨s, newWriter disk0 wconfig m first⟩ = q
  obtain ⟨a, gen, w⟩ := q
  intro hrun k2
  simp only at k1 k2 k4
  rcases hatt : attempts argsort (writeReqs config evs) (newWriter disk0 wconfig m first)
    with ⟨results, w1⟩
  rw [hatt] at k2 k4
  simp only at k2 k4
  subst k2
  have hw' : final.writer = w1 ∨ w1.close = (.ok (), final.writer) := by
    rcases a with e | u
    · simp only [Prod.mk.injEq] at hrun
      obtain ⟨-, rfl⟩ := hrun
      exact .inl rfl
    · right
      have hsorted := writeReqs_sorted k1
      obtain ⟨w', -, -, -, c1, -⟩ := C30_ranges disk0 wconfig m first hm
        argsort _ results w1 hatt (writeReqs_nonneg config evs) hsorted
      have hclose : (spyralWriter argsort).close w1 = (.ok (), w') := c1
      simp only [hclose, Prod.mk.injEq] at hrun
      obtain ⟨-, rfl⟩ := hrun
      exact c1
  obtain ⟨full, f1, f2, f3⟩ := C34_crash disk0 wconfig m first hm argsort _ results w1 final.writer
    hatt hw' d hd
  have hres := (attempts_rel argsort (writeReqs config evs) (init_rel disk0 wconfig m first).2).2
  rw [show (Writer.init disk0 wconfig m first).2 = newWriter disk0 wconfig m first from rfl, hatt]
    at hres
  simp only at hres
  obtain ⟨k, -, -, j3⟩ := accepted_prefix argsort (get_response wconfig) _ results
    (by rw [hres]; exact asteps_stored _ _ _ _ _) k4
  have hshape := Simulated_shape hb hN hgrid hr k1
  refine ⟨evs, s', full, min full.flatten.length k, k3, k1, ?_, f2, f3⟩
  have j4 := List.forall₂_take full.flatten.length j3
  rw [List.take_take, List.prefix_iff_eq_take.1 f1 |>.symm, writeReqs, ← List.map_take] at j4
  refine forall₂_stored' hA (fun ev hev => hshape ev ?_) j4
  exact (List.mem_filter.1 (List.mem_of_mem_take hev)).1

/-- Configuration of the example run: ten pads. -/
noncomputable def exRunConfig : Config :=
  { exConfig 100 0 with pad_centers := some (List.replicate 10 (1, 2)),
                        pad_sizes := List.replicate 10 3 }

/-- The hypotheses of C62 can be met, with non-empty events in two files. -/
theorem exRun_complete (disk0 : Disk) : ∃ final, run_simulation exEnv exRunConfig exKinFile
      (spyralWriter exArgsort) (some [2]) exGen ⟨(), newWriter disk0 exRunConfig 1 7⟩
        = (.ok (), final) ∧
      ∃ evs s', Simulated exEnv exRunConfig exKinFile [1, 1, 1] [1, 1, 1] 1 [2] exGen 0 () evs s' ∧
        (evs.filter fun ev => decide (ev.cloud ≠ [])).length = 2 := by
  obtain ⟨cloud, labels, h, row, hrow⟩ := exSimulate_nonempty
  have hc : cloud ≠ [] := by rintro rfl; simp at hrow
  replace h : simulate exEnv exMomenta (0, 0, 0.5) [1, 1, 1] [1, 1, 1] exRunConfig
    exGen [2] () = .ok ((cloud, labels), ()) := h
  have r0 : read_event exKinFile 1 0 = .ok (exMomenta, (0, 0, 0.5)) := by rfl
  have r1 : read_event exKinFile 1 1 = .ok (exMomenta, (0, 0, 0.5)) := by rfl
  have hall := (C29_all_stored disk0 exRunConfig 1 7 exArgsort
    [⟨cloud, labels, exRunConfig, 0⟩, ⟨cloud, labels, exRunConfig, 1⟩] _ _ rfl (by simp) (by
      intro r hr
      have hd : r.data = cloud ∧ r.config = exRunConfig := by
        simp only [List.mem_cons, List.not_mem_nil, or_false] at hr
        rcases hr with rfl | rfl <;> exact ⟨rfl, rfl⟩
      rw [hd.1, hd.2]
      refine C27_no_error _ _ _ _ _ (List.replicate 10 (1, 2)) rfl ?_ ?_
      · simp [exRunConfig, exConfig, exElec]
      · intro p hp
        obtain ⟨i, j, -, -, -, -, hpad, h0, -⟩ := C07_active_pads exEdges_bin (by
          norm_num [exEdges, exGrid]) rfl exGen_lawful h p hp
        exact ⟨5, by rw [hpad]; simp [exGrid], by simp, by simp [exRunConfig]⟩)).1
  have w0 : ((spyralWriter exArgsort).write cloud labels exRunConfig 0
      (newWriter disk0 exRunConfig 1 7)).1 = .ok () := hall _ (List.mem_cons_self ..)
  have w1 : ((spyralWriter exArgsort).write cloud labels exRunConfig 1
      ((spyralWriter exArgsort).write cloud labels exRunConfig 0
        (newWriter disk0 exRunConfig 1 7)).2).1 = .ok () :=
    hall _ (List.mem_cons_of_mem _ (List.mem_cons_self ..))
  obtain ⟨w', -, -, -, hclose, -⟩ := C30_ranges disk0 exRunConfig 1 7 le_rfl exArgsort
    [⟨cloud, labels, exRunConfig, 0⟩, ⟨cloud, labels, exRunConfig, 1⟩] _ _ rfl (by simp) (by simp)
  replace hclose : (spyralWriter exArgsort).close ((spyralWriter exArgsort).write cloud labels
      exRunConfig 1 ((spyralWriter exArgsort).write cloud labels exRunConfig 0
        (newWriter disk0 exRunConfig 1 7)).2).2 = (.ok (), w') := hclose
  have e2 : (2 : ℤ).toNat = 2 := rfl
  refine ⟨⟨(), w'⟩, ?_, [⟨0, cloud, labels⟩, ⟨1, cloud, labels⟩], (),
    .cons r0 h (.cons r1 h (.nil _ _)), by simp [hc]⟩
  rw [run_simulation_eq (zs := [1, 1, 1]) (as := [1, 1, 1]) (n := 2) (cs := 1) (nc := 2) _ _ _ _ _ _ _
    rfl rfl rfl rfl rfl]
  simp [e2, run_events, run_event, r0, r1, h, hc, w0, w1, hclose]

end Verif.Props
