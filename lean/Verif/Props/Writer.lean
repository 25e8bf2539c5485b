import Verif.Proofs.WriterOrder
import Verif.Props.Format
import Verif.Props.Simulate

/-! # C28–C34: the output files of the writer -/

namespace Verif.Detector

open Verif.Spec

/-- A writer freshly created by `SpyralWriter(directory, config, m, first)` on a directory `disk`. -/
noncomputable def newWriter (disk : Disk) (config : Config) (m first : ℤ) : Writer :=
  (Writer.init disk config m first).2

/-- Creating a writer never fails in the model. -/
theorem newWriter_ok (disk : Disk) (config : Config) (m first : ℤ) :
    (Writer.init disk config m first).1 = .ok () := (init_rel disk config m first).1

/-- `files` describes the output on `disk`: the file of run `first + i` holds the datasets of the
events `files[i]`, and no other file of the directory has been touched. -/
structure Holds (disk0 disk : Disk) (first : ℤ) (files : List (List Stored)) : Prop where
  file : ∀ (i : ℕ) (hi : i < files.length), ∃ hf, disk (run_name (first + i)) = some hf ∧
    hf.dsets = files[i].flatMap (Stored.dsets (first + i))
  other : ∀ name, (∀ i : ℕ, i < files.length → name ≠ run_name (first + i)) →
    disk name = disk0 name

/-! ## C32 -/

/-- C32: different run numbers have different file names, for all integers. -/
theorem C32_names (a b : ℤ) (h : run_name a = run_name b) : a = b := run_name_inj h

/-- C32: within one writer the next file name is different from all names used before. -/
theorem C32_no_truncation (disk0 : Disk) (config : Config) (m first : ℤ) (argsort : Argsort)
    (reqs : List WriteReq) (i : ℕ)
    (hi : first + i ≤ (attempts argsort reqs (newWriter disk0 config m first)).2.run_number) :
    run_name (first + i) ≠ run_name
      ((attempts argsort reqs (newWriter disk0 config m first)).2.run_number + 1) := by
  intro h
  have := run_name_inj h
  omega

/-- The padded names of the documentation: `run_0000.h5`, and beyond four digits. -/
example : run_name 0 = "run_0000.h5" ∧ run_name 8 = "run_0008.h5" ∧ run_name 12345 = "run_12345.h5" := by
  decide

/-! ## C28 -/

theorem files_split {disk0 : Disk} {first m : ℤ} {response : List ℝ} (hm : 1 ≤ m)
    {a : AState} {w : Writer} (h : Rel disk0 first m response a w) (hok : AOk m a) :
    a.files ≠ [] ∧
    (∀ (i : ℕ) (hi : i < a.files.length), i + 1 < a.files.length → (a.files[i].length : ℤ) = m) ∧
    (∀ f ∈ a.files, (f.length : ℤ) ≤ m) ∧ Holds disk0 w.disk first a.files := by
  refine ⟨by simp [AState.files], ?_, ?_, ⟨h.files, h.others⟩⟩
  · intro i hi hi'
    have hd : i < a.done.length := by rw [files_length] at hi'; omega
    simp only [AState.files]
    rw [List.getElem_append_left (by simpa using hd), List.getElem_map]
    exact hok.full _ (List.getElem_mem _)
  · intro f hf
    simp only [AState.files, List.mem_append, List.mem_map, List.mem_singleton] at hf
    rcases hf with ⟨x, hx, rfl⟩ | rfl
    · exact (hok.full x hx).le
    · exact hok.cur

/-- C28: for a limit `m ≥ 1` and any history of calls of `write` (some of which may fail), the events
of the successful calls are stored in order in consecutively numbered files starting at `first`; all
of them but the last hold exactly `m` events and none holds more; no other file changes. -/
theorem C28_splitting (disk0 : Disk) (config : Config) (m first : ℤ) (hm : 1 ≤ m)
    (argsort : Argsort) (reqs : List WriteReq) (results : List (Except PyErr Unit)) (w : Writer)
    (h : attempts argsort reqs (newWriter disk0 config m first) = (results, w)) :
    ∃ files : List (List Stored), files ≠ [] ∧
      files.flatten = accepted argsort (get_response config) reqs results ∧
      (∀ (i : ℕ) (hi : i < files.length), i + 1 < files.length → (files[i].length : ℤ) = m) ∧
      (∀ f ∈ files, (f.length : ℤ) ≤ m) ∧
      Holds disk0 w.disk first files := by
  obtain ⟨hrel, hres⟩ := attempts_rel argsort reqs (init_rel disk0 config m first).2
  have hok := asteps_ok hm argsort (get_response config) reqs (AOk.init hm)
  have hf := asteps_files argsort (get_response config) m reqs ⟨[], [], 0, 0⟩
  rw [show (Writer.init disk0 config m first).2 = newWriter disk0 config m first from rfl, h]
    at hrel hres
  obtain ⟨h1, h2, h3, h4⟩ := files_split hm hrel hok
  refine ⟨_, h1, ?_, h2, h3, h4⟩
  rw [hf, accepted_eq, hres]
  simp [AState.files]

/-- C28: if all calls succeed and there is at least one, no file is empty. -/
theorem C28_no_empty_file (disk0 : Disk) (config : Config) (m first : ℤ) (hm : 1 ≤ m)
    (argsort : Argsort) (reqs : List WriteReq) (results : List (Except PyErr Unit)) (w : Writer)
    (h : attempts argsort reqs (newWriter disk0 config m first) = (results, w))
    (hne : reqs ≠ []) (hall : ∀ r ∈ results, r = .ok ()) :
    ∃ files : List (List Stored), (∀ f ∈ files, f ≠ []) ∧
      files.flatten = accepted argsort (get_response config) reqs results ∧
      Holds disk0 w.disk first files := by
  obtain ⟨hrel, hres⟩ := attempts_rel argsort reqs (init_rel disk0 config m first).2
  have hf := asteps_files argsort (get_response config) m reqs ⟨[], [], 0, 0⟩
  rw [show (Writer.init disk0 config m first).2 = newWriter disk0 config m first from rfl, h]
    at hrel hres
  simp only at hrel hres
  have hbs : ∀ b ∈ (asteps argsort (get_response config) m reqs ⟨[], [], 0, 0⟩).1, b = true := by
    intro b hb
    rw [← hres] at hb
    obtain ⟨r, hr, rfl⟩ := List.mem_map.1 hb
    rw [hall r hr]; rfl
  have hex := asteps_exact hm argsort (get_response config) reqs
    (a := ⟨[], [], 0, 0⟩) ⟨Or.inr ⟨rfl, rfl, rfl, rfl⟩, by simp⟩ hbs
  have hflat : (asteps argsort (get_response config) m reqs ⟨[], [], 0, 0⟩).2.files.flatten ≠ [] := by
    rw [hf]
    cases reqs with
    | nil => exact absurd rfl hne
    | cons r rs =>
      unfold asteps at hbs ⊢
      simp only [List.mem_cons, forall_eq_or_imp] at hbs
      obtain ⟨e, he⟩ := step_ok_some _ _ _ _ hbs.1
      have hz : ∀ bs, aaccepted argsort (get_response config) (r :: rs) (true :: bs)
          = e :: aaccepted argsort (get_response config) rs bs := by
        intro bs
        simp [aaccepted, he]
      simp only [hbs.1, hz]
      simp
  refine ⟨_, ?_, ?_, ⟨hrel.files, hrel.others⟩⟩
  · intro f hfm h0
    subst h0
    simp only [AState.files, List.mem_append, List.mem_map, List.mem_singleton] at hfm
    rcases hfm with ⟨x, hx, hxe⟩ | hcur
    · obtain ⟨i, hi, rfl⟩ := List.getElem_of_mem hx
      obtain ⟨hn, -⟩ := hex.done i hi
      exact hn hxe
    · rcases hex.cur with ⟨hn, -⟩ | ⟨hc, hd, -⟩
      · exact hn hcur.symm
      · apply hflat
        simp [AState.files, hc, hd]
  · rw [hf, accepted_eq, hres]
    simp [AState.files]

/-! ## C29 -/

/-- C29: with pairwise different event numbers, a call of `write` fails only if its cloud cannot be
formatted; if all clouds can be, every event is stored. -/
theorem C29_all_stored (disk0 : Disk) (config : Config) (m first : ℤ)
    (argsort : Argsort) (reqs : List WriteReq) (results : List (Except PyErr Unit)) (w : Writer)
    (h : attempts argsort reqs (newWriter disk0 config m first) = (results, w))
    (hd : (reqs.map (·.event)).Nodup)
    (hfmt : ∀ r ∈ reqs, ∃ x, format_event argsort (get_response config) r.data r.labels r.config
      = .ok x) :
    (∀ r ∈ results, r = .ok ()) ∧
    (accepted argsort (get_response config) reqs results).map (·.event) = reqs.map (·.event) := by
  obtain ⟨hrel, hres⟩ := attempts_rel argsort reqs (init_rel disk0 config m first).2
  rw [show (Writer.init disk0 config m first).2 = newWriter disk0 config m first from rfl, h]
    at hrel hres
  simp only at hrel hres
  have hst : ∀ r ∈ reqs, ∃ e, r.stored argsort (get_response config) = some e := by
    intro r hr
    obtain ⟨x, hx⟩ := hfmt r hr
    unfold WriteReq.stored
    rw [hx]
    exact ⟨_, rfl⟩
  have key : ∀ (reqs : List WriteReq) (a : AState), (reqs.map (·.event)).Nodup →
      (∀ r ∈ reqs, ∃ e, r.stored argsort (get_response config) = some e) →
      (∀ r ∈ reqs, r.event ∉ a.cur.map (·.event)) →
      (∀ b ∈ (asteps argsort (get_response config) m reqs a).1, b = true) ∧
      (aaccepted argsort (get_response config) reqs
        (asteps argsort (get_response config) m reqs a).1).map (·.event) = reqs.map (·.event) := by
    intro reqs
    induction reqs with
    | nil => intro a _ _ _; simp [asteps, aaccepted]
    | cons r rs ih =>
      intro a hd hs hc
      rw [List.map_cons, List.nodup_cons] at hd
      obtain ⟨e, he⟩ := hs r (by simp)
      have hcur : ∀ x ∈ (a.roll m r.event).cur, x ∈ a.cur := by
        intro x hx
        unfold AState.roll at hx
        split_ifs at hx
        · simp at hx
        · exact hx
      have hmem : r.event ∉ (a.roll m r.event).cur.map (·.event) := by
        intro hm
        obtain ⟨x, hx, hxe⟩ := List.mem_map.1 hm
        exact hc r (by simp) (List.mem_map.2 ⟨x, hcur x hx, hxe⟩)
      have hstep : a.step m r.event (r.stored argsort (get_response config))
          = (true, { a.roll m r.event with
              cur := (a.roll m r.event).cur ++ [e], last := r.event }) := by
        unfold AState.step
        rw [he]
        simp only
        rw [if_neg hmem]
      obtain ⟨i1, i2⟩ := ih { a.roll m r.event with
              cur := (a.roll m r.event).cur ++ [e], last := r.event } hd.2
        (fun r' hr' => hs r' (by simp [hr'])) (by
          intro r' hr' hm
          rw [List.map_append, List.mem_append] at hm
          rcases hm with hm | hm
          · obtain ⟨x, hx, hxe⟩ := List.mem_map.1 hm
            exact hc r' (by simp [hr']) (List.mem_map.2 ⟨x, hcur x hx, hxe⟩)
          · simp only [List.map_cons, List.map_nil, List.mem_singleton] at hm
            rw [stored_event _ _ _ _ he] at hm
            exact hd.1 (List.mem_map.2 ⟨r', hr', hm⟩))
      unfold asteps
      rw [hstep]
      simp only
      refine ⟨?_, ?_⟩
      · intro b hb
        rcases List.mem_cons.1 hb with rfl | hb
        · rfl
        · exact i1 b hb
      · unfold aaccepted at i2 ⊢
        rw [List.zip_cons_cons, List.filterMap_cons]
        simp only [he, if_true, List.map_cons, stored_event _ _ _ _ he]
        rw [i2]
  obtain ⟨k1, k2⟩ := key reqs ⟨[], [], 0, 0⟩ hd hst (by simp)
  refine ⟨?_, ?_⟩
  · intro r hr
    have := k1 (okay r) (by rw [← hres]; exact List.mem_map.2 ⟨r, hr, rfl⟩)
    exact (okay_iff r).1 this
  · rw [accepted_eq, hres]
    exact k2

/-- C29: every stored event is found, intact, in exactly one file, with the right run and event
number in its attributes. -/
theorem C29_read_back (disk0 : Disk) (config : Config) (m first : ℤ) (hm : 1 ≤ m)
    (argsort : Argsort) (reqs : List WriteReq) (results : List (Except PyErr Unit)) (w : Writer)
    (h : attempts argsort reqs (newWriter disk0 config m first) = (results, w))
    (hd : (reqs.map (·.event)).Nodup) :
    ∃ files : List (List Stored),
      files.flatten = accepted argsort (get_response config) reqs results ∧
      Holds disk0 w.disk first files ∧
      ∀ e ∈ accepted argsort (get_response config) reqs results,
        ∃ i < files.length,
          (∃ hf attrs, w.disk (run_name (first + i)) = some hf ∧
            hf.dsets.lookup (cloud_name e.event) = some (.cloud e.rows attrs) ∧
            hf.dsets.lookup (labels_name e.event) = some (.labels e.labels) ∧
            attrs.lookup "orig_run" = some ((first + i : ℤ) : ℝ) ∧
            attrs.lookup "orig_event" = some (e.event : ℝ)) ∧
          ∀ j < files.length, j ≠ i → ∃ hf, w.disk (run_name (first + j)) = some hf ∧
            hf.dsets.lookup (cloud_name e.event) = none ∧
            hf.dsets.lookup (labels_name e.event) = none := by
  obtain ⟨files, -, hflat, -, -, hH⟩ := C28_splitting disk0 config m first hm argsort reqs results w h
  refine ⟨files, hflat, hH, ?_⟩
  have hnd : (files.flatten.map (·.event)).Nodup := by
    rw [hflat]
    exact List.Nodup.sublist (accepted_sublist _ _ _ _) hd
  intro e he
  rw [← hflat] at he
  obtain ⟨l, hl, hel⟩ := List.mem_flatten.1 he
  obtain ⟨i, hi, rfl⟩ := List.getElem_of_mem hl
  obtain ⟨hf, hdisk, hds⟩ := hH.file i hi
  rw [List.map_flatten, List.nodup_flatten] at hnd
  have hnd_i : (files[i].map (·.event)).Nodup := hnd.1 _ (List.mem_map.2 ⟨_, hl, rfl⟩)
  obtain ⟨l1, l2⟩ := lookup_cloud (first + i) files[i] e hel hnd_i
  rw [← hds] at l1 l2
  refine ⟨i, hi, ⟨hf, _, hdisk, l1, l2, rfl, rfl⟩, ?_⟩
  · intro j hj hji
    obtain ⟨hf', hdisk', hds'⟩ := hH.file j hj
    refine ⟨hf', hdisk', ?_⟩
    rw [hds']
    apply lookup_cloud_none
    intro x hx hxe
    have h1 : e.event ∈ files[i].map (·.event) := List.mem_map.2 ⟨e, hel, rfl⟩
    have h2 : e.event ∈ files[j].map (·.event) := List.mem_map.2 ⟨x, hx, hxe⟩
    have hp := List.pairwise_iff_getElem.1 hnd.2
    rcases Nat.lt_or_gt_of_ne hji with hlt | hlt
    · have := hp j i (by simpa using hj) (by simpa using hi) hlt
      simp only [List.getElem_map] at this
      exact this h2 h1
    · have := hp i j (by simpa using hi) (by simpa using hj) hlt
      simp only [List.getElem_map] at this
      exact this h1 h2

/-- C29: later calls, successful or not, do not change a stored dataset: it stays in the same file
under the same name with the same contents and attributes. -/
theorem C29_unchanged (disk0 : Disk) (config : Config) (m first : ℤ)
    (argsort : Argsort) (reqs later : List WriteReq) (i : ℕ) (hf : H5File) (name : String) (ds : Dset)
    (hi : first + i ≤ (attempts argsort reqs (newWriter disk0 config m first)).2.run_number)
    (hdisk : (attempts argsort reqs (newWriter disk0 config m first)).2.disk (run_name (first + i))
      = some hf)
    (hds : hf.dsets.lookup name = some ds) :
    ∃ hf', (attempts argsort (reqs ++ later) (newWriter disk0 config m first)).2.disk
        (run_name (first + i)) = some hf' ∧ hf'.dsets.lookup name = some ds := by
  obtain ⟨h1, -⟩ := attempts_rel argsort reqs (init_rel disk0 config m first).2
  obtain ⟨h2, -⟩ := attempts_rel argsort later h1
  have hle := asteps_le argsort (get_response config) m later
    (asteps argsort (get_response config) m reqs ⟨[], [], 0, 0⟩).2
  rw [attempts_append]
  change Rel disk0 first m _ _ (attempts argsort reqs (newWriter disk0 config m first)).2 at h1
  change Rel disk0 first m _ _ (attempts argsort later
    (attempts argsort reqs (newWriter disk0 config m first)).2).2 at h2
  generalize (attempts argsort reqs (newWriter disk0 config m first)).2 = w at *
  generalize (attempts argsort later w).2 = w' at *
  generalize (asteps argsort (get_response config) m reqs ⟨[], [], 0, 0⟩).2 = a at *
  generalize (asteps argsort (get_response config) m later a).2 = a' at *
  have hia : i < a.files.length := by
    rw [h1.run] at hi
    rw [files_length]
    omega
  obtain ⟨g, hg, hgd⟩ := h1.files i hia
  rw [hdisk] at hg
  have hg := Option.some.inj hg
  subst hg
  have hia' : i < a'.files.length := hia.trans_le hle.1
  obtain ⟨g', hg', hgd'⟩ := h2.files i hia'
  refine ⟨g', hg', ?_⟩
  obtain ⟨t, ht⟩ := hle.2 i hia hia'
  rw [hgd', ← ht, List.flatMap_append, ← hgd, List.lookup_append, hds]
  rfl

/-! ## C30, C31 -/

/-- C30: for increasing non-negative event numbers, after `close` every file records a range that
contains all its events, whose upper end is its last event (if it has any), and the ranges of
different files do not overlap. The files are those of `C28_splitting`: all but the last are full. -/
theorem C30_ranges (disk0 : Disk) (config : Config) (m first : ℤ) (hm : 1 ≤ m)
    (argsort : Argsort) (reqs : List WriteReq) (results : List (Except PyErr Unit)) (w : Writer)
    (h : attempts argsort reqs (newWriter disk0 config m first) = (results, w))
    (h0 : ∀ r ∈ reqs, 0 ≤ r.event) (hinc : (reqs.map (·.event)).Pairwise (· < ·)) :
    ∃ (w' : Writer) (files : List (List Stored)) (lo hi : ℕ → ℤ), w.close = (.ok (), w') ∧
      files ≠ [] ∧ files.flatten = accepted argsort (get_response config) reqs results ∧
      (∀ (i : ℕ) (hi : i < files.length), i + 1 < files.length → (files[i].length : ℤ) = m) ∧
      (∀ f ∈ files, (f.length : ℤ) ≤ m) ∧
      Holds disk0 w'.disk first files ∧
      (∀ (i : ℕ) (hi' : i < files.length), ∃ hf, w'.disk (run_name (first + i)) = some hf ∧
        hf.closed = true ∧ hf.min_event = some (lo i) ∧ hf.max_event = some (hi i) ∧
        (∀ e ∈ files[i], lo i ≤ e.event ∧ e.event ≤ hi i) ∧
        (∀ hne : files[i] ≠ [], hi i = (files[i].getLast hne).event)) ∧
      ∀ i j, i < j → j < files.length → hi i < lo j := by
  obtain ⟨hrel, hres⟩ := attempts_rel argsort reqs (init_rel disk0 config m first).2
  have hf := asteps_files argsort (get_response config) m reqs ⟨[], [], 0, 0⟩
  have hord := asteps_ord hm argsort (get_response config) reqs (B := 0) (a := ⟨[], [], 0, 0⟩)
    ⟨le_rfl, by simp, by simp, by simp, by simp, by simp⟩ h0 hinc
  have hok := asteps_ok hm argsort (get_response config) reqs (AOk.init hm)
  rw [show (Writer.init disk0 config m first).2 = newWriter disk0 config m first from rfl, h]
    at hrel hres
  simp only at hrel hres
  have hacc : accepted argsort (get_response config) reqs results
      = (asteps argsort (get_response config) m reqs ⟨[], [], 0, 0⟩).2.files.flatten := by
    rw [hf, accepted_eq, hres]
    simp [AState.files]
  rw [hacc]
  generalize (asteps argsort (get_response config) m reqs ⟨[], [], 0, 0⟩).2 = a at *
  obtain ⟨B, hord⟩ := hord
  obtain ⟨tr, hclose, -⟩ := close_rel hrel
  obtain ⟨s1, s2, s3, -⟩ := files_split hm hrel hok
  have hfile := file_eq hrel
  have hD := hrel.disk.snoc ⟨a.cur, a.start, a.last⟩
  rw [← hfile, ← hrel.run] at hD
  have hfl : a.files = (a.done ++ [(⟨a.cur, a.start, a.last⟩ : AFile)]).map (·.events) := by
    simp [AState.files]
  have hpw : (a.done ++ [(⟨a.cur, a.start, a.last⟩ : AFile)]).Pairwise fun f g => f.max < g.min := by
    rw [List.pairwise_append]
    refine ⟨hord.done_sorted, by simp, ?_⟩
    intro f hfm g hg
    rw [List.mem_singleton.1 hg]
    exact (hord.done_range f hfm).2.1
  have hrange : ∀ f ∈ a.done ++ [(⟨a.cur, a.start, a.last⟩ : AFile)],
      (∀ e ∈ f.events, f.min ≤ e.event ∧ e.event ≤ f.max) ∧
      ∀ h : f.events ≠ [], f.max = (f.events.getLast h).event := by
    intro f hfm
    rcases List.mem_append.1 hfm with hfm | hfm
    · exact ⟨(hord.done_range f hfm).1, (hord.done_range f hfm).2.2⟩
    · rw [List.mem_singleton.1 hfm]
      refine ⟨fun e he => ⟨(hord.cur_range e he).1, ?_⟩, hord.last_eq⟩
      have hne : a.cur ≠ [] := List.ne_nil_of_mem he
      simp only
      rw [hord.last_eq hne]
      exact getLast_max _ hord.cur_sorted hne e he
  generalize hall : a.done ++ [(⟨a.cur, a.start, a.last⟩ : AFile)] = all at *
  refine ⟨_, a.files, fun i => (all[i]?.getD ⟨[], 0, 0⟩).min, fun i => (all[i]?.getD ⟨[], 0, 0⟩).max,
    hclose, s1, rfl, s2, s3, ⟨?_, ?_⟩, ?_, ?_⟩
  · intro i hi
    have hi' : i < all.length := by rw [hfl] at hi; simpa using hi
    refine ⟨_, hD.done i hi', ?_⟩
    simp [AFile.h5, hfl]
  · intro name hn
    have hlen' : a.files.length = a.done.length + 1 := files_length a
    simp only
    rw [Function.update_of_ne]
    · exact hrel.disk.other name (fun i hi => hn i (by omega))
    · rw [hfile]
      exact hn _ (by omega)
  · intro i hi
    have hi' : i < all.length := by rw [hfl] at hi; simpa using hi
    obtain ⟨r1, r2⟩ := hrange all[i] (List.getElem_mem _)
    refine ⟨_, hD.done i hi', rfl, ?_, ?_, ?_, ?_⟩
    · simp [AFile.h5, hi']
    · simp [AFile.h5, hi']
    · simpa [hfl, hi'] using r1
    · simpa [hfl, hi'] using r2
  · intro i j hij hj
    have hj' : j < all.length := by rw [hfl] at hj; simpa using hj
    have := List.pairwise_iff_getElem.1 hpw i j (by omega) hj' hij
    simpa [hj', show i < all.length by omega] using this

/-- The events stored in a file, as recorded in the attributes of its clouds, in order. -/
noncomputable def storedEvents (h : H5File) : List ℝ :=
  h.dsets.filterMap fun nd =>
    match nd.2 with
    | .cloud _ attrs => attrs.lookup "orig_event"
    | .labels _ => none

theorem storedEvents_eq (run : ℤ) (h : H5File) (l : List Stored)
    (hd : h.dsets = l.flatMap (Stored.dsets run)) :
    storedEvents h = l.map fun e => (e.event : ℝ) := by
  unfold storedEvents
  rw [hd]
  clear hd
  induction l with
  | nil => rfl
  | cons e l ih =>
    rw [List.flatMap_cons, List.filterMap_append, ih]
    simp [Stored.dsets, List.lookup]

/-- The claim C31 for one file: the recorded range consists of the first and last stored event. -/
def RangeExact (h : H5File) : Prop :=
  h.min_event.map (fun (n : ℤ) => (n : ℝ)) = (storedEvents h).head? ∧
  h.max_event.map (fun (n : ℤ) => (n : ℝ)) = (storedEvents h).getLast?

/-- A configuration of the examples with two pads. -/
noncomputable def exWriteConfig : Config :=
  { exConfig 1 0 with pad_centers := some [(0, 0), (1, 2)], pad_sizes := [1, 2] }

/-- A call of `write` of the examples with two points. -/
noncomputable def exReq (n : ℤ) : WriteReq :=
  ⟨[⟨1, 50.5, 1000⟩, ⟨0, 60.25, 100000⟩], [2, 3], exWriteConfig, n⟩

theorem exReq_format (argsort : Argsort) (response : List ℝ) (n : ℤ) :
    ∃ x, format_event argsort response (exReq n).data (exReq n).labels (exReq n).config = .ok x := by
  refine C27_no_error argsort response _ _ _ [(0, 0), (1, 2)] rfl ?_ ?_
  · simp [exReq, exWriteConfig, exConfig, exElec]
  · intro p hp
    simp only [exReq, List.mem_cons, List.not_mem_nil, or_false] at hp
    rcases hp with rfl | rfl
    · exact ⟨1, by simp, by simp, by simp [exReq, exWriteConfig]⟩
    · exact ⟨0, by simp, by simp, by simp [exReq, exWriteConfig]⟩

/-- The hypotheses of C28 to C30 can be met by several files: three events, two per file. -/
example (disk0 : Disk) : ∃ results w, attempts exArgsort [exReq 0, exReq 4, exReq 5]
      (newWriter disk0 exWriteConfig 2 9999) = (results, w) ∧ (∀ r ∈ results, r = .ok ()) ∧
      ([exReq 0, exReq 4, exReq 5].map (·.event)).Pairwise (· < ·) := by
  refine ⟨_, _, rfl, ?_, ?_⟩
  · refine (C29_all_stored disk0 exWriteConfig 2 9999 exArgsort [exReq 0, exReq 4, exReq 5] _ _ rfl
      ?_ ?_).1
    · simp [exReq]
    · intro r hr
      simp only [List.mem_cons, List.not_mem_nil, or_false] at hr
      rcases hr with rfl | rfl | rfl <;> exact exReq_format _ _ _
  · simp [exReq]

/-- C31 is false: the writer starts its first file with `starting_event = 0`. If event 0 left no
points (so that event 4 is the first to be written), the first file records the range 0..4 although
it only holds event 4. -/
theorem C31_refuted (disk0 : Disk) (argsort : Argsort) : ∃ w w' h,
    attempts argsort [exReq 4] (newWriter disk0 exWriteConfig 5000 0) = ([.ok ()], w) ∧
    w.close = (.ok (), w') ∧ w'.disk (run_name 0) = some h ∧ storedEvents h = [4] ∧
    h.min_event = some 0 ∧ ¬ RangeExact h := by
  obtain ⟨hrel, hres⟩ := attempts_rel argsort [exReq 4] (init_rel disk0 exWriteConfig 5000 0).2
  rcases hatt : attempts argsort [exReq 4] (newWriter disk0 exWriteConfig 5000 0) with ⟨rs, w⟩
  have hall := (C29_all_stored disk0 exWriteConfig 5000 0 argsort [exReq 4] _ _ hatt (by simp)
    (by
      intro r hr
      rw [List.mem_singleton.1 hr]
      exact exReq_format _ _ _)).1
  change Rel disk0 0 5000 _ _ (attempts argsort [exReq 4] (newWriter disk0 exWriteConfig 5000 0)).2
    at hrel
  obtain ⟨e, he⟩ : ∃ e, (exReq 4).stored argsort (get_response exWriteConfig) = some e := by
    obtain ⟨x, hx⟩ := exReq_format argsort (get_response exWriteConfig) 4
    unfold WriteReq.stored
    rw [hx]
    exact ⟨_, rfl⟩
  have hev : e.event = 4 := stored_event _ _ _ _ he
  have hst : (asteps argsort (get_response exWriteConfig) 5000 [exReq 4] ⟨[], [], 0, 0⟩).2
      = ⟨[], [e], 0, 4⟩ := by
    unfold asteps AState.step
    rw [he]
    simp [AState.roll, asteps, exReq]
  rw [hst] at hrel
  rw [hatt] at hrel
  simp only at hrel
  obtain ⟨tr, hclose, -⟩ := close_rel hrel
  have hfile := file_eq hrel
  refine ⟨w, _, AFile.h5 w.run_number ⟨[e], 0, 4⟩, ?_, hclose, ?_, ?_, rfl, ?_⟩
  · have hl : rs.length = 1 := by
      have := congrArg (fun x => x.1.length) hatt
      simpa [attempts] using this.symm
    match rs, hl with
    | [r], _ => rw [hall r (by simp)]
  · simp only
    rw [hfile]
    simp only [List.length_nil, Nat.cast_zero, add_zero]
    exact Function.update_self ..
  · rw [storedEvents_eq w.run_number _ [e] rfl]
    simp [hev]
  · intro hx
    have := hx.1
    rw [storedEvents_eq w.run_number _ [e] rfl] at this
    simp [AFile.h5, hev] at this

/-- C31, what holds: if no call failed, every file of a closed writer but the first records exactly its
first and last event, and the first file does so exactly if the first event was number 0; `max_event` is
right in every file. Missing: `min_event` of the first file in general. -/
theorem C31_partial (disk0 : Disk) (config : Config) (m first : ℤ) (hm : 1 ≤ m)
    (argsort : Argsort) (reqs : List WriteReq) (results : List (Except PyErr Unit)) (w : Writer)
    (h : attempts argsort reqs (newWriter disk0 config m first) = (results, w))
    (hne : reqs ≠ []) (hall : ∀ r ∈ results, r = .ok ()) :
    ∃ w', w.close = (.ok (), w') ∧ ∀ i : ℕ, first + i ≤ w'.run_number →
      ∃ hf, w'.disk (run_name (first + i)) = some hf ∧
        hf.max_event.map (fun (n : ℤ) => (n : ℝ)) = (storedEvents hf).getLast? ∧
        ((1 ≤ i ∨ (reqs.head hne).event = 0) ↔ RangeExact hf) := by
  obtain ⟨hrel, hres⟩ := attempts_rel argsort reqs (init_rel disk0 config m first).2
  have hfl := asteps_files argsort (get_response config) m reqs ⟨[], [], 0, 0⟩
  rw [show (Writer.init disk0 config m first).2 = newWriter disk0 config m first from rfl, h]
    at hrel hres
  simp only at hrel hres
  have hbs : ∀ b ∈ (asteps argsort (get_response config) m reqs ⟨[], [], 0, 0⟩).1, b = true := by
    intro b hb
    rw [← hres] at hb
    obtain ⟨r, hr, rfl⟩ := List.mem_map.1 hb
    rw [hall r hr]; rfl
  have hex := asteps_exact hm argsort (get_response config) reqs
    (a := ⟨[], [], 0, 0⟩) ⟨Or.inr ⟨rfl, rfl, rfl, rfl⟩, by simp⟩ hbs
  have hhead : ∃ e t, (asteps argsort (get_response config) m reqs ⟨[], [], 0, 0⟩).2.files.flatten
      = e :: t ∧ e.event = (reqs.head hne).event := by
    rw [hfl]
    cases reqs with
    | nil => exact absurd rfl hne
    | cons r rs =>
      unfold asteps at hbs ⊢
      simp only [List.mem_cons, forall_eq_or_imp] at hbs
      obtain ⟨e, he⟩ := step_ok_some _ _ _ _ hbs.1
      have hz : ∀ bs, aaccepted argsort (get_response config) (r :: rs) (true :: bs)
          = e :: aaccepted argsort (get_response config) rs bs := by
        intro bs
        simp [aaccepted, he]
      simp only [hbs.1, hz]
      exact ⟨e, _, rfl, stored_event _ _ _ _ he⟩
  generalize (asteps argsort (get_response config) m reqs ⟨[], [], 0, 0⟩).2 = a at *
  obtain ⟨tr, hclose, -⟩ := close_rel hrel
  have hfile := file_eq hrel
  have hD := hrel.disk.snoc ⟨a.cur, a.start, a.last⟩
  rw [← hfile, ← hrel.run] at hD
  obtain ⟨e0, t0, hflat, he0⟩ := hhead
  have hcur : a.cur ≠ [] := by
    rcases hex.cur with ⟨hn, -⟩ | ⟨hc, hd, -⟩
    · exact hn
    · rw [AState.files, hc, hd] at hflat
      simp at hflat
  have hallx : ∀ (i : ℕ) (hi : i < (a.done ++ [(⟨a.cur, a.start, a.last⟩ : AFile)]).length),
      ∃ hn : (a.done ++ [(⟨a.cur, a.start, a.last⟩ : AFile)])[i].events ≠ [],
        (1 ≤ i → (a.done ++ [(⟨a.cur, a.start, a.last⟩ : AFile)])[i].min
          = ((a.done ++ [(⟨a.cur, a.start, a.last⟩ : AFile)])[i].events.head hn).event) ∧
        (i = 0 → (a.done ++ [(⟨a.cur, a.start, a.last⟩ : AFile)])[i].min = 0) ∧
        (a.done ++ [(⟨a.cur, a.start, a.last⟩ : AFile)])[i].max
          = ((a.done ++ [(⟨a.cur, a.start, a.last⟩ : AFile)])[i].events.getLast hn).event := by
    intro i hi
    by_cases hlt : i < a.done.length
    · simp only [List.getElem_append_left hlt]
      exact hex.done i hlt
    · have : i = a.done.length := by simp at hi; omega
      subst this
      simp only [List.getElem_concat_length]
      rcases hex.cur with ⟨hn, c1, c2, c3⟩ | ⟨hc, -⟩
      · refine ⟨hn, fun h1 => c1 ?_, fun h1 => c2 ?_, c3⟩
        · intro h0; rw [h0] at h1; simp at h1
        · exact List.length_eq_zero_iff.1 h1
      · exact absurd hc hcur
  have hfirst : ∀ (hi : 0 < (a.done ++ [(⟨a.cur, a.start, a.last⟩ : AFile)]).length)
      (hn : (a.done ++ [(⟨a.cur, a.start, a.last⟩ : AFile)])[0].events ≠ []),
      ((a.done ++ [(⟨a.cur, a.start, a.last⟩ : AFile)])[0].events.head hn).event = e0.event := by
    intro hi hn
    have hf2 : ((a.done ++ [(⟨a.cur, a.start, a.last⟩ : AFile)]).map (·.events)).flatten
        = e0 :: t0 := by
      rw [← hflat]; simp [AState.files]
    generalize a.done ++ [(⟨a.cur, a.start, a.last⟩ : AFile)] = all at *
    cases all with
    | nil => simp at hi
    | cons f fs =>
      simp only [List.getElem_cons_zero, List.map_cons, List.flatten_cons] at hn hf2 ⊢
      have h3 := congrArg List.head? hf2
      rw [List.head?_append, List.head?_eq_some_head hn] at h3
      simp only [Option.some_or, List.head?_cons, Option.some.injEq] at h3
      rw [h3]
  refine ⟨_, hclose, ?_⟩
  intro i hi
  simp only at hi
  rw [hrel.run] at hi
  have hi' : i < (a.done ++ [(⟨a.cur, a.start, a.last⟩ : AFile)]).length := by simp; omega
  obtain ⟨hn, c1, c2, c3⟩ := hallx i hi'
  have hst := storedEvents_eq (first + i) (AFile.h5 (first + i) _)
    (a.done ++ [(⟨a.cur, a.start, a.last⟩ : AFile)])[i].events rfl
  have hmax : (AFile.h5 (first + i) (a.done ++ [(⟨a.cur, a.start, a.last⟩ : AFile)])[i]).max_event.map
      (fun (n : ℤ) => (n : ℝ)) = (storedEvents (AFile.h5 (first + i)
        (a.done ++ [(⟨a.cur, a.start, a.last⟩ : AFile)])[i])).getLast? := by
    rw [hst, List.getLast?_map, List.getLast?_eq_some_getLast hn]
    simp [AFile.h5, c3]
  refine ⟨_, hD.done i hi', hmax, ?_, ?_⟩
  swap
  · intro hx
    rcases Nat.eq_zero_or_pos i with h0 | hpos
    · right
      subst h0
      have hx1 := hx.1
      rw [hst, List.head?_map, List.head?_eq_some_head hn] at hx1
      simp only [AFile.h5, Option.map_some, Option.some.injEq] at hx1
      rw [c2 rfl, hfirst hi' hn, he0] at hx1
      exact_mod_cast hx1.symm
    · left
      exact hpos
  intro hcase
  refine ⟨?_, hmax⟩
  rw [hst, List.head?_map, List.head?_eq_some_head hn]
  simp only [AFile.h5, Option.map_some, Option.some.injEq]
  rcases Nat.eq_zero_or_pos i with h0 | hpos
  · subst h0
    have h1 := hfirst hi' hn
    rw [c2 rfl, h1, he0]
    rcases hcase with hc | hc
    · omega
    · rw [hc]
  · rw [c1 hpos]

/-! ## C33 -/

/-- C33 for writing an event again, what holds: while the current file is not full, writing an event
number that it already holds raises and leaves the writer and the directory completely unchanged.
Missing: a full current file, see `C33_refuted`. -/
theorem C33_duplicate_partial (disk0 : Disk) (config : Config) (m first : ℤ)
    (argsort : Argsort) (reqs : List WriteReq) (w : Writer)
    (h : (attempts argsort reqs (newWriter disk0 config m first)).2 = w)
    (hnf : w.events_written ≠ m) (r : WriteReq) (hf : H5File) (hdisk : w.disk w.file = some hf)
    (hold : hf.dsets.lookup (cloud_name r.event) ≠ none) :
    ∃ e, w.write argsort r.data r.labels r.config r.event = (.error e, w) := by
  obtain ⟨hrel, -⟩ := attempts_rel argsort reqs (init_rel disk0 config m first).2
  rw [show (Writer.init disk0 config m first).2 = newWriter disk0 config m first from rfl, h]
    at hrel
  unfold Writer.write Writer.rollover
  rw [hrel.max, if_neg hnf]
  simp only
  cases format_event argsort w.response r.data r.labels r.config with
  | error e => exact ⟨e, rfl⟩
  | ok x =>
    obtain ⟨rows, labels⟩ := x
    simp only
    have hc : hf.closed = false := by
      rw [hrel.cur] at hdisk
      rw [← Option.some.inj hdisk]
      rfl
    have : w.ops (event_ops w.file w.run_number r.event rows labels) = (.error .nameExists, w) := by
      unfold event_ops
      simp only
      rw [Writer.ops]
      rw [op_onFile_error w _ hf .nameExists (by exact hdisk) hc]
      simp only [DiskOp.onFile]
      rw [if_pos (Option.isSome_iff_ne_none.2 hold)]
    rw [this]
    exact ⟨_, rfl⟩

/-- C33 for writing an event again, the exact condition: for an event that can be formatted and that the
current file holds, `write` raises and leaves everything unchanged exactly while the file is not full. If it
is full, the event is stored a second time, in the next file. -/
theorem C33_exact_partial (disk0 : Disk) (config : Config) (m first : ℤ)
    (argsort : Argsort) (reqs : List WriteReq) (w : Writer)
    (h : (attempts argsort reqs (newWriter disk0 config m first)).2 = w)
    (r : WriteReq) (hf : H5File) (hdisk : w.disk w.file = some hf)
    (hold : hf.dsets.lookup (cloud_name r.event) ≠ none)
    {rows : List SpyralRow} {labels : List ℤ}
    (hfmt : format_event argsort (get_response config) r.data r.labels r.config = .ok (rows, labels)) :
    ((∃ e, w.write argsort r.data r.labels r.config r.event = (.error e, w)) ↔ w.events_written ≠ m) ∧
    (w.events_written = m → ∃ w' hf', w.write argsort r.data r.labels r.config r.event = (.ok (), w') ∧
      w'.file = run_name (w.run_number + 1) ∧ w'.disk w'.file = some hf' ∧ storedEvents hf' = [r.event]) := by
  obtain ⟨hrel, -⟩ := attempts_rel argsort reqs (init_rel disk0 config m first).2
  rw [show (Writer.init disk0 config m first).2 = newWriter disk0 config m first from rfl, h]
    at hrel
  obtain ⟨a, ha⟩ : ∃ a, Rel disk0 first m (get_response config) a w := ⟨_, hrel⟩
  have hst : r.stored argsort (get_response config) = some ⟨r.event, rows, labels⟩ := by
    unfold WriteReq.stored
    rw [hfmt]
  have hfull : w.events_written = m → ∃ w' hf',
      w.write argsort r.data r.labels r.config r.event = (.ok (), w') ∧
      w'.file = run_name (w.run_number + 1) ∧ w'.disk w'.file = some hf' ∧
      storedEvents hf' = [r.event] := by
    intro hm
    obtain ⟨res, w', hw, hrel', hb⟩ := write_rel ha argsort r
    have hlen : (a.cur.length : ℤ) = m := by rw [← ha.count]; exact hm
    have hs : AState.step m r.event (r.stored argsort (get_response config)) a
        = (true, ⟨a.done ++ [⟨a.cur, a.start, a.last⟩], [⟨r.event, rows, labels⟩], r.event, r.event⟩) := by
      rw [hst]
      simp [AState.step, AState.roll, hlen]
    rw [hs] at hrel' hb
    obtain rfl := hb.1 rfl
    refine ⟨w', _, hw, ?_, hrel'.cur, ?_⟩
    · rw [hrel'.file, hrel'.run, ha.run]
      simp [add_assoc]
    · exact storedEvents_eq _ _ [⟨r.event, rows, labels⟩] rfl
  refine ⟨⟨?_, fun hnf => C33_duplicate_partial disk0 config m first argsort reqs w h hnf r hf hdisk hold⟩,
    hfull⟩
  rintro ⟨e, he⟩ hm
  obtain ⟨w', -, hw, -⟩ := hfull hm
  rw [he] at hw
  cases hw

/-- C33 is false as stated: if the current file is full, writing an event number that it holds
succeeds (the event goes to the next file, and is then stored twice). -/
theorem C33_refuted (disk0 : Disk) (argsort : Argsort) : ∃ w w' h0 h1,
    attempts argsort [exReq 4] (newWriter disk0 exWriteConfig 1 0) = ([.ok ()], w) ∧
    w.file = run_name 0 ∧
    (exReq 4 |> fun r => w.write argsort r.data r.labels r.config r.event) = (.ok (), w') ∧
    w'.disk (run_name 0) = some h0 ∧ storedEvents h0 = [4] ∧
    w'.disk (run_name 1) = some h1 ∧ storedEvents h1 = [4] := by
  obtain ⟨e, he⟩ : ∃ e, (exReq 4).stored argsort (get_response exWriteConfig) = some e := by
    obtain ⟨x, hx⟩ := exReq_format argsort (get_response exWriteConfig) 4
    unfold WriteReq.stored
    rw [hx]
    exact ⟨_, rfl⟩
  have hev : e.event = 4 := stored_event _ _ _ _ he
  have hev4 : (exReq 4).event = 4 := rfl
  obtain ⟨r1, w1, hw1, hrel1, hb1⟩ := write_rel (init_rel disk0 exWriteConfig 1 0).2 argsort (exReq 4)
  have hs1 : AState.step 1 (exReq 4).event ((exReq 4).stored argsort (get_response exWriteConfig))
      ⟨[], [], 0, 0⟩ = (true, ⟨[], [e], 0, 4⟩) := by
    rw [he]; simp [AState.step, AState.roll, hev4]
  rw [hs1] at hrel1 hb1
  have hr1 := hb1.1 rfl
  subst hr1
  obtain ⟨r2, w2, hw2, hrel2, hb2⟩ := write_rel hrel1 argsort (exReq 4)
  have hs2 : AState.step 1 (exReq 4).event ((exReq 4).stored argsort (get_response exWriteConfig))
      ⟨[], [e], 0, 4⟩ = (true, ⟨[⟨[e], 0, 4⟩], [e], 4, 4⟩) := by
    rw [he]; simp [AState.step, AState.roll, hev4]
  rw [hs2] at hrel2 hb2
  have hr2 := hb2.1 rfl
  subst hr2
  obtain ⟨f0, hf0, hd0⟩ := hrel2.files 0 (by simp [AState.files])
  obtain ⟨f1, hf1, hd1⟩ := hrel2.files 1 (by simp [AState.files])
  refine ⟨w1, w2, f0, f1, ?_, ?_, hw2, ?_, ?_, ?_, ?_⟩
  · unfold attempts
    change (newWriter disk0 exWriteConfig 1 0).write argsort (exReq 4).data (exReq 4).labels
      (exReq 4).config (exReq 4).event = _ at hw1
    rw [hw1]
    rfl
  · have := file_eq hrel1
    simpa using this
  · simpa using hf0
  · rw [storedEvents_eq _ f0 [e] (by simpa [AState.files] using hd0)]
    simp [hev]
  · simpa using hf1
  · rw [storedEvents_eq _ f1 [e] (by simpa [AState.files] using hd1)]
    simp [hev]

theorem write_closed (argsort : Argsort) (w : Writer) (hf : H5File) (hdisk : w.disk w.file = some hf)
    (hc : hf.closed = true) (r : WriteReq) :
    ∃ e, w.write argsort r.data r.labels r.config r.event = (.error e, w) := by
  have hop : ∀ o os, (∀ f, o ≠ .createFile f) → (∀ f, o ≠ .close f) → o.target = w.file →
      w.ops (o :: os) = (.error .closedFile, w) := by
    intro o os h1 h2 h3
    have : DiskOp.apply w.disk o = .error .closedFile := by
      cases o with
      | createFile f => exact absurd rfl (h1 f)
      | close f => exact absurd rfl (h2 f)
      | createGroup f => simp only [DiskOp.target] at h3; simp [DiskOp.apply, Disk.onOpen, h3, hdisk, hc]
      | setMin f v => simp only [DiskOp.target] at h3; simp [DiskOp.apply, Disk.onOpen, h3, hdisk, hc]
      | setMax f v => simp only [DiskOp.target] at h3; simp [DiskOp.apply, Disk.onOpen, h3, hdisk, hc]
      | createDset f n d =>
        simp only [DiskOp.target] at h3; simp [DiskOp.apply, Disk.onOpen, h3, hdisk, hc]
      | setAttr f n k v =>
        simp only [DiskOp.target] at h3; simp [DiskOp.apply, Disk.onOpen, h3, hdisk, hc]
    rw [Writer.ops, Writer.op, this]
  unfold Writer.write Writer.rollover
  by_cases hfull : w.events_written = w.max_events_per_file
  · rw [if_pos hfull]
    unfold Writer.close
    rw [hop _ _ (by simp) (by simp) rfl]
    exact ⟨_, rfl⟩
  · rw [if_neg hfull]
    simp only
    cases format_event argsort w.response r.data r.labels r.config with
    | error e => exact ⟨e, rfl⟩
    | ok x =>
      obtain ⟨rows, labels⟩ := x
      simp only [event_ops]
      rw [hop _ _ (by simp) (by simp) rfl]
      exact ⟨_, rfl⟩

/-- C33: after `close`, every further call of `write` raises, and the writer and the directory stay
unchanged, whatever was written before. -/
theorem C33_after_close (disk0 : Disk) (config : Config) (m first : ℤ)
    (argsort : Argsort) (reqs later : List WriteReq) (w w' : Writer)
    (h : (attempts argsort reqs (newWriter disk0 config m first)).2 = w)
    (hclose : w.close = (.ok (), w')) :
    (attempts argsort later w').2 = w' ∧ ∀ r ∈ (attempts argsort later w').1, ∃ e, r = .error e := by
  obtain ⟨hrel, -⟩ := attempts_rel argsort reqs (init_rel disk0 config m first).2
  rw [show (Writer.init disk0 config m first).2 = newWriter disk0 config m first from rfl, h]
    at hrel
  obtain ⟨tr, hc, -⟩ := close_rel hrel
  rw [hc] at hclose
  have hw := (Prod.mk.inj hclose).2
  have hcl : ∃ f : AFile, w'.disk w'.file = some (AFile.h5 w.run_number f) := by
    rw [← hw]
    exact ⟨_, Function.update_self ..⟩
  obtain ⟨f, hcl⟩ := hcl
  clear hw hclose hc h hrel
  induction later with
  | nil => simp [attempts]
  | cons r rs ih =>
    obtain ⟨e, he⟩ := write_closed argsort w' _ hcl rfl r
    unfold attempts
    rw [he]
    simp only
    refine ⟨ih.1, ?_⟩
    intro x hx
    rcases List.mem_cons.1 hx with rfl | hx
    · exact ⟨e, rfl⟩
    · exact ih.2 x hx

/-! ## C34 -/

/-- C34: at every point of a run — after every single HDF5 operation — the files before the current
one are closed, have their event range, and hold exactly `m` events each, which are the first events
stored; files after the current one are still untouched. (The run consists of the creation of the
writer, any calls of `write`, and possibly `close`.) -/
theorem C34_crash (disk0 : Disk) (config : Config) (m first : ℤ) (hm : 1 ≤ m)
    (argsort : Argsort) (reqs : List WriteReq) (results : List (Except PyErr Unit)) (w w' : Writer)
    (h : attempts argsort reqs (newWriter disk0 config m first) = (results, w))
    (hw' : w' = w ∨ w.close = (.ok (), w')) (d : Disk) (hd : d ∈ w'.trace) :
    ∃ full : List (List Stored),
      full.flatten <+: accepted argsort (get_response config) reqs results ∧
      (∀ (i : ℕ) (hi : i < full.length), (full[i].length : ℤ) = m ∧
        ∃ hf, d (run_name (first + i)) = some hf ∧ hf.closed = true ∧
          hf.min_event.isSome ∧ hf.max_event.isSome ∧
          hf.dsets = full[i].flatMap (Stored.dsets (first + i))) ∧
      ∀ name, (∀ i : ℕ, i ≤ full.length → name ≠ run_name (first + i)) → d name = disk0 name := by
  obtain ⟨hrel, hres⟩ := attempts_rel argsort reqs (init_rel disk0 config m first).2
  have hok := asteps_ok hm argsort (get_response config) reqs (AOk.init hm)
  have hf := asteps_files argsort (get_response config) m reqs ⟨[], [], 0, 0⟩
  rw [show (Writer.init disk0 config m first).2 = newWriter disk0 config m first from rfl, h]
    at hrel hres
  simp only at hrel hres
  have hacc : accepted argsort (get_response config) reqs results
      = (asteps argsort (get_response config) m reqs ⟨[], [], 0, 0⟩).2.files.flatten := by
    rw [hf, accepted_eq, hres]
    simp [AState.files]
  rw [hacc]
  generalize (asteps argsort (get_response config) m reqs ⟨[], [], 0, 0⟩).2 = a at *
  have key : ∃ k ≤ a.done.length, DiskRel disk0 first (a.done.take k) d := by
    rcases hw' with rfl | hclose
    · exact hrel.trace d hd
    · obtain ⟨tr, hc, htr⟩ := close_rel hrel
      rw [hc] at hclose
      have hw := (Prod.mk.inj hclose).2
      rw [← hw] at hd
      rcases List.mem_append.1 hd with hd | hd
      · obtain ⟨x, rfl⟩ := htr d hd
        refine ⟨_, le_rfl, ?_⟩
        rw [List.take_length, file_eq hrel]
        exact hrel.disk.update _
      · exact hrel.trace d hd
  obtain ⟨k, hk, hD⟩ := key
  refine ⟨(a.done.take k).map (·.events), ?_, ?_, ?_⟩
  · have : a.files.flatten = ((a.done.take k).map (·.events)).flatten
        ++ (((a.done.drop k).map (·.events)).flatten ++ a.cur) := by
      simp only [AState.files, List.flatten_append, List.flatten_singleton]
      conv_lhs => rw [← List.take_append_drop k a.done, List.map_append, List.flatten_append]
      rw [List.append_assoc]
    rw [this]
    exact List.prefix_append _ _
  · intro i hi
    have hi' : i < (a.done.take k).length := by simpa using hi
    refine ⟨?_, _, hD.done i hi', rfl, rfl, rfl, ?_⟩
    · rw [List.getElem_map]
      exact hok.full _ (List.mem_of_mem_take (List.getElem_mem hi'))
    · simp [AFile.h5]
  · intro name hn
    exact hD.other name (fun i hi => hn i (by simpa using hi))

end Verif.Detector
