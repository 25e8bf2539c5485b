import Verif.Props.Writer

/-! # C94: several runs in one output directory -/

namespace Verif.Detector

open Verif.Spec

/-- One use of a `SpyralWriter`: it is created, `write` is called for some events (calls may fail), and
unless the program dies before, it is closed. -/
structure WriterRun where
  config : Config
  max_events : ℤ
  first : ℤ
  reqs : List WriteReq
  closed : Bool

/-- The writer at the end of a run that started with the directory `disk`. -/
noncomputable def WriterRun.exec (argsort : Argsort) (disk : Disk) (r : WriterRun) : Writer :=
  let w := (attempts argsort r.reqs (newWriter disk r.config r.max_events r.first)).2
  if r.closed then w.close.2 else w

/-- The contents of the directory at all times during a sequence of runs, newest first, beginning with
`disk`; a run need not come to its end. -/
inductive Campaign (argsort : Argsort) (disk : Disk) : List WriterRun → Disk → Prop where
  | start : Campaign argsort disk [] disk
  | run (rs : List WriterRun) (d : Disk) (r : WriterRun) (d' : Disk) :
      Campaign argsort disk rs d → d' ∈ (r.exec argsort d).trace →
      Campaign argsort disk (rs ++ [r]) d'

/-- The directory after a run is the last of its trace. -/
theorem exec_mem_trace (argsort : Argsort) (disk : Disk) (r : WriterRun) (h : r.closed = true) :
    (r.exec argsort disk).disk ∈ (r.exec argsort disk).trace := by
  obtain ⟨hrel, -⟩ := attempts_rel argsort r.reqs (init_rel disk r.config r.max_events r.first).2
  change Rel disk r.first r.max_events _ _
    (attempts argsort r.reqs (newWriter disk r.config r.max_events r.first)).2 at hrel
  unfold WriterRun.exec
  simp only [h, if_true]
  generalize (attempts argsort r.reqs (newWriter disk r.config r.max_events r.first)).2 = w at *
  generalize (asteps argsort (get_response r.config) r.max_events r.reqs ⟨[], [], 0, 0⟩).2 = a at *
  have hc := hrel.cur
  unfold Writer.close
  simp [Writer.ops, Writer.op, DiskOp.apply, Disk.onOpen, hc, openH5]

/-- A run leaves all files with other numbers alone, at all times. -/
theorem exec_untouched (argsort : Argsort) (disk : Disk) (r : WriterRun) (d : Disk)
    (hd : d ∈ (r.exec argsort disk).trace) (name : String)
    (hn : ∀ i : ℕ, r.first + i ≤ (r.exec argsort disk).run_number → name ≠ run_name (r.first + i)) :
    d name = disk name := by
  obtain ⟨hrel, -⟩ := attempts_rel argsort r.reqs (init_rel disk r.config r.max_events r.first).2
  change Rel disk r.first r.max_events _ _
    (attempts argsort r.reqs (newWriter disk r.config r.max_events r.first)).2 at hrel
  unfold WriterRun.exec at hd hn
  simp only at hd hn
  generalize (attempts argsort r.reqs (newWriter disk r.config r.max_events r.first)).2 = w at *
  generalize (asteps argsort (get_response r.config) r.max_events r.reqs ⟨[], [], 0, 0⟩).2 = a at *
  have key : w.run_number = (if r.closed = true then w.close.2 else w).run_number ∧
      ∃ k ≤ a.done.length, DiskRel disk r.first (a.done.take k) d := by
    split at hd
    · obtain ⟨tr, hc, htr⟩ := close_rel hrel
      rw [hc] at hd
      rename_i hcl
      rw [if_pos hcl, hc]
      refine ⟨rfl, ?_⟩
      rcases List.mem_append.1 hd with hd | hd
      · obtain ⟨x, rfl⟩ := htr d hd
        refine ⟨_, le_rfl, ?_⟩
        rw [List.take_length, file_eq hrel]
        exact hrel.disk.update _
      · exact hrel.trace d hd
    · rename_i hcl
      rw [if_neg hcl]
      exact ⟨rfl, hrel.trace d hd⟩
  obtain ⟨h1, k, hk, hD⟩ := key
  rw [← h1, hrel.run] at hn
  refine hD.other name fun i hi => hn i ?_
  rw [List.length_take] at hi
  omega

/-- **C94.** Files with a smaller run number than the first of every run of a campaign are never
touched, not even by runs that fail or die at any point. -/
theorem C94_smaller (argsort : Argsort) (disk : Disk) (rs : List WriterRun) (d : Disk)
    (h : Campaign argsort disk rs d) (k : ℤ) (hk : ∀ r ∈ rs, k < r.first) :
    d (run_name k) = disk (run_name k) := by
  induction h with
  | start => rfl
  | run rs d r d' _ hd ih =>
    rw [exec_untouched argsort d r d' hd]
    · exact ih fun r hr => hk r (List.mem_append_left _ hr)
    · intro i _ he
      have := run_name_inj he
      have := hk r (by simp)
      omega

/-- **C94.** After a completed run, later runs whose first numbers are larger than its last one do not
change any of its files: at every time they hold the accepted events of that run, in order. -/
theorem C94_later (argsort : Argsort) (disk : Disk) (r : WriterRun)
    (hc : r.closed = true) (rs : List WriterRun) (d : Disk)
    (h : Campaign argsort (r.exec argsort disk).disk rs d)
    (hlater : ∀ r' ∈ rs, (r.exec argsort disk).run_number < r'.first) :
    ∃ files : List (List Stored),
      files.flatten = accepted argsort (get_response r.config) r.reqs
        (attempts argsort r.reqs (newWriter disk r.config r.max_events r.first)).1 ∧
      r.first + files.length = (r.exec argsort disk).run_number + 1 ∧
      ∀ (i : ℕ) (hi : i < files.length), ∃ hf, d (run_name (r.first + i)) = some hf ∧
        hf.closed = true ∧ hf.dsets = files[i].flatMap (Stored.dsets (r.first + i)) := by
  obtain ⟨hrel, hres⟩ := attempts_rel argsort r.reqs (init_rel disk r.config r.max_events r.first).2
  have hf := asteps_files argsort (get_response r.config) r.max_events r.reqs ⟨[], [], 0, 0⟩
  change Rel disk r.first r.max_events _ _
    (attempts argsort r.reqs (newWriter disk r.config r.max_events r.first)).2 at hrel
  change (attempts argsort r.reqs (newWriter disk r.config r.max_events r.first)).1.map okay = _ at hres
  have hsm := C94_smaller argsort _ rs d h
  obtain ⟨tr, hcl, htr⟩ := close_rel hrel
  unfold WriterRun.exec at h hlater hsm ⊢
  simp only [hc, if_true] at h hlater hsm ⊢
  rw [accepted_eq, hres]
  rw [hcl] at hlater hsm ⊢
  simp only at hlater hsm ⊢
  generalize (attempts argsort r.reqs (newWriter disk r.config r.max_events r.first)).2 = w at *
  generalize hbs : asteps argsort (get_response r.config) r.max_events r.reqs ⟨[], [], 0, 0⟩ = ba at *
  obtain ⟨bs, a⟩ := ba
  simp only at *
  refine ⟨a.files, ?_, ?_, ?_⟩
  · rw [hf]; simp [AState.files]
  · rw [files_length, hrel.run]; push_cast; ring
  · intro i hi
    have hlt : ∀ r' ∈ rs, r.first + (i : ℤ) < r'.first := by
      intro r' hr'
      have := hlater r' hr'
      rw [files_length] at hi
      rw [hrel.run] at this
      omega
    rw [hsm _ hlt]
    by_cases he : i = a.done.length
    · subst he
      rw [file_eq hrel, Function.update_self]
      refine ⟨_, rfl, rfl, ?_⟩
      simp [AState.files, AFile.h5, hrel.run]
    · have hi' : i < a.done.length := by rw [files_length] at hi; omega
      rw [Function.update_of_ne, hrel.disk.done i hi']
      · refine ⟨_, rfl, rfl, ?_⟩
        simp only [AState.files]
        rw [List.getElem_append_left (by simpa using hi'), List.getElem_map]
        rfl
      · rw [file_eq hrel]
        intro hn
        have := run_name_inj hn
        omega

/-- The files of a completed run, in terms of the abstract writer. -/
theorem exec_file (argsort : Argsort) (disk : Disk) (r : WriterRun) (hc : r.closed = true) (a : AState)
    (ha : (asteps argsort (get_response r.config) r.max_events r.reqs ⟨[], [], 0, 0⟩).2 = a) :
    (r.exec argsort disk).run_number = r.first + a.done.length ∧
    ∀ i : ℕ, i ≤ a.done.length → (r.exec argsort disk).disk (run_name (r.first + i))
      = ((a.done ++ [⟨a.cur, a.start, a.last⟩])[i]?).map fun f => f.h5 (r.first + i) := by
  obtain ⟨hrel, -⟩ := attempts_rel argsort r.reqs (init_rel disk r.config r.max_events r.first).2
  change Rel disk r.first r.max_events _ _
    (attempts argsort r.reqs (newWriter disk r.config r.max_events r.first)).2 at hrel
  obtain ⟨tr, hcl, htr⟩ := close_rel hrel
  unfold WriterRun.exec
  simp only [hc, if_true]
  rw [hcl]
  rw [ha] at hrel ⊢
  generalize (attempts argsort r.reqs (newWriter disk r.config r.max_events r.first)).2 = w at *
  refine ⟨hrel.run, ?_⟩
  intro i hi
  simp only
  rw [file_eq hrel]
  by_cases he : i = a.done.length
  · subst he
    rw [Function.update_self]
    simp [hrel.run]
  · have hi' : i < a.done.length := by omega
    rw [Function.update_of_ne, hrel.disk.done i hi', List.getElem?_append_left hi',
      List.getElem?_eq_getElem hi']
    · rfl
    · intro hn
      have := run_name_inj hn
      omega

/-- **C94.** A run into a directory that contains other files replaces exactly the files with the numbers
from its first to its last one. Those are as if it had written into an empty directory; all others,
for example the remaining files of a longer earlier run with the same first number, stay as they are. -/
theorem C94_replaced (argsort : Argsort) (disk : Disk) (r : WriterRun) (hc : r.closed = true) (k : ℤ) :
    (r.exec argsort disk).disk (run_name k)
      = if r.first ≤ k ∧ k ≤ (r.exec argsort disk).run_number then
          (r.exec argsort fun _ => none).disk (run_name k)
        else disk (run_name k) := by
  split
  · rename_i h
    obtain ⟨h1, h2⟩ := exec_file argsort disk r hc _ rfl
    obtain ⟨-, h4⟩ := exec_file argsort (fun _ => none) r hc _ rfl
    rw [h1] at h
    obtain ⟨i, hi⟩ := Int.eq_ofNat_of_zero_le (sub_nonneg.2 h.1)
    have hk : k = r.first + i := by omega
    have hil : i ≤ (asteps argsort (get_response r.config) r.max_events r.reqs
      ⟨[], [], 0, 0⟩).2.done.length := by omega
    rw [hk, h2 i hil, h4 i hil]
  · rename_i h
    refine exec_untouched argsort disk r _ (exec_mem_trace argsort disk r hc) _ ?_
    intro i hi he
    apply h
    rw [run_name_inj he]
    exact ⟨by omega, hi⟩

/-- A run of the examples: one event per file. -/
noncomputable def exRun (first : ℤ) (events : List ℤ) : WriterRun :=
  ⟨exWriteConfig, 1, first, events.map exReq, true⟩

theorem exReq_stored (argsort : Argsort) (n : ℤ) :
    ∃ e, (exReq n).stored argsort (get_response exWriteConfig) = some e ∧ e.event = n := by
  obtain ⟨x, hx⟩ := exReq_format argsort (get_response exWriteConfig) n
  have he : ∃ e, (exReq n).stored argsort (get_response exWriteConfig) = some e := by
    unfold WriteReq.stored
    rw [hx]
    exact ⟨_, rfl⟩
  obtain ⟨e, he⟩ := he
  exact ⟨e, he, stored_event _ _ _ _ he⟩

/-- Two runs with the default first number: the first one writes the events 0 and 1 into two files, the
second one event 5 into one file. The directory then holds event 5 of the second run and event 1 of the
first one; event 0 is lost. -/
example (argsort : Argsort) (disk : Disk) : ∃ h0 h1,
    ((exRun 0 [5]).exec argsort ((exRun 0 [0, 1]).exec argsort disk).disk).disk (run_name 0) = some h0 ∧
    ((exRun 0 [5]).exec argsort ((exRun 0 [0, 1]).exec argsort disk).disk).disk (run_name 1) = some h1 ∧
    storedEvents h0 = [5] ∧ storedEvents h1 = [1] := by
  obtain ⟨e0, he0, hn0⟩ := exReq_stored argsort 0
  obtain ⟨e1, he1, hn1⟩ := exReq_stored argsort 1
  obtain ⟨e5, he5, hn5⟩ := exReq_stored argsort 5
  have ha : (asteps argsort (get_response exWriteConfig) 1 ([0, 1].map exReq) ⟨[], [], 0, 0⟩).2
      = ⟨[⟨[e0], 0, 0⟩], [e1], 1, 1⟩ := by
    simp [asteps, AState.step, AState.roll, exReq, he0, he1] at he0 he1 ⊢
  have hb : (asteps argsort (get_response exWriteConfig) 1 ([5].map exReq) ⟨[], [], 0, 0⟩).2
      = ⟨[], [e5], 0, 5⟩ := by
    simp [asteps, AState.step, AState.roll, exReq] at he5 ⊢
    simp [he5]
  obtain ⟨r1, f1⟩ := exec_file argsort disk (exRun 0 [0, 1]) rfl _ ha
  obtain ⟨r2, f2⟩ := exec_file argsort ((exRun 0 [0, 1]).exec argsort disk).disk (exRun 0 [5]) rfl _ hb
  refine ⟨AFile.h5 0 ⟨[e5], 0, 5⟩, AFile.h5 1 ⟨[e1], 1, 1⟩, ?_, ?_, ?_, ?_⟩
  · have := f2 0 le_rfl
    simpa [exRun] using this
  · rw [C94_replaced argsort _ _ rfl, if_neg]
    · have := f1 1 le_rfl
      simpa [exRun] using this
    · rw [r2]
      simp [exRun]
  · rw [storedEvents_eq 0 _ [e5] rfl]
    simp [hn5]
  · rw [storedEvents_eq 1 _ [e1] rfl]
    simp [hn1]

/-- With a larger first number the hypotheses of `C94_later` are met, and nothing is lost. -/
example (argsort : Argsort) (disk : Disk) :
    ∃ d, Campaign argsort ((exRun 0 [0, 1]).exec argsort disk).disk [exRun 2 [5]] d ∧
      ∀ r' ∈ [exRun 2 [5]], ((exRun 0 [0, 1]).exec argsort disk).run_number < r'.first := by
  obtain ⟨e0, he0, hn0⟩ := exReq_stored argsort 0
  obtain ⟨e1, he1, hn1⟩ := exReq_stored argsort 1
  have ha : (asteps argsort (get_response exWriteConfig) 1 ([0, 1].map exReq) ⟨[], [], 0, 0⟩).2
      = ⟨[⟨[e0], 0, 0⟩], [e1], 1, 1⟩ := by
    simp [asteps, AState.step, AState.roll, exReq, he0, he1] at he0 he1 ⊢
  obtain ⟨r1, -⟩ := exec_file argsort disk (exRun 0 [0, 1]) rfl _ ha
  refine ⟨_, .run [] _ _ _ .start (exec_mem_trace argsort _ (exRun 2 [5]) rfl), ?_⟩
  intro r' hr'
  rw [List.mem_singleton.1 hr', r1]
  simp [exRun]

end Verif.Detector
