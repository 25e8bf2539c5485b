import Verif.Proofs.Writer

/-! # The writer refines a simple list of files: states -/

namespace Verif.Detector

open Verif.Spec

/-- A finished file: its events and its recorded range. -/
structure AFile where
  events : List Stored
  min : ℤ
  max : ℤ

/-- Contents of the finished file of run `run`. -/
noncomputable def AFile.h5 (run : ℤ) (f : AFile) : H5File :=
  { has_group := true
    dsets := f.events.flatMap (Stored.dsets run)
    min_event := some f.min
    max_event := some f.max
    closed := true }

/-- Contents of the unfinished file of run `run` with the given events. -/
noncomputable def openH5 (run : ℤ) (events : List Stored) : H5File :=
  { has_group := true, dsets := events.flatMap (Stored.dsets run) }

/-- Abstract writer: finished files, events of the current file, and the two range counters. -/
structure AState where
  done : List AFile
  cur : List Stored
  start : ℤ
  last : ℤ

/-- Starting a new file when the current one is full. -/
def AState.roll (m n : ℤ) (a : AState) : AState :=
  if (a.cur.length : ℤ) = m then
    { done := a.done ++ [⟨a.cur, a.start, a.last⟩], cur := [], start := n, last := a.last }
  else a

/-- A call of `write` for event `n`, whose formatted contents are `e?`. -/
noncomputable def AState.step (m n : ℤ) (e? : Option Stored) (a : AState) : Bool × AState :=
  match e? with
  | none => (false, a.roll m n)
  | some e =>
    if n ∈ (a.roll m n).cur.map (·.event) then (false, a.roll m n)
    else (true, { a.roll m n with cur := (a.roll m n).cur ++ [e], last := n })

/-- The disk contains the finished files, and nothing else changed except possibly the file after
them. -/
structure DiskRel (disk0 : Disk) (first : ℤ) (files : List AFile) (d : Disk) : Prop where
  done : ∀ (i : ℕ) (h : i < files.length), d (run_name (first + i)) = some (files[i].h5 (first + i))
  other : ∀ name, (∀ i : ℕ, i ≤ files.length → name ≠ run_name (first + i)) → d name = disk0 name

/-- Simulation relation between the abstract and the concrete writer. -/
structure Rel (disk0 : Disk) (first m : ℤ) (response : List ℝ) (a : AState) (w : Writer) :
    Prop where
  max : w.max_events_per_file = m
  resp : w.response = response
  run : w.run_number = first + a.done.length
  file : w.file = run_name w.run_number
  start : w.starting_event = a.start
  last : w.last_event = a.last
  count : w.events_written = a.cur.length
  disk : DiskRel disk0 first a.done w.disk
  cur : w.disk w.file = some (openH5 w.run_number a.cur)
  trace : ∀ d ∈ w.trace, ∃ k ≤ a.done.length, DiskRel disk0 first (a.done.take k) d

/-- Changing the file after the finished ones keeps the relation. -/
theorem DiskRel.update {disk0 : Disk} {first : ℤ} {files : List AFile} {d : Disk}
    (h : DiskRel disk0 first files d) (x : Option H5File) :
    DiskRel disk0 first files (Function.update d (run_name (first + files.length)) x) := by
  constructor
  · intro i hi
    rw [Function.update_of_ne]
    · exact h.done i hi
    · intro he
      have := run_name_inj he
      omega
  · intro name hn
    rw [Function.update_of_ne (hn _ le_rfl)]
    exact h.other name hn

/-- Finishing the current file. -/
theorem DiskRel.snoc {disk0 : Disk} {first : ℤ} {files : List AFile} {d : Disk}
    (h : DiskRel disk0 first files d) (f : AFile) :
    DiskRel disk0 first (files ++ [f])
      (Function.update d (run_name (first + files.length)) (some (f.h5 (first + files.length)))) := by
  constructor
  · intro i hi
    by_cases he : i = files.length
    · subst he
      rw [Function.update_self]
      simp
    · have hi' : i < files.length := by simp at hi; omega
      rw [Function.update_of_ne, h.done i hi', List.getElem_append_left hi']
      intro hn
      have := run_name_inj hn
      omega
  · intro name hn
    rw [Function.update_of_ne (hn files.length (by simp))]
    exact h.other name (fun i hi => hn i (by simp; omega))

theorem DiskRel.take_of {disk0 : Disk} {first : ℤ} {files : List AFile} {d : Disk} (k : ℕ)
    (h : DiskRel disk0 first files d) (hk : files.length ≤ k) :
    DiskRel disk0 first (files.take k) d := by
  rw [List.take_of_length_le hk]; exact h

/-- `close` of the current file. -/
theorem close_rel {disk0 : Disk} {first m : ℤ} {response : List ℝ} {a : AState} {w : Writer}
    (h : Rel disk0 first m response a w) :
    ∃ tr, w.close = (.ok (), { w with
        disk := Function.update w.disk w.file
          (some (AFile.h5 w.run_number ⟨a.cur, a.start, a.last⟩))
        trace := tr ++ w.trace }) ∧
      ∀ d ∈ tr, ∃ x, d = Function.update w.disk w.file (some x) := by
  have hr : FileRun [.setMin w.file w.starting_event, .setMax w.file w.last_event, .close w.file]
      (openH5 w.run_number a.cur)
      [{ openH5 w.run_number a.cur with min_event := some w.starting_event },
       { openH5 w.run_number a.cur with
          min_event := some w.starting_event, max_event := some w.last_event },
       AFile.h5 w.run_number ⟨a.cur, a.start, a.last⟩]
      (AFile.h5 w.run_number ⟨a.cur, a.start, a.last⟩) := by
    refine .cons _ _ _ _ _ _ rfl rfl (.cons _ _ _ _ _ _ rfl rfl (.cons _ _ _ _ _ _ rfl ?_ (.nil _)))
    simp only [DiskOp.onFile, AFile.h5, openH5, h.start, h.last]
  have := ops_onFile w.file _ _ _ _ hr w h.cur (by simp [DiskOp.target])
  refine ⟨_, this, ?_⟩
  intro d hd
  simp only [List.mem_reverse, List.mem_map] at hd
  obtain ⟨x, -, rfl⟩ := hd
  exact ⟨x, rfl⟩

theorem file_eq {disk0 : Disk} {first m : ℤ} {response : List ℝ} {a : AState} {w : Writer}
    (h : Rel disk0 first m response a w) : w.file = run_name (first + a.done.length) := by
  rw [h.file, h.run]

/-- `create_next_file` after `close`. -/
theorem create_run (file : String) (w : Writer) :
    w.ops [.createFile file, .createGroup file] = (.ok (), { w with
      disk := Function.update w.disk file (some (openH5 0 []))
      trace := Function.update w.disk file (some (openH5 0 []))
        :: Function.update w.disk file (some {}) :: w.trace }) := by
  simp only [Writer.ops, Writer.op, DiskOp.apply, Disk.onOpen, Function.update_self, openH5,
    List.flatMap_nil, Function.update_idem]
  simp

theorem openH5_nil (r r' : ℤ) : openH5 r [] = openH5 r' [] := rfl

theorem init_rel (disk0 : Disk) (config : Config) (m first : ℤ) :
    (Writer.init disk0 config m first).1 = .ok () ∧
    Rel disk0 first m (get_response config) ⟨[], [], 0, 0⟩ (Writer.init disk0 config m first).2 := by
  unfold Writer.init
  generalize get_response config = resp
  simp only [create_run]
  refine ⟨trivial, ?_⟩
  constructor
  · rfl
  · rfl
  · simp
  · rfl
  · rfl
  · rfl
  · simp
  · constructor
    · intro i hi; simp at hi
    · intro name hn
      have := hn 0 (by simp)
      simp only [Nat.cast_zero, add_zero] at this ⊢
      rw [Function.update_of_ne this]
  · simp only
    rw [Function.update_self]
    rfl
  · intro d hd
    refine ⟨0, by simp, ?_⟩
    constructor
    · intro i hi; simp at hi
    · intro name hn
      have := hn 0 (by simp)
      simp only [Nat.cast_zero, add_zero] at this
      simp only [List.mem_cons, List.not_mem_nil, or_false] at hd
      rcases hd with rfl | rfl | rfl
      · rw [Function.update_of_ne this]
      · rw [Function.update_of_ne this]
      · rfl

theorem rollover_rel {disk0 : Disk} {first m : ℤ} {response : List ℝ} {a : AState} {w : Writer}
    (h : Rel disk0 first m response a w) (n : ℤ) :
    ∃ w', w.rollover n = (.ok (), w') ∧ Rel disk0 first m response (a.roll m n) w' := by
  unfold Writer.rollover AState.roll
  rw [h.max, h.count]
  by_cases hm : (a.cur.length : ℤ) = m
  · rw [if_pos hm, if_pos hm]
    obtain ⟨tr, hc, htr⟩ := close_rel h
    rw [hc]
    simp only [Writer.create_next_file, create_run]
    refine ⟨_, rfl, ?_⟩
    have hfile := file_eq h
    have hD := h.disk.snoc ⟨a.cur, a.start, a.last⟩
    rw [← hfile, ← h.run] at hD
    have hlen : first + ((a.done ++ [(⟨a.cur, a.start, a.last⟩ : AFile)]).length : ℤ)
        = w.run_number + 1 := by
      rw [h.run]; simp; ring
    have hD2 : ∀ x, DiskRel disk0 first (a.done ++ [(⟨a.cur, a.start, a.last⟩ : AFile)])
        (Function.update (Function.update w.disk w.file
          (some (AFile.h5 w.run_number ⟨a.cur, a.start, a.last⟩))) (run_name (w.run_number + 1)) x) := by
      intro x
      have := hD.update x
      rw [hlen] at this
      exact this
    constructor
    · exact h.max
    · exact h.resp
    · simp only; rw [hlen]
    · rfl
    · rfl
    · exact h.last
    · simp
    · exact hD2 _
    · simp only
      rw [Function.update_self]
      rfl
    · intro d hd
      simp only [List.mem_cons, List.mem_append] at hd
      rcases hd with rfl | rfl | hd | hd
      · exact ⟨_, le_rfl, (hD2 _).take_of _ le_rfl⟩
      · exact ⟨_, le_rfl, (hD2 _).take_of _ le_rfl⟩
      · obtain ⟨x, rfl⟩ := htr d hd
        refine ⟨a.done.length, by simp, ?_⟩
        rw [List.take_append_of_le_length le_rfl, List.take_length, hfile]
        exact h.disk.update _
      · obtain ⟨k, hk, hd⟩ := h.trace d hd
        refine ⟨k, by simp; omega, ?_⟩
        rw [List.take_append_of_le_length hk]
        exact hd
  · rw [if_neg hm, if_neg hm]
    exact ⟨w, rfl, h⟩

theorem mem_flatMap_dsets (run : ℤ) (l : List Stored) (p : String × Dset)
    (hp : p ∈ l.flatMap (Stored.dsets run)) :
    ∃ e ∈ l, p.1 = cloud_name e.event ∨ p.1 = labels_name e.event := by
  obtain ⟨e, he, hp⟩ := List.mem_flatMap.1 hp
  refine ⟨e, he, ?_⟩
  unfold Stored.dsets at hp
  simp only [List.mem_cons, List.not_mem_nil, or_false] at hp
  rcases hp with rfl | rfl <;> simp

/-- The main refinement step. -/
theorem write_rel {disk0 : Disk} {first m : ℤ} {response : List ℝ} {a : AState} {w : Writer}
    (h : Rel disk0 first m response a w) (argsort : Argsort) (r : WriteReq) :
    ∃ res w', w.write argsort r.data r.labels r.config r.event = (res, w') ∧
      Rel disk0 first m response (a.step m r.event (r.stored argsort response)).2 w' ∧
      ((a.step m r.event (r.stored argsort response)).1 = true ↔ res = .ok ()) := by
  obtain ⟨w₁, hroll, h₁⟩ := rollover_rel h r.event
  unfold Writer.write
  rw [hroll]
  simp only [h₁.resp]
  unfold WriteReq.stored AState.step
  cases hf : format_event argsort response r.data r.labels r.config with
  | error e =>
    exact ⟨_, _, rfl, h₁, by simp⟩
  | ok p =>
    obtain ⟨rows, labels⟩ := p
    simp only
    by_cases hmem : r.event ∈ (a.roll m r.event).cur.map (·.event)
    · rw [if_pos hmem]
      have herr : w₁.ops (event_ops w₁.file w₁.run_number r.event rows labels)
          = (.error .nameExists, w₁) := by
        unfold event_ops
        simp only
        rw [Writer.ops]
        rw [op_onFile_error w₁ _ _ .nameExists (by exact h₁.cur) rfl]
        simp only [DiskOp.onFile]
        rw [if_pos]
        rw [Option.isSome_iff_ne_none]
        intro hn
        rw [lookup_isNone] at hn
        obtain ⟨e, he, hee⟩ := List.mem_map.1 hmem
        have : (cloud_name e.event, Dset.cloud e.rows [("orig_run", (w₁.run_number : ℝ)),
            ("orig_event", (e.event : ℝ)), ("ic_amplitude", -1), ("ic_multiplicity", -1),
            ("ic_integral", -1), ("ic_centroid", -1)]) ∈
            (openH5 w₁.run_number (a.roll m r.event).cur).dsets := by
          refine List.mem_flatMap.2 ⟨e, he, ?_⟩
          simp [Stored.dsets]
        exact hn _ this (by rw [hee])
      rw [herr]
      exact ⟨_, _, rfl, h₁, by simp⟩
    · rw [if_neg hmem]
      have hne : ∀ e ∈ (a.roll m r.event).cur, e.event ≠ r.event := fun e he hee =>
        hmem (List.mem_map.2 ⟨e, he, hee⟩)
      obtain ⟨hs, hrun, -⟩ := event_ops_run w₁.file w₁.run_number ⟨r.event, rows, labels⟩
        (openH5 w₁.run_number (a.roll m r.event).cur) rfl
        (by
          intro p hp hpe
          obtain ⟨e, he, h' | h'⟩ := mem_flatMap_dsets _ _ _ hp
          · exact hne e he (cloud_name_inj (h'.symm.trans hpe))
          · exact cloud_ne_labels _ _ (hpe.symm.trans h'))
        (by
          intro p hp hpe
          obtain ⟨e, he, h' | h'⟩ := mem_flatMap_dsets _ _ _ hp
          · exact cloud_ne_labels _ _ (h'.symm.trans hpe)
          · exact hne e he (labels_name_inj (h'.symm.trans hpe)))
      have hops := ops_onFile w₁.file _ _ _ _ hrun w₁ h₁.cur (by simp [event_ops, DiskOp.target])
      rw [hops]
      refine ⟨_, _, rfl, ?_, by simp⟩
      have hfile := file_eq h₁
      constructor
      · exact h₁.max
      · exact h₁.resp
      · exact h₁.run
      · exact h₁.file
      · exact h₁.start
      · rfl
      · simp [h₁.count]
      · simp only
        rw [hfile]
        exact h₁.disk.update _
      · simp only
        rw [Function.update_self]
        simp [openH5]
      · intro d hd
        rcases List.mem_append.1 hd with hd | hd
        · simp only [List.mem_reverse, List.mem_map] at hd
          obtain ⟨x, -, rfl⟩ := hd
          refine ⟨_, le_rfl, ?_⟩
          simp only
          rw [List.take_length, hfile]
          exact h₁.disk.update _
        · exact h₁.trace d hd

end Verif.Detector
