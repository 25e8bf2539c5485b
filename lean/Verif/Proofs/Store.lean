import Verif.Proofs.WriterOrder
import Verif.Props.Writer

/-! # Storing an event, whatever its rows are -/

namespace Verif.Detector

open Verif.Spec

/-- A new writer with the template `response`. -/
theorem start_rel (disk0 : Disk) (m first : ℤ) (response : List ℝ) :
    (Writer.ops [.createFile (run_name first), .createGroup (run_name first)]
      ({ response := response, max_events_per_file := m, run_number := first, starting_event := 0, last_event := 0,
         events_written := 0, file := run_name first, disk := disk0, trace := [disk0] } : Writer)).1 = .ok () ∧
    Rel disk0 first m response ⟨[], [], 0, 0⟩
      (Writer.ops [.createFile (run_name first), .createGroup (run_name first)]
        ({ response := response, max_events_per_file := m, run_number := first, starting_event := 0, last_event := 0,
           events_written := 0, file := run_name first, disk := disk0, trace := [disk0] } : Writer)).2 := by
  simp only [create_run]
  refine ⟨trivial, ?_⟩
  constructor
  · rfl
  · rfl
  · simp
  · rfl
  · rfl
  · rfl
  · simp
  · constructor
    · intro i hi; simp at hi
    · intro name hn
      have := hn 0 (by simp)
      simp only [Nat.cast_zero, add_zero] at this ⊢
      rw [Function.update_of_ne this]
  · simp only
    rw [Function.update_self]
    rfl
  · intro d hd
    refine ⟨0, by simp, ?_⟩
    constructor
    · intro i hi; simp at hi
    · intro name hn
      have := hn 0 (by simp)
      simp only [Nat.cast_zero, add_zero] at this
      simp only [List.mem_cons, List.not_mem_nil, or_false] at hd
      rcases hd with rfl | rfl | rfl
      · rw [Function.update_of_ne this]
      · rw [Function.update_of_ne this]
      · rfl

/-- The disk operations of an event whose number is new in the current file. -/
theorem store_rel {disk0 : Disk} {first m : ℤ} {response : List ℝ} {a : AState} {w : Writer}
    (h : Rel disk0 first m response a w) (e : Stored) (hne : ∀ x ∈ a.cur, x.event ≠ e.event) :
    ∃ w', w.ops (event_ops w.file w.run_number e.event e.rows e.labels) = (.ok (), w') ∧
      Rel disk0 first m response { a with cur := a.cur ++ [e], last := e.event }
        { w' with last_event := e.event, events_written := w'.events_written + 1 } := by
  obtain ⟨hs, hrun, -⟩ := event_ops_run w.file w.run_number e (openH5 w.run_number a.cur) rfl
    (by
      intro p hp hpe
      obtain ⟨e, he, h' | h'⟩ := mem_flatMap_dsets _ _ _ hp
      · exact hne e he (cloud_name_inj (h'.symm.trans hpe))
      · exact cloud_ne_labels _ _ (hpe.symm.trans h'))
    (by
      intro p hp hpe
      obtain ⟨e, he, h' | h'⟩ := mem_flatMap_dsets _ _ _ hp
      · exact cloud_ne_labels _ _ (h'.symm.trans hpe)
      · exact hne e he (labels_name_inj (h'.symm.trans hpe)))
  have hops := ops_onFile w.file _ _ _ _ hrun w h.cur (by simp [event_ops, DiskOp.target])
  rw [hops]
  refine ⟨_, rfl, ?_⟩
  have hfile := file_eq h
  constructor
  · exact h.max
  · exact h.resp
  · exact h.run
  · exact h.file
  · exact h.start
  · rfl
  · simp [h.count]
  · simp only
    rw [hfile]
    exact h.disk.update _
  · simp only
    rw [Function.update_self]
    simp [openH5]
  · intro d hd
    rcases List.mem_append.1 hd with hd | hd
    · simp only [List.mem_reverse, List.mem_map] at hd
      obtain ⟨x, -, rfl⟩ := hd
      refine ⟨_, le_rfl, ?_⟩
      simp only
      rw [List.take_length, hfile]
      exact h.disk.update _
    · exact h.trace d hd

/-- Storing events with increasing numbers always succeeds. -/
theorem step_new {m B n : ℤ} (hm : 1 ≤ m) {a : AState} (h : AOrd B a) (hn : B ≤ n) (e : Stored) :
    (a.step m n (some e)).1 = true ∧
      (a.step m n (some e)).2 = { a.roll m n with cur := (a.roll m n).cur ++ [e], last := n } ∧
      ∀ x ∈ (a.roll m n).cur, x.event ≠ n := by
  have hx : ∀ x ∈ (a.roll m n).cur, x.event ≠ n := fun x hx => ((h.roll hm hn).cur_range x hx).2.ne
  have hmem : n ∉ (a.roll m n).cur.map (·.event) := by
    intro hc
    obtain ⟨x, h1, h2⟩ := List.mem_map.1 hc
    exact hx x h1 h2
  unfold AState.step
  simp only [if_neg hmem]
  exact ⟨trivial, trivial, hx⟩

/-- The files after `close`. -/
theorem closed_files {disk0 : Disk} {first m B : ℤ} (hm : 1 ≤ m) {response : List ℝ} {a : AState} {w : Writer}
    (hrel : Rel disk0 first m response a w) (hok : AOk m a) (hord : AOrd B a) :
    ∃ (w' : Writer) (lo hi : ℕ → ℤ), w.close = (.ok (), w') ∧
      (∀ (i : ℕ) (hi : i < a.files.length), i + 1 < a.files.length → (a.files[i].length : ℤ) = m) ∧
      (∀ f ∈ a.files, (f.length : ℤ) ≤ m) ∧
      Holds disk0 w'.disk first a.files ∧
      (∀ (i : ℕ) (hi' : i < a.files.length), ∃ hf, w'.disk (run_name (first + i)) = some hf ∧
        hf.closed = true ∧ hf.min_event = some (lo i) ∧ hf.max_event = some (hi i) ∧
        (∀ e ∈ a.files[i], lo i ≤ e.event ∧ e.event ≤ hi i) ∧
        (∀ hne : a.files[i] ≠ [], hi i = (a.files[i].getLast hne).event)) ∧
      ∀ i j, i < j → j < a.files.length → hi i < lo j := by
  obtain ⟨tr, hclose, -⟩ := close_rel hrel
  obtain ⟨s1, s2, s3, -⟩ := files_split hm hrel hok
  have hfile := file_eq hrel
  have hD := hrel.disk.snoc ⟨a.cur, a.start, a.last⟩
  rw [← hfile, ← hrel.run] at hD
  have hfl : a.files = (a.done ++ [(⟨a.cur, a.start, a.last⟩ : AFile)]).map (·.events) := by
    simp [AState.files]
  have hpw : (a.done ++ [(⟨a.cur, a.start, a.last⟩ : AFile)]).Pairwise fun f g => f.max < g.min := by
    rw [List.pairwise_append]
    refine ⟨hord.done_sorted, by simp, ?_⟩
    intro f hfm g hg
    rw [List.mem_singleton.1 hg]
    exact (hord.done_range f hfm).2.1
  have hrange : ∀ f ∈ a.done ++ [(⟨a.cur, a.start, a.last⟩ : AFile)],
      (∀ e ∈ f.events, f.min ≤ e.event ∧ e.event ≤ f.max) ∧
      ∀ h : f.events ≠ [], f.max = (f.events.getLast h).event := by
    intro f hfm
    rcases List.mem_append.1 hfm with hfm | hfm
    · exact ⟨(hord.done_range f hfm).1, (hord.done_range f hfm).2.2⟩
    · rw [List.mem_singleton.1 hfm]
      refine ⟨fun e he => ⟨(hord.cur_range e he).1, ?_⟩, hord.last_eq⟩
      have hne : a.cur ≠ [] := List.ne_nil_of_mem he
      simp only
      rw [hord.last_eq hne]
      exact getLast_max _ hord.cur_sorted hne e he
  generalize hall : a.done ++ [(⟨a.cur, a.start, a.last⟩ : AFile)] = all at *
  refine ⟨_, fun i => (all[i]?.getD ⟨[], 0, 0⟩).min, fun i => (all[i]?.getD ⟨[], 0, 0⟩).max,
    hclose, s2, s3, ⟨?_, ?_⟩, ?_, ?_⟩
  · intro i hi
    have hi' : i < all.length := by rw [hfl] at hi; simpa using hi
    refine ⟨_, hD.done i hi', ?_⟩
    simp [AFile.h5, hfl]
  · intro name hn
    have hlen' : a.files.length = a.done.length + 1 := files_length a
    simp only
    rw [Function.update_of_ne]
    · exact hrel.disk.other name (fun i hi => hn i (by omega))
    · rw [hfile]
      exact hn _ (by omega)
  · intro i hi
    have hi' : i < all.length := by rw [hfl] at hi; simpa using hi
    obtain ⟨r1, r2⟩ := hrange all[i] (List.getElem_mem _)
    refine ⟨_, hD.done i hi', rfl, ?_, ?_, ?_, ?_⟩
    · simp [AFile.h5, hi']
    · simp [AFile.h5, hi']
    · simpa [hfl, hi'] using r1
    · simpa [hfl, hi'] using r2
  · intro i j hij hj
    have hj' : j < all.length := by rw [hfl] at hj; simpa using hj
    have := List.pairwise_iff_getElem.1 hpw i j (by omega) hj' hij
    simpa [hj', show i < all.length by omega] using this

end Verif.Detector
