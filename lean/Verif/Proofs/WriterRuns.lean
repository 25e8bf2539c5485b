import Verif.Proofs.WriterRel
import Mathlib.Data.List.Flatten

/-! # Histories of writes -/

namespace Verif.Detector

open Verif.Spec

/-- Abstract counterpart of `attempts`. -/
noncomputable def asteps (argsort : Argsort) (response : List ℝ) (m : ℤ) :
    List WriteReq → AState → List Bool × AState
  | [], a => ([], a)
  | r :: rs, a =>
    let (b, a) := a.step m r.event (r.stored argsort response)
    let (bs, a) := asteps argsort response m rs a
    (b :: bs, a)

/-- Whether a call succeeded. -/
def okay (r : Except PyErr Unit) : Bool :=
  match r with
  | .ok _ => true
  | .error _ => false

theorem okay_iff (r : Except PyErr Unit) : okay r = true ↔ r = .ok () := by
  cases r <;> simp [okay]

theorem attempts_rel {disk0 : Disk} {first m : ℤ} {response : List ℝ} (argsort : Argsort)
    (reqs : List WriteReq) {a : AState} {w : Writer} (h : Rel disk0 first m response a w) :
    Rel disk0 first m response (asteps argsort response m reqs a).2 (attempts argsort reqs w).2 ∧
    (attempts argsort reqs w).1.map okay = (asteps argsort response m reqs a).1 := by
  induction reqs generalizing a w with
  | nil => exact ⟨h, rfl⟩
  | cons r rs ih =>
    obtain ⟨res, w', hw, hrel, hb⟩ := write_rel h argsort r
    obtain ⟨h1, h2⟩ := ih hrel
    unfold attempts asteps
    rw [hw]
    simp only
    refine ⟨h1, ?_⟩
    rw [List.map_cons, h2]
    congr 1
    rw [Bool.eq_iff_iff, okay_iff]
    exact hb.symm

/-- The files of an abstract state: events of the finished files and of the current one. -/
def AState.files (a : AState) : List (List Stored) := a.done.map (·.events) ++ [a.cur]

theorem files_length (a : AState) : a.files.length = a.done.length + 1 := by
  simp [AState.files]

/-- Basic facts about an abstract state. -/
structure AOk (m : ℤ) (a : AState) : Prop where
  full : ∀ f ∈ a.done, (f.events.length : ℤ) = m
  cur : (a.cur.length : ℤ) ≤ m
  nodup : ∀ f ∈ a.files, (f.map (·.event)).Nodup

theorem AOk.roll {m : ℤ} (hm : 1 ≤ m) {a : AState} (h : AOk m a) (n : ℤ) :
    AOk m (a.roll m n) ∧ ((a.roll m n).cur.length : ℤ) < m := by
  unfold AState.roll
  split_ifs with hf
  · refine ⟨⟨?_, by simp; omega, ?_⟩, by simp; omega⟩
    · intro f hfm
      rcases List.mem_append.1 hfm with hfm | hfm
      · exact h.full f hfm
      · rw [List.mem_singleton.1 hfm]; exact hf
    · intro f hfm
      simp only [AState.files, List.map_append, List.map_cons, List.map_nil, List.mem_append,
        List.mem_singleton] at hfm
      rcases hfm with (hfm | rfl) | rfl
      · exact h.nodup f (by simp [AState.files, hfm])
      · exact h.nodup _ (by simp [AState.files])
      · simp
  · have := h.cur
    exact ⟨h, by omega⟩

theorem AOk.step {m : ℤ} (hm : 1 ≤ m) {a : AState} (h : AOk m a) (n : ℤ) (e? : Option Stored)
    (he : ∀ e, e? = some e → e.event = n) : AOk m (a.step m n e?).2 := by
  obtain ⟨h1, h2⟩ := h.roll hm n
  unfold AState.step
  cases e? with
  | none => exact h1
  | some e =>
    simp only
    split_ifs with hmem
    · exact h1
    · refine ⟨h1.full, by simp; omega, ?_⟩
      intro f hf
      simp only [AState.files, List.mem_append, List.mem_singleton] at hf
      rcases hf with hf | rfl
      · exact h1.nodup f (by simp [AState.files, hf])
      · rw [List.map_append, List.nodup_append]
        refine ⟨h1.nodup _ (by simp [AState.files]), by simp, ?_⟩
        intro x hx y hy hxy
        simp only [List.map_cons, List.map_nil, List.mem_singleton] at hy
        rw [he e rfl] at hy
        subst hxy
        rw [hy] at hx
        exact hmem hx

theorem roll_files_flatten (m n : ℤ) (a : AState) :
    (a.roll m n).files.flatten = a.files.flatten := by
  unfold AState.roll
  split_ifs
  · simp [AState.files]
  · rfl

theorem step_files_flatten (m n : ℤ) (e? : Option Stored) (a : AState) :
    (a.step m n e?).2.files.flatten = a.files.flatten ++
      (match (a.step m n e?).1, e? with
        | true, some e => [e]
        | _, _ => []) := by
  unfold AState.step
  cases e? with
  | none => simp [roll_files_flatten]
  | some e =>
    simp only
    split_ifs
    · simp [roll_files_flatten]
    · simp only
      rw [← roll_files_flatten m n a]
      simp [AState.files]

theorem step_ok_some (m n : ℤ) (e? : Option Stored) (a : AState)
    (h : (a.step m n e?).1 = true) : ∃ e, e? = some e := by
  cases e? with
  | none => simp [AState.step] at h
  | some e => exact ⟨e, rfl⟩

/-- Abstract counterpart of `accepted`. -/
noncomputable def aaccepted (argsort : Argsort) (response : List ℝ) (reqs : List WriteReq)
    (bs : List Bool) : List Stored :=
  (reqs.zip bs).filterMap fun rb => if rb.2 then rb.1.stored argsort response else none

theorem accepted_eq (argsort : Argsort) (response : List ℝ) (reqs : List WriteReq)
    (results : List (Except PyErr Unit)) :
    accepted argsort response reqs results
      = aaccepted argsort response reqs (results.map okay) := by
  unfold accepted aaccepted
  rw [List.zip_map_right, List.filterMap_map]
  apply List.filterMap_congr
  intro x _
  obtain ⟨r, res⟩ := x
  cases res <;> simp [okay]

theorem stored_event (argsort : Argsort) (response : List ℝ) (r : WriteReq) (e : Stored)
    (h : r.stored argsort response = some e) : e.event = r.event := by
  unfold WriteReq.stored at h
  split at h
  · have := Option.some.inj h
    rw [← this]
  · simp at h

theorem asteps_files (argsort : Argsort) (response : List ℝ) (m : ℤ) (reqs : List WriteReq)
    (a : AState) :
    (asteps argsort response m reqs a).2.files.flatten
      = a.files.flatten
        ++ aaccepted argsort response reqs (asteps argsort response m reqs a).1 := by
  induction reqs generalizing a with
  | nil => simp [asteps, aaccepted]
  | cons r rs ih =>
    unfold asteps
    simp only
    rw [ih, step_files_flatten, List.append_assoc]
    congr 1
    unfold aaccepted
    rw [List.zip_cons_cons, List.filterMap_cons]
    cases hb : (a.step m r.event (r.stored argsort response)).1
    · simp
    · obtain ⟨e, he⟩ := step_ok_some _ _ _ _ hb
      simp [he]

theorem asteps_ok {m : ℤ} (hm : 1 ≤ m) (argsort : Argsort) (response : List ℝ)
    (reqs : List WriteReq) {a : AState} (h : AOk m a) :
    AOk m (asteps argsort response m reqs a).2 := by
  induction reqs generalizing a with
  | nil => exact h
  | cons r rs ih =>
    unfold asteps
    exact ih (h.step hm _ _ (fun e he => stored_event _ _ _ _ he))

theorem AOk.init {m : ℤ} (hm : 1 ≤ m) : AOk m ⟨[], [], 0, 0⟩ :=
  ⟨by simp, by simp; omega, by simp [AState.files]⟩

theorem asteps_append (argsort : Argsort) (response : List ℝ) (m : ℤ) (r1 r2 : List WriteReq)
    (a : AState) : (asteps argsort response m (r1 ++ r2) a).2
      = (asteps argsort response m r2 (asteps argsort response m r1 a).2).2 := by
  induction r1 generalizing a with
  | nil => rfl
  | cons r rs ih =>
    simp only [List.cons_append, asteps]
    exact ih _

theorem attempts_append (argsort : Argsort) (r1 r2 : List WriteReq)
    (w : Writer) : (attempts argsort (r1 ++ r2) w).2
      = (attempts argsort r2 (attempts argsort r1 w).2).2 := by
  induction r1 generalizing w with
  | nil => rfl
  | cons r rs ih =>
    simp only [List.cons_append, attempts]
    exact ih _

theorem accepted_sublist (argsort : Argsort) (response : List ℝ) (reqs : List WriteReq)
    (results : List (Except PyErr Unit)) :
    ((accepted argsort response reqs results).map (·.event)).Sublist (reqs.map (·.event)) := by
  unfold accepted
  induction reqs generalizing results with
  | nil => simp
  | cons r rs ih =>
    cases results with
    | nil => simp
    | cons res results =>
      rw [List.zip_cons_cons, List.filterMap_cons]
      have i := ih results
      cases res with
      | error e => exact i.cons _
      | ok u =>
        simp only
        cases hs : r.stored argsort response with
        | none => exact i.cons _
        | some e =>
          simp only [List.map_cons, stored_event _ _ _ _ hs]
          exact i.cons_cons _

/-- Later states only extend earlier ones: files keep their events. -/
def FilesLe (f g : List (List Stored)) : Prop :=
  f.length ≤ g.length ∧ ∀ (i : ℕ) (h : i < f.length) (h' : i < g.length), f[i] <+: g[i]

theorem FilesLe.refl (f : List (List Stored)) : FilesLe f f :=
  ⟨le_rfl, fun _ _ _ => List.prefix_rfl⟩

theorem FilesLe.trans {f g k : List (List Stored)} (h1 : FilesLe f g) (h2 : FilesLe g k) :
    FilesLe f k :=
  ⟨h1.1.trans h2.1, fun i h h' => (h1.2 i h (by have := h1.1; omega)).trans
    (h2.2 i (by have := h1.1; omega) h')⟩

theorem roll_le (m n : ℤ) (a : AState) : FilesLe a.files (a.roll m n).files := by
  unfold AState.roll
  split_ifs
  · have : (AState.mk (a.done ++ [⟨a.cur, a.start, a.last⟩]) [] n a.last).files
        = a.files ++ [[]] := by simp [AState.files]
    rw [this]
    refine ⟨by simp, fun i h h' => ?_⟩
    rw [List.getElem_append_left h]
  · exact FilesLe.refl _

theorem step_le (m n : ℤ) (e? : Option Stored) (a : AState) :
    FilesLe a.files (a.step m n e?).2.files := by
  refine (roll_le m n a).trans ?_
  unfold AState.step
  cases e? with
  | none => exact FilesLe.refl _
  | some e =>
    simp only
    split_ifs
    · exact FilesLe.refl _
    · refine ⟨by simp [AState.files], fun i h h' => ?_⟩
      simp only [AState.files]
      by_cases hi : i < (a.roll m n).done.length
      · rw [List.getElem_append_left (by simpa using hi), List.getElem_append_left (by simpa using hi)]
      · have : i = (a.roll m n).done.length := by
          simp [AState.files] at h; omega
        subst this
        simp

theorem asteps_le (argsort : Argsort) (response : List ℝ) (m : ℤ) (reqs : List WriteReq)
    (a : AState) : FilesLe a.files (asteps argsort response m reqs a).2.files := by
  induction reqs generalizing a with
  | nil => exact FilesLe.refl _
  | cons r rs ih =>
    unfold asteps
    exact (step_le _ _ _ _).trans (ih _)

/-- What the disk holds in terms of `AState.files`. -/
theorem Rel.files {disk0 : Disk} {first m : ℤ} {response : List ℝ} {a : AState} {w : Writer}
    (h : Rel disk0 first m response a w) (i : ℕ) (hi : i < a.files.length) :
    ∃ hf, w.disk (run_name (first + i)) = some hf ∧
      hf.dsets = a.files[i].flatMap (Stored.dsets (first + i)) := by
  by_cases hd : i < a.done.length
  · refine ⟨_, h.disk.done i hd, ?_⟩
    simp only [AState.files, AFile.h5]
    rw [List.getElem_append_left (by simpa using hd), List.getElem_map]
  · have : i = a.done.length := by rw [files_length] at hi; omega
    subst this
    refine ⟨openH5 w.run_number a.cur, ?_, ?_⟩
    · rw [← file_eq h]; exact h.cur
    · simp [AState.files, openH5, h.run]

theorem Rel.others {disk0 : Disk} {first m : ℤ} {response : List ℝ} {a : AState} {w : Writer}
    (h : Rel disk0 first m response a w) (name : String)
    (hn : ∀ i : ℕ, i < a.files.length → name ≠ run_name (first + i)) : w.disk name = disk0 name :=
  h.disk.other name (fun i hi => hn i (by rw [files_length]; omega))

/-! ## Looking events up in a file -/

theorem lookup_append_none {α : Type} (l l' : List (String × α)) (n : String)
    (h : l.lookup n = none) : (l ++ l').lookup n = l'.lookup n := by
  rw [List.lookup_append, h]; simp

theorem lookup_cloud (run : ℤ) (l : List Stored) (e : Stored) (he : e ∈ l)
    (hn : (l.map (·.event)).Nodup) :
    (l.flatMap (Stored.dsets run)).lookup (cloud_name e.event)
      = some (.cloud e.rows [("orig_run", (run : ℝ)), ("orig_event", (e.event : ℝ)),
        ("ic_amplitude", -1), ("ic_multiplicity", -1), ("ic_integral", -1), ("ic_centroid", -1)]) ∧
    (l.flatMap (Stored.dsets run)).lookup (labels_name e.event) = some (.labels e.labels) := by
  induction l with
  | nil => simp at he
  | cons x l ih =>
    rw [List.flatMap_cons]
    rcases List.mem_cons.1 he with rfl | he'
    · have : (labels_name e.event == cloud_name e.event) = false := by
        rw [beq_eq_false_iff_ne]; exact (cloud_ne_labels _ _).symm
      simp [Stored.dsets, List.lookup, this]
    · rw [List.map_cons, List.nodup_cons] at hn
      have hne : e.event ≠ x.event := fun h => hn.1 (List.mem_map.2 ⟨e, he', h⟩)
      obtain ⟨h1, h2⟩ := ih he' hn.2
      rw [lookup_append_none, lookup_append_none]
      · exact ⟨h1, h2⟩
      · rw [lookup_isNone]
        intro p hp hpe
        simp only [Stored.dsets, List.mem_cons, List.not_mem_nil, or_false] at hp
        rcases hp with rfl | rfl
        · exact cloud_ne_labels _ _ hpe
        · exact hne (labels_name_inj hpe).symm
      · rw [lookup_isNone]
        intro p hp hpe
        simp only [Stored.dsets, List.mem_cons, List.not_mem_nil, or_false] at hp
        rcases hp with rfl | rfl
        · exact hne (cloud_name_inj hpe).symm
        · exact cloud_ne_labels _ _ hpe.symm

theorem lookup_cloud_none (run : ℤ) (l : List Stored) (n : ℤ) (h : ∀ e ∈ l, e.event ≠ n) :
    (l.flatMap (Stored.dsets run)).lookup (cloud_name n) = none ∧
    (l.flatMap (Stored.dsets run)).lookup (labels_name n) = none := by
  rw [lookup_isNone, lookup_isNone]
  constructor
  · intro p hp hpe
    obtain ⟨e, he, h' | h'⟩ := mem_flatMap_dsets _ _ _ hp
    · exact h e he (cloud_name_inj (h'.symm.trans hpe))
    · exact cloud_ne_labels _ _ (hpe.symm.trans h')
  · intro p hp hpe
    obtain ⟨e, he, h' | h'⟩ := mem_flatMap_dsets _ _ _ hp
    · exact cloud_ne_labels _ _ (h'.symm.trans hpe)
    · exact h e he (labels_name_inj (h'.symm.trans hpe))

end Verif.Detector
