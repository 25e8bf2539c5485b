import Verif.Props.Writer

/-! # C149: the label arrays are not stored under the documented name -/

namespace Verif.Detector

open Verif.Spec

/-- The name of the label array of event `n` according to the user guide, docs/user_guide/detector/index.md:194-196:
"Each label array is named "label_#" where # is the event number for that label array." -/
def documentedLabel (n : ℤ) : String := "label_" ++ toString n

theorem documentedLabel_ne (n k : ℤ) : documentedLabel n ≠ cloud_name k ∧ documentedLabel n ≠ labels_name k := by
  constructor
  · intro h
    unfold documentedLabel cloud_name at h
    have h := congrArg String.toList h
    rw [String.toList_append, String.toList_append] at h
    simp at h
  · intro h
    unfold documentedLabel labels_name at h
    have h := congrArg String.toList h
    rw [String.toList_append, String.toList_append] at h
    simp at h

/-- **C149, refuted.** Whatever is written, no file of the run has a dataset with a documented label name. -/
theorem C149_refuted (disk0 : Disk) (config : Config) (m first : ℤ) (hm : 1 ≤ m)
    (argsort : Argsort) (reqs : List WriteReq) (results : List (Except PyErr Unit)) (w : Writer)
    (h : attempts argsort reqs (newWriter disk0 config m first) = (results, w)) :
    ∃ files : List (List Stored),
      files.flatten = accepted argsort (get_response config) reqs results ∧
      ∀ i < files.length, ∃ hf, w.disk (run_name (first + i)) = some hf ∧
        ∀ n, hf.dsets.lookup (documentedLabel n) = none := by
  obtain ⟨files, -, hflat, -, -, hH⟩ := C28_splitting disk0 config m first hm argsort reqs results w h
  refine ⟨files, hflat, fun i hi => ?_⟩
  obtain ⟨hf, hdisk, hds⟩ := hH.file i hi
  refine ⟨hf, hdisk, fun n => ?_⟩
  rw [hds, lookup_isNone]
  intro p hp hpe
  obtain ⟨e, -, h' | h'⟩ := mem_flatMap_dsets _ _ _ hp
  · exact (documentedLabel_ne n e.event).1 (hpe.symm.trans h')
  · exact (documentedLabel_ne n e.event).2 (hpe.symm.trans h')

/-- **C149, partial.** Every stored event has one label array, in the same file and group as its cloud, under the
name `labels_#`. What is missing is the documented name `label_#`. -/
theorem C149_partial (disk0 : Disk) (config : Config) (m first : ℤ) (hm : 1 ≤ m)
    (argsort : Argsort) (reqs : List WriteReq) (results : List (Except PyErr Unit)) (w : Writer)
    (h : attempts argsort reqs (newWriter disk0 config m first) = (results, w))
    (hd : (reqs.map (·.event)).Nodup) :
    ∀ e ∈ accepted argsort (get_response config) reqs results,
      ∃ (i : ℕ) (hf : H5File) (attrs : List (String × ℝ)), w.disk (run_name (first + i)) = some hf ∧
        hf.dsets.lookup ("cloud_" ++ toString e.event) = some (.cloud e.rows attrs) ∧
        hf.dsets.lookup ("labels_" ++ toString e.event) = some (.labels e.labels) := by
  obtain ⟨files, -, -, hr⟩ := C29_read_back disk0 config m first hm argsort reqs results w h hd
  intro e he
  obtain ⟨i, -, ⟨hf, attrs, h1, h2, h3, -⟩, -⟩ := hr e he
  exact ⟨i, hf, attrs, h1, h2, h3⟩

/-- Example: three events, two per file. All calls succeed, the labels of event 0 are in some file under `labels_0`, and
the first file has no `label_0`. -/
example (disk0 : Disk) : ∃ results w, attempts exArgsort [exReq 0, exReq 4, exReq 5]
      (newWriter disk0 exWriteConfig 2 9999) = (results, w) ∧ (∀ r ∈ results, r = .ok ()) ∧
      (∃ (i : ℕ) (hf : H5File) (labels : List ℤ), w.disk (run_name (9999 + i)) = some hf ∧
        hf.dsets.lookup "labels_0" = some (.labels labels)) ∧
      ∃ hf, w.disk "run_9999.h5" = some hf ∧ hf.dsets.lookup "label_0" = none := by
  rcases hatt : attempts exArgsort [exReq 0, exReq 4, exReq 5] (newWriter disk0 exWriteConfig 2 9999) with ⟨rs, w⟩
  have hd : ([exReq 0, exReq 4, exReq 5].map (·.event)).Nodup := by simp [exReq]
  obtain ⟨hall, hev⟩ := C29_all_stored disk0 exWriteConfig 2 9999 exArgsort [exReq 0, exReq 4, exReq 5] _ _ hatt hd (by
    intro r hr
    simp only [List.mem_cons, List.not_mem_nil, or_false] at hr
    rcases hr with rfl | rfl | rfl <;> exact exReq_format _ _ _)
  refine ⟨rs, w, rfl, hall, ?_, ?_⟩
  · have : (0 : ℤ) ∈ (accepted exArgsort (get_response exWriteConfig) [exReq 0, exReq 4, exReq 5] rs).map (·.event) := by
      rw [hev]
      simp [exReq]
    obtain ⟨e, he, h0⟩ := List.mem_map.1 this
    obtain ⟨i, hf, attrs, h1, -, h3⟩ := C149_partial disk0 exWriteConfig 2 9999 (by norm_num) exArgsort _ _ _ hatt hd e he
    rw [h0] at h3
    exact ⟨i, hf, e.labels, h1, h3⟩
  · obtain ⟨files, hflat, hfiles⟩ := C149_refuted disk0 exWriteConfig 2 9999 (by norm_num) exArgsort _ _ _ hatt
    have hpos : 0 < files.length := by
      rw [List.length_pos_iff]
      intro h0
      rw [h0] at hflat
      rw [← hflat] at hev
      simp [exReq] at hev
    obtain ⟨hf, h1, h2⟩ := hfiles 0 hpos
    have e : run_name (9999 + ((0 : ℕ) : ℤ)) = "run_9999.h5" := by decide +kernel
    rw [e] at h1
    exact ⟨hf, h1, h2 0⟩

end Verif.Detector
