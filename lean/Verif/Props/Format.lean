import Verif.Proofs.Format

/-! # C27: what is stored for one event -/

namespace Verif.Detector

open Verif.Spec

/-- C27: whenever an event is formatted, the stored rows with their labels are — up to order — exactly
the converted points above the ADC threshold with their own labels, and the rows are sorted by
ascending z. This holds for every way in which argsort may order ties. -/
theorem C27_content (argsort : Argsort) (hA : IsArgsort argsort) (response : List ℝ)
    (data : List CloudPoint) (labels : List ℤ) (config : Config)
    (hlen : data.length = labels.length) (hpads : ∀ p ∈ data, ∃ n : ℕ, p.pad = n)
    (rows : List SpyralRow) (labels' : List ℤ)
    (h : format_event argsort response data labels config = .ok (rows, labels')) :
    ∃ centers converted, config.pad_centers = some centers ∧
      List.Forall₂ (RowOf config centers response) data converted ∧
      rows.length = labels'.length ∧
      (rows.zip labels').Perm ((converted.zip labels).filter fun rl =>
        decide ((config.elec_params.adc_threshold : ℝ) < rl.1.amp)) ∧
      rows.Pairwise fun a b => a.z ≤ b.z := by
  unfold format_event at h
  cases hc : config.pad_centers with
  | none => rw [hc] at h; simp at h
  | some centers =>
    rw [hc] at h
    simp only at h
    rw [except_bind_ok] at h
    obtain ⟨conv, hconv, h⟩ := h
    have h := Except.ok.inj h
    have h2 := mapM_forall₂ _ _ _ hconv
    have hl : conv.length = labels.length := by rw [← hlen]; exact h2.length_eq.symm
    obtain ⟨hr, hl'⟩ := Prod.mk.inj h
    generalize hm : (conv.map fun r => decide (r.amp > (config.elec_params.adc_threshold : ℝ)))
      = mask at hr hl'
    have hml := maskSel_length_eq mask conv labels hl
    have hz : rows.zip labels' = takeIdx (argsort ((maskSel mask conv).map (·.z)))
        ((conv.zip labels).filter fun rl =>
          decide ((config.elec_params.adc_threshold : ℝ) < rl.1.amp)) := by
      rw [← hr, ← hl', takeIdx_zip _ _ _ hml]
      congr 1
      rcases maskSel_zip mask conv labels with h' | h'
      · rw [h', ← maskSel_map]
        congr 1
        rw [← hm]
        have : conv = (conv.zip labels).map Prod.fst := by rw [List.map_fst_zip]; omega
        conv_lhs => rw [this, List.map_map]
        rfl
      · exact absurd hl h'
    have hcount : ((conv.zip labels).filter fun rl =>
          decide ((config.elec_params.adc_threshold : ℝ) < rl.1.amp)).length
        = ((maskSel mask conv).map (·.z)).length := by
      rcases maskSel_zip mask conv labels with h' | h'
      · have : ((maskSel mask conv).zip (maskSel mask labels)) = ((conv.zip labels).filter fun rl =>
          decide ((config.elec_params.adc_threshold : ℝ) < rl.1.amp)) := by
          rw [h', ← maskSel_map]
          congr 1
          rw [← hm]
          have : conv = (conv.zip labels).map Prod.fst := by rw [List.map_fst_zip]; omega
          conv_lhs => rw [this, List.map_map]
          rfl
        rw [← this, List.length_zip, ← hml, Nat.min_self, List.length_map]
      · exact absurd hl h'
    refine ⟨centers, conv, rfl, ?_, ?_, ?_, ?_⟩
    · refine List.forall₂_iff_get.2 ⟨h2.length_eq, ?_⟩
      intro i h1 h3
      have hget := (List.forall₂_iff_get.1 h2).2 i h1 h3
      obtain ⟨n, hn⟩ := hpads _ (List.get_mem data ⟨i, h1⟩)
      exact ((convert_point_ok_iff config centers response _ n hn _).1 hget).2
    · rw [← hr, ← hl']
      have hp := hA.perm ((maskSel mask conv).map (·.z))
      rw [List.length_map] at hp
      have e1 := (takeIdx_perm _ (maskSel mask conv) hp).length_eq
      have e2 := (takeIdx_perm _ (maskSel mask labels) (hp.trans (by rw [hml]))).length_eq
      rw [e1, e2, hml]
    · rw [hz]
      exact takeIdx_perm _ _ ((hA.perm _).trans (by rw [hcount]))
    · have hs := hA.sorted ((maskSel mask conv).map (·.z))
      rw [takeIdx_map, hr, List.pairwise_map] at hs
      exact hs

/-- C27: every event whose pads all have a centre and a size is formatted, if the configuration has
pad centres and distinct edges. -/
theorem C27_no_error (argsort : Argsort) (response : List ℝ) (data : List CloudPoint)
    (labels : List ℤ) (config : Config) (centers : List (ℝ × ℝ))
    (hc : config.pad_centers = some centers)
    (hedge : config.elec_params.windows_edge ≠ config.elec_params.micromegas_edge)
    (hpads : ∀ p ∈ data, ∃ n : ℕ, p.pad = n ∧ n < centers.length ∧ n < config.pad_sizes.length) :
    ∃ r, format_event argsort response data labels config = .ok r := by
  have hall : ∀ p ∈ data, ∃ r, convert_point config.elec_params.windows_edge
      config.elec_params.micromegas_edge config.det_params.length response centers
      config.pad_sizes p = .ok r := by
    intro p hp
    obtain ⟨n, hn, h1, h2⟩ := hpads p hp
    refine ⟨⟨centers[n].1, centers[n].2, ((config.elec_params.windows_edge : ℝ) - p.tb)
      / ((config.elec_params.windows_edge : ℝ) - config.elec_params.micromegas_edge)
      * config.det_params.length * 1000, (apply_response response p.e).1,
      (apply_response response p.e).2, p.pad, p.tb, config.pad_sizes[n]⟩, ?_⟩
    rw [convert_point_ok_iff config centers response p n hn]
    refine ⟨hedge, ⟨⟨n, hn, ?_, ?_⟩, rfl, rfl, rfl, rfl⟩⟩
    · rw [List.getElem?_eq_getElem h1]
    · rw [List.getElem?_eq_getElem h2]
  have hex : ∃ conv, convert_to_spyral data config.elec_params.windows_edge
      config.elec_params.micromegas_edge config.det_params.length response centers
      config.pad_sizes = .ok conv := by
    unfold convert_to_spyral
    clear hpads
    induction data with
    | nil => exact ⟨[], rfl⟩
    | cons p ps ih =>
      obtain ⟨r, hr⟩ := hall p (by simp)
      obtain ⟨rs, hrs⟩ := ih (fun q hq => hall q (by simp [hq]))
      exact ⟨r :: rs, (mapM_except_cons _ _ _ _).2 ⟨r, rs, hr, hrs, rfl⟩⟩
  obtain ⟨conv, hconv⟩ := hex
  unfold format_event
  rw [hc]
  simp only
  rw [hconv]
  exact ⟨_, rfl⟩

/-- Insertion of a position into a list of positions sorted by key. -/
noncomputable def insertKey (keys : List ℝ) (i : ℕ) : List ℕ → List ℕ
  | [] => [i]
  | j :: js => if keys.getD i 0 ≤ keys.getD j 0 then i :: j :: js else j :: insertKey keys i js

/-- A sorting function that meets the contract: insertion sort of the positions. -/
noncomputable def exArgsort : Argsort := fun keys =>
  (List.range keys.length).foldr (insertKey keys) []

theorem insertKey_perm (keys : List ℝ) (i : ℕ) (l : List ℕ) :
    (insertKey keys i l).Perm (i :: l) := by
  induction l with
  | nil => exact List.Perm.refl _
  | cons j js ih =>
    unfold insertKey
    split_ifs
    · exact List.Perm.refl _
    · exact (ih.cons j).trans (List.Perm.swap i j js)

theorem insertKey_sorted (keys : List ℝ) (i : ℕ) (l : List ℕ)
    (h : l.Pairwise fun a b => keys.getD a 0 ≤ keys.getD b 0) :
    (insertKey keys i l).Pairwise fun a b => keys.getD a 0 ≤ keys.getD b 0 := by
  induction l with
  | nil => exact List.pairwise_singleton _ _
  | cons j js ih =>
    obtain ⟨h1, h2⟩ := List.pairwise_cons.1 h
    unfold insertKey
    split_ifs with hij
    · refine List.pairwise_cons.2 ⟨?_, h⟩
      intro k hk
      rcases List.mem_cons.1 hk with rfl | hk
      · exact hij
      · exact hij.trans (h1 k hk)
    · refine List.pairwise_cons.2 ⟨?_, ih h2⟩
      intro k hk
      rcases List.mem_cons.1 ((insertKey_perm keys i js).mem_iff.1 hk) with rfl | hk
      · exact (not_le.1 hij).le
      · exact h1 k hk

/-- The contract of argsort can be met. -/
theorem exArgsort_ok : IsArgsort exArgsort := by
  have hperm : ∀ (keys : List ℝ) (l : List ℕ), (l.foldr (insertKey keys) []).Perm l := by
    intro keys l
    induction l with
    | nil => exact List.Perm.refl _
    | cons a l ih => exact (insertKey_perm keys a _).trans (ih.cons a)
  have hsort : ∀ (keys : List ℝ) (l : List ℕ),
      (l.foldr (insertKey keys) []).Pairwise fun a b => keys.getD a 0 ≤ keys.getD b 0 := by
    intro keys l
    induction l with
    | nil => exact List.Pairwise.nil
    | cons a l ih => exact insertKey_sorted keys a _ ih
  refine ⟨fun keys => hperm keys _, fun keys => ?_⟩
  unfold takeIdx
  rw [List.pairwise_filterMap]
  refine (hsort keys (List.range keys.length)).imp ?_
  intro a b hab x hx y hy
  simp only [List.getD_eq_getElem?_getD, hx, hy, Option.getD_some] at hab
  exact hab

end Verif.Detector
