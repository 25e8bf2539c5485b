import Verif.Props.Signal
import Verif.Props.Writer

/-! # C93: do stored events contain points? -/

namespace Verif.Detector

open Verif.Spec Verif.Props

/-- **C93, what holds.** The stored dataset of an event contains a point exactly if the threshold is
below the saturation of the ADC and some point of the cloud has more electrons than the threshold
divided by the peak of the response. Missing: nothing in the writer prevents the storing of an empty
dataset, see `C93_refuted`. -/
theorem C93_points_partial (argsort : Argsort) (hA : IsArgsort argsort) (wconfig : Config)
    (cloud : List CloudPoint) (labels : List ℤ) (config : Config)
    (hlen : cloud.length = labels.length) (hpads : ∀ p ∈ cloud, ∃ n : ℕ, p.pad = n)
    (hq : ∀ p ∈ cloud, 0 ≤ p.e) {m : ℝ} (hm : IsPeak (get_response wconfig) m)
    (rows : List SpyralRow) (labels' : List ℤ)
    (h : format_event argsort (get_response wconfig) cloud labels config = .ok (rows, labels')) :
    rows ≠ [] ↔ config.elec_params.adc_threshold < 4095 ∧
      ∃ p ∈ cloud, (config.elec_params.adc_threshold : ℝ) < m * p.e := by
  obtain ⟨centers, converted, -, h2, h3⟩ :=
    C80_stored argsort hA wconfig cloud labels config hlen hpads hq hm rows labels' h
  have hrl : rows.length = labels'.length := by
    obtain ⟨_, _, _, _, h4, _⟩ := C27_content argsort hA _ cloud labels config hlen hpads rows labels' h
    exact h4
  have hcl := h2.length_eq
  constructor
  · intro hne
    obtain ⟨row, hrow⟩ := List.exists_mem_of_ne_nil _ hne
    obtain ⟨k, hk, rfl⟩ := List.mem_iff_getElem.1 hrow
    have hz : (rows[k], labels'[k]) ∈ rows.zip labels' :=
      List.mem_iff_getElem.2 ⟨k, by simp; omega, by simp⟩
    obtain ⟨x, hx, -⟩ := List.mem_map.1 (h3.mem_iff.1 hz)
    rw [List.mem_filter, decide_eq_true_eq] at hx
    exact ⟨hx.2.2, x.1, (List.of_mem_zip hx.1).1, hx.2.1⟩
  · rintro ⟨ht, p, hp, hlt⟩ hnil
    obtain ⟨k, hk, rfl⟩ := List.mem_iff_getElem.1 hp
    have hmem : (cloud[k], (converted[k]'(by omega), labels[k]'(by omega)))
        ∈ cloud.zip (converted.zip labels) :=
      List.mem_iff_getElem.2 ⟨k, by simp; omega, by simp⟩
    have := h3.mem_iff.2 (List.mem_map.2 ⟨_, List.mem_filter.2 ⟨hmem, by simp [ht, hlt]⟩, rfl⟩)
    rw [hnil] at this
    simp at this

/-- A call of `write` with one point of a thousand electrons. -/
noncomputable def exFaintReq (n : ℤ) : WriteReq := ⟨[⟨0, 30, 1000⟩], [1], exOnePad, n⟩

theorem exFaintReq_format (n : ℤ) :
    ∃ labels', format_event exArgsort (get_response exOnePad) (exFaintReq n).data (exFaintReq n).labels
      (exFaintReq n).config = .ok ([], labels') := by
  have hpads : ∀ p ∈ ([⟨0, 30, 1000⟩] : List CloudPoint), p.pad = 0 ∧ p.e = 1000 := by
    intro p hp
    simp only [List.mem_cons, List.not_mem_nil, or_false] at hp
    subst hp
    norm_num
  obtain ⟨⟨rows, labels'⟩, h⟩ := C27_no_error exArgsort (get_response exOnePad)
    [⟨0, 30, 1000⟩] [1] exOnePad [(0, 0)] rfl (by norm_num [exOnePad])
    (fun p hp => ⟨0, by rw [(hpads p hp).1]; simp, by simp, by simp [exOnePad]⟩)
  obtain ⟨m, hm, -, hle⟩ := C80_peak exOnePad
    ⟨by norm_num [exOnePad], by norm_num [exOnePad], by norm_num [exOnePad]⟩
  have hx := C93_points_partial exArgsort exArgsort_ok exOnePad _ _ exOnePad rfl
    (fun p hp => ⟨0, by rw [(hpads p hp).1]; simp⟩) (fun p hp => by rw [(hpads p hp).2]; norm_num)
    hm rows labels' h
  have hrows : rows = [] := by
    by_contra hne
    obtain ⟨-, p, hp, hlt⟩ := hx.1 hne
    rw [(hpads p hp).2] at hlt
    have h1 : Real.exp (-3) ≤ 1 := Real.exp_le_one_iff.2 (by norm_num)
    have hc : countsPerElectron exOnePad.elec_params ≤ 0.001 := by
      norm_num [countsPerElectron, exOnePad]
    have hc0 : 0 ≤ countsPerElectron exOnePad.elec_params := by
      norm_num [countsPerElectron, exOnePad]
    have h2 : countsPerElectron exOnePad.elec_params * Real.exp (-3) ≤ 0.001 := by nlinarith
    have h3 : (exOnePad.elec_params.adc_threshold : ℝ) = 40 := by norm_num [exOnePad]
    rw [h3] at hlt
    linarith
  exact ⟨labels', by rw [← hrows]; exact h⟩

/-- **C93 is false.** `run_simulation` does not write events without points, but the writer drops the
points below the threshold afterwards: an event whose only point has a thousand electrons, with the
electronics of a real run, is stored as a dataset without a row. -/
theorem C93_refuted (disk0 : Disk) : ∃ w hf attrs,
    (exFaintReq 7).data ≠ [] ∧
    attempts exArgsort [exFaintReq 7] (newWriter disk0 exOnePad 5000 0) = ([.ok ()], w) ∧
    w.disk (run_name 0) = some hf ∧
    hf.dsets.lookup (cloud_name 7) = some (.cloud [] attrs) := by
  obtain ⟨labels', hfmt⟩ := exFaintReq_format 7
  rcases hatt : attempts exArgsort [exFaintReq 7] (newWriter disk0 exOnePad 5000 0) with ⟨rs, w⟩
  have hok := (C29_all_stored disk0 exOnePad 5000 0 exArgsort [exFaintReq 7] _ _ hatt (by simp)
    (by
      intro r hr
      rw [List.mem_singleton.1 hr]
      exact ⟨_, hfmt⟩))
  have hl : rs.length = 1 := by
    have := congrArg (fun x => x.1.length) hatt
    simpa [attempts] using this.symm
  match rs, hl with
  | [r], _ =>
    have hr : r = .ok () := hok.1 r (by simp)
    subst hr
    have hst : (exFaintReq 7).stored exArgsort (get_response exOnePad) = some ⟨7, [], labels'⟩ := by
      unfold WriteReq.stored
      rw [hfmt]
      rfl
    obtain ⟨hrel, -⟩ := attempts_rel exArgsort [exFaintReq 7] (init_rel disk0 exOnePad 5000 0).2
    change Rel disk0 0 5000 _ _ (attempts exArgsort [exFaintReq 7] (newWriter disk0 exOnePad 5000 0)).2
      at hrel
    have hstep : (asteps exArgsort (get_response exOnePad) 5000 [exFaintReq 7] ⟨[], [], 0, 0⟩).2
        = ⟨[], [⟨7, [], labels'⟩], 0, 7⟩ := by
      unfold asteps AState.step
      rw [hst]
      simp [AState.roll, asteps, exFaintReq]
    rw [hstep, hatt] at hrel
    obtain ⟨hf, hd, hds⟩ := hrel.files 0 (by simp [AState.files])
    refine ⟨w, hf, [("orig_run", ((0 + (0 : ℕ) : ℤ) : ℝ)), ("orig_event", ((7 : ℤ) : ℝ)),
      ("ic_amplitude", -1), ("ic_multiplicity", -1), ("ic_integral", -1), ("ic_centroid", -1)],
      by simp [exFaintReq], rfl, by simpa using hd, ?_⟩
    rw [hds]
    simp [AState.files, Stored.dsets, List.lookup]

end Verif.Detector
