import Verif.Proofs.Simulate

/-! # The cloud as the list of occupied cells -/

namespace Verif.Detector

open Verif.Spec Verif.Kinematics

theorem key_nonneg_of_kept {kd : ℤ × (ℤ × ℤ)} {w : ℝ} (hw : w < 1) (h : 0 ≤ (mkRow kd w).tb) :
    0 ≤ kd.1 := by
  by_contra hc
  push Not at hc
  have := C01_unpair_neg kd.1 hc
  unfold mkRow at h
  rw [this] at h
  push_cast at h
  linarith

theorem lastLabel_of_mem {h : List Deposit} {k : ℤ} {v : ℤ × ℤ} (hk : 0 ≤ k)
    (hm : (k, v) ∈ applyDeposits [] h) :
    v.1 = chargeAt h (unpair k).1 (unpair k).2 ∧
    lastLabel h (unpair k).1 (unpair k).2 = some v.2 ∧ Occupied h (unpair k).1 (unpair k).2 := by
  obtain ⟨h1, h2⟩ := C01_unpair_nonneg k hk
  have hp := C01_pair_unpair k hk
  have hnd : (applyDeposits [] h).keys.Nodup := applyDeposits_nodup [] h (by simp [Points.keys])
  have hget := Points.get_of_mem _ hnd k v (0, 0) hm
  have hch := applyDeposits_get_key [] h k
  have hlab := applyDeposits_label_key [] h k (0, 0)
  have hkeys := (applyDeposits_keys [] h k).1 (List.mem_map.2 ⟨_, hm, rfl⟩)
  rw [hget] at hch hlab
  rw [← hp, filter_depKey h _ _ h1 h2, hp] at hch hlab
  refine ⟨by simpa [Points.get, chargeAt] using hch, ?_, ?_⟩
  · unfold lastLabel
    rcases hl : ((h.filter fun d => decide (d.at (unpair k).1 (unpair k).2)).getLast?) with _ | d
    · exfalso
      rw [List.getLast?_eq_none_iff] at hl
      rcases hkeys with hk' | ⟨d, hd, hdk⟩
      · simp [Points.keys] at hk'
      · have : d ∈ h.filter fun d => decide (d.at (unpair k).1 (unpair k).2) := by
          rw [List.mem_filter]
          refine ⟨hd, ?_⟩
          rw [← hp] at hdk
          rw [hp] at hdk
          rw [decide_eq_true_eq]
          exact (depKey_eq_iff d _ _ h1 h2).1 (by rw [hdk, hp])
        rw [hl] at this
        simp at this
    · rw [hl] at hlab
      simp only [Option.map_some, Option.getD_some] at hlab
      rw [hl, Option.map_some, hlab]
  · rcases hkeys with hk' | ⟨d, hd, hdk⟩
    · simp [Points.keys] at hk'
    · exact ⟨d, hd, (depKey_eq_iff d _ _ h1 h2).1 (by rw [hdk, hp])⟩

/-- The full functional specification of the cloud returned by `simulate`. -/
theorem simulate_cells {σ : Type} {env : SimEnv} {momenta : List Vec4} {vertex : ℝ × ℝ × ℝ}
    {Zs As : List ℤ} {config : Config} {grid : PadGrid} {g : GridEdges} (hb : 0 < g.bin)
    (hgrid : config.pad_grid = some (grid, g)) {rng : Gen σ} (hr : LawfulGen rng)
    {indices : List ℤ} {s s' : σ} {cloud : List CloudPoint} {labels : List ℤ}
    (h : simulate env momenta vertex Zs As config rng indices s = .ok ((cloud, labels), s')) :
    ∃ tr s₁, EventTrace env momenta vertex Zs As config grid g rng indices s tr s₁ ∧
      cloud.length = labels.length ∧
      ∃ cells : List (ℤ × ℤ), cells.Nodup ∧
        (∀ tb pad, (tb, pad) ∈ cells ↔
          Occupied (history tr) tb pad ∧ 0 ≤ tb ∧ tb < 512 ∧ 0 ≤ pad) ∧
        List.Forall₂ (Describes (history tr)) cells (cloud.zip labels) := by
  obtain ⟨tr, s₁, wiggle, htr, hw, hlen, hz⟩ := simulate_ok hb hgrid h
  refine ⟨tr, s₁, htr, hlen, ?_⟩
  have hwl : wiggle.length = (applyDeposits [] (history tr)).length := by
    have := uniformN_length rng 0 1 (applyDeposits [] (history tr)).length s₁
    rw [← hw] at this; exact this
  have hwm : ∀ w ∈ wiggle, 0 ≤ w ∧ w < 1 := by
    have := uniformN_mem hr 0 1 one_pos (applyDeposits [] (history tr)).length s₁
    rw [← hw] at this; exact this
  set P := applyDeposits [] (history tr) with hP
  have hnd : P.keys.Nodup := applyDeposits_nodup [] _ (by simp [Points.keys])
  rw [List.filter_map] at hz
  set K := (P.zip wiggle).filter ((fun rl : CloudPoint × ℤ => decide (0 ≤ rl.1.tb) &&
    decide (rl.1.tb < (NUM_TB : ℝ))) ∘ fun kw => (mkRow kw.1 kw.2, kw.1.2.2)) with hK
  have hKm : ∀ kw, kw ∈ K ↔ kw ∈ P.zip wiggle ∧ 0 ≤ (mkRow kw.1 kw.2).tb ∧
      (mkRow kw.1 kw.2).tb < 512 := by
    intro kw
    rw [hK, List.mem_filter]
    have hn : ((NUM_TB : ℕ) : ℝ) = 512 := by norm_num [NUM_TB]
    simp only [Function.comp, Bool.and_eq_true, decide_eq_true_iff]
    rw [hn]
  have hKk : ∀ kw ∈ K, 0 ≤ kw.1.1 := by
    intro kw hkw
    obtain ⟨h1, h2, -⟩ := (hKm kw).1 hkw
    exact key_nonneg_of_kept (hwm _ (List.of_mem_zip h1).2).2 h2
  refine ⟨K.map fun kw => unpair kw.1.1, ?_, ?_, ?_⟩
  · rw [List.nodup_map_iff_inj_on]
    · intro a ha c hc hac
      have hka := hKk a ha
      have hkc := hKk c hc
      have hkey : a.1.1 = c.1.1 := by
        rw [← C01_pair_unpair _ hka, ← C01_pair_unpair _ hkc, hac]
      have hsub : ((P.zip wiggle).map fun kw => kw.1.1).Nodup := by
        have : (P.zip wiggle).map (fun kw => kw.1.1) = ((P.zip wiggle).map Prod.fst).map Prod.fst := by
          rw [List.map_map]; rfl
        rw [this, List.map_fst_zip (by omega)]
        exact hnd
      exact List.inj_on_of_nodup_map hsub ((hKm a).1 ha).1 ((hKm c).1 hc).1 hkey
    · apply List.Nodup.filter
      apply List.Nodup.of_map (fun kw => kw.1.1)
      have : (P.zip wiggle).map (fun kw => kw.1.1) = ((P.zip wiggle).map Prod.fst).map Prod.fst := by
        rw [List.map_map]; rfl
      rw [this, List.map_fst_zip (by omega)]
      exact hnd
  · intro tb pad
    constructor
    · intro hm
      rw [List.mem_map] at hm
      obtain ⟨kw, hkw, hu⟩ := hm
      have hk := hKk kw hkw
      obtain ⟨h1, h2, h3⟩ := (hKm kw).1 hkw
      obtain ⟨hn1, hn2⟩ := C01_unpair_nonneg _ hk
      have hocc := (lastLabel_of_mem (k := kw.1.1) (v := kw.1.2) hk (List.of_mem_zip h1).1).2.2
      rw [hu] at hocc hn1 hn2
      refine ⟨hocc, hn1, ?_, hn2⟩
      unfold mkRow at h3
      rw [hu] at h3
      simp only at h3
      have := (hwm _ (List.of_mem_zip h1).2).1
      have : (tb : ℝ) < 512 := by linarith
      exact_mod_cast this
    · rintro ⟨⟨d, hd, hat⟩, h1, h2, h3⟩
      have hkey : pair tb pad ∈ P.keys :=
        (applyDeposits_keys [] (history tr) _).2 (.inr ⟨d, hd, (depKey_eq_iff d tb pad h1 h3).2 hat⟩)
      have hmem := Points.mem_of_mem_keys P _ (0, 0) hkey
      obtain ⟨i, hi, hPi⟩ := List.mem_iff_getElem.1 hmem
      have hi' : i < wiggle.length := by omega
      have hzip : ((pair tb pad, P.get (pair tb pad) (0, 0)), wiggle[i]) ∈ P.zip wiggle := by
        rw [List.mem_iff_getElem]
        refine ⟨i, by simp; omega, ?_⟩
        rw [List.getElem_zip, hPi]
      rw [List.mem_map]
      refine ⟨_, (hKm _).2 ⟨hzip, ?_⟩, C01_unpair_pair tb pad h1 h3⟩
      obtain ⟨hw0, hw1⟩ := hwm _ (List.getElem_mem hi')
      unfold mkRow
      simp only [C01_unpair_pair tb pad h1 h3]
      have a1 : (0 : ℝ) ≤ tb := by exact_mod_cast h1
      have a2 : (tb : ℝ) ≤ 511 := by exact_mod_cast (by omega : tb ≤ 511)
      constructor <;> linarith
  · rw [hz, List.forall₂_map_left_iff, List.forall₂_map_right_iff, List.forall₂_same]
    intro kw hkw
    have hk := hKk kw hkw
    obtain ⟨h1, h2, h3⟩ := (hKm kw).1 hkw
    obtain ⟨hc, hl, -⟩ := lastLabel_of_mem (k := kw.1.1) (v := kw.1.2) hk (List.of_mem_zip h1).1
    obtain ⟨hw0, hw1⟩ := hwm _ (List.of_mem_zip h1).2
    refine ⟨rfl, ?_, ?_, ?_, hl⟩
    · simp only [mkRow]; linarith
    · simp only [mkRow]; linarith
    · simp only [mkRow]; exact_mod_cast hc

end Verif.Detector
