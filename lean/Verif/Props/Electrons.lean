import Verif.Proofs.Electrons
import Verif.Props.Simulate

/-! # C20, C21: primary ionisation -/

namespace Verif.Detector

open Verif.Spec

/-! ## C20 -/

/-- C20: `generate_point_cloud` deposits exactly the track points with at least one primary electron
(of the trajectory of the nucleus), each with charge (primary electrons) × gain at its arrival
time. -/
theorem C20_transported {σ : Type} {ivp : IvpSolver} {momentum vertex : ℝ × ℝ × ℝ}
    {nucleus : Nucleus} {config : Config} {grid : PadGrid} {g : GridEdges} (hb : 0 < g.bin)
    (hgrid : config.pad_grid = some (grid, g)) {rng : Gen σ} {p p' : Points} {label : ℤ} {s s' : σ}
    (h : generate_point_cloud ivp momentum vertex nucleus config rng p label s = .ok (p', s')) :
    ∃ track primary,
      generate_trajectory ivp vertex momentum nucleus config.det_params = .ok track ∧
      generate_electrons track nucleus config.det_params rng s = .ok (primary, s') ∧
      p' = (((track.zip primary).filter fun re => decide (1 ≤ re.2)).flatMap fun re =>
          pointDeposits grid g (arrival config re.1.z) (re.1.x, re.1.y)
            (re.2 * config.det_params.mpgd_gain)
            (Real.sqrt (2 * config.det_params.diffusion * config.drift_velocity
              * arrival config re.1.z / config.det_params.efield)) label).foldl
        (fun p d => addCharge p d.tb d.pad d.e d.label) p := by
  obtain ⟨track, primary, h1, h2, h3, -⟩ := generate_point_cloud_ok hb hgrid h
  exact ⟨track, primary, h1, h2, h3⟩

/-- C20: there is one electron number per track point, and that of the first point is 0. -/
theorem C20_first_point {σ : Type} {rng : Gen σ} (hr : LawfulGen rng) {track : List Row}
    {nucleus : Nucleus} {params : DetectorParams} {s s' : σ} {primary : List ℤ}
    (h : generate_electrons track nucleus params rng s = .ok (primary, s')) :
    primary.length = track.length ∧ ∀ n, primary.head? = some n → n = 0 := by
  unfold generate_electrons at h
  simp only at h
  split_ifs at h with hw
  constructor
  · rw [fano_draws_length h, List.length_map, energy_lost_length, List.length_map]
  · intro n hn
    cases track with
    | nil =>
      have := Except.ok.inj h
      have : primary = [] := (congrArg Prod.fst this).symm
      rw [this] at hn
      cases hn
    | cons a rest =>
      simp only [List.map_cons, energy_lost, Option.map_some, zero_mul] at h
      unfold fano_draws at h
      rw [except_bind_ok] at h
      obtain ⟨⟨v, s1⟩, h1, h⟩ := h
      rw [except_bind_ok] at h
      obtain ⟨⟨vs', s2⟩, h2, h⟩ := h
      have h := Except.ok.inj h
      have e1 : v :: vs' = primary := congrArg Prod.fst h
      rw [← e1, List.head?_cons, Option.some.injEq] at hn
      unfold fano_draw at h1
      have h0 : npSqrt (params.fano_factor * 0) = some 0 := by simp [npSqrt]
      simp only [h0] at h1
      have hv : pyInt (rng.normal 0 0 s).1 = v := congrArg Prod.fst (Except.ok.inj h1)
      rw [hr.normal_zero] at hv
      rw [← hn, ← hv]
      simp [pyInt]

/-- The example track has electrons at its second point only. -/
example : generate_electrons [exTrack0, exTrack1] exNucleus (exDet 100 0) exGen ()
    = .ok ([0, 1], ()) := exElectrons 100 0

/-! ## C21 -/

/-- C21: with Fano factor 0 and a track along which the kinetic energy does not increase, the total
number of primary electrons is at most the energy lost, in eV, over W. -/
theorem C21_energy_bound {σ : Type} {rng : Gen σ} (hr : LawfulGen rng) {first : Row}
    {rest : List Row} {nucleus : Nucleus} {params : DetectorParams} (hF : params.fano_factor = 0)
    (hW : 0 < params.w_value) {s s' : σ} {primary : List ℤ}
    (h : generate_electrons (first :: rest) nucleus params rng s = .ok (primary, s'))
    (hmono : ((first :: rest).map (kinetic nucleus)).Pairwise fun x y => y ≤ x) :
    (primary.sum : ℝ) ≤ (kinetic nucleus first
      - kinetic nucleus ((first :: rest).getLast (by simp))) * 1000000 / params.w_value := by
  unfold generate_electrons at h
  simp only at h
  rw [if_neg hW.ne', hF] at h
  obtain ⟨xs, hx1, hx2⟩ := fano_draws_zero hr h
  simp only [List.map_cons, energy_lost, Option.map_some, zero_mul] at hx1
  cases xs with
  | nil => simp at hx1
  | cons x xs =>
    simp only [List.map_cons, List.cons.injEq, Option.some.injEq] at hx1
    obtain ⟨hx0, hxs⟩ := hx1
    have hp0 : pyInt x = 0 := by rw [← hx0]; simp [pyInt]
    have := go_sum_le (c := 1.0e6 / params.w_value) (by positivity) first rest hmono xs hxs
    rw [hx2, List.map_cons, List.sum_cons, hp0, zero_add]
    refine this.trans (le_of_eq ?_)
    norm_num
    ring

/-- C21: hence it is at most the initial kinetic energy, in eV, over W. -/
theorem C21_initial_energy_bound {σ : Type} {rng : Gen σ} (hr : LawfulGen rng) {first : Row}
    {rest : List Row} {nucleus : Nucleus} (hm : 0 ≤ nucleus.mass) {params : DetectorParams}
    (hF : params.fano_factor = 0) (hW : 0 < params.w_value) {s s' : σ} {primary : List ℤ}
    (h : generate_electrons (first :: rest) nucleus params rng s = .ok (primary, s'))
    (hmono : ((first :: rest).map (kinetic nucleus)).Pairwise fun x y => y ≤ x) :
    (primary.sum : ℝ) ≤ kinetic nucleus first * 1000000 / params.w_value := by
  refine (C21_energy_bound hr hF hW h hmono).trans ?_
  have hk : 0 ≤ kinetic nucleus ((first :: rest).getLast (by simp)) := by
    unfold kinetic
    exact mul_nonneg hm (by linarith [lorentz_ge_one ((first :: rest).getLast (by simp))])
  gcongr
  linarith

/-- The hypotheses of C21 are met by the example track. -/
example : (([0, 1] : List ℤ).sum : ℝ) ≤ kinetic exNucleus exTrack0 * 1000000 / 1.0e6 :=
  C21_initial_energy_bound exGen_lawful (by norm_num [exNucleus]) rfl (by norm_num [exDet])
    (exElectrons 100 0) (by
      have h0 := track_energy_eq exNucleus exTrack0 (by rw [exTrack0_gv]; norm_num)
      have h1 := track_energy_eq exNucleus exTrack1 (by rw [exTrack1_gv]; norm_num)
      have h := exTrack_energy
      simp only [List.map_cons, List.map_nil, h0, h1, List.cons.injEq, Option.some.injEq,
        and_true] at h
      simp only [List.map_cons, List.map_nil, h.1, h.2]
      norm_num)

end Verif.Detector
