import Verif.Props.DefaultRun
import Verif.Spec.Ivp
import Mathlib.Data.Finset.Prod

/-! # C118: the size of an event is bounded -/

namespace Verif.Detector

open Verif.Spec Verif.Kinematics

/-- Mesh positions reached by the electrons of one track point: one without diffusion, else 100. -/
noncomputable def meshSize (config : Config) : ℕ := if config.det_params.diffusion = 0 then 1 else 100

theorem meshPoints_length (center : ℝ × ℝ) (sigma : ℝ) : (meshPoints center sigma).length = 100 := by
  simp [meshPoints, List.length_flatMap]

theorem pointDeposits_length (grid : PadGrid) (g : GridEdges) (time : ℝ) (center : ℝ × ℝ) (e : ℤ)
    (sigma : ℝ) (label : ℤ) :
    (pointDeposits grid g time center e sigma label).length ≤ if sigma = 0 then 1 else 100 := by
  unfold pointDeposits
  split_ifs with h
  · split <;> simp
  · exact (List.length_filterMap_le _ _).trans (meshPoints_length center sigma).le

theorem flatMap_length_le {α β : Type} (l : List α) (f : α → List β) (n : ℕ)
    (h : ∀ a ∈ l, (f a).length ≤ n) : (l.flatMap f).length ≤ l.length * n := by
  induction l with
  | nil => simp
  | cons a l ih =>
    have h1 := h a (by simp)
    have h2 := ih fun b hb => h b (by simp [hb])
    simp only [List.flatMap_cons, List.length_append, List.length_cons]
    rw [Nat.add_mul, Nat.one_mul]
    omega

theorem nucleusDeposits_length (config : Config) (grid : PadGrid) (g : GridEdges) (track : List Row)
    (primary : List ℤ) (label : ℤ) :
    (nucleusDeposits config grid g track primary label).length ≤ track.length * meshSize config := by
  unfold nucleusDeposits
  refine (flatMap_length_le _ _ (meshSize config) ?_).trans ?_
  · intro re _
    refine (pointDeposits_length ..).trans ?_
    unfold meshSize
    by_cases hd : config.det_params.diffusion = 0
    · simp [hd]
    · rw [if_neg hd]; split_ifs <;> norm_num
  · refine Nat.mul_le_mul_right _ ((List.length_filter_le _ _).trans ?_)
    simp

/-- The number of evaluated track points is at most the number of requested times. -/
theorem track_length {ivp : IvpSolver} (hivp : EvaluatesAt ivp) {vertex momentum : ℝ × ℝ × ℝ}
    {nucleus : Nucleus} {params : DetectorParams} {track : List Row}
    (h : generate_trajectory ivp vertex momentum nucleus params = .ok track) : track.length ≤ 10001 := by
  unfold generate_trajectory at h
  rcases hs : ivp (trajectory_problem vertex momentum nucleus params) with e | sol
  · simp [hs] at h
  · simp only [hs, Except.ok.injEq] at h
    subst h
    have h1 := (hivp _ _ hs).length_le
    have h2 : (trajectory_problem vertex momentum nucleus params).t_eval.length = 10001 := by
      simp [trajectory_problem, TIME_STEPS, linspace0]
    rw [h2] at h1
    simpa using h1

theorem history_length {σ : Type} {env : SimEnv} (hivp : EvaluatesAt env.solve_ivp)
    {momenta : List Vec4} {vertex : ℝ × ℝ × ℝ} {Zs As : List ℤ} {config : Config} {grid : PadGrid}
    {g : GridEdges} {rng : Gen σ} {indices : List ℤ} {s s' : σ} {tr : List (ℤ × List Deposit)}
    (h : EventTrace env momenta vertex Zs As config grid g rng indices s tr s') :
    (history tr).length ≤ (indices.filter fun i => decide (pyGet Zs i ≠ .ok 0)).length
      * (10001 * meshSize config) := by
  induction h with
  | nil => simp [history]
  | neutral idx rest s s' tr hz h ih =>
    rw [List.filter_cons_of_neg (by simp [hz])]
    simpa [history] using ih
  | charged idx z a nucleus momentum track primary rest s s₁ s' tr hz hz0 ha hn hm ht he h ih =>
    rw [List.filter_cons_of_pos (by simp [hz, hz0])]
    have h1 := nucleusDeposits_length config grid g track primary idx
    have h2 := Nat.mul_le_mul_right (meshSize config) (track_length hivp ht)
    have h3 : history ((idx, nucleusDeposits config grid g track primary idx) :: tr)
        = nucleusDeposits config grid g track primary idx ++ history tr := by simp [history]
    rw [h3, List.length_append, List.length_cons, Nat.add_mul, Nat.one_mul]
    generalize 10001 * meshSize config = q at *
    omega

section

variable {σ : Type} {env : SimEnv} {momenta : List Vec4} {vertex : ℝ × ℝ × ℝ} {Zs As : List ℤ}
  {config : Config} {rng : Gen σ} {indices : List ℤ} {s s' : σ} {cloud : List CloudPoint}
  {labels : List ℤ}

/-- **C118.** Every charged nucleus of an event contributes at most one point per evaluated time
step, or 100 with diffusion. -/
theorem C118_steps {grid : PadGrid} {g : GridEdges} (hb : 0 < g.bin)
    (hgrid : config.pad_grid = some (grid, g)) (hr : LawfulGen rng)
    (hivp : EvaluatesAt env.solve_ivp)
    (h : simulate env momenta vertex Zs As config rng indices s = .ok ((cloud, labels), s')) :
    cloud.length ≤ (indices.filter fun i => decide (pyGet Zs i ≠ .ok 0)).length
      * (10001 * if config.det_params.diffusion = 0 then 1 else 100) ∧
    labels.length = cloud.length := by
  obtain ⟨tr, s₁, htr, hlen, cells, hnd, hmem, hdesc⟩ := simulate_cells hb hgrid hr h
  have hl : cloud.length = cells.length := by
    rw [hdesc.length_eq, List.length_zip, hlen, min_self]
  refine ⟨?_, hlen.symm⟩
  have hsub : cells ⊆ (history tr).map fun d => (d.tb, d.pad) := by
    rintro ⟨tb, pad⟩ hc
    obtain ⟨⟨d, hd, h1, h2⟩, -⟩ := (hmem tb pad).1 hc
    exact List.mem_map.2 ⟨d, hd, by rw [h1, h2]⟩
  have h1 := (hnd.subperm hsub).length_le
  rw [List.length_map] at h1
  rw [hl]
  have h2 := history_length hivp htr
  unfold meshSize at h2
  exact h1.trans h2

theorem card_outside (N : ℕ) (B : List ℤ) (hB : B.Pairwise (· < ·))
    (hN : ∀ p ∈ B, ∃ n : ℕ, p = n ∧ n < N) :
    ((Finset.range N).filter fun n : ℕ => (n : ℤ) ∉ B).card + B.length = N := by
  have h1 : ((Finset.range N).filter fun n : ℕ => (n : ℤ) ∈ B) = (B.map Int.toNat).toFinset := by
    ext n
    rw [Finset.mem_filter, Finset.mem_range, List.mem_toFinset, List.mem_map]
    constructor
    · rintro ⟨-, h⟩
      exact ⟨n, h, by simp⟩
    · rintro ⟨p, hp, rfl⟩
      obtain ⟨m, rfl, hm⟩ := hN p hp
      exact ⟨by simpa using hm, by simpa using hp⟩
  have h2 : (B.map Int.toNat).Nodup := by
    rw [List.Nodup, List.pairwise_map]
    refine hB.imp_of_mem ?_
    intro a b ha hb hab
    obtain ⟨m, rfl, -⟩ := hN a ha
    obtain ⟨n, rfl, -⟩ := hN b hb
    simp only [Int.toNat_natCast, ne_eq]
    omega
  have h3 := Finset.card_filter_add_card_filter_not (s := Finset.range N) (fun n : ℕ => (n : ℤ) ∈ B)
  rw [h1, List.toFinset_card_of_nodup h2, List.length_map, Finset.card_range] at h3
  omega

/-- Different cells of a readout with `N` channels of which those in `B` are switched off. -/
theorem cells_length (N : ℕ) (B : List ℤ) (hB : B.Pairwise (· < ·))
    (hN : ∀ p ∈ B, ∃ n : ℕ, p = n ∧ n < N) {cells : List (ℤ × ℤ)} (hnd : cells.Nodup)
    (h : ∀ c ∈ cells, 0 ≤ c.1 ∧ c.1 < 512 ∧ ∃ n : ℕ, c.2 = n ∧ n < N ∧ (n : ℤ) ∉ B) :
    cells.length ≤ 512 * (N - B.length) := by
  have hsub : cells.toFinset ⊆ (Finset.Ico (0 : ℤ) 512) ×ˢ
      (((Finset.range N).filter fun n : ℕ => (n : ℤ) ∉ B).image fun n : ℕ => (n : ℤ)) := by
    rintro ⟨tb, pad⟩ hc
    rw [List.mem_toFinset] at hc
    have hh := h (tb, pad) hc
    have hp := hh.2.2
    rw [Finset.mem_product, Finset.mem_Ico, Finset.mem_image]
    refine ⟨⟨hh.1, hh.2.1⟩, ?_⟩
    obtain ⟨n, hp, hlt, hb⟩ := hp
    exact ⟨n, by simp only [Finset.mem_filter, Finset.mem_range]; exact ⟨hlt, hb⟩, hp.symm⟩
  have hc := Finset.card_le_card hsub
  rw [List.toFinset_card_of_nodup hnd, Finset.card_product, Int.card_Ico,
    Finset.card_image_of_injective _ Nat.cast_injective] at hc
  have := card_outside N B hB hN
  generalize ((Finset.range N).filter fun n : ℕ => (n : ℤ) ∉ B).card = q at *
  simp at hc
  omega

/-- **C118.** With the packaged pad data an event has at most one point per time bucket and active
pad, 512 × 10118 in all, whatever nuclei are simulated. -/
theorem C118_pads {fs : FileSystem} (hfs : PackagedFiles fs) {d : DetectorParams}
    {e : ElectronicsParams} (hconf : mkConfig fs d e {} = .ok config) (hr : LawfulGen rng)
    (h : simulate env momenta vertex Zs As config rng indices s = .ok ((cloud, labels), s')) :
    cloud.length ≤ 5180416 := by
  obtain ⟨hgrid, -, -⟩ := (Props.C67_default_config hfs d e).2 config hconf
  have hb : 0 < fs.packaged_grid.2.bin := by rw [hfs.edges]; norm_num [packagedEdges]
  have hpads := cloud_pads hfs hgrid hr h
  obtain ⟨tr, s₁, htr, hlen, cells, hnd, hmem, hdesc⟩ :=
    simulate_cells (grid := fs.packaged_grid.1) (g := fs.packaged_grid.2) hb hgrid hr h
  have hl : cloud.length = cells.length := by
    rw [hdesc.length_eq, List.length_zip, hlen, min_self]
  rw [hl]
  have hle := cells_length 10240 BEAM_PADS Props.C65_listed_once.1 ?_ hnd ?_
  · rw [Props.C65_listed_once.2] at hle
    omega
  · intro p hp
    obtain ⟨n, hn, hlt, -⟩ := (Props.C65_beam_pads p).1 hp
    exact ⟨n, hn, hlt⟩
  · rintro ⟨tb, pad⟩ hc
    obtain ⟨-, h0, h1, -⟩ := (hmem tb pad).1 hc
    obtain ⟨rl, hrl, hd⟩ : ∃ rl ∈ cloud.zip labels, Describes (history tr) (tb, pad) rl := by
      obtain ⟨i, hi, hx⟩ := List.getElem_of_mem hc
      have hi' : i < (cloud.zip labels).length := by rw [← hdesc.length_eq]; exact hi
      refine ⟨(cloud.zip labels)[i], List.getElem_mem _, ?_⟩
      rw [← hx]
      exact hdesc.get hi hi'
    obtain ⟨n, hn, hlt, hbeam⟩ := hpads rl.1 (List.of_mem_zip hrl).1
    refine ⟨h0, h1, n, ?_, hlt, hbeam⟩
    have := hd.1
    rw [hn] at this
    exact_mod_cast this.symm

/-- **C118.** The writer stores at most as many rows as the cloud has points. -/
theorem C118_stored {argsort : Argsort} (hA : IsArgsort argsort) {response : List ℝ}
    (hlen : cloud.length = labels.length) (hpads : ∀ p ∈ cloud, ∃ n : ℕ, p.pad = n)
    {rows : List SpyralRow} {labels' : List ℤ}
    (h : format_event argsort response cloud labels config = .ok (rows, labels')) :
    rows.length ≤ cloud.length ∧ labels'.length = rows.length := by
  obtain ⟨centers, converted, -, hconv, hl, hperm, -⟩ :=
    C27_content argsort hA response cloud labels config hlen hpads rows labels' h
  refine ⟨?_, hl.symm⟩
  have h1 := hperm.length_eq
  rw [List.length_zip, ← hl, min_self] at h1
  rw [h1]
  refine (List.length_filter_le _ _).trans ?_
  rw [List.length_zip, hconv.length_eq]
  exact min_le_left _ _

end

/-! ## Examples -/

/-- The simulation depends on the solver through the trajectories only. -/
theorem simulate_congr_env {σ : Type} {env env' : SimEnv} {config : Config}
    (hd : env.get_data = env'.get_data)
    (ht : ∀ vertex momentum nucleus,
      generate_trajectory env.solve_ivp vertex momentum nucleus config.det_params
        = generate_trajectory env'.solve_ivp vertex momentum nucleus config.det_params)
    (momenta : List Vec4) (vertex : ℝ × ℝ × ℝ) (Zs As : List ℤ) (rng : Gen σ) (indices : List ℤ)
    (s : σ) :
    simulate env momenta vertex Zs As config rng indices s
      = simulate env' momenta vertex Zs As config rng indices s := by
  have h : simulate_nucleus env momenta vertex Zs As config rng
      = simulate_nucleus env' momenta vertex Zs As config rng := by
    funext ps idx
    unfold simulate_nucleus generate_point_cloud
    simp only [hd, ht]
  unfold simulate
  rw [h]

/-- A solver that evaluates the first two of the requested times. -/
noncomputable def twoStepSolver : IvpSolver := fun P =>
  match P.t_eval with
  | a :: b :: _ => .ok [(a, exTrack0), (b, exTrack1)]
  | _ => .ok []

theorem twoStepSolver_times : EvaluatesAt twoStepSolver := by
  intro P sol h
  unfold twoStepSolver at h
  split at h
  · rename_i a b l hl
    obtain rfl := Except.ok.inj h
    rw [hl]
    exact ⟨l, rfl⟩
  · obtain rfl := Except.ok.inj h
    simp

/-- The example environment with this solver. -/
noncomputable def twoStepEnv : SimEnv := ⟨exEnv.get_data, twoStepSolver⟩

/-- An event with a non-empty cloud of at most 10001 points. -/
example : ∃ cloud labels, simulate twoStepEnv exMomenta (0, 0, 0.5)
      [1, 1, 1] [1, 1, 1] (exConfig 100 0) exGen [2] () = .ok ((cloud, labels), ()) ∧
    cloud ≠ [] ∧ cloud.length ≤ 10001 := by
  obtain ⟨cloud, labels, h, row, hrow⟩ := exSimulate_nonempty
  rw [simulate_congr_env (env := exEnv) (env' := twoStepEnv) rfl] at h
  · refine ⟨cloud, labels, h, List.ne_nil_of_mem (List.of_mem_zip hrow).1, ?_⟩
    have := (C118_steps (grid := exGrid) (g := exEdges) exEdges_bin rfl exGen_lawful
      (env := twoStepEnv) twoStepSolver_times h).1
    simpa [exConfig, exDet, List.filter_cons, pyGet] using this
  · intro vertex momentum nucleus
    unfold generate_trajectory
    have h2 : ∃ a b l, (trajectory_problem vertex momentum nucleus
        (exConfig 100 0).det_params).t_eval = a :: b :: l := by
      have hl : (trajectory_problem vertex momentum nucleus
          (exConfig 100 0).det_params).t_eval.length = 10001 := by
        simp [trajectory_problem, TIME_STEPS, linspace0]
      generalize (trajectory_problem vertex momentum nucleus (exConfig 100 0).det_params).t_eval = ts at hl
      rcases ts with _ | ⟨a, _ | ⟨b, l⟩⟩
      · simp at hl
      · simp at hl
      · exact ⟨a, b, l, rfl⟩
    obtain ⟨a, b, l, h2⟩ := h2
    simp only [exEnv, exSolver, twoStepEnv, twoStepSolver, h2]
    rfl

/-- With the packaged data the bound of C118 applies to the example event of C67. -/
example : ∃ config, mkConfig exPackaged (exDet 100 0) exElec {} = .ok config ∧
    ∃ cloud labels, simulate Props.exPadEnv exMomenta (0, 0, 0.5) [1, 1, 1] [1, 1, 1] config exGen [2] ()
      = .ok ((cloud, labels), ()) ∧ cloud ≠ [] ∧ cloud.length ≤ 5180416 := by
  obtain ⟨config, hconf, cloud, labels, h, row, hrow, -⟩ := Props.exPad_simulate
  exact ⟨config, hconf, cloud, labels, h, List.ne_nil_of_mem hrow,
    C118_pads exPackaged_ok hconf exGen_lawful h⟩

end Verif.Detector
