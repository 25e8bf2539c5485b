import Verif.Proofs.Cells

/-! # Lemmas about event traces -/

namespace Verif.Detector

open Verif.Spec Verif.Kinematics

/-- `generate_point_cloud` succeeds when its parts do and all square roots are defined. -/
theorem generate_point_cloud_of {σ : Type} {ivp : IvpSolver} {momentum vertex : ℝ × ℝ × ℝ}
    {nucleus : Nucleus} {config : Config} {grid : PadGrid} {g : GridEdges} (hb : 0 < g.bin)
    (hgrid : config.pad_grid = some (grid, g)) {rng : Gen σ} (p : Points) (label : ℤ) {s s' : σ}
    {track : List Row} {primary : List ℤ}
    (ht : generate_trajectory ivp vertex momentum nucleus config.det_params = .ok track)
    (he : generate_electrons track nucleus config.det_params rng s = .ok (primary, s'))
    (hok : ∀ re ∈ (track.zip primary).filter (fun re => decide (1 ≤ re.2)),
        config.det_params.efield ≠ 0 ∧ 0 ≤ 2 * config.det_params.diffusion * config.drift_velocity
          * arrival config re.1.z / config.det_params.efield) :
    generate_point_cloud ivp momentum vertex nucleus config rng p label s
      = .ok (applyDeposits p (nucleusDeposits config grid g track primary label), s') := by
  unfold generate_point_cloud
  rw [except_bind_ok]
  refine ⟨track, ht, ?_⟩
  rw [except_bind_ok]
  refine ⟨(primary, s'), he, ?_⟩
  simp only [hgrid]
  rw [except_bind_ok]
  refine ⟨applyDeposits p (nucleusDeposits config grid g track primary label), ?_, rfl⟩
  rw [transport_track_ok_iff grid g hb, masked_zip]
  constructor
  · intro re hre
    obtain ⟨re', hre', rfl⟩ := List.mem_map.1 hre
    exact hok re' hre'
  · congr 1
    unfold trackDeposits nucleusDeposits
    rw [List.flatMap_map]
    rfl

variable {σ : Type} {env : SimEnv} {momenta : List Vec4} {vertex : ℝ × ℝ × ℝ}
    {Zs As : List ℤ} {config : Config} {grid : PadGrid} {g : GridEdges} {rng : Gen σ}

/-- The trace has one entry per requested index, in order. -/
theorem _root_.Verif.Spec.EventTrace.labels {indices : List ℤ} {s s' : σ} {tr : List (ℤ × List Deposit)}
    (h : EventTrace env momenta vertex Zs As config grid g rng indices s tr s') :
    tr.map (·.1) = indices := by
  induction h with
  | nil => rfl
  | neutral idx rest s s' tr hz _ ih => simp [ih]
  | charged idx z a nucleus momentum track primary rest s s₁ s' tr hz hz0 ha hn hm ht he _ ih =>
    simp [ih]

/-- An entry with deposits comes from a charged nucleus and is built from its track. -/
theorem _root_.Verif.Spec.EventTrace.entry {indices : List ℤ} {s s' : σ} {tr : List (ℤ × List Deposit)}
    (h : EventTrace env momenta vertex Zs As config grid g rng indices s tr s') :
    ∀ x ∈ tr, x.2 ≠ [] → ∃ z a nucleus momentum track primary s₀ s₁,
      pyGet Zs x.1 = .ok z ∧ z ≠ 0 ∧ pyGet As x.1 = .ok a ∧ env.get_data z a = .ok nucleus ∧
      pyGet momenta x.1 = .ok momentum ∧
      generate_trajectory env.solve_ivp vertex (momentum.px, momentum.py, momentum.pz)
        nucleus config.det_params = .ok track ∧
      generate_electrons track nucleus config.det_params rng s₀ = .ok (primary, s₁) ∧
      x.2 = nucleusDeposits config grid g track primary x.1 := by
  induction h with
  | nil => simp
  | neutral idx rest s s' tr hz _ ih =>
    intro x hx hne
    rcases List.mem_cons.1 hx with rfl | hx
    · exact absurd rfl hne
    · exact ih x hx hne
  | charged idx z a nucleus momentum track primary rest s s₁ s' tr hz hz0 ha hn hm ht he _ ih =>
    intro x hx hne
    rcases List.mem_cons.1 hx with rfl | hx
    · exact ⟨z, a, nucleus, momentum, track, primary, s, s₁, hz, hz0, ha, hn, hm, ht, he, rfl⟩
    · exact ih x hx hne

/-- What a deposit of a track point looks like. -/
theorem mem_pointDeposits {time : ℝ} {center : ℝ × ℝ} {e : ℤ} {sigma : ℝ} {label : ℤ} {d : Deposit}
    (h : d ∈ pointDeposits grid g time center e sigma label) :
    d.tb = pyInt time ∧ d.label = label ∧ ∃ pos, activePad grid g pos = some d.pad := by
  unfold pointDeposits at h
  split_ifs at h with hs
  · rcases hp : activePad grid g center with _ | pad <;> simp [hp] at h
    subst h
    exact ⟨rfl, rfl, center, hp⟩
  · simp only [List.mem_filterMap, Option.map_eq_some_iff] at h
    obtain ⟨pw, -, pad, hp, rfl⟩ := h
    exact ⟨rfl, rfl, pw.1, hp⟩

/-- An active pad is a cell of the grid that is neither -1 nor a beam pad. -/
theorem activePad_some {pos : ℝ × ℝ} {pad : ℤ} (h : activePad grid g pos = some pad) :
    ∃ i j, gridIndex g pos.1 = some i ∧ gridIndex g pos.2 = some j ∧ pad = grid.cell i j ∧
      pad ≠ -1 ∧ pad ∉ BEAM_PADS := by
  unfold activePad at h
  rcases hx : gridIndex g pos.1 with _ | i
  · simp [hx] at h
  · rcases hy : gridIndex g pos.2 with _ | j
    · simp [hx, hy] at h
    · simp only [hx, hy] at h
      split_ifs at h with hc
      push Not at hc
      simp only [Option.some.injEq] at h
      exact ⟨i, j, rfl, rfl, h.symm, h ▸ hc.1, h ▸ hc.2⟩

theorem gridIndex_lt (hb : 0 < g.bin) {N : ℕ} (hN : g.high - g.low ≤ N * g.bin) {u : ℝ} {i : ℤ}
    (h : gridIndex g u = some i) : 0 ≤ i ∧ i < N := by
  refine ⟨gridIndex_nonneg hb h, ?_⟩
  unfold gridIndex at h
  split_ifs at h with hc
  simp only [Option.some.injEq] at h
  subst h
  rw [Int.floor_lt, div_lt_iff₀ hb]
  push_cast
  linarith [hc.2]

theorem mem_nucleusDeposits {track : List Row} {primary : List ℤ} {label : ℤ} {d : Deposit}
    (h : d ∈ nucleusDeposits config grid g track primary label) :
    d.label = label ∧ (∃ pos, activePad grid g pos = some d.pad) ∧
    ∃ re ∈ track.zip primary, 1 ≤ re.2 ∧ d.tb = pyInt (arrival config re.1.z) := by
  unfold nucleusDeposits at h
  rw [List.mem_flatMap] at h
  obtain ⟨re, hre, hd⟩ := h
  rw [List.mem_filter, decide_eq_true_eq] at hre
  obtain ⟨h1, h2, h3⟩ := mem_pointDeposits hd
  exact ⟨h2, h3, re, hre.1, hre.2, h1⟩

/-- Where a deposit of an event comes from. -/
theorem _root_.Verif.Spec.EventTrace.deposit {indices : List ℤ} {s s' : σ} {tr : List (ℤ × List Deposit)}
    (h : EventTrace env momenta vertex Zs As config grid g rng indices s tr s') {d : Deposit}
    (hd : d ∈ history tr) :
    ∃ x ∈ tr, d ∈ x.2 ∧ d.label = x.1 ∧ (∃ pos, activePad grid g pos = some d.pad) := by
  unfold history at hd
  rw [List.mem_flatMap] at hd
  obtain ⟨x, hx, hd⟩ := hd
  obtain ⟨z, a, nucleus, momentum, track, primary, s₀, s₁, -, -, -, -, -, -, -, hx2⟩ :=
    h.entry x hx (List.ne_nil_of_mem hd)
  have hd' := hd
  rw [hx2] at hd'
  obtain ⟨h1, h2, -⟩ := mem_nucleusDeposits hd'
  exact ⟨x, hx, hd, h1, h2⟩

/-- The last label of a cell comes from the last entry of the trace that deposits on it. -/
theorem _root_.Verif.Spec.EventTrace.last {indices : List ℤ} {s s' : σ} {tr : List (ℤ × List Deposit)}
    (h : EventTrace env momenta vertex Zs As config grid g rng indices s tr s') {tb pad l : ℤ}
    (hl : lastLabel (history tr) tb pad = some l) :
    ∃ l1 deps l2, tr = l1 ++ (l, deps) :: l2 ∧ Occupied deps tb pad ∧
      ∀ x ∈ l2, ¬ Occupied x.2 tb pad := by
  have key : ∀ tr' : List (ℤ × List Deposit), (∀ x ∈ tr', ∀ d ∈ x.2, d.label = x.1) →
      lastLabel (history tr') tb pad = some l →
      ∃ l1 deps l2, tr' = l1 ++ (l, deps) :: l2 ∧ Occupied deps tb pad ∧
        ∀ x ∈ l2, ¬ Occupied x.2 tb pad := by
    intro tr'
    induction tr' using List.reverseRecOn with
    | nil => intro _ h; simp [lastLabel, history] at h
    | append_singleton tr' x ih =>
      intro hlab hl
      by_cases ho : Occupied x.2 tb pad
      · refine ⟨tr', x.2, [], ?_, ho, by simp⟩
        obtain ⟨d, hd, hat⟩ := ho
        have hne : x.2.filter (fun d => decide (d.at tb pad)) ≠ [] :=
          List.ne_nil_of_mem (List.mem_filter.2 ⟨hd, by simpa using hat⟩)
        unfold lastLabel history at hl
        rw [List.flatMap_append, List.filter_append, List.getLast?_append_of_ne_nil _ (by simpa using hne)] at hl
        simp only [List.flatMap_cons, List.flatMap_nil, List.append_nil] at hl
        rw [Option.map_eq_some_iff] at hl
        obtain ⟨d', hd', hl'⟩ := hl
        have := List.mem_of_getLast? hd'
        have h2 := hlab x (by simp) d' (List.mem_filter.1 this).1
        have : (l, x.2) = x := by rw [← hl', h2]
        rw [this]
      · have hnil : x.2.filter (fun d => decide (d.at tb pad)) = [] := by
          rw [List.filter_eq_nil_iff]
          intro d hd hc
          exact ho ⟨d, hd, by simpa using hc⟩
        have hl' : lastLabel (history tr') tb pad = some l := by
          unfold lastLabel history at hl ⊢
          rw [List.flatMap_append, List.filter_append] at hl
          simp only [List.flatMap_cons, List.flatMap_nil, List.append_nil, hnil] at hl
          exact hl
        obtain ⟨l1, deps, l2, h1, h2, h3⟩ := ih (fun y hy => hlab y (by simp [hy])) hl'
        refine ⟨l1, deps, l2 ++ [x], by rw [h1]; simp, h2, ?_⟩
        intro y hy
        rcases List.mem_append.1 hy with hy | hy
        · exact h3 y hy
        · rw [List.mem_singleton.1 hy]; exact ho
  refine key tr ?_ hl
  intro x hx d hd
  obtain ⟨z, a, nucleus, momentum, track, primary, s₀, s₁, -, -, -, -, -, -, -, hx2⟩ :=
    h.entry x hx (List.ne_nil_of_mem hd)
  rw [hx2] at hd
  exact (mem_nucleusDeposits hd).1

end Verif.Detector
