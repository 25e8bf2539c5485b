import Verif.Proofs.Tracks
import Verif.Spec.Simulation

/-! # `simulate` records exactly the specified cells -/

namespace Verif.Detector

open Verif.Spec Verif.Kinematics

theorem maskSel_map {α : Type} (f : α → Bool) (l : List α) : maskSel (l.map f) l = l.filter f := by
  induction l with
  | nil => rfl
  | cons a l ih =>
    rw [List.map_cons, List.filter_cons]
    cases h : f a <;> simp [maskSel, ih]

theorem maskSel_zip {α β : Type} (m : List Bool) (a : List α) (b : List β) :
    (maskSel m a).zip (maskSel m b) = maskSel m (a.zip b) ∨ a.length ≠ b.length := by
  induction m generalizing a b with
  | nil => left; cases a <;> cases b <;> simp [maskSel]
  | cons x m ih =>
    cases a with
    | nil =>
      cases b with
      | nil => left; cases x <;> simp [maskSel]
      | cons b bs => right; simp
    | cons a as =>
      cases b with
      | nil => right; simp
      | cons b bs =>
        rcases ih as bs with h | h
        · left; cases x <;> simp [maskSel, h]
        · right; simpa using h

theorem maskSel_length_eq {α β : Type} (m : List Bool) (a : List α) (b : List β)
    (h : a.length = b.length) : (maskSel m a).length = (maskSel m b).length := by
  induction m generalizing a b with
  | nil => cases a <;> cases b <;> simp [maskSel]
  | cons x m ih =>
    cases a with
    | nil =>
      cases b with
      | nil => cases x <;> simp [maskSel]
      | cons b bs => simp at h
    | cons a as =>
      cases b with
      | nil => simp at h
      | cons b bs =>
        have := ih as bs (by simpa using h)
        cases x <;> simp [maskSel, this]

/-- The mask on tracks and electrons selects the track points with at least one electron. -/
theorem masked_zip {α : Type} (track : List α) (el : List ℤ) (f : α → α) (gain : ℤ) :
    ((maskSel (el.map fun e => decide (1 ≤ e)) track).map f).zip
      ((maskSel (el.map fun e => decide (1 ≤ e)) el).map (· * gain))
    = ((track.zip el).filter fun re => decide (1 ≤ re.2)).map fun re => (f re.1, re.2 * gain) := by
  induction el generalizing track with
  | nil => cases track <;> simp [maskSel]
  | cons e el ih =>
    cases track with
    | nil => cases h : decide (1 ≤ e) <;> simp [maskSel, h]
    | cons t ts =>
      by_cases h : 1 ≤ e
      · simp [maskSel, h]; simpa using ih ts
      · simp [maskSel, h]; simpa using ih ts

theorem except_bind_ok {α β : Type} {x : Except PyErr α} {f : α → Except PyErr β} {b : β} :
    (x >>= f) = .ok b ↔ ∃ a, x = .ok a ∧ f a = .ok b := by
  cases x <;> simp [bind, Except.bind]

theorem generate_point_cloud_ok {σ : Type} {ivp : IvpSolver} {momentum vertex : ℝ × ℝ × ℝ}
    {nucleus : Nucleus} {config : Config} {grid : PadGrid} {g : GridEdges} (hb : 0 < g.bin)
    (hgrid : config.pad_grid = some (grid, g)) {rng : Gen σ} {p p' : Points} {label : ℤ} {s s' : σ}
    (h : generate_point_cloud ivp momentum vertex nucleus config rng p label s = .ok (p', s')) :
    ∃ track primary,
      generate_trajectory ivp vertex momentum nucleus config.det_params = .ok track ∧
      generate_electrons track nucleus config.det_params rng s = .ok (primary, s') ∧
      p' = applyDeposits p (nucleusDeposits config grid g track primary label) ∧
      (∀ re ∈ (track.zip primary).filter (fun re => decide (1 ≤ re.2)),
        config.det_params.efield ≠ 0 ∧ 0 ≤ 2 * config.det_params.diffusion * config.drift_velocity
          * arrival config re.1.z / config.det_params.efield) := by
  unfold generate_point_cloud at h
  rw [except_bind_ok] at h
  obtain ⟨track, ht, h⟩ := h
  rw [except_bind_ok] at h
  obtain ⟨⟨primary, s1⟩, he, h⟩ := h
  simp only [hgrid] at h
  rw [except_bind_ok] at h
  obtain ⟨q, hq, h⟩ := h
  obtain ⟨rfl, rfl⟩ : q = p' ∧ s1 = s' := by
    have := Except.ok.inj h
    exact ⟨congrArg Prod.fst this, congrArg Prod.snd this⟩
  rw [transport_track_ok_iff grid g hb] at hq
  obtain ⟨hq1, hq2⟩ := hq
  rw [masked_zip] at hq1 hq2
  refine ⟨track, primary, ht, he, ?_, ?_⟩
  · rw [hq2]
    congr 1
    unfold trackDeposits nucleusDeposits
    rw [List.flatMap_map]
    rfl
  · intro re hre
    exact hq1 _ (List.mem_map.2 ⟨re, hre, rfl⟩)

theorem simulate_nucleus_ok {σ : Type} {env : SimEnv} {momenta : List Vec4} {vertex : ℝ × ℝ × ℝ}
    {Zs As : List ℤ} {config : Config} {grid : PadGrid} {g : GridEdges} (hb : 0 < g.bin)
    (hgrid : config.pad_grid = some (grid, g)) {rng : Gen σ} {p : Points} {s : σ} {idx : ℤ}
    {ps' : Points × σ}
    (h : simulate_nucleus env momenta vertex Zs As config rng (p, s) idx = .ok ps') :
    (pyGet Zs idx = .ok 0 ∧ ps' = (p, s)) ∨
    ∃ z a nucleus momentum track primary, pyGet Zs idx = .ok z ∧ z ≠ 0 ∧ pyGet As idx = .ok a ∧
      env.get_data z a = .ok nucleus ∧ pyGet momenta idx = .ok momentum ∧
      generate_trajectory env.solve_ivp vertex (momentum.px, momentum.py, momentum.pz)
        nucleus config.det_params = .ok track ∧
      generate_electrons track nucleus config.det_params rng s = .ok (primary, ps'.2) ∧
      ps'.1 = applyDeposits p (nucleusDeposits config grid g track primary idx) := by
  unfold simulate_nucleus at h
  rw [except_bind_ok] at h
  obtain ⟨z, hz, h⟩ := h
  by_cases hz0 : z = 0
  · left
    rw [if_pos hz0] at h
    exact ⟨by rw [hz, hz0], (Except.ok.inj h).symm⟩
  · right
    rw [if_neg hz0, except_bind_ok] at h
    obtain ⟨a, ha, h⟩ := h
    rw [except_bind_ok] at h
    obtain ⟨nucleus, hn, h⟩ := h
    rw [except_bind_ok] at h
    obtain ⟨momentum, hm, h⟩ := h
    obtain ⟨track, primary, ht, he, hp, -⟩ := generate_point_cloud_ok (p' := ps'.1) (s' := ps'.2)
      hb hgrid h
    exact ⟨z, a, nucleus, momentum, track, primary, hz, hz0, ha, hn, hm, ht, he, hp⟩

theorem simulate_fold_ok {σ : Type} {env : SimEnv} {momenta : List Vec4} {vertex : ℝ × ℝ × ℝ}
    {Zs As : List ℤ} {config : Config} {grid : PadGrid} {g : GridEdges} (hb : 0 < g.bin)
    (hgrid : config.pad_grid = some (grid, g)) {rng : Gen σ} (indices : List ℤ) {p p' : Points}
    {s s' : σ}
    (h : indices.foldlM (simulate_nucleus env momenta vertex Zs As config rng) (p, s)
      = .ok (p', s')) :
    ∃ tr, EventTrace env momenta vertex Zs As config grid g rng indices s tr s' ∧
      p' = applyDeposits p (history tr) := by
  induction indices generalizing p s with
  | nil =>
    simp only [List.foldlM_nil] at h
    have := Except.ok.inj h
    obtain ⟨rfl, rfl⟩ : p = p' ∧ s = s' := ⟨congrArg Prod.fst this, congrArg Prod.snd this⟩
    exact ⟨[], .nil s, rfl⟩
  | cons idx rest ih =>
    rw [List.foldlM_cons, except_bind_ok] at h
    obtain ⟨⟨q, s1⟩, h1, h2⟩ := h
    obtain ⟨tr, htr, hp⟩ := ih h2
    rcases simulate_nucleus_ok hb hgrid h1 with ⟨hz, he⟩ | ⟨z, a, nucleus, momentum, track, primary,
      hz, hz0, ha, hn, hm, ht, he, hq⟩
    · obtain ⟨rfl, rfl⟩ : q = p ∧ s1 = s := ⟨congrArg Prod.fst he, congrArg Prod.snd he⟩
      exact ⟨_, .neutral idx rest _ _ tr hz htr, by simpa [history] using hp⟩
    · refine ⟨_, .charged idx z a nucleus momentum track primary rest s s1 s' tr hz hz0 ha hn hm ht
        he htr, ?_⟩
      simp only at hq
      rw [hp, hq, ← applyDeposits_append]
      simp [history]

theorem uniformN_length {σ : Type} (rng : Gen σ) (a b : ℝ) (n : ℕ) (s : σ) :
    (rng.uniformN a b n s).1.length = n := by
  induction n generalizing s with
  | zero => rfl
  | succ n ih => simp [Gen.uniformN, ih]

theorem uniformN_mem {σ : Type} {rng : Gen σ} (hr : LawfulGen rng) (a b : ℝ) (hab : a < b) (n : ℕ)
    (s : σ) : ∀ w ∈ (rng.uniformN a b n s).1, a ≤ w ∧ w < b := by
  induction n generalizing s with
  | zero => simp [Gen.uniformN]
  | succ n ih =>
    intro w hw
    simp only [Gen.uniformN, List.mem_cons] at hw
    rcases hw with rfl | hw
    · exact ⟨hr.uniform_ge a b s hab.le, hr.uniform_lt a b s hab⟩
    · exact ih _ w hw

/-- The row made from a dictionary entry and a wiggle. -/
def mkRow (kd : ℤ × (ℤ × ℤ)) (w : ℝ) : CloudPoint :=
  { pad := ((unpair kd.1).2 : ℝ), tb := ((unpair kd.1).1 : ℝ) + w, e := (kd.2.1 : ℝ) }

/-- The two masked arrays returned by `simulate`, as one filtered list of pairs. -/
theorem simulate_rows (points : Points) (wiggle : List ℝ) (hw : wiggle.length = points.length) :
    let arr := ((dict_to_points points).1.zip wiggle).map
      fun pw => ({ pw.1 with tb := pw.1.tb + pw.2 } : CloudPoint)
    let mask := arr.map fun p => decide (0 ≤ p.tb) && decide (p.tb < (NUM_TB : ℝ))
    (maskSel mask arr).zip (maskSel mask (dict_to_points points).2)
      = ((points.zip wiggle).map fun kw => (mkRow kw.1 kw.2, kw.1.2.2)).filter
          (fun rl => decide (0 ≤ rl.1.tb) && decide (rl.1.tb < (NUM_TB : ℝ)))
    ∧ (maskSel mask arr).length = (maskSel mask (dict_to_points points).2).length := by
  intro arr mask
  have harr : arr = (points.zip wiggle).map fun kw => mkRow kw.1 kw.2 := by
    simp only [arr, dict_to_points]
    rw [List.zip_map_left, List.map_map]
    rfl
  have hlab : (dict_to_points points).2 = (points.zip wiggle).map fun kw => kw.1.2.2 := by
    simp only [dict_to_points]
    have : (points.zip wiggle).map (fun kw => kw.1.2.2)
        = ((points.zip wiggle).map Prod.fst).map (fun kd => kd.2.2) := by
      rw [List.map_map]; rfl
    rw [this, List.map_fst_zip (by omega)]
  have hlen : arr.length = (dict_to_points points).2.length := by
    rw [harr, hlab]; simp
  constructor
  · rcases maskSel_zip mask arr (dict_to_points points).2 with h | h
    · rw [h]
      have hz : arr.zip (dict_to_points points).2
          = (points.zip wiggle).map fun kw => (mkRow kw.1 kw.2, kw.1.2.2) := by
        rw [harr, hlab, List.zip_map']
      rw [hz]
      have hm : mask = ((points.zip wiggle).map fun kw => (mkRow kw.1 kw.2, kw.1.2.2)).map
          (fun rl => decide (0 ≤ rl.1.tb) && decide (rl.1.tb < (NUM_TB : ℝ))) := by
        simp only [mask, harr, List.map_map]
        rfl
      rw [hm, maskSel_map]
    · exact absurd hlen h
  · exact maskSel_length_eq mask _ _ hlen

theorem simulate_ok {σ : Type} {env : SimEnv} {momenta : List Vec4} {vertex : ℝ × ℝ × ℝ}
    {Zs As : List ℤ} {config : Config} {grid : PadGrid} {g : GridEdges} (hb : 0 < g.bin)
    (hgrid : config.pad_grid = some (grid, g)) {rng : Gen σ} {indices : List ℤ}
    {s s' : σ} {cloud : List CloudPoint} {labels : List ℤ}
    (h : simulate env momenta vertex Zs As config rng indices s = .ok ((cloud, labels), s')) :
    ∃ tr s₁ wiggle, EventTrace env momenta vertex Zs As config grid g rng indices s tr s₁ ∧
      (wiggle, s') = rng.uniformN 0 1 (applyDeposits [] (history tr)).length s₁ ∧
      cloud.length = labels.length ∧
      cloud.zip labels = (((applyDeposits [] (history tr)).zip wiggle).map
        fun kw => (mkRow kw.1 kw.2, kw.1.2.2)).filter
          (fun rl => decide (0 ≤ rl.1.tb) && decide (rl.1.tb < (NUM_TB : ℝ))) := by
  unfold simulate at h
  rw [except_bind_ok] at h
  obtain ⟨⟨p, s1⟩, h1, h2⟩ := h
  obtain ⟨tr, htr, hp⟩ := simulate_fold_ok hb hgrid indices h1
  simp only at h2
  have h3 := Except.ok.inj h2
  have hlen : (dict_to_points p).1.length = p.length := by simp [dict_to_points]
  rw [hlen] at h3
  subst hp
  refine ⟨tr, s1, (rng.uniformN 0 1 (applyDeposits [] (history tr)).length s1).1, htr, ?_, ?_, ?_⟩
  · have := congrArg Prod.snd h3
    simp only at this
    rw [← this]
  · have hr := (simulate_rows (applyDeposits [] (history tr))
      (rng.uniformN 0 1 (applyDeposits [] (history tr)).length s1).1 (uniformN_length _ _ _ _ _)).2
    have h4 := congrArg Prod.fst h3
    have h5 : cloud = _ := (congrArg Prod.fst h4).symm
    have h6 : labels = _ := (congrArg Prod.snd h4).symm
    rw [h5, h6]
    exact hr
  · have hr := (simulate_rows (applyDeposits [] (history tr))
      (rng.uniformN 0 1 (applyDeposits [] (history tr)).length s1).1 (uniformN_length _ _ _ _ _)).1
    have h4 := congrArg Prod.fst h3
    have h5 : cloud = _ := (congrArg Prod.fst h4).symm
    have h6 : labels = _ := (congrArg Prod.snd h4).symm
    rw [h5, h6]
    exact hr

end Verif.Detector
