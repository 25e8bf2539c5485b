import Verif.Proofs.Resolution
import Verif.Props.ExpectedCharge
import Verif.Props.Superposition
import Verif.Props.Calorimeter

/-! # C128: mean and resolution of the charge of an event -/

namespace Verif.Props

open MeasureTheory ProbabilityTheory Verif.Spec Verif.Detector Verif.Kinematics

variable {σ : Type} [MeasurableSpace σ] {μ : Measure σ} [IsProbabilityMeasure μ]
  {rng : Gen σ} {u z : σ → ℝ} {next skip : σ → σ}

open Classical in
/-- 1 for a position above an active pad, 0 otherwise. -/
noncomputable def padAt (grid : PadGrid) (g : GridEdges) (c : ℝ × ℝ) : ℝ :=
  if ∃ pad, activePad grid g c = some pad ∧ 0 ≤ pad then 1 else 0

/-- The share of the electrons released at a track point that is recorded: nothing if they arrive outside of the
recorded window, otherwise the weights of the pixels above active pads; a single pixel without diffusion. -/
noncomputable def recordedShare (config : Config) (grid : PadGrid) (g : GridEdges) (r : Row) : ℝ :=
  if -1 < arrival config r.z ∧ arrival config r.z < 512 then
    if spreadAt config r.z = 0 then padAt grid g (r.x, r.y)
    else ((List.range 10).map fun i => ((List.range 10).map fun j => padAt grid g
      (r.x + meshOffset i * spreadAt config r.z, r.y + meshOffset j * spreadAt config r.z) * meshWeight i j).sum).sum
  else 0

/-- The largest loss of electrons, per track point, by cutting the shares of the pixels to integers. -/
noncomputable def cutLoss (config : Config) : ℝ := if config.det_params.diffusion = 0 then 0 else 100

/-- The means of the draws for the points of a track. -/
noncomputable def trackMeans (n : Nucleus) (params : DetectorParams) (track : List Row) : List ℝ :=
  (List.range track.length).map (meanAt n params.w_value track)

theorem trackMeans_sum (n : Nucleus) (params : DetectorParams) (track : List Row) :
    (trackMeans n params track).sum = energyVariation n track * 1000000 / params.w_value := by
  have h := trackBound_eq n { params with fano_factor := 0 } track
  simp only [zero_div, zero_mul, add_zero] at h
  rw [← h]
  unfold trackMeans trackBound
  congr 1
  refine List.map_congr_left fun k _ => ?_
  split_ifs with hk
  · subst hk; rfl
  · simp


/-- The points of the tracks of all charged nuclei of an event, each with the change of the kinetic energy since
the previous point over W. -/
noncomputable def eventPoints (env : SimEnv) (momenta : List Vec4) (vertex : ℝ × ℝ × ℝ)
    (Zs As : List ℤ) (params : DetectorParams) (indices : List ℤ) : List (Row × ℝ) :=
  indices.flatMap fun idx => match trackOf env momenta vertex Zs As params idx with
    | some (n, track) => track.zip (trackMeans n params track)
    | none => []

/-- Every nucleus is neutral or has a trajectory, at whose points it moves and from which electrons drift to the
pad plane. -/
def AllDrift (env : SimEnv) (momenta : List Vec4) (vertex : ℝ × ℝ × ℝ) (Zs As : List ℤ) (config : Config)
    (indices : List ℤ) : Prop :=
  ∀ idx ∈ indices, pyGet Zs idx = .ok 0 ∨
    ∃ n track, trackOf env momenta vertex Zs As config.det_params idx = some (n, track) ∧
      ∀ r ∈ track, Moving r ∧ 0 ≤ 2 * config.det_params.diffusion * config.drift_velocity
        * arrival config r.z / config.det_params.efield

/-! ## What one point leaves -/

/-- The charge recorded of `n` electrons released at a track point. -/
noncomputable def pointCharge (config : Config) (grid : PadGrid) (g : GridEdges) (r : Row) (n : ℤ) : ℤ :=
  windowSum (pointDeposits grid g (arrival config r.z) (r.x, r.y) (n * config.det_params.mpgd_gain)
    (spreadAt config r.z) 0)

theorem window_label (tb pad e label : ℤ) :
    windowSum [(⟨tb, pad, e, label⟩ : Deposit)] = windowSum [(⟨tb, pad, e, 0⟩ : Deposit)] := by
  by_cases h : InWindow (⟨tb, pad, e, label⟩ : Deposit)
  · have h' : InWindow (⟨tb, pad, e, 0⟩ : Deposit) := h
    simp [windowSum, h, h']
  · have h' : ¬ InWindow (⟨tb, pad, e, 0⟩ : Deposit) := h
    simp [windowSum, h, h']

theorem windowSum_label (grid : PadGrid) (g : GridEdges) (time : ℝ) (c : ℝ × ℝ) (e : ℤ) (sp : ℝ) (label : ℤ) :
    windowSum (pointDeposits grid g time c e sp label) = windowSum (pointDeposits grid g time c e sp 0) := by
  unfold pointDeposits
  split_ifs with h
  · rcases activePad grid g c with _ | pad
    · rfl
    · exact window_label _ _ _ _
  · induction meshPoints c sp with
    | nil => rfl
    | cons a l ih =>
      rw [List.filterMap_cons, List.filterMap_cons]
      rcases activePad grid g a.1 with _ | pad
      · exact ih
      · simp only [Option.map_some]
        have e1 : ∀ (d : Deposit) (l : List Deposit), windowSum (d :: l) = windowSum [d] + windowSum l := fun d l =>
          windowSum_append [d] l
        rw [e1, e1 _ (List.filterMap _ l), ih]
        congr 1
        exact window_label _ _ _ _

theorem padAt_cases (grid : PadGrid) (g : GridEdges) (c : ℝ × ℝ) : padAt grid g c = 0 ∨ padAt grid g c = 1 := by
  unfold padAt
  split_ifs <;> simp

theorem window_single {grid : PadGrid} {g : GridEdges} {time : ℝ} (ht : -1 < time ∧ time < 512)
    (c : ℝ × ℝ) (e label : ℤ) :
    (windowSum (((activePad grid g c).map fun pad => (⟨pyInt time, pad, e, label⟩ : Deposit)).toList) : ℝ)
      = padAt grid g c * e := by
  have hw := pyInt_window.2 ht
  unfold padAt
  rcases h : activePad grid g c with _ | pad
  · simp [windowSum]
  · by_cases hp : 0 ≤ pad
    · rw [if_pos ⟨pad, rfl, hp⟩]
      have : InWindow (⟨pyInt time, pad, e, label⟩ : Deposit) := ⟨hw.1, hw.2, hp⟩
      simp [windowSum, this]
    · rw [if_neg (by rintro ⟨q, hq, h0⟩; exact hp (by rw [Option.some.inj hq]; exact h0))]
      have : ¬ InWindow (⟨pyInt time, pad, e, label⟩ : Deposit) := fun h => hp h.2.2
      simp [windowSum, this]

theorem window_mesh {grid : PadGrid} {g : GridEdges} {time : ℝ} (ht : -1 < time ∧ time < 512) {e : ℤ} (he : 0 ≤ e)
    (label : ℤ) (l : List ((ℝ × ℝ) × ℝ)) (hl : ∀ pw ∈ l, 0 ≤ pw.2) :
    (l.map fun pw => padAt grid g pw.1 * pw.2).sum * e - l.length
      ≤ windowSum (l.filterMap fun pw => (activePad grid g pw.1).map fun pad =>
        (⟨pyInt time, pad, pyInt (pw.2 * (e : ℝ)), label⟩ : Deposit)) ∧
    (windowSum (l.filterMap fun pw => (activePad grid g pw.1).map fun pad =>
        (⟨pyInt time, pad, pyInt (pw.2 * (e : ℝ)), label⟩ : Deposit)) : ℝ)
      ≤ (l.map fun pw => padAt grid g pw.1 * pw.2).sum * e := by
  induction l with
  | nil => simp [windowSum]
  | cons a l ih =>
    obtain ⟨i1, i2⟩ := ih fun pw h => hl pw (List.mem_cons_of_mem _ h)
    have ha := hl a (by simp)
    have he' : (0 : ℝ) ≤ e := by exact_mod_cast he
    have h1 := window_single (grid := grid) (g := g) ht a.1 (pyInt (a.2 * (e : ℝ))) label
    have hs : (a :: l).filterMap (fun pw => (activePad grid g pw.1).map fun pad =>
        (⟨pyInt time, pad, pyInt (pw.2 * (e : ℝ)), label⟩ : Deposit))
        = (((activePad grid g a.1).map fun pad =>
          (⟨pyInt time, pad, pyInt (a.2 * (e : ℝ)), label⟩ : Deposit)).toList)
          ++ l.filterMap (fun pw => (activePad grid g pw.1).map fun pad =>
            (⟨pyInt time, pad, pyInt (pw.2 * (e : ℝ)), label⟩ : Deposit)) := by
      rw [List.filterMap_cons]
      rcases activePad grid g a.1 with _ | pad <;> rfl
    rw [hs, windowSum_append, Int.cast_add, h1, List.map_cons, List.sum_cons, List.length_cons]
    have hc := cut_of_nonneg (mul_nonneg ha he')
    unfold cut at hc
    push_cast
    rcases padAt_cases grid g a.1 with h0 | h0 <;> rw [h0] <;> constructor <;> linarith [hc.1, hc.2]

theorem recordedShare_mesh {config : Config} {grid : PadGrid} {g : GridEdges} {r : Row}
    (ht : -1 < arrival config r.z ∧ arrival config r.z < 512) (hs : spreadAt config r.z ≠ 0) :
    recordedShare config grid g r
      = ((meshPoints (r.x, r.y) (spreadAt config r.z)).map fun pw => padAt grid g pw.1 * pw.2).sum := by
  unfold recordedShare meshPoints
  rw [if_pos ht, if_neg hs, sum_flatMap_map]
  simp only [List.map_map, Function.comp_def]

/-- A track point leaves the gain times the share that is recorded, less the cutting loss. -/
theorem pointCharge_bounds {config : Config} {grid : PadGrid} {g : GridEdges}
    (hgain : 0 ≤ config.det_params.mpgd_gain) (r : Row) {n : ℤ} (hn : 0 ≤ n) :
    config.det_params.mpgd_gain * recordedShare config grid g r * n - cutLoss config
      ≤ pointCharge config grid g r n ∧
    (pointCharge config grid g r n : ℝ) ≤ config.det_params.mpgd_gain * recordedShare config grid g r * n := by
  have hloss : 0 ≤ cutLoss config := by unfold cutLoss; split_ifs <;> norm_num
  have he : 0 ≤ n * config.det_params.mpgd_gain := mul_nonneg hn hgain
  unfold pointCharge
  by_cases ht : -1 < arrival config r.z ∧ arrival config r.z < 512
  · by_cases hs : spreadAt config r.z = 0
    · have h1 : (windowSum (pointDeposits grid g (arrival config r.z) (r.x, r.y)
          (n * config.det_params.mpgd_gain) (spreadAt config r.z) 0) : ℝ)
          = padAt grid g (r.x, r.y) * (n * config.det_params.mpgd_gain : ℤ) := by
        rw [← window_single ht (r.x, r.y) _ 0]
        unfold pointDeposits
        rw [if_pos hs]
        rcases activePad grid g (r.x, r.y) with _ | pad <;> rfl
      have h2 : recordedShare config grid g r = padAt grid g (r.x, r.y) := by
        unfold recordedShare
        rw [if_pos ht, if_pos hs]
      rw [h1, h2]
      push_cast
      constructor <;> linarith
    · obtain ⟨b1, b2⟩ := window_mesh (grid := grid) (g := g) ht he 0
        (meshPoints (r.x, r.y) (spreadAt config r.z)) (meshPoints_nonneg _ _)
      have hD : config.det_params.diffusion ≠ 0 := by
        intro h0
        apply hs
        unfold spreadAt
        rw [h0]
        simp
      have hlen : ((meshPoints (r.x, r.y) (spreadAt config r.z)).length : ℝ) = 100 := by simp [meshPoints]
      have hl : cutLoss config = 100 := by unfold cutLoss; rw [if_neg hD]
      rw [recordedShare_mesh ht hs, hl]
      unfold pointDeposits
      rw [if_neg hs]
      rw [hlen] at b1
      push_cast at b1 b2 ⊢
      constructor <;> linarith
  · have h0 : windowSum (pointDeposits grid g (arrival config r.z) (r.x, r.y)
        (n * config.det_params.mpgd_gain) (spreadAt config r.z) 0) = 0 := by
      unfold windowSum
      rw [List.filter_eq_nil_iff.2]
      · rfl
      · intro d hd hw
        simp only [decide_eq_true_eq] at hw
        have htb : d.tb = pyInt (arrival config r.z) := by
          unfold pointDeposits at hd
          split_ifs at hd
          · split at hd
            · rw [List.mem_singleton] at hd
              rw [hd]
            · simp at hd
          · obtain ⟨pw, -, h⟩ := List.mem_filterMap.1 hd
            obtain ⟨pad, -, rfl⟩ := Option.map_eq_some_iff.1 h
            rfl
        exact ht (pyInt_window.1 ⟨by rw [← htb]; exact hw.1, by rw [← htb]; exact hw.2.1⟩)
    have h1 : recordedShare config grid g r = 0 := by
      unfold recordedShare
      rw [if_neg ht]
    rw [h0, h1]
    simp
    exact hloss

theorem recordedShare_range (config : Config) (grid : PadGrid) (g : GridEdges) (r : Row) :
    0 ≤ recordedShare config grid g r ∧ recordedShare config grid g r ≤ 1 := by
  by_cases ht : -1 < arrival config r.z ∧ arrival config r.z < 512
  · by_cases hs : spreadAt config r.z = 0
    · unfold recordedShare
      rw [if_pos ht, if_pos hs]
      rcases padAt_cases grid g (r.x, r.y) with h | h <;> norm_num [h]
    · rw [recordedShare_mesh ht hs]
      have hn := meshPoints_nonneg (r.x, r.y) (spreadAt config r.z)
      constructor
      · refine List.sum_nonneg fun x hx => ?_
        obtain ⟨pw, hpw, rfl⟩ := List.mem_map.1 hx
        refine mul_nonneg ?_ (hn pw hpw)
        rcases padAt_cases grid g pw.1 with h | h <;> norm_num [h]
      · refine (List.sum_le_sum (g := (·.2)) fun pw hpw => ?_).trans
          (meshWeights_sum_bounds (r.x, r.y) (spreadAt config r.z)).2
        refine mul_le_of_le_one_left (hn pw hpw) ?_
        rcases padAt_cases grid g pw.1 with h | h <;> norm_num [h]
  · unfold recordedShare
    rw [if_neg ht]
    norm_num

/-- A point all of whose pixels are recorded. -/
theorem recordedShare_recorded {config : Config} {grid : PadGrid} {g : GridEdges} {r : Row}
    (h : Recorded config grid g r.x r.y r.z) :
    (config.det_params.diffusion = 0 → recordedShare config grid g r = 1) ∧ 0.998 ≤ recordedShare config grid g r := by
  obtain ⟨h1, h2, h3⟩ := h
  have hzero : spreadAt config r.z = 0 → recordedShare config grid g r = 1 := by
    intro hs
    unfold recordedShare padAt
    rw [if_pos ⟨h1, h2⟩, if_pos hs, if_pos]
    have := h3 0 0 (by norm_num) (by norm_num)
    rw [hs] at this
    simpa using this
  constructor
  · intro hD
    apply hzero
    unfold spreadAt
    rw [hD]
    simp
  · by_cases hs : spreadAt config r.z = 0
    · rw [hzero hs]
      norm_num
    · rw [recordedShare_mesh ⟨h1, h2⟩ hs]
      refine (meshWeights_sum_bounds (r.x, r.y) (spreadAt config r.z)).1.trans (le_of_eq ?_)
      congr 1
      refine List.map_congr_left fun pw hpw => ?_
      obtain ⟨i, j, hi, hj, rfl⟩ := mem_meshPoints _ _ _ hpw
      have : padAt grid g (r.x + meshOffset i * spreadAt config r.z, r.y + meshOffset j * spreadAt config r.z) = 1 := by
        unfold padAt
        rw [if_pos (h3 i j hi hj)]
      simp only [this, one_mul]

/-! ## The charge of an event as a sum over its points -/

/-- The charge recorded of consecutive draws at the given points. -/
noncomputable def drawSum (config : Config) (grid : PadGrid) (g : GridEdges) (z : σ → ℝ) (skip : σ → σ) :
    List (Row × ℝ) → σ → ℤ
  | [], _ => 0
  | p :: L, s => pointCharge config grid g p.1 (kept (p.2 + √(config.det_params.fano_factor * p.2) * z s))
      + drawSum config grid g z skip L (skip s)

section
variable {config : Config} {grid : PadGrid} {g : GridEdges}

omit [MeasurableSpace σ] in
theorem drawSum_append (L L' : List (Row × ℝ)) (s : σ) :
    drawSum config grid g z skip (L ++ L') s
      = drawSum config grid g z skip L s + drawSum config grid g z skip L' (skip^[L.length] s) := by
  induction L generalizing s with
  | nil => simp [drawSum]
  | cons m L ih =>
    rw [List.cons_append, drawSum, drawSum, ih, List.length_cons, Function.iterate_succ_apply]
    ring

omit [MeasurableSpace σ] in
theorem drawSum_eq (L : List (Row × ℝ)) (s : σ) :
    drawSum config grid g z skip L s
      = ∑ i : Fin L.length, pointCharge config grid g L[i].1
        (kept (L[i].2 + √(config.det_params.fano_factor * L[i].2) * z (skip^[(i : ℕ)] s))) := by
  induction L generalizing s with
  | nil => simp [drawSum]
  | cons m L ih =>
    rw [drawSum, ih]
    change _ = ∑ i : Fin (L.length + 1), _
    rw [Fin.sum_univ_succ]
    rfl

theorem pointCharge_none (r : Row) : pointCharge config grid g r 0 = 0 := by
  unfold pointCharge
  rw [zero_mul]
  unfold windowSum
  refine List.sum_eq_zero fun x hx => ?_
  obtain ⟨d, hd, rfl⟩ := List.mem_map.1 hx
  have hd := (List.mem_filter.1 hd).1
  unfold pointDeposits at hd
  split_ifs at hd
  · split at hd
    · rw [List.mem_singleton] at hd
      rw [hd]
    · simp at hd
  · obtain ⟨pw, -, h⟩ := List.mem_filterMap.1 hd
    obtain ⟨pad, -, rfl⟩ := Option.map_eq_some_iff.1 h
    simp [pyInt]

theorem nucleus_points (track : List Row) (primary : List ℤ) (label : ℤ) :
    windowSum (nucleusDeposits config grid g track primary label)
      = ((track.zip primary).map fun re => pointCharge config grid g re.1 (if 1 ≤ re.2 then re.2 else 0)).sum := by
  unfold nucleusDeposits
  induction track.zip primary with
  | nil => simp [windowSum]
  | cons a l ih =>
    rw [List.filter_cons, List.map_cons, List.sum_cons, ← ih]
    by_cases h : 1 ≤ a.2
    · simp only [h, decide_true, if_true]
      rw [List.flatMap_cons, windowSum_append, windowSum_label]
      rfl
    · simp only [h, decide_false, if_false, pointCharge_none]
      simp

theorem nucleus_drawSum (hr : FreshGen rng μ u z next skip) {track : List Row} {nucleus : Nucleus} {s s' : σ}
    {primary : List ℤ} (label : ℤ)
    (h : generate_electrons track nucleus config.det_params rng s = .ok (primary, s')) :
    windowSum (nucleusDeposits config grid g track primary label)
      = drawSum config grid g z skip (track.zip (trackMeans nucleus config.det_params track)) s := by
  rw [nucleus_points, electrons_eq hr h]
  unfold trackMeans
  have key : ∀ (f : ℕ → ℝ) (l : List Row) (o : ℕ),
      ((l.zip ((List.range' o l.length).map fun k =>
        pyInt (f k + √(config.det_params.fano_factor * f k) * z (skip^[k] s)))).map fun re =>
          pointCharge config grid g re.1 (if 1 ≤ re.2 then re.2 else 0)).sum
      = drawSum config grid g z skip (l.zip ((List.range' o l.length).map f)) (skip^[o] s) := by
    intro f l
    induction l with
    | nil => intro o; rfl
    | cons r l ih =>
      intro o
      rw [List.length_cons, List.range'_succ, List.map_cons, List.map_cons, List.zip_cons_cons, List.zip_cons_cons,
        List.map_cons, List.sum_cons, ih (o + 1), drawSum, Function.iterate_succ_apply']
      rfl
  have := key (meanAt nucleus config.det_params.w_value track) track 0
  rw [← List.range_eq_range'] at this
  exact this
end

section
variable {env : SimEnv} {momenta : List Vec4} {vertex : ℝ × ℝ × ℝ} {Zs As : List ℤ} {config : Config}
  {grid : PadGrid} {g : GridEdges} {indices : List ℤ}

theorem eventPoints_cons (params : DetectorParams) (idx : ℤ) (rest : List ℤ) :
    eventPoints env momenta vertex Zs As params (idx :: rest)
      = (match trackOf env momenta vertex Zs As params idx with
        | some (n, track) => track.zip (trackMeans n params track)
        | none => []) ++ eventPoints env momenta vertex Zs As params rest := by
  unfold eventPoints
  rw [List.flatMap_cons]

theorem eventPoints_nonneg {params : DetectorParams} (hW : 0 < params.w_value) (indices : List ℤ) :
    ∀ p ∈ eventPoints env momenta vertex Zs As params indices, 0 ≤ p.2 := by
  intro p hp
  unfold eventPoints at hp
  obtain ⟨idx, -, h⟩ := List.mem_flatMap.1 hp
  rcases ht : trackOf env momenta vertex Zs As params idx with _ | ⟨n, track⟩
  · rw [ht] at h; simp at h
  · rw [ht] at h
    obtain ⟨k, -, hk⟩ := List.mem_map.1 (List.of_mem_zip h).2
    rw [← hk]
    exact means_nonneg hW k

theorem trackOf_eq {params : DetectorParams} {idx zn a : ℤ} {nucleus : Nucleus} {q : Vec4} {track : List Row}
    (hz : pyGet Zs idx = .ok zn) (hz0 : zn ≠ 0) (ha : pyGet As idx = .ok a)
    (hn : env.get_data zn a = .ok nucleus) (hm : pyGet momenta idx = .ok q)
    (ht : generate_trajectory env.solve_ivp vertex (q.px, q.py, q.pz) nucleus params = .ok track) :
    trackOf env momenta vertex Zs As params idx = some (nucleus, track) := by
  unfold trackOf
  rw [hz, ha, hm]
  simp only [if_neg hz0, hn, ht]

theorem trackOf_neutral {params : DetectorParams} {idx : ℤ} (hz : pyGet Zs idx = .ok 0) :
    trackOf env momenta vertex Zs As params idx = none := by
  unfold trackOf
  rw [hz]
  cases pyGet As idx <;> cases pyGet momenta idx <;> simp

theorem trackOf_some {params : DetectorParams} {idx : ℤ} {nucleus : Nucleus} {track : List Row}
    (h : trackOf env momenta vertex Zs As params idx = some (nucleus, track)) :
    ∃ zn a q, pyGet Zs idx = .ok zn ∧ zn ≠ 0 ∧ pyGet As idx = .ok a ∧ env.get_data zn a = .ok nucleus ∧
      pyGet momenta idx = .ok q ∧
      generate_trajectory env.solve_ivp vertex (q.px, q.py, q.pz) nucleus params = .ok track := by
  unfold trackOf at h
  split at h
  · rename_i zn a q hz ha hq
    split_ifs at h with hz0
    split at h
    · rename_i n' hn
      split at h
      · rename_i track' htr
        simp only [Option.some.injEq, Prod.mk.injEq] at h
        obtain ⟨rfl, rfl⟩ := h
        exact ⟨zn, a, q, hz, hz0, ha, hn, hq, htr⟩
      · cases h
    · cases h
  · cases h

/-- The charge of the recorded deposits of an event. -/
theorem trace_drawSum (hr : FreshGen rng μ u z next skip) {s s' : σ} {tr : List (ℤ × List Deposit)}
    (h : EventTrace env momenta vertex Zs As config grid g rng indices s tr s') :
    windowSum (history tr) = drawSum config grid g z skip
      (eventPoints env momenta vertex Zs As config.det_params indices) s := by
  induction h with
  | nil s => simp [history, windowSum, eventPoints, drawSum]
  | neutral idx rest s s' tr hz _ ih =>
    rw [eventPoints_cons, trackOf_neutral hz]
    simpa [history] using ih
  | charged idx zn a nucleus momentum track primary rest s s₁ s' tr hz hz0 ha hn hm ht he _ ih =>
    have htr := trackOf_eq hz hz0 ha hn hm ht
    have e : windowSum (history ((idx, nucleusDeposits config grid g track primary idx) :: tr))
        = windowSum (nucleusDeposits config grid g track primary idx) + windowSum (history tr) := by
      rw [← windowSum_append]
      simp [history]
    rw [e, eventPoints_cons, htr]
    simp only
    rw [drawSum_append, ih, nucleus_drawSum hr idx he, electrons_state hr he]
    have : (track.zip (trackMeans nucleus config.det_params track)).length = track.length := by simp [trackMeans]
    rw [this]

omit [MeasurableSpace σ] in
/-- The simulation of the event succeeds from every state. -/
theorem drift_runs (rng : Gen σ) (hb : 0 < g.bin) (hgrid : config.pad_grid = some (grid, g))
    (hW : 0 < config.det_params.w_value) (hF : 0 ≤ config.det_params.fano_factor)
    (hE : config.det_params.efield ≠ 0)
    (hall : AllDrift env momenta vertex Zs As config indices) (s : σ) :
    ∃ r, simulate env momenta vertex Zs As config rng indices s = .ok r := by
  rw [simulate_ok_iff]
  generalize ([] : Points) = p
  induction indices generalizing p s with
  | nil => exact ⟨_, rfl⟩
  | cons idx rest ih =>
    have ih' := fun p s => ih (fun i hi => hall i (List.mem_cons_of_mem _ hi)) s p
    rcases hall idx (by simp) with h0 | ⟨n, track, h1, h2⟩
    · have e : simulate_nucleus env momenta vertex Zs As config rng (p, s) idx = .ok (p, s) := by
        unfold simulate_nucleus
        rw [h0]
        rfl
      obtain ⟨ps, h⟩ := ih' p s
      refine ⟨ps, ?_⟩
      rw [List.foldlM_cons, e]
      exact h
    · obtain ⟨zn, a, q, hz, hz0, ha, hn, hq, ht⟩ := trackOf_some h1
      obtain ⟨⟨primary, s'⟩, he⟩ := electrons_ok (nucleus := n) rng hW hF
        (Or.inr fun r hr => (h2 r hr).1) s
      have hc := generate_point_cloud_of hb hgrid p idx ht he fun re hre =>
        ⟨hE, (h2 re.1 (List.of_mem_zip (List.mem_filter.1 hre).1).1).2⟩
      have e : simulate_nucleus env momenta vertex Zs As config rng (p, s) idx
          = .ok (applyDeposits p (nucleusDeposits config grid g track primary idx), s') := by
        unfold simulate_nucleus
        rw [hz, ha, hq]
        simp only [bind, Except.bind, if_neg hz0, hn]
        exact hc
      obtain ⟨ps, h⟩ := ih' (applyDeposits p (nucleusDeposits config grid g track primary idx)) s'
      refine ⟨ps, ?_⟩
      rw [List.foldlM_cons, e]
      exact h

theorem eventCharge_drawSum (hr : FreshGen rng μ u z next skip) (hb : 0 < g.bin)
    (hgrid : config.pad_grid = some (grid, g))
    (hW : 0 < config.det_params.w_value) (hF : 0 ≤ config.det_params.fano_factor)
    (hE : config.det_params.efield ≠ 0)
    (hall : AllDrift env momenta vertex Zs As config indices) (s : σ) :
    eventCharge env momenta vertex Zs As config rng indices s
      = drawSum config grid g z skip (eventPoints env momenta vertex Zs As config.det_params indices) s := by
  have hl : LawfulGen rng := lawful_of_ranges hr.uniform hr.range hr.normal
  obtain ⟨⟨⟨cloud, labels⟩, s'⟩, h⟩ := drift_runs rng hb hgrid hW hF hE hall s
  unfold eventCharge
  rw [h]
  simp only
  obtain ⟨tr, s₁, htr, hsum⟩ := C76_balance hb hgrid hl h
  rw [hsum]
  have := trace_drawSum hr htr
  unfold windowSum at this
  rw [this]

/-- **C128.** Mean and resolution of the charge of any event. With an ideal generator, if all charged nuclei of
the event have trajectories from which electrons drift to the pad plane, the simulation succeeds. Let `A` be the
sum, over the track points, of the change of the kinetic energy over W times the share that is recorded, `B` the
same sum with the squares of the shares, and `N` the number of track points. The mean of the charge is the gain
times `A`, less at most one electron times the gain and the cutting loss, and more by at most a quarter of the
Fano factor `F` times the gain, per track point. Its standard deviation is the gain times `√(F B)`, up to
`√N` times the sum of the gain times `1/2 + √3 F / 4` and half the cutting loss. -/
theorem C128_moments (hr : IdealGen rng μ u z next skip) (hb : 0 < g.bin)
    (hgrid : config.pad_grid = some (grid, g)) (hgain : 0 ≤ config.det_params.mpgd_gain)
    (hW : 0 < config.det_params.w_value) (hF : 0 ≤ config.det_params.fano_factor)
    (hE : config.det_params.efield ≠ 0)
    (hall : AllDrift env momenta vertex Zs As config indices) {points : List (Row × ℝ)} {A B N : ℝ}
    (hpoints : points = eventPoints env momenta vertex Zs As config.det_params indices)
    (hA : A = (points.map fun p => recordedShare config grid g p.1 * p.2).sum)
    (hB : B = (points.map fun p => recordedShare config grid g p.1 ^ 2 * p.2).sum)
    (hN : N = points.length) :
    (∀ s, ∃ r, simulate env momenta vertex Zs As config rng indices s = .ok r) ∧
    MemLp (eventCharge env momenta vertex Zs As config rng indices) 2 μ ∧
    config.det_params.mpgd_gain * (A - N) - cutLoss config * N
      ≤ (∫ s, eventCharge env momenta vertex Zs As config rng indices s ∂μ) ∧
    (∫ s, eventCharge env momenta vertex Zs As config rng indices s ∂μ)
      ≤ config.det_params.mpgd_gain * (A + config.det_params.fano_factor / 4 * N) ∧
    |√(Var[eventCharge env momenta vertex Zs As config rng indices; μ])
        - config.det_params.mpgd_gain * √(config.det_params.fano_factor * B)|
      ≤ (config.det_params.mpgd_gain * (1 / 2 + √3 / 4 * config.det_params.fano_factor) + cutLoss config / 2)
        * √N := by
  have hg : (0 : ℝ) ≤ config.det_params.mpgd_gain := by exact_mod_cast hgain
  have hτ : 0 ≤ cutLoss config := by unfold cutLoss; split_ifs <;> norm_num
  have hLn : ∀ i : Fin points.length, 0 ≤ points[i].2 := fun i =>
    eventPoints_nonneg hW indices _ (by rw [← hpoints]; exact List.getElem_mem _)
  have hlaw : ∀ i : Fin points.length, μ.map (fun s => z (skip^[(i : ℕ)] s)) = gaussianReal 0 1 := by
    intro i
    rw [← hr.standard]
    ext B hB
    rw [Measure.map_apply (measurable_iterate hr.fresh.fresh_normal i) hB,
      Measure.map_apply hr.fresh.fresh_normal.value hB]
    exact fresh_iterate_law hr.fresh.fresh_normal i hB
  obtain ⟨G, hG⟩ : ∃ G : ℝ, G = config.det_params.mpgd_gain := ⟨_, rfl⟩
  have hkn : ∀ x, 0 ≤ kept x := fun x => by rw [kept_eq]; exact Int.floor_nonneg.2 (le_max_right _ _)
  have hacc := fun i : Fin points.length => recordedShare_range config grid g points[i].1
  obtain ⟨k1, k2, k3, k4⟩ := recording_sum (P := μ) (Finset.univ : Finset (Fin points.length))
    (m := fun i => points[i].2) (a := fun i => G * recordedShare config grid g points[i].1) (F := config.det_params.fano_factor)
    (G := G) (τ := cutLoss config) hLn hF
    (fun i => mul_nonneg (hG ▸ hg) (hacc i).1)
    (fun i => mul_le_of_le_one_right (hG ▸ hg) (hacc i).2) hτ (hG ▸ hg)
    (q := fun i x => (pointCharge config grid g points[i].1 (kept x) : ℝ))
    (fun i => ⟨by
        have : (fun x => (pointCharge config grid g points[i].1 (kept x) : ℝ))
            = (fun n : ℤ => (pointCharge config grid g points[i].1 n : ℝ)) ∘ fun x : ℝ => ⌊max x 0⌋ := by
          funext x
          simp only [Function.comp, kept_eq]
        rw [this]
        exact (measurable_from_top (f := fun n : ℤ => (pointCharge config grid g points[i].1 n : ℝ))).comp
          (Int.measurable_floor.comp (measurable_id.max measurable_const)),
      fun x => by rw [hG]; exact (pointCharge_bounds hgain _ (hkn x)).1,
      fun x => by rw [hG]; exact (pointCharge_bounds hgain _ (hkn x)).2⟩)
    (Z := fun i s => z (skip^[(i : ℕ)] s)) (fun i => measurable_iterate hr.fresh.fresh_normal i) hlaw
    ((fresh_indep hr.fresh.fresh_normal).precomp Fin.val_injective)
  have hQ : eventCharge env momenta vertex Zs As config rng indices
      = fun s => ∑ i : Fin points.length, (pointCharge config grid g points[i].1
        (kept (points[i].2 + √(config.det_params.fano_factor * points[i].2) * z (skip^[(i : ℕ)] s))) : ℝ) := by
    funext s
    rw [eventCharge_drawSum hr.fresh hb hgrid hW hF hE hall s, drawSum_eq, ← hpoints]
    push_cast
    rfl
  have hsA : ∑ i : Fin points.length, recordedShare config grid g points[i].1 * points[i].2 = A := by
    rw [hA]
    exact Fin.sum_univ_fun_getElem points fun p => recordedShare config grid g p.1 * p.2
  have hsB : ∑ i : Fin points.length, recordedShare config grid g points[i].1 ^ 2 * points[i].2 = B := by
    rw [hB]
    exact Fin.sum_univ_fun_getElem points fun p => recordedShare config grid g p.1 ^ 2 * p.2
  have hB0 : 0 ≤ B := by
    rw [← hsB]
    exact Finset.sum_nonneg fun i _ => mul_nonneg (sq_nonneg _) (hLn i)
  have hconst : ∀ c : ℝ, ∑ _i : Fin points.length, c = c * N := by
    intro c
    rw [hN]
    simp [mul_comm]
  rw [hQ, ← hG]
  rw [← hG] at hg
  refine ⟨drift_runs rng hb hgrid hW hF hE hall, k1, le_trans ?_ k2, k3.trans ?_, ?_⟩
  · have e : G * (A - N) - cutLoss config * N = ∑ i : Fin points.length,
        (G * (recordedShare config grid g points[i].1 * points[i].2) - G - cutLoss config) := by
      rw [Finset.sum_sub_distrib, Finset.sum_sub_distrib, hconst, hconst, ← Finset.mul_sum, hsA]
      ring
    rw [e]
    refine Finset.sum_le_sum fun i _ => ?_
    have := mul_le_of_le_one_right hg (hacc i).2
    linarith
  · have e : G * (A + config.det_params.fano_factor / 4 * N) = ∑ i : Fin points.length,
        (G * (recordedShare config grid g points[i].1 * points[i].2) + G * (config.det_params.fano_factor / 4)) := by
      rw [Finset.sum_add_distrib, hconst, ← Finset.mul_sum, hsA]
      ring
    rw [e]
    refine Finset.sum_le_sum fun i _ => ?_
    have := mul_le_mul_of_nonneg_right (mul_le_of_le_one_right hg (hacc i).2)
      (div_nonneg hF (by norm_num : (0 : ℝ) ≤ 4))
    linarith
  · have e : √(config.det_params.fano_factor
        * ∑ i : Fin points.length, (G * recordedShare config grid g points[i].1) ^ 2 * points[i].2)
        = G * √(config.det_params.fano_factor * B) := by
      have : config.det_params.fano_factor
          * ∑ i : Fin points.length, (G * recordedShare config grid g points[i].1) ^ 2 * points[i].2
          = G ^ 2 * (config.det_params.fano_factor * B) := by
        rw [← hsB, Finset.mul_sum, Finset.mul_sum, Finset.mul_sum]
        refine Finset.sum_congr rfl fun i _ => ?_
        ring
      rw [this, Real.sqrt_mul (sq_nonneg _), Real.sqrt_sq hg]
    rw [e] at k4
    have hcard : ((Finset.univ : Finset (Fin points.length)).card : ℝ) = N := by rw [hN]; simp
    rw [hcard] at k4
    exact k4

/-- A number whose standard deviation is at most `b` deviates from its mean by more than `c b` with a probability
of at most `1 / c²`. -/
theorem deviation_le {X : σ → ℝ} (hX : MemLp X 2 μ) {b c : ℝ} (hc : 0 < c) (hb : √(Var[X; μ]) ≤ b) :
    μ {s | c * b < |X s - ∫ s, X s ∂μ|} ≤ ENNReal.ofReal (1 / c ^ 2) := by
  have hb0 : 0 ≤ b := (Real.sqrt_nonneg _).trans hb
  have hv : Var[X; μ] ≤ b ^ 2 := (Real.sqrt_le_iff.1 hb).2
  rcases hb0.eq_or_lt with h0 | hpos
  · have hv0 : Var[X; μ] = 0 := by
      refine le_antisymm ?_ (variance_nonneg _ _)
      rw [← h0] at hv
      simpa using hv
    have he : evariance X μ = 0 := by
      rw [← hX.ofReal_variance_eq, hv0, ENNReal.ofReal_zero]
    rw [evariance_eq_zero_iff hX.aemeasurable] at he
    have : μ {s | c * b < |X s - ∫ s, X s ∂μ|} = 0 := by
      rw [← h0, mul_zero]
      refine measure_mono_null (fun s hs => ?_) he
      simp only [Set.mem_ofPred_eq, abs_pos, sub_ne_zero] at hs
      exact hs
    rw [this]
    exact zero_le
  · refine (measure_mono (t := {s | c * b ≤ |X s - ∫ s, X s ∂μ|}) fun s hs => ?_).trans
      ((meas_ge_le_variance_div_sq hX (mul_pos hc hpos)).trans (ENNReal.ofReal_le_ofReal ?_))
    · simp only [Set.mem_ofPred_eq] at hs ⊢
      exact hs.le
    · rw [div_le_div_iff₀ (by positivity) (by positivity), mul_pow]
      nlinarith [mul_le_mul_of_nonneg_right hv (sq_nonneg c)]

/-- **C128.** Large deviations are improbable: the charge differs from the gain times `A` by more than the bias of
one electron, or a quarter of the Fano factor, times the gain and the cutting loss per track point and `c` standard
deviations with a probability of at most `1 / c²`. -/
theorem C128_deviation (hr : IdealGen rng μ u z next skip) (hb : 0 < g.bin)
    (hgrid : config.pad_grid = some (grid, g)) (hgain : 0 ≤ config.det_params.mpgd_gain)
    (hW : 0 < config.det_params.w_value) (hF : 0 ≤ config.det_params.fano_factor)
    (hE : config.det_params.efield ≠ 0)
    (hall : AllDrift env momenta vertex Zs As config indices) {points : List (Row × ℝ)} {A B N c : ℝ}
    (hpoints : points = eventPoints env momenta vertex Zs As config.det_params indices)
    (hA : A = (points.map fun p => recordedShare config grid g p.1 * p.2).sum)
    (hB : B = (points.map fun p => recordedShare config grid g p.1 ^ 2 * p.2).sum)
    (hN : N = points.length) (hc : 0 < c) :
    μ {s | (config.det_params.mpgd_gain * max 1 (config.det_params.fano_factor / 4) + cutLoss config) * N
        + c * (config.det_params.mpgd_gain * √(config.det_params.fano_factor * B)
          + (config.det_params.mpgd_gain * (1 / 2 + √3 / 4 * config.det_params.fano_factor) + cutLoss config / 2)
            * √N)
        < |eventCharge env momenta vertex Zs As config rng indices s - config.det_params.mpgd_gain * A|}
      ≤ ENNReal.ofReal (1 / c ^ 2) := by
  obtain ⟨-, h2, h3, h4, h5⟩ := C128_moments hr hb hgrid hgain hW hF hE hall hpoints hA hB hN
  have hg : (0 : ℝ) ≤ config.det_params.mpgd_gain := by exact_mod_cast hgain
  have hτ : 0 ≤ cutLoss config := by unfold cutLoss; split_ifs <;> norm_num
  have hN0 : 0 ≤ N := by rw [hN]; exact Nat.cast_nonneg _
  obtain ⟨Q, hQ⟩ : ∃ Q, Q = eventCharge env momenta vertex Zs As config rng indices := ⟨_, rfl⟩
  rw [← hQ] at h2 h3 h4 h5 ⊢
  obtain ⟨F, hFe⟩ : ∃ F, F = config.det_params.fano_factor := ⟨_, rfl⟩
  rw [← hFe] at h4 h5 ⊢
  obtain ⟨G, hG⟩ : ∃ G : ℝ, G = config.det_params.mpgd_gain := ⟨_, rfl⟩
  rw [← hG] at h3 h4 h5 hg ⊢
  obtain ⟨τ, hτe⟩ : ∃ τ, τ = cutLoss config := ⟨_, rfl⟩
  rw [← hτe] at h3 h5 hτ ⊢
  have hsd : √(Var[Q; μ]) ≤ G * √(F * B) + (G * (1 / 2 + √3 / 4 * F) + τ / 2) * √N := by
    have := (abs_le.1 h5).2
    linarith
  refine (measure_mono fun s hs => ?_).trans (deviation_le h2 hc hsd)
  simp only [Set.mem_ofPred_eq] at hs ⊢
  have hm : |(∫ s, Q s ∂μ) - G * A| ≤ (G * max 1 (F / 4) + τ) * N := by
    have m1 := mul_le_mul_of_nonneg_left (mul_le_mul_of_nonneg_right (le_max_left 1 (F / 4)) hN0) hg
    have m2 := mul_le_mul_of_nonneg_left (mul_le_mul_of_nonneg_right (le_max_right 1 (F / 4)) hN0) hg
    have m3 := mul_nonneg hτ hN0
    rw [abs_le]
    constructor <;> linarith
  have ht : |Q s - G * A| ≤ |Q s - ∫ s, Q s ∂μ| + |(∫ s, Q s ∂μ) - G * A| := by
    have := abs_add_le (Q s - ∫ s, Q s ∂μ) ((∫ s, Q s ∂μ) - G * A)
    rwa [sub_add_sub_cancel] at this
  linarith

/-- Every nucleus is neutral or has a trajectory. -/
def AllTracked (env : SimEnv) (momenta : List Vec4) (vertex : ℝ × ℝ × ℝ) (Zs As : List ℤ)
    (params : DetectorParams) (indices : List ℤ) : Prop :=
  ∀ idx ∈ indices, pyGet Zs idx = .ok 0 ∨
    ∃ n track, trackOf env momenta vertex Zs As params idx = some (n, track)

/-- The energy and the points of the tracks of nuclei that stop. -/
theorem stopped_sums (hivp : SolvesToTheEnd env.solve_ivp) (hW : 0 < config.det_params.w_value)
    {K p S S' late : ℤ → ℝ}
    (hst : StopsRecorded env momenta vertex Zs As config grid g indices K p S S' late)
    (hall : AllTracked env momenta vertex Zs As config.det_params indices) :
    (((indices.filter (isCharged Zs)).map K).sum - ((indices.filter (isCharged Zs)).map late).sum)
        * 1000000 / config.det_params.w_value
      ≤ ((eventPoints env momenta vertex Zs As config.det_params indices).map (·.2)).sum ∧
    ((eventPoints env momenta vertex Zs As config.det_params indices).map (·.2)).sum
      ≤ ((indices.filter (isCharged Zs)).map K).sum * 1000000 / config.det_params.w_value ∧
    ((eventPoints env momenta vertex Zs As config.det_params indices).length : ℝ)
      ≤ ((indices.filter (isCharged Zs)).map fun idx => stepBound (p idx) (S idx) + 1).sum ∧
    ∀ q ∈ eventPoints env momenta vertex Zs As config.det_params indices,
      Recorded config grid g q.1.x q.1.y q.1.z := by
  induction indices with
  | nil => simp [eventPoints]
  | cons idx rest ih =>
    obtain ⟨i1, i2, i3, i4⟩ := ih (fun i hi => hst i (List.mem_cons_of_mem _ hi))
      (fun i hi => hall i (List.mem_cons_of_mem _ hi))
    rw [eventPoints_cons]
    rcases hall idx (by simp) with h0 | ⟨n, track, ht⟩
    · have hc : isCharged Zs idx = false := by unfold isCharged; rw [h0]; simp
      rw [List.filter_cons_of_neg (by simp [hc]), trackOf_neutral h0]
      exact ⟨i1, i2, i3, i4⟩
    · obtain ⟨zn, a, q, hz, hz0, ha, hn, hq, htr⟩ := trackOf_some ht
      have hc : isCharged Zs idx = true := by unfold isCharged; rw [hz]; simpa using hz0
      rw [List.filter_cons_of_pos hc, ht]
      simp only [List.map_cons, List.sum_cons, List.map_append, List.sum_append, List.length_append]
      obtain ⟨h1, h2, h3⟩ := hst idx (by simp) zn a n q hz hz0 ha hn hq
      obtain ⟨t1, t2, t3, t4⟩ := C126_track hivp h1 htr
      have hlen : (track.length : ℝ) ≤ ((track.length - 1 : ℕ) : ℝ) + 1 := by
        have : track.length ≤ (track.length - 1 : ℕ) + 1 := by omega
        exact_mod_cast this
      have hzip : (track.zip (trackMeans n config.det_params track)).length = track.length := by simp [trackMeans]
      have hsnd : (track.zip (trackMeans n config.det_params track)).map (·.2)
          = trackMeans n config.det_params track := by
        rw [List.map_snd_zip]
        simp [trackMeans]
      rw [hsnd, trackMeans_sum, Nat.cast_add, hzip]
      refine ⟨?_, ?_, by linarith, ?_⟩
      · have : (K idx - late idx) * 1000000 / config.det_params.w_value
            ≤ energyVariation n track * 1000000 / config.det_params.w_value := by
          gcongr
          linarith
        have e : ∀ a b c d w : ℝ, (a + b - (c + d)) * 1000000 / w = (a - c) * 1000000 / w + (b - d) * 1000000 / w := by
          intros; ring
        rw [e]
        linarith
      · have : energyVariation n track * 1000000 / config.det_params.w_value
            ≤ K idx * 1000000 / config.det_params.w_value := by
          gcongr
          linarith
        have e : ∀ a b w : ℝ, (a + b) * 1000000 / w = a * 1000000 / w + b * 1000000 / w := by
          intros; ring
        rw [e]
        linarith
      · intro x hx
        rcases List.mem_append.1 hx with hx | hx
        · exact h3 _ _ _ (t4 x.1 (List.of_mem_zip hx).1)
        · exact i4 x hx

/-- Stopping nuclei move at all points of their tracks, and the electrons drift. -/
theorem stopped_drift (hivp : SolvesToTheEnd env.solve_ivp) (hev : RespectsEvents env.solve_ivp)
    {K p S S' late : ℤ → ℝ}
    (hst : StopsRecorded env momenta vertex Zs As config grid g indices K p S S' late)
    (hall : AllTracked env momenta vertex Zs As config.det_params indices)
    (hdrift : ∀ idx ∈ indices, isCharged Zs idx = true → ∀ z, |z - vertex.2.2| ≤ rangeBound (K idx) (S idx) →
      0 ≤ 2 * config.det_params.diffusion * config.drift_velocity * arrival config z / config.det_params.efield) :
    AllDrift env momenta vertex Zs As config indices := by
  intro idx hidx
  rcases hall idx hidx with h0 | ⟨n, track, ht⟩
  · exact .inl h0
  · refine .inr ⟨n, track, ht, fun r hr => ?_⟩
    obtain ⟨zn, a, q, hz, hz0, ha, hn, hq, htr⟩ := trackOf_some ht
    obtain ⟨h1, -, h3⟩ := hst idx hidx zn a n q hz hz0 ha hn hq
    obtain ⟨-, -, -, t4⟩ := C126_track hivp h1 htr
    refine ⟨?_, hdrift idx hidx (by unfold isCharged; rw [hz]; simpa using hz0) r.z ?_⟩
    · refine fun hmov => (trajectory_energy hev ?_ htr r hr).1 (by
        have h2 : r.gv ^ 2 = r.gvx ^ 2 + r.gvy ^ 2 + r.gvz ^ 2 := gv_sq r
        rw [hmov.1, hmov.2.1, hmov.2.2] at h2
        simpa using h2)
      have hp2 : p idx ^ 2 = q.px ^ 2 + q.py ^ 2 + q.pz ^ 2 := by
        rw [h1.momentum_eq, Real.sq_sqrt (by positivity)]
      rw [kinetic_initial h1.mass]
      simp only
      rw [← hp2, ← h1.energy_eq]
      exact h1.energy
    · refine le_trans ?_ (t4 r hr)
      refine Real.abs_le_sqrt ?_
      nlinarith [sq_nonneg (r.x - vertex.1), sq_nonneg (r.y - vertex.2.1)]

/-- The smallest share that the pixels of a recorded point have. -/
noncomputable def pixelShare (config : Config) : ℝ := if config.det_params.diffusion = 0 then 1 else 0.998

/-- Mean and standard deviation from bounds of the summed energies over W and of the number of points, if all
points are recorded. -/
theorem recorded_resolution (hr : IdealGen rng μ u z next skip) (hb : 0 < g.bin)
    (hgrid : config.pad_grid = some (grid, g)) (hgain : 0 ≤ config.det_params.mpgd_gain)
    (hW : 0 < config.det_params.w_value) (hF : 0 ≤ config.det_params.fano_factor)
    (hE : config.det_params.efield ≠ 0) (hall : AllDrift env momenta vertex Zs As config indices) {L H N : ℝ}
    (v1 : L ≤ ((eventPoints env momenta vertex Zs As config.det_params indices).map (·.2)).sum)
    (v2 : ((eventPoints env momenta vertex Zs As config.det_params indices).map (·.2)).sum ≤ H)
    (v3 : ((eventPoints env momenta vertex Zs As config.det_params indices).length : ℝ) ≤ N)
    (v4 : ∀ q ∈ eventPoints env momenta vertex Zs As config.det_params indices,
      Recorded config grid g q.1.x q.1.y q.1.z) :
    (∀ s, ∃ r, simulate env momenta vertex Zs As config rng indices s = .ok r) ∧
    config.det_params.mpgd_gain * (pixelShare config * L - N) - cutLoss config * N
      ≤ (∫ s, eventCharge env momenta vertex Zs As config rng indices s ∂μ) ∧
    (∫ s, eventCharge env momenta vertex Zs As config rng indices s ∂μ)
      ≤ config.det_params.mpgd_gain * (H + config.det_params.fano_factor / 4 * N) ∧
    config.det_params.mpgd_gain * (pixelShare config * √(config.det_params.fano_factor * L))
        - (config.det_params.mpgd_gain * (1 / 2 + √3 / 4 * config.det_params.fano_factor) + cutLoss config / 2) * √N
      ≤ √(Var[eventCharge env momenta vertex Zs As config rng indices; μ]) ∧
    √(Var[eventCharge env momenta vertex Zs As config rng indices; μ])
      ≤ config.det_params.mpgd_gain * √(config.det_params.fano_factor * H)
        + (config.det_params.mpgd_gain * (1 / 2 + √3 / 4 * config.det_params.fano_factor) + cutLoss config / 2)
          * √N := by
  obtain ⟨points, hpoints⟩ : ∃ points, points = eventPoints env momenta vertex Zs As config.det_params indices :=
    ⟨_, rfl⟩
  obtain ⟨h1, h2, h3, h4, h5⟩ := C128_moments hr hb hgrid hgain hW hF hE
    hall hpoints rfl rfl rfl
  have hpos : ∀ q ∈ points, 0 ≤ q.2 := fun q hq => eventPoints_nonneg hW indices q (by rw [← hpoints]; exact hq)
  rw [← hpoints] at v1 v2 v3 v4
  have hw : ∀ q ∈ points, pixelShare config ≤ recordedShare config grid g q.1 := by
    intro q hq
    obtain ⟨a1, a2⟩ := recordedShare_recorded (v4 q hq)
    unfold pixelShare
    split_ifs with hD
    · exact (a1 hD).ge
    · exact a2
  have hw0 : 0 ≤ pixelShare config := by unfold pixelShare; split_ifs <;> norm_num
  have hτ : 0 ≤ cutLoss config := by unfold cutLoss; split_ifs <;> norm_num
  have hg : (0 : ℝ) ≤ config.det_params.mpgd_gain := by exact_mod_cast hgain
  obtain ⟨n, hn⟩ : ∃ n : ℝ, n = points.length := ⟨_, rfl⟩
  obtain ⟨M, hM⟩ : ∃ M : ℝ, M = (points.map (·.2)).sum := ⟨_, rfl⟩
  obtain ⟨A, hA⟩ : ∃ A, A = (points.map fun p => recordedShare config grid g p.1 * p.2).sum := ⟨_, rfl⟩
  obtain ⟨B, hB⟩ : ∃ B, B = (points.map fun p => recordedShare config grid g p.1 ^ 2 * p.2).sum := ⟨_, rfl⟩
  have hA1 : pixelShare config * M ≤ A := by
    rw [hM, hA, ← List.sum_map_mul_left]
    exact List.sum_le_sum fun q hq => mul_le_mul_of_nonneg_right (hw q hq) (hpos q hq)
  have hA2 : A ≤ M := by
    rw [hM, hA]
    exact List.sum_le_sum fun q hq => mul_le_of_le_one_left (hpos q hq) (recordedShare_range config grid g q.1).2
  have hB1 : pixelShare config ^ 2 * M ≤ B := by
    rw [hM, hB, ← List.sum_map_mul_left]
    exact List.sum_le_sum fun q hq => mul_le_mul_of_nonneg_right (pow_le_pow_left₀ hw0 (hw q hq) 2) (hpos q hq)
  have hB2 : B ≤ M := by
    rw [hM, hB]
    refine List.sum_le_sum fun q hq => mul_le_of_le_one_left (hpos q hq) ?_
    obtain ⟨r1, r2⟩ := recordedShare_range config grid g q.1
    exact pow_le_one₀ r1 r2
  rw [← hM] at v1 v2
  rw [← hn] at v3
  rw [← hA, ← hn] at h3 h4
  rw [← hB, ← hn] at h5
  have hn0 : 0 ≤ n := by rw [hn]; exact Nat.cast_nonneg _
  obtain ⟨Q, hQ⟩ : ∃ Q, Q = eventCharge env momenta vertex Zs As config rng indices := ⟨_, rfl⟩
  rw [← hQ] at h2 h3 h4 h5 ⊢
  obtain ⟨F, hFe⟩ : ∃ F, F = config.det_params.fano_factor := ⟨_, rfl⟩
  rw [← hFe] at h4 h5 hF ⊢
  obtain ⟨G, hG⟩ : ∃ G : ℝ, G = config.det_params.mpgd_gain := ⟨_, rfl⟩
  rw [← hG] at h3 h4 h5 hg ⊢
  obtain ⟨τ, hτe⟩ : ∃ τ, τ = cutLoss config := ⟨_, rfl⟩
  rw [← hτe] at h3 h5 hτ ⊢
  obtain ⟨w, hwe⟩ : ∃ w, w = pixelShare config := ⟨_, rfl⟩
  rw [← hwe] at hA1 hB1 hw0 ⊢
  have hk : 0 ≤ G * (1 / 2 + √3 / 4 * F) + τ / 2 := by positivity
  have e1 := mul_le_mul_of_nonneg_left (Real.sqrt_le_sqrt v3) hk
  have e2 := mul_le_mul_of_nonneg_left (Real.sqrt_le_sqrt (mul_le_mul_of_nonneg_left (hB2.trans v2) hF)) hg
  have e3 : G * (w * √(F * L)) ≤ G * √(F * B) := by
    refine mul_le_mul_of_nonneg_left ?_ hg
    have : w * √(F * L) = √(w ^ 2 * (F * L)) := by
      rw [Real.sqrt_mul (sq_nonneg _), Real.sqrt_sq hw0]
    rw [this]
    refine Real.sqrt_le_sqrt ?_
    have := mul_le_mul_of_nonneg_left ((mul_le_mul_of_nonneg_left v1 (sq_nonneg w)).trans hB1) hF
    linarith
  obtain ⟨s1, s2⟩ := abs_le.1 h5
  have b1 := mul_le_mul_of_nonneg_left ((mul_le_mul_of_nonneg_left v1 hw0).trans hA1) hg
  have b2 := mul_le_mul_of_nonneg_left v3 hg
  have b3 := mul_le_mul_of_nonneg_left v3 hτ
  have b4 := mul_le_mul_of_nonneg_left v3 (mul_nonneg hg (by positivity : 0 ≤ F / 4))
  have b5 := mul_le_mul_of_nonneg_left (hA2.trans v2) hg
  exact ⟨h1, by linarith, by linarith, by linarith, by linarith⟩

/-- **C128.** The energy resolution for nuclei that stop in the gas, recorded by the detector. With `E` the summed
kinetic energies over W, `L` the energies 0.1 ns before the tracks end over W, and `N` the largest number of track
points, the mean charge is the gain times `E`, up to the gain times `L`, 0.2 % if there is diffusion, and a bias per
point; its standard deviation is the gain times `√(F E)`, up to the same parts, and
`√N` times the sum of the gain times `1/2 + √3 F / 4` and half the cutting loss. -/
theorem C128_energy (hr : IdealGen rng μ u z next skip) (hb : 0 < g.bin)
    (hgrid : config.pad_grid = some (grid, g)) (hgain : 0 ≤ config.det_params.mpgd_gain)
    (hW : 0 < config.det_params.w_value) (hF : 0 ≤ config.det_params.fano_factor)
    (hE : config.det_params.efield ≠ 0)
    (hivp : SolvesToTheEnd env.solve_ivp) (hev : RespectsEvents env.solve_ivp) {K p S S' late : ℤ → ℝ}
    (hst : StopsRecorded env momenta vertex Zs As config grid g indices K p S S' late)
    (hall : AllTracked env momenta vertex Zs As config.det_params indices)
    (hdrift : ∀ idx ∈ indices, isCharged Zs idx = true → ∀ z, |z - vertex.2.2| ≤ rangeBound (K idx) (S idx) →
      0 ≤ 2 * config.det_params.diffusion * config.drift_velocity * arrival config z / config.det_params.efield)
    {E L N : ℝ}
    (hEe : E = ((indices.filter (isCharged Zs)).map K).sum * 1000000 / config.det_params.w_value)
    (hLe : L = ((indices.filter (isCharged Zs)).map late).sum * 1000000 / config.det_params.w_value)
    (hN : N = ((indices.filter (isCharged Zs)).map fun idx => stepBound (p idx) (S idx) + 1).sum) :
    (∀ s, ∃ r, simulate env momenta vertex Zs As config rng indices s = .ok r) ∧
    config.det_params.mpgd_gain * (pixelShare config * (E - L) - N) - cutLoss config * N
      ≤ (∫ s, eventCharge env momenta vertex Zs As config rng indices s ∂μ) ∧
    (∫ s, eventCharge env momenta vertex Zs As config rng indices s ∂μ)
      ≤ config.det_params.mpgd_gain * (E + config.det_params.fano_factor / 4 * N) ∧
    config.det_params.mpgd_gain * (pixelShare config * √(config.det_params.fano_factor * (E - L)))
        - (config.det_params.mpgd_gain * (1 / 2 + √3 / 4 * config.det_params.fano_factor) + cutLoss config / 2) * √N
      ≤ √(Var[eventCharge env momenta vertex Zs As config rng indices; μ]) ∧
    √(Var[eventCharge env momenta vertex Zs As config rng indices; μ])
      ≤ config.det_params.mpgd_gain * √(config.det_params.fano_factor * E)
        + (config.det_params.mpgd_gain * (1 / 2 + √3 / 4 * config.det_params.fano_factor) + cutLoss config / 2)
          * √N := by
  obtain ⟨v1, v2, v3, v4⟩ := stopped_sums hivp hW hst hall
  rw [sub_mul, sub_div, ← hEe, ← hLe] at v1
  rw [← hEe] at v2
  rw [← hN] at v3
  exact recorded_resolution hr hb hgrid hgain hW hF hE (stopped_drift hivp hev hst hall hdrift) v1 v2 v3 v4

end


/-! ## An event -/

/-- The detector of `calConfig`, which has diffusion, with a Fano factor of 0.2. -/
noncomputable def resConfig : Config :=
  { calConfig with det_params := { calDet with fano_factor := 0.2 } }

theorem res_recorded {x y z : ℝ}
    (h : Real.sqrt ((x - 0) ^ 2 + (y - 0) ^ 2 + (z - 1 / 2) ^ 2) ≤ rangeBound 2 98) :
    Recorded resConfig wideGrid wideEdges x y z := cal_recorded h

theorem res_stops : StopsInGas (0, 0, 1 / 2) (0, 122, 0) stopNucleus resConfig.det_params 2 122 98 100 := by
  obtain ⟨h1, h2, h3, h4, h5, h6, h7, h8, h9, h10, h11, h12, h13, h14⟩ := stopField_stops
  exact ⟨h1, h2, h3, h4, h5, h6, h7, h8, h9, h10, h11, h12, h13, h14⟩

/-- Example: the event of a charged nucleus of 2 MeV and a neutron, now with a Fano factor of 0.2. All runs of
the simulation succeed; the mean of the charge is 6.67 million electrons within 0.5 %, and its standard deviation
between 0.16 % and 0.19 % of that. -/
example : ∃ env : SimEnv,
    (∀ s, ∃ r, simulate env calMomenta (0, 0, 1 / 2) [2, 2, 0] [4, 4, 1] resConfig pairGen [1, 2] s = .ok r) ∧
    |(∫ s, eventCharge env calMomenta (0, 0, 1 / 2) [2, 2, 0] [4, 4, 1] resConfig pairGen [1, 2] s ∂pairMeasure)
      - 6666667| ≤ 29000 ∧
    10750 ≤ √(Var[eventCharge env calMomenta (0, 0, 1 / 2) [2, 2, 0] [4, 4, 1] resConfig pairGen [1, 2];
      pairMeasure]) ∧
    √(Var[eventCharge env calMomenta (0, 0, 1 / 2) [2, 2, 0] [4, 4, 1] resConfig pairGen [1, 2];
      pairMeasure]) ≤ 12300 := by
  obtain ⟨ivp, hend, -, hresp, -, -, hok⟩ := C105_solver
  have hst := res_stops
  have hKy : KE_LIMIT ≤ kinetic stopNucleus
      (trajectory_problem (0, 0, 1 / 2) (0, 122, 0) stopNucleus resConfig.det_params).y0 := by
    rw [kinetic_initial hst.mass]
    simp only
    have : (0 : ℝ) ^ 2 + 122 ^ 2 + 0 ^ 2 + stopNucleus.mass ^ 2 = 3722 ^ 2 := by norm_num [stopNucleus]
    rw [this, Real.sqrt_sq (by norm_num)]
    norm_num [stopNucleus, KE_LIMIT]
  obtain ⟨sol, hsol⟩ := hok (0, 0, 1 / 2) (0, 122, 0) stopNucleus resConfig.det_params hst.mass hst.dedx
    hst.density hst.smooth hKy
  have htrack : generate_trajectory ivp (0, 0, 1 / 2) (0, 122, 0) stopNucleus resConfig.det_params
      = .ok (sol.map Prod.snd) := by
    unfold generate_trajectory
    rw [hsol]
  have hw : resConfig.det_params.w_value = 30 := rfl
  have hgain : resConfig.det_params.mpgd_gain = 100 := rfl
  have hF : resConfig.det_params.fano_factor = 0.2 := rfl
  obtain ⟨env, henv⟩ : ∃ env : SimEnv, env = ⟨fun _ _ => .ok stopNucleus, ivp⟩ := ⟨_, rfl⟩
  have hrecd : StopsRecorded env calMomenta (0, 0, 1 / 2) [2, 2, 0] [4, 4, 1] resConfig wideGrid wideEdges [1, 2]
      (fun _ => 2) (fun _ => 122) (fun _ => 98) (fun _ => 100) (fun _ => 0.002) := by
    intro idx hidx z a nucleus momentum hz hz0 ha hn hm
    simp only [List.mem_cons, List.not_mem_nil, or_false] at hidx
    rw [henv] at hn
    obtain rfl := Except.ok.inj hn
    rcases hidx with rfl | rfl
    · have e : pyGet calMomenta 1 = .ok ⟨0, 122, 0, 3722⟩ := rfl
      rw [e] at hm
      obtain rfl := Except.ok.inj hm
      exact ⟨res_stops, stopField_late, fun x y z h => res_recorded h⟩
    · have e : pyGet [(2 : ℤ), 2, 0] 2 = .ok 0 := rfl
      rw [e] at hz
      exact absurd (Except.ok.inj hz).symm hz0
  have hall : AllTracked env calMomenta (0, 0, 1 / 2) [2, 2, 0] [4, 4, 1] resConfig.det_params [1, 2] := by
    intro idx hidx
    simp only [List.mem_cons, List.not_mem_nil, or_false] at hidx
    rcases hidx with rfl | rfl
    · refine .inr ⟨stopNucleus, sol.map Prod.snd, trackOf_eq (zn := 2) (a := 4) (q := ⟨0, 122, 0, 3722⟩)
        rfl (by norm_num) rfl (by rw [henv]) rfl ?_⟩
      rw [henv]
      exact htrack
    · exact .inl rfl
  have hend' : SolvesToTheEnd env.solve_ivp := by rw [henv]; exact hend
  have hresp' : RespectsEvents env.solve_ivp := by rw [henv]; exact hresp
  have hfield : resConfig.det_params.efield = 1000000 := rfl
  have hdif : resConfig.det_params.diffusion = 1 := rfl
  have hdr : ∀ idx ∈ [(1 : ℤ), 2], isCharged [2, 2, 0] idx = true → ∀ x : ℝ, |x - ((0 : ℝ), (0 : ℝ), (1 / 2 : ℝ)).2.2|
      ≤ rangeBound 2 98 → 0 ≤ 2 * resConfig.det_params.diffusion * resConfig.drift_velocity * arrival resConfig x
        / resConfig.det_params.efield := by
    intro idx _ _ x hx
    have hR : rangeBound 2 98 ≤ 0.021 := by norm_num [rangeBound]
    have hx' := (abs_le.1 (hx.trans hR)).2
    simp only at hx'
    have harr : arrival resConfig x = (1 - x) * 100 := cal_arrival x
    have hv : resConfig.drift_velocity = 0.01 := rfl
    rw [harr, hfield, hv, hdif]
    apply div_nonneg _ (by norm_num)
    nlinarith
  obtain ⟨r1, r2, r2', r3, r4⟩ := C128_energy pairGen_ideal (by norm_num [wideEdges]) rfl (by rw [hgain]; norm_num)
    (by rw [hw]; norm_num) (by rw [hF]; norm_num) (by rw [hfield]; norm_num) hend' hresp' hrecd hall hdr rfl rfl rfl
  have hch : [(1 : ℤ), 2].filter (isCharged [2, 2, 0]) = [1] := by decide
  have hcut : cutLoss resConfig = 100 := by unfold cutLoss; rw [hdif]; norm_num
  have hshare : pixelShare resConfig = 0.998 := by unfold pixelShare; rw [hdif]; norm_num
  rw [hch] at r2 r2' r3 r4
  simp only [List.map_cons, List.map_nil, List.sum_cons, List.sum_nil, add_zero, hw, hgain, hF, hcut, hshare]
    at r2 r2' r3 r4
  have h4 : stepBound 122 98 ≤ 42 := by norm_num [stepBound]
  have h4' : 0 ≤ stepBound 122 98 := by norm_num [stepBound]
  obtain ⟨B, hB⟩ : ∃ B, B = stepBound 122 98 := ⟨_, rfl⟩
  rw [← hB] at r2 r2' r3 r4 h4 h4'
  have h3 : √3 ≤ 1.8 := by rw [Real.sqrt_le_left (by norm_num)]; norm_num
  have h3' : 0 ≤ √(3 : ℝ) := Real.sqrt_nonneg _
  have hs : √(B + 1) ≤ 6.6 := by
    rw [Real.sqrt_le_left (by norm_num)]
    linarith
  have hs' := Real.sqrt_nonneg (B + 1)
  have hu : √((0.2 : ℝ) * (2 * 1000000 / 30)) ≤ 115.5 := by
    rw [Real.sqrt_le_left (by norm_num)]
    norm_num
  have hl : 115.3 ≤ √((0.2 : ℝ) * (2 * 1000000 / 30 - 0.002 * 1000000 / 30)) := by
    apply Real.le_sqrt_of_sq_le
    norm_num
  have hprod : (100 * (1 / 2 + √3 / 4 * 0.2) + 100 / 2) * √(B + 1) ≤ 109 * 6.6 :=
    mul_le_mul (by linarith) hs hs' (by norm_num)
  push_cast at r2 r2' r3 r4
  refine ⟨env, r1, ?_, by linarith, by linarith⟩
  rw [abs_le]
  constructor <;> linarith

end Verif.Props
