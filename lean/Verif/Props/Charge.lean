import Verif.Props.Simulate
import Verif.Props.Ionisation
import Verif.Props.Motion
import Verif.Spec.Charge

/-! # C76: the charge balance of an event -/

namespace Verif.Detector

open Verif.Spec Verif.Kinematics

theorem sum_ite_mem {α : Type} [DecidableEq α] (l : List α) (hl : l.Nodup) (x : α) (a : ℤ) :
    (l.map fun c => if x = c then a else 0).sum = if x ∈ l then a else 0 := by
  induction l with
  | nil => simp
  | cons c l ih =>
    rw [List.nodup_cons] at hl
    rw [List.map_cons, List.sum_cons, ih hl.2]
    by_cases h : x = c
    · subst h
      simp [hl.1]
    · simp [h]

theorem chargeAt_cons (d : Deposit) (h : List Deposit) (tb pad : ℤ) :
    chargeAt (d :: h) tb pad = (if (d.tb, d.pad) = (tb, pad) then d.e else 0) + chargeAt h tb pad := by
  unfold chargeAt
  rw [List.filter_cons]
  by_cases hd : d.at tb pad
  · have : (d.tb, d.pad) = (tb, pad) := Prod.ext hd.1 hd.2
    rw [if_pos (by simpa using hd), if_pos this]
    simp
  · have : ¬ (d.tb, d.pad) = (tb, pad) := fun e => hd ⟨congrArg Prod.fst e, congrArg Prod.snd e⟩
    rw [if_neg (by simpa using hd), if_neg this]
    simp

/-- Adding up the charges of a set of cells gives the deposits on those cells. -/
theorem sum_chargeAt (cells : List (ℤ × ℤ)) (hn : cells.Nodup) (h : List Deposit) :
    (cells.map fun c => chargeAt h c.1 c.2).sum
      = ((h.filter fun d => decide ((d.tb, d.pad) ∈ cells)).map (·.e)).sum := by
  induction h with
  | nil => simp [chargeAt]
  | cons d h ih =>
    simp only [chargeAt_cons]
    rw [List.sum_map_add, ih, sum_ite_mem cells hn (d.tb, d.pad) d.e, List.filter_cons]
    by_cases hd : (d.tb, d.pad) ∈ cells
    · simp [hd]
    · simp [hd]

/-- **C76.** The charges of the rows of a point cloud add up to exactly the electrons deposited in the
recorded window: nothing is lost or counted twice between transport and cloud. -/
theorem C76_balance {σ : Type} {env : SimEnv} {momenta : List Vec4} {vertex : ℝ × ℝ × ℝ}
    {Zs As : List ℤ} {config : Config} {grid : PadGrid} {g : GridEdges} (hb : 0 < g.bin)
    (hgrid : config.pad_grid = some (grid, g)) {rng : Gen σ} (hr : LawfulGen rng)
    {indices : List ℤ} {s s' : σ} {cloud : List CloudPoint} {labels : List ℤ}
    (h : simulate env momenta vertex Zs As config rng indices s = .ok ((cloud, labels), s')) :
    ∃ tr s₁, EventTrace env momenta vertex Zs As config grid g rng indices s tr s₁ ∧
      (cloud.map (·.e)).sum
        = ((((history tr).filter fun d => decide (InWindow d)).map (·.e)).sum : ℤ) := by
  obtain ⟨tr, s₁, htr, hlen, cells, hnd, hmem, hdesc⟩ := simulate_cells hb hgrid hr h
  refine ⟨tr, s₁, htr, ?_⟩
  have h1 : cloud.map (·.e) = cells.map fun c => ((chargeAt (history tr) c.1 c.2 : ℤ) : ℝ) := by
    have hz : cloud.map (·.e) = (cloud.zip labels).map fun rl => rl.1.e := by
      rw [show (fun rl : CloudPoint × ℤ => rl.1.e) = (fun r : CloudPoint => r.e) ∘ Prod.fst from rfl,
        ← List.map_map, List.map_fst_zip hlen.le]
    rw [hz]
    clear hmem hnd hz
    generalize cloud.zip labels = rows at hdesc
    induction hdesc with
    | nil => rfl
    | cons hd _ ih => rw [List.map_cons, List.map_cons, ih, hd.2.2.2.1]
  rw [h1, show (fun c : ℤ × ℤ => ((chargeAt (history tr) c.1 c.2 : ℤ) : ℝ))
    = Int.cast ∘ fun c => chargeAt (history tr) c.1 c.2 from rfl, ← List.map_map,
    ← Int.cast_list_sum, sum_chargeAt cells hnd]
  congr 3
  apply List.filter_congr
  intro d hd
  simp only [decide_eq_decide]
  rw [hmem]
  constructor
  · exact fun h => h.2
  · exact fun h => ⟨⟨d, hd, rfl, rfl⟩, h⟩

theorem pointDeposits_le (grid : PadGrid) (g : GridEdges) (time : ℝ) (center : ℝ × ℝ) (e : ℤ)
    (he : 0 ≤ e) {sigma : ℝ} (label : ℤ) :
    ((pointDeposits grid g time center e sigma label).map (·.e)).sum ≤ e := by
  unfold pointDeposits
  split_ifs with h0
  · cases activePad grid g center <;> simp [he]
  · have h1 := mesh_deposits_le grid g time e he label _ (meshPoints_nonneg center sigma)
    have h2 := (meshWeights_sum_bounds center sigma).2
    have he' : (0 : ℝ) ≤ e := by exact_mod_cast he
    have : ((meshPoints center sigma).map (·.2)).sum * (e : ℝ) ≤ 1 * e :=
      mul_le_mul_of_nonneg_right h2 he'
    exact Int.cast_le.1 (h1.trans (by linarith) : _ ≤ (e : ℝ))

theorem pointDeposits_nonneg (grid : PadGrid) (g : GridEdges) (time : ℝ) (center : ℝ × ℝ) (e : ℤ)
    (he : 0 ≤ e) (sigma : ℝ) (label : ℤ) :
    ∀ d ∈ pointDeposits grid g time center e sigma label, 0 ≤ d.e :=
  C05_pixel_nonneg grid g time center e he sigma label

theorem nucleusDeposits_bounds {config : Config} {grid : PadGrid} {g : GridEdges}
    (hgain : 0 ≤ config.det_params.mpgd_gain) (track : List Row) (primary : List ℤ)
    (hlen : primary.length ≤ track.length) (label : ℤ) :
    (∀ d ∈ nucleusDeposits config grid g track primary label, 0 ≤ d.e) ∧
    ((nucleusDeposits config grid g track primary label).map (·.e)).sum
      ≤ config.det_params.mpgd_gain * released track primary := by
  have hrel : released track primary
      = (((track.zip primary).filter fun re => decide (1 ≤ re.2)).map (·.2)).sum := by
    unfold released
    congr 1
    conv_lhs => rw [← List.map_snd_zip hlen]
    rw [List.filter_map]
    rfl
  rw [hrel]
  unfold nucleusDeposits
  have hpos : ∀ re ∈ (track.zip primary).filter fun re => decide (1 ≤ re.2), 1 ≤ re.2 := by
    intro re hre
    simpa using (List.mem_filter.1 hre).2
  generalize (track.zip primary).filter (fun re => decide (1 ≤ re.2)) = l at hpos
  constructor
  · intro d hd
    obtain ⟨re, hre, hd⟩ := List.mem_flatMap.1 hd
    exact pointDeposits_nonneg _ _ _ _ _ (mul_nonneg (by linarith [hpos re hre]) hgain) _ _ d hd
  · induction l with
    | nil => simp
    | cons a l ih =>
      rw [List.flatMap_cons, List.map_append, List.sum_append, List.map_cons, List.sum_cons, mul_add]
      refine add_le_add ?_ (ih fun re hre => hpos re (by simp [hre]))
      rw [mul_comm config.det_params.mpgd_gain]
      exact pointDeposits_le _ _ _ _ _ (mul_nonneg (by linarith [hpos a (by simp)]) hgain) _

/-- Adding a function of the tracks along an event. -/
theorem trace_total {σ : Type} {env : SimEnv} {momenta : List Vec4} {vertex : ℝ × ℝ × ℝ}
    {Zs As : List ℤ} {config : Config} {grid : PadGrid} {g : GridEdges} {rng : Gen σ}
    (f : List Row → List ℤ → ℤ) {indices : List ℤ} {s s' : σ} {tr : List (ℤ × List Deposit)}
    (P : List Deposit → ℤ → Prop) (h0 : P [] 0)
    (hstep : ∀ nucleus track primary label s₀ s₁ ds n,
      generate_electrons track nucleus config.det_params rng s₀ = .ok (primary, s₁) → P ds n →
      P (nucleusDeposits config grid g track primary label ++ ds) (f track primary + n))
    (h : EventTrace env momenta vertex Zs As config grid g rng indices s tr s') :
    ∃ n, EventTotal f env momenta vertex Zs As config rng indices s n s' ∧ P (history tr) n := by
  induction h with
  | nil s => exact ⟨0, .nil s, h0⟩
  | neutral idx rest s s' tr hz _ ih =>
    obtain ⟨n, h1, h2⟩ := ih
    exact ⟨n, .neutral idx rest s s' n hz h1, by simpa [history] using h2⟩
  | charged idx z a nucleus momentum track primary rest s s₁ s' tr hz hz0 ha hn hm ht he _ ih =>
    obtain ⟨n, h1, h2⟩ := ih
    refine ⟨f track primary + n, .charged idx z a nucleus momentum track primary rest s s₁ s' n hz hz0
      ha hn hm ht he h1, ?_⟩
    have := hstep nucleus track primary idx s s₁ (history tr) n he h2
    simpa [history] using this

theorem sum_filter_le {p : Deposit → Bool} (l : List Deposit) (h : ∀ d ∈ l, 0 ≤ d.e) :
    ((l.filter p).map (·.e)).sum ≤ (l.map (·.e)).sum := by
  induction l with
  | nil => simp
  | cons a l ih =>
    have := ih fun d hd => h d (by simp [hd])
    have ha := h a (by simp)
    rw [List.filter_cons]
    split_ifs <;> simp <;> linarith

theorem primary_length {σ : Type} {rng : Gen σ} {track : List Row} {nucleus : Nucleus}
    {params : DetectorParams} {s s' : σ} {primary : List ℤ}
    (h : generate_electrons track nucleus params rng s = .ok (primary, s')) :
    primary.length = track.length := (C70_draws h).1

/-- **C76.** The total charge of an event is at most the gain times the number of released electrons. -/
theorem C76_charge_bound {σ : Type} {env : SimEnv} {momenta : List Vec4} {vertex : ℝ × ℝ × ℝ}
    {Zs As : List ℤ} {config : Config} {grid : PadGrid} {g : GridEdges} (hb : 0 < g.bin)
    (hgrid : config.pad_grid = some (grid, g)) {rng : Gen σ} (hr : LawfulGen rng)
    (hgain : 0 ≤ config.det_params.mpgd_gain)
    {indices : List ℤ} {s s' : σ} {cloud : List CloudPoint} {labels : List ℤ}
    (h : simulate env momenta vertex Zs As config rng indices s = .ok ((cloud, labels), s')) :
    ∃ n s₁, EventTotal released env momenta vertex Zs As config rng indices s n s₁ ∧
      0 ≤ (cloud.map (·.e)).sum ∧
      (cloud.map (·.e)).sum ≤ ((config.det_params.mpgd_gain * n : ℤ) : ℝ) := by
  obtain ⟨tr, s₁, htr, hsum⟩ := C76_balance hb hgrid hr h
  obtain ⟨n, h1, h2⟩ := trace_total (grid := grid) (g := g) released
    (fun ds n => (∀ d ∈ ds, 0 ≤ d.e) ∧ (ds.map (·.e)).sum ≤ config.det_params.mpgd_gain * n)
    (by simp) (by
      rintro nucleus track primary label s₀ s₁ ds n he ⟨i1, i2⟩
      obtain ⟨j1, j2⟩ := nucleusDeposits_bounds (grid := grid) (g := g) hgain track primary
        (primary_length he).le label
      refine ⟨?_, ?_⟩
      · intro d hd
        rcases List.mem_append.1 hd with hd | hd
        · exact j1 d hd
        · exact i1 d hd
      · rw [List.map_append, List.sum_append, mul_add]
        exact add_le_add j2 i2) htr
  refine ⟨n, s₁, h1, ?_, ?_⟩
  · rw [hsum]
    have : 0 ≤ (((history tr).filter fun d => decide (InWindow d)).map (·.e)).sum := by
      apply List.sum_nonneg
      intro x hx
      obtain ⟨d, hd, rfl⟩ := List.mem_map.1 hx
      exact h2.1 d (List.mem_filter.1 hd).1
    exact_mod_cast this
  · rw [hsum]
    exact_mod_cast (sum_filter_le (history tr) h2.1).trans h2.2

theorem pyInt_window {t : ℝ} : (0 ≤ pyInt t ∧ pyInt t < 512) ↔ -1 < t ∧ t < 512 := by
  unfold pyInt
  split_ifs with h
  · constructor
    · rintro ⟨h1, h2⟩
      rw [Int.floor_lt] at h2
      push_cast at h2
      exact ⟨by linarith, by linarith⟩
    · rintro ⟨h1, h2⟩
      exact ⟨Int.floor_nonneg.2 h, by rw [Int.floor_lt]; push_cast; linarith⟩
  · have h : t < 0 := lt_of_not_ge h
    constructor
    · rintro ⟨h1, -⟩
      have : (-1 : ℤ) < ⌈t⌉ := by omega
      rw [Int.lt_ceil] at this
      push_cast at this
      exact ⟨this, by linarith⟩
    · rintro ⟨h1, -⟩
      have h2 : (-1 : ℤ) < ⌈t⌉ := by rw [Int.lt_ceil]; push_cast; exact h1
      have h3 : ⌈t⌉ ≤ 0 := by rw [Int.ceil_le]; push_cast; exact h.le
      omega

theorem nucleusDeposits_no_diffusion {config : Config} {grid : PadGrid} {g : GridEdges}
    (hD : config.det_params.diffusion = 0) (track : List Row) (primary : List ℤ) (label : ℤ) :
    (((nucleusDeposits config grid g track primary label).filter
        fun d => decide (InWindow d)).map (·.e)).sum
      = config.det_params.mpgd_gain * collected config grid g track primary := by
  classical
  unfold nucleusDeposits collected
  generalize track.zip primary = l
  induction l with
  | nil => simp
  | cons a l ih =>
    by_cases h1 : 1 ≤ a.2
    · rw [List.filter_cons_of_pos (by simpa using h1), List.flatMap_cons, List.filter_append,
        List.map_append, List.sum_append, ih]
      have hs : Real.sqrt (2 * config.det_params.diffusion * config.drift_velocity
          * arrival config a.1.z / config.det_params.efield) = 0 := by rw [hD]; simp
      rw [hs]
      unfold pointDeposits
      rw [if_pos rfl]
      rcases hp : activePad grid g (a.1.x, a.1.y) with _ | pad
      · have hnot : ¬ Collected config grid g a := by
          rintro ⟨-, ⟨pad, h, -⟩, -⟩
          rw [hp] at h
          cases h
        rw [List.filter_cons_of_neg (by simpa using hnot)]
        simp
      · by_cases hw : InWindow ⟨pyInt (arrival config a.1.z), pad, a.2 * config.det_params.mpgd_gain, label⟩
        · have hc : Collected config grid g a := by
            obtain ⟨i1, i2, i3⟩ := hw
            obtain ⟨j1, j2⟩ := pyInt_window.1 ⟨i1, i2⟩
            exact ⟨h1, ⟨pad, hp, i3⟩, j1, j2⟩
          rw [List.filter_cons_of_pos (p := fun re => decide (Collected config grid g re))
            (by simpa using hc)]
          simp only [List.filter_cons, hw, decide_true, if_true, List.filter_nil, List.map_cons,
            List.map_nil, List.sum_cons, List.sum_nil]
          ring
        · have hc : ¬ Collected config grid g a := by
            rintro ⟨-, ⟨pad', h, h0⟩, j1, j2⟩
            rw [hp] at h
            cases h
            exact hw ⟨(pyInt_window.2 ⟨j1, j2⟩).1, (pyInt_window.2 ⟨j1, j2⟩).2, h0⟩
          rw [List.filter_cons_of_neg (p := fun re => decide (Collected config grid g re))
            (by simpa using hc)]
          simp only [List.filter_cons, hw, decide_false, List.filter_nil]
          simp
    · rw [List.filter_cons_of_neg (by simpa using h1), ih,
        List.filter_cons_of_neg (by
          simp only [decide_eq_true_eq]
          exact fun hc => h1 hc.1)]

/-- **C76.** Without diffusion the total charge of an event is exactly the gain times the electrons
released above active pads and arriving in the window. -/
theorem C76_no_diffusion {σ : Type} {env : SimEnv} {momenta : List Vec4} {vertex : ℝ × ℝ × ℝ}
    {Zs As : List ℤ} {config : Config} {grid : PadGrid} {g : GridEdges} (hb : 0 < g.bin)
    (hgrid : config.pad_grid = some (grid, g)) {rng : Gen σ} (hr : LawfulGen rng)
    (hD : config.det_params.diffusion = 0)
    {indices : List ℤ} {s s' : σ} {cloud : List CloudPoint} {labels : List ℤ}
    (h : simulate env momenta vertex Zs As config rng indices s = .ok ((cloud, labels), s')) :
    ∃ n s₁, EventTotal (collected config grid g) env momenta vertex Zs As config rng indices s n s₁ ∧
      (cloud.map (·.e)).sum = ((config.det_params.mpgd_gain * n : ℤ) : ℝ) := by
  obtain ⟨tr, s₁, htr, hsum⟩ := C76_balance hb hgrid hr h
  obtain ⟨n, h1, h2⟩ := trace_total (grid := grid) (g := g) (collected config grid g)
    (fun ds n => ((ds.filter fun d => decide (InWindow d)).map (·.e)).sum
      = config.det_params.mpgd_gain * n)
    (by simp) (by
      intro nucleus track primary label s₀ s₁ ds n he i
      rw [List.filter_append, List.map_append, List.sum_append, i,
        nucleusDeposits_no_diffusion hD track primary label]
      ring) htr
  exact ⟨n, s₁, h1, by rw [hsum, h2]⟩

/-- The cloud of the example event holds 100 electrons: one primary electron, gain 100. -/
example : ∃ cloud labels, simulate exEnv exMomenta (0, 0, 0.5) [1, 1, 1] [1, 1, 1] (exConfig 100 0)
    exGen [2] () = .ok ((cloud, labels), ()) ∧ (cloud.map (·.e)).sum = 100 := by
  obtain ⟨cloud, labels, h⟩ := exSimulate 100 0 le_rfl
  refine ⟨cloud, labels, h, ?_⟩
  obtain ⟨tr, s₁, htr, hsum⟩ := C76_balance exEdges_bin rfl exGen_lawful h
  have hp : pyInt (50 : ℝ) = 50 := by simp [pyInt]
  have ha : activePad exGrid exEdges (0, 0) = some 5 := exRow_active
  have hh : history tr = [⟨50, 5, 100, 2⟩] := by
    rw [exTrace htr]
    simp only [history, List.flatMap_cons, List.flatMap_nil, List.append_nil]
    unfold exDeposits pointDeposits
    rw [Real.sqrt_zero, if_pos rfl, ha, hp]
  rw [hsum, hh]
  have : InWindow ⟨50, 5, 100, 2⟩ := ⟨by norm_num, by norm_num, by norm_num⟩
  simp [this]

/-- Along the trajectory the particle starts in the initial state and never gains energy. -/
def LosesEnergy (ivp : IvpSolver) (params : DetectorParams) : Prop :=
  ∀ vertex momentum nucleus track, 0 < nucleus.mass →
    generate_trajectory ivp vertex momentum nucleus params = .ok track →
    ∃ rest, track = (trajectory_problem vertex momentum nucleus params).y0 :: rest ∧
      (track.map (kinetic nucleus)).Pairwise fun x y => y ≤ x

theorem released_eq {σ : Type} {rng : Gen σ} (hr : LawfulGen rng) {track : List Row} {nucleus : Nucleus}
    {params : DetectorParams} (hF : params.fano_factor = 0) (hW : 0 < params.w_value) {s s' : σ}
    {primary : List ℤ} (h : generate_electrons track nucleus params rng s = .ok (primary, s')) :
    released track primary = primary.sum := by
  unfold released
  have hall : ∀ v ∈ primary, 0 ≤ v := by
    intro v hv
    obtain ⟨k, hk, rfl⟩ := List.mem_iff_getElem.1 hv
    obtain ⟨-, states, -, -, h3⟩ := C70_draws h
    obtain ⟨x, hx, hv⟩ := h3 k _ (List.getElem?_eq_getElem hk)
    rw [hv]
    rw [hF, zero_mul, Real.sqrt_zero] at hx
    have hn := hr.normal_zero (meanAt nucleus params.w_value track k) (states k)
    rw [hx] at hn
    simp only at hn
    rw [hn]
    apply pyInt_nonneg
    cases k with
    | zero => simp [meanAt]
    | succ k =>
      unfold meanAt
      simp only
      split
      · unfold meanElectrons
        positivity
      · exact le_rfl
  clear h
  induction primary with
  | nil => rfl
  | cons a l ih =>
    rw [List.filter_cons]
    have ha := hall a (by simp)
    have := ih fun v hv => hall v (by simp [hv])
    split_ifs with h1
    · simp [this]
    · simp only [decide_eq_true_eq] at h1
      rw [this, List.sum_cons]
      omega

/-- **C76.** Without fluctuations, and for trajectories along which no energy is gained, the total charge
of an event is at most the gain times the kinetic energy of its charged nuclei, in eV, over W. -/
theorem C76_energy_bound {σ : Type} {env : SimEnv} {momenta : List Vec4} {vertex : ℝ × ℝ × ℝ}
    {Zs As : List ℤ} {config : Config} {grid : PadGrid} {g : GridEdges} (hb : 0 < g.bin)
    (hgrid : config.pad_grid = some (grid, g)) {rng : Gen σ} (hr : LawfulGen rng)
    (hgain : 0 ≤ config.det_params.mpgd_gain) (hF : config.det_params.fano_factor = 0)
    (hW : 0 < config.det_params.w_value) (hsol : LosesEnergy env.solve_ivp config.det_params)
    (hmass : ∀ z a n, env.get_data z a = .ok n → 0 < n.mass)
    {indices : List ℤ} {s s' : σ} {cloud : List CloudPoint} {labels : List ℤ}
    (h : simulate env momenta vertex Zs As config rng indices s = .ok ((cloud, labels), s')) :
    (cloud.map (·.e)).sum ≤ config.det_params.mpgd_gain *
      ((indices.map (ionising env momenta Zs As)).sum * 1000000 / config.det_params.w_value) := by
  obtain ⟨n, s₁, h1, -, h2⟩ := C76_charge_bound hb hgrid hr hgain h
  refine h2.trans ?_
  have hg : (0 : ℝ) ≤ config.det_params.mpgd_gain := by exact_mod_cast hgain
  push_cast
  refine mul_le_mul_of_nonneg_left ?_ hg
  clear h h2
  induction h1 with
  | nil s => simp
  | neutral idx rest s s' n hz _ ih =>
    refine ih.trans (le_of_eq ?_)
    have : ionising env momenta Zs As idx = 0 := by
      unfold ionising
      rw [hz]
      cases pyGet As idx <;> cases pyGet momenta idx <;> simp
    rw [List.map_cons, List.sum_cons, this, zero_add]
  | charged idx z a nucleus momentum track primary rest s s₁ s' n hz hz0 ha hn hm ht he _ ih =>
    have hm0 := hmass _ _ _ hn
    obtain ⟨rest', rfl, hmono⟩ := hsol _ _ _ _ hm0 ht
    have hb1 := C21_initial_energy_bound hr hm0.le hF hW he hmono
    rw [kinetic_initial hm0] at hb1
    have hion : ionising env momenta Zs As idx
        = Real.sqrt (momentum.px ^ 2 + momentum.py ^ 2 + momentum.pz ^ 2 + nucleus.mass ^ 2)
          - nucleus.mass := by
      unfold ionising
      rw [hz, ha, hm]
      simp only [if_neg hz0, hn]
    rw [List.map_cons, List.sum_cons, hion, add_mul, add_div]
    push_cast
    refine add_le_add ?_ ih
    rw [released_eq hr hF hW he]
    exact hb1

/-- A solver that returns the initial state and a slower one. -/
noncomputable def slowSolver : IvpSolver := fun P =>
  .ok [(0, P.y0), (1e-10, { P.y0 with
    gvx := 5 / 9 * P.y0.gvx, gvy := 5 / 9 * P.y0.gvy, gvz := 5 / 9 * P.y0.gvz })]

theorem slowSolver_loses (params : DetectorParams) : LosesEnergy slowSolver params := by
  intro vertex momentum nucleus track hm h
  obtain rfl := Except.ok.inj h
  refine ⟨_, rfl, ?_⟩
  simp only [List.map_cons, List.map_nil, List.pairwise_cons, List.mem_singleton, forall_eq]
  refine ⟨?_, by simp⟩
  unfold kinetic lorentz gammaBetaSq
  refine mul_le_mul_of_nonneg_left (sub_le_sub_right (Real.sqrt_le_sqrt ?_) 1) hm.le
  simp only
  generalize (trajectory_problem vertex momentum nucleus params).y0 = r
  nlinarith [sq_nonneg r.gvx, sq_nonneg r.gvy, sq_nonneg r.gvz]

/-- The hypotheses of the energy bound are met by the example event: 100 electrons, at most 150. -/
example : LosesEnergy slowSolver (exConfig 100 0).det_params ∧
    ∃ cloud labels, simulate { exEnv with solve_ivp := slowSolver } exMomenta (0, 0, 0.5) [1, 1, 1]
      [1, 1, 1] (exConfig 100 0) exGen [2] () = .ok ((cloud, labels), ()) ∧
    (cloud.map (·.e)).sum ≤ 150 := by
  refine ⟨slowSolver_loses _, ?_⟩
  obtain ⟨cloud, labels, h⟩ := exSimulate 100 0 le_rfl
  have ht : generate_trajectory slowSolver (0, 0, 0.5) (0, 0, 4.5) exNucleus (exDet 100 0)
      = generate_trajectory exSolver (0, 0, 0.5) (0, 0, 4.5) exNucleus (exDet 100 0) := by
    simp only [generate_trajectory, slowSolver, exSolver, trajectory_problem, exNucleus, exTrack0,
      exTrack1, List.map_cons, List.map_nil]
    norm_num
  have hn : simulate_nucleus { exEnv with solve_ivp := slowSolver } exMomenta (0, 0, 0.5) [1, 1, 1]
      [1, 1, 1] (exConfig 100 0) exGen ([], ()) 2
      = simulate_nucleus exEnv exMomenta (0, 0, 0.5) [1, 1, 1] [1, 1, 1] (exConfig 100 0) exGen
        ([], ()) 2 := by
    change generate_point_cloud slowSolver (0, 0, 4.5) (0, 0, 0.5) exNucleus (exConfig 100 0) exGen [] 2 ()
      = generate_point_cloud exSolver (0, 0, 4.5) (0, 0, 0.5) exNucleus (exConfig 100 0) exGen [] 2 ()
    unfold generate_point_cloud
    rw [show (exConfig 100 0).det_params = exDet 100 0 from rfl, ht]
  have h' : simulate { exEnv with solve_ivp := slowSolver } exMomenta (0, 0, 0.5) [1, 1, 1]
      [1, 1, 1] (exConfig 100 0) exGen [2] () = .ok ((cloud, labels), ()) := by
    rw [← h]
    unfold simulate
    simp only [List.foldlM_cons, List.foldlM_nil, hn]
  refine ⟨cloud, labels, h', ?_⟩
  refine (C76_energy_bound exEdges_bin rfl exGen_lawful (by norm_num [exConfig, exDet]) rfl
    (by norm_num [exConfig, exDet]) (slowSolver_loses _) (by
      intro z a n hn
      obtain rfl := Except.ok.inj hn
      norm_num [exNucleus]) h').trans ?_
  have hi : ionising { exEnv with solve_ivp := slowSolver } exMomenta [1, 1, 1] [1, 1, 1] 2 = 1.5 := by
    change Real.sqrt (0 ^ 2 + 0 ^ 2 + 4.5 ^ 2 + 6 ^ 2) - 6 = 1.5
    rw [sqrt_of_sq (y := 7.5) (by norm_num) (by norm_num)]
    norm_num
  simp only [List.map_cons, List.map_nil, List.sum_cons, List.sum_nil, hi, exConfig, exDet]
  norm_num

end Verif.Detector
