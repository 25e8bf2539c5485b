import Verif.Props.FieldStopping
import Verif.Props.DeadZone

/-! # C127: the charge of an event measures the energy of its nuclei -/

namespace Verif.Detector

open Verif.Spec Verif.Kinematics Set

/-- The transverse spread in m of the electrons released at height `z`. -/
noncomputable def spreadAt (config : Config) (z : ℝ) : ℝ :=
  Real.sqrt (2 * config.det_params.diffusion * config.drift_velocity * arrival config z
    / config.det_params.efield)

/-- The electrons released at the point are recorded: they arrive in the recorded window, and all pixels of the
mesh over which they are spread lie on active pads. -/
def Recorded (config : Config) (grid : PadGrid) (g : GridEdges) (x y z : ℝ) : Prop :=
  -1 < arrival config z ∧ arrival config z < 512 ∧ ∀ i j : ℕ, i < 10 → j < 10 →
    ∃ pad, activePad grid g (x + meshOffset i * spreadAt config z, y + meshOffset j * spreadAt config z)
      = some pad ∧ 0 ≤ pad

/-- The electrons of a list of deposits that lie in the recorded window. -/
def windowSum (ds : List Deposit) : ℤ := ((ds.filter fun d => decide (InWindow d)).map (·.e)).sum

theorem windowSum_append (ds ds' : List Deposit) : windowSum (ds ++ ds') = windowSum ds + windowSum ds' := by
  unfold windowSum
  rw [List.filter_append, List.map_append, List.sum_append]

/-- What a recorded point deposits: everything without diffusion, at least 99.8 % less one electron for every
pixel with diffusion. -/
theorem recorded_point {config : Config} {grid : PadGrid} {g : GridEdges} {x y z : ℝ}
    (h : Recorded config grid g x y z) {e : ℤ} (he : 0 ≤ e) (label : ℤ) :
    (spreadAt config z = 0 →
      windowSum (pointDeposits grid g (arrival config z) (x, y) e (spreadAt config z) label) = e) ∧
    0.998 * (e : ℝ) - 100
      ≤ windowSum (pointDeposits grid g (arrival config z) (x, y) e (spreadAt config z) label) := by
  obtain ⟨h1, h2, h3⟩ := h
  have hw := pyInt_window.2 ⟨h1, h2⟩
  have hzero : spreadAt config z = 0 →
      windowSum (pointDeposits grid g (arrival config z) (x, y) e (spreadAt config z) label) = e := by
    intro h0
    obtain ⟨pad, hp, hp0⟩ := h3 0 0 (by norm_num) (by norm_num)
    simp only [h0, mul_zero, add_zero] at hp
    unfold pointDeposits windowSum
    rw [if_pos h0, hp]
    have : InWindow ⟨pyInt (arrival config z), pad, e, label⟩ := ⟨hw.1, hw.2, hp0⟩
    simp [this]
  refine ⟨hzero, ?_⟩
  by_cases h0 : spreadAt config z = 0
  · rw [hzero h0]
    have : (0 : ℝ) ≤ e := by exact_mod_cast he
    linarith
  · have hall : ∀ d ∈ pointDeposits grid g (arrival config z) (x, y) e (spreadAt config z) label, InWindow d := by
      intro d hd
      unfold pointDeposits at hd
      rw [if_neg h0] at hd
      obtain ⟨pw, hpw, hd⟩ := List.mem_filterMap.1 hd
      obtain ⟨i, j, hi, hj, rfl⟩ := mem_meshPoints _ _ _ hpw
      obtain ⟨pad, hp, hp0⟩ := h3 i j hi hj
      simp only at hd
      rw [hp] at hd
      simp only [Option.map_some, Option.some.injEq] at hd
      rw [← hd]
      exact ⟨hw.1, hw.2, hp0⟩
    unfold windowSum
    rw [List.filter_eq_self.2 fun d hd => by simpa using hall d hd]
    unfold pointDeposits
    rw [if_neg h0]
    have h4 := mesh_deposits_ge grid g (arrival config z) e he label _
      (meshPoints_nonneg (x, y) (spreadAt config z)) (by
        intro pw hpw
        obtain ⟨i, j, hi, hj, rfl⟩ := mem_meshPoints _ _ _ hpw
        obtain ⟨pad, hp, -⟩ := h3 i j hi hj
        simp only
        rw [hp]
        rfl)
    have h5 := (meshWeights_sum_bounds (x, y) (spreadAt config z)).1
    have hlen : ((meshPoints (x, y) (spreadAt config z)).length : ℝ) = 100 := by simp [meshPoints]
    rw [hlen] at h4
    have he' : (0 : ℝ) ≤ e := by exact_mod_cast he
    have h6 := mul_le_mul_of_nonneg_right h5 he'
    linarith

/-- What a nucleus deposits if all its track points are recorded. -/
theorem recorded_nucleus {config : Config} {grid : PadGrid} {g : GridEdges}
    (hgain : 0 ≤ config.det_params.mpgd_gain) {track : List Row} {primary : List ℤ}
    (hlen : primary.length = track.length) (hrec : ∀ r ∈ track, Recorded config grid g r.x r.y r.z) (label : ℤ) :
    (config.det_params.diffusion = 0 →
      windowSum (nucleusDeposits config grid g track primary label)
        = config.det_params.mpgd_gain * released track primary) ∧
    0.998 * (config.det_params.mpgd_gain * released track primary) - 100 * (track.length : ℝ)
      ≤ windowSum (nucleusDeposits config grid g track primary label) := by
  have hrel : released track primary
      = (((track.zip primary).filter fun re => decide (1 ≤ re.2)).map (·.2)).sum := by
    unfold released
    congr 1
    conv_lhs => rw [← List.map_snd_zip hlen.le]
    rw [List.filter_map]
    rfl
  have hcount : (((track.zip primary).filter fun re => decide (1 ≤ re.2)).length : ℝ) ≤ track.length := by
    have h1 : ((track.zip primary).filter fun re => decide (1 ≤ re.2)).length ≤ track.length := by
      refine (List.length_filter_le _ _).trans ?_
      rw [List.length_zip]
      exact min_le_left _ _
    exact_mod_cast h1
  rw [hrel]
  unfold nucleusDeposits
  have hpos : ∀ re ∈ (track.zip primary).filter fun re => decide (1 ≤ re.2),
      1 ≤ re.2 ∧ Recorded config grid g re.1.x re.1.y re.1.z := by
    intro re hre
    obtain ⟨h1, h2⟩ := List.mem_filter.1 hre
    exact ⟨by simpa using h2, hrec _ (List.of_mem_zip h1).1⟩
  generalize (track.zip primary).filter (fun re => decide (1 ≤ re.2)) = l at hpos hcount
  have hmain : (config.det_params.diffusion = 0 →
      windowSum (l.flatMap fun re => pointDeposits grid g (arrival config re.1.z) (re.1.x, re.1.y)
        (re.2 * config.det_params.mpgd_gain)
        (Real.sqrt (2 * config.det_params.diffusion * config.drift_velocity * arrival config re.1.z
          / config.det_params.efield)) label)
        = config.det_params.mpgd_gain * (l.map (·.2)).sum) ∧
    0.998 * (config.det_params.mpgd_gain * ((l.map (·.2)).sum : ℤ)) - 100 * (l.length : ℝ)
      ≤ windowSum (l.flatMap fun re => pointDeposits grid g (arrival config re.1.z) (re.1.x, re.1.y)
        (re.2 * config.det_params.mpgd_gain)
        (Real.sqrt (2 * config.det_params.diffusion * config.drift_velocity * arrival config re.1.z
          / config.det_params.efield)) label) := by
    clear hcount hrel
    induction l with
    | nil => simp [windowSum]
    | cons a l ih =>
      obtain ⟨ih1, ih2⟩ := ih fun re hre => hpos re (List.mem_cons_of_mem _ hre)
      obtain ⟨ha, hra⟩ := hpos a (by simp)
      have he : 0 ≤ a.2 * config.det_params.mpgd_gain := mul_nonneg (by linarith) hgain
      obtain ⟨j1, j2⟩ := recorded_point hra he label
      rw [List.flatMap_cons, windowSum_append, List.map_cons, List.sum_cons]
      constructor
      · intro hD
        rw [ih1 hD]
        have h0 : spreadAt config a.1.z = 0 := by unfold spreadAt; rw [hD]; simp
        have := j1 h0
        unfold spreadAt at this
        rw [this]
        ring
      · unfold spreadAt at j2
        rw [List.length_cons]
        push_cast at j2 ih2 ⊢
        linarith
  refine ⟨hmain.1, le_trans ?_ hmain.2⟩
  linarith

/-- The nucleus of index `idx` is charged. -/
def isCharged (Zs : List ℤ) (idx : ℤ) : Bool :=
  match pyGet Zs idx with
  | .ok z => decide (z ≠ 0)
  | .error _ => false

/-- Adding bounds of what the single nuclei deposit. -/
theorem event_bounds {σ : Type} {env : SimEnv} {momenta : List Vec4} {vertex : ℝ × ℝ × ℝ}
    {Zs As : List ℤ} {config : Config} {grid : PadGrid} {g : GridEdges} {rng : Gen σ}
    {indices : List ℤ} {s s' : σ} {tr : List (ℤ × List Deposit)}
    (h : EventTrace env momenta vertex Zs As config grid g rng indices s tr s') (lo hi : ℤ → ℝ)
    (hstep : ∀ idx ∈ indices, ∀ z a nucleus momentum track primary s₀ s₁, pyGet Zs idx = .ok z → z ≠ 0 →
      pyGet As idx = .ok a → env.get_data z a = .ok nucleus → pyGet momenta idx = .ok momentum →
      generate_trajectory env.solve_ivp vertex (momentum.px, momentum.py, momentum.pz) nucleus
        config.det_params = .ok track →
      generate_electrons track nucleus config.det_params rng s₀ = .ok (primary, s₁) →
      lo idx ≤ windowSum (nucleusDeposits config grid g track primary idx) ∧
      (windowSum (nucleusDeposits config grid g track primary idx) : ℝ) ≤ hi idx) :
    ((indices.filter (isCharged Zs)).map lo).sum ≤ windowSum (history tr) ∧
    (windowSum (history tr) : ℝ) ≤ ((indices.filter (isCharged Zs)).map hi).sum := by
  induction h with
  | nil s => simp [history, windowSum]
  | neutral idx rest s s' tr hz _ ih =>
    have hc : isCharged Zs idx = false := by unfold isCharged; rw [hz]; simp
    have := ih fun i hi => hstep i (List.mem_cons_of_mem _ hi)
    rw [List.filter_cons_of_neg (by simp [hc])]
    simpa [history] using this
  | charged idx z a nucleus momentum track primary rest s s₁ s' tr hz hz0 ha hn hm ht he _ ih =>
    have hc : isCharged Zs idx = true := by unfold isCharged; rw [hz]; simpa using hz0
    obtain ⟨i1, i2⟩ := ih fun i hi => hstep i (List.mem_cons_of_mem _ hi)
    obtain ⟨j1, j2⟩ := hstep idx (by simp) z a nucleus momentum track primary s s₁ hz hz0 ha hn hm ht he
    rw [List.filter_cons_of_pos hc, List.map_cons, List.map_cons, List.sum_cons, List.sum_cons]
    have e : windowSum (history ((idx, nucleusDeposits config grid g track primary idx) :: tr))
        = windowSum (nucleusDeposits config grid g track primary idx) + windowSum (history tr) := by
      rw [← windowSum_append]
      simp [history]
    rw [e]
    push_cast
    constructor <;> linarith

theorem windowSum_le {ds : List Deposit} (h : ∀ d ∈ ds, 0 ≤ d.e) : windowSum ds ≤ (ds.map (·.e)).sum :=
  sum_filter_le ds h

/-- The nuclei of the event stop in the gas, where all their electrons are recorded: `K`, `p`, `S` and `S'` are
the kinetic energies, the momenta and the bounds of the forces, and `late` bounds the energies 0.1 ns before
the trajectories end. -/
def StopsRecorded (env : SimEnv) (momenta : List Vec4) (vertex : ℝ × ℝ × ℝ) (Zs As : List ℤ) (config : Config)
    (grid : PadGrid) (g : GridEdges) (indices : List ℤ) (K p S S' late : ℤ → ℝ) : Prop :=
  ∀ idx ∈ indices, ∀ z a nucleus momentum, pyGet Zs idx = .ok z → z ≠ 0 → pyGet As idx = .ok a →
    env.get_data z a = .ok nucleus → pyGet momenta idx = .ok momentum →
    StopsInGas vertex (momentum.px, momentum.py, momentum.pz) nucleus config.det_params (K idx) (p idx) (S idx)
      (S' idx) ∧
    lateEnergy nucleus (S' idx + fieldForce nucleus config.det_params.efield) ≤ late idx ∧
    ∀ x y z, Real.sqrt ((x - vertex.1) ^ 2 + (y - vertex.2.1) ^ 2 + (z - vertex.2.2) ^ 2)
      ≤ rangeBound (K idx) (S idx) → Recorded config grid g x y z

section
variable {σ : Type} {env : SimEnv} {momenta : List Vec4} {vertex : ℝ × ℝ × ℝ}
  {Zs As : List ℤ} {config : Config} {grid : PadGrid} {g : GridEdges} {rng : Gen σ}
  {indices : List ℤ} {K p S S' late : ℤ → ℝ}

/-- The electrons and the recorded points of a nucleus that stops. -/
theorem stopped_nucleus (hr : LawfulGen rng)
    (hF : config.det_params.fano_factor = 0) (hW : 0 < config.det_params.w_value)
    (hivp : SolvesToTheEnd env.solve_ivp)
    (hst : StopsRecorded env momenta vertex Zs As config grid g indices K p S S' late)
    {idx : ℤ} (hidx : idx ∈ indices) {z a : ℤ} {nucleus : Nucleus} {momentum : Vec4} {track : List Row}
    {primary : List ℤ} {s₀ s₁ : σ} (hz : pyGet Zs idx = .ok z) (hz0 : z ≠ 0) (ha : pyGet As idx = .ok a)
    (hn : env.get_data z a = .ok nucleus) (hm : pyGet momenta idx = .ok momentum)
    (ht : generate_trajectory env.solve_ivp vertex (momentum.px, momentum.py, momentum.pz) nucleus
      config.det_params = .ok track)
    (he : generate_electrons track nucleus config.det_params rng s₀ = .ok (primary, s₁)) :
    (released track primary : ℝ) ≤ (K idx - 1e-6) * 1000000 / config.det_params.w_value ∧
    (K idx - late idx) * 1000000 / config.det_params.w_value - stepBound (p idx) (S idx)
      ≤ released track primary ∧
    (track.length : ℝ) ≤ stepBound (p idx) (S idx) + 1 ∧
    ∀ r ∈ track, Recorded config grid g r.x r.y r.z := by
  obtain ⟨h1, h2, h3⟩ := hst idx hidx z a nucleus momentum hz hz0 ha hn hm
  obtain ⟨e1, e2⟩ := C126_electrons hr hivp hF hW h1 ht he
  obtain ⟨-, -, t3, t4⟩ := C126_track hivp h1 ht
  rw [released_eq hr hF hW he]
  refine ⟨e1, ?_, ?_, fun r hr => h3 _ _ _ (t4 r hr)⟩
  · have : (K idx - late idx) * 1000000 / config.det_params.w_value
        ≤ (K idx - lateEnergy nucleus (S' idx + fieldForce nucleus config.det_params.efield)) * 1000000
          / config.det_params.w_value := by gcongr
    linarith
  · have : track.length ≤ (track.length - 1 : ℕ) + 1 := by omega
    have : (track.length : ℝ) ≤ ((track.length - 1 : ℕ) : ℝ) + 1 := by exact_mod_cast this
    linarith

/-- **C127.** The charge of an event whose charged nuclei all stop in the gas and whose electrons are all
recorded measures their energy: without Fano fluctuations it is at most the gain times the summed kinetic
energies, each less 1 eV, over W; with diffusion, at least 99.8 % of the gain times the number of electrons that
the energies give up to the last 0.1 ns, less one for every 0.1 ns of flight, less 100 for every track point. -/
theorem C127_charge (hb : 0 < g.bin) (hgrid : config.pad_grid = some (grid, g)) (hr : LawfulGen rng)
    (hgain : 0 ≤ config.det_params.mpgd_gain) (hF : config.det_params.fano_factor = 0)
    (hW : 0 < config.det_params.w_value) (hivp : SolvesToTheEnd env.solve_ivp)
    (hst : StopsRecorded env momenta vertex Zs As config grid g indices K p S S' late)
    {s s' : σ} {cloud : List CloudPoint} {labels : List ℤ}
    (h : simulate env momenta vertex Zs As config rng indices s = .ok ((cloud, labels), s')) :
    ((indices.filter (isCharged Zs)).map fun idx => 0.998 * (config.det_params.mpgd_gain *
      ((K idx - late idx) * 1000000 / config.det_params.w_value - stepBound (p idx) (S idx)))
        - 100 * (stepBound (p idx) (S idx) + 1)).sum ≤ (cloud.map (·.e)).sum ∧
    (cloud.map (·.e)).sum ≤ ((indices.filter (isCharged Zs)).map fun idx => config.det_params.mpgd_gain *
      ((K idx - 1e-6) * 1000000 / config.det_params.w_value)).sum := by
  obtain ⟨tr, s₁, htr, hsum⟩ := C76_balance hb hgrid hr h
  rw [hsum]
  have hg : (0 : ℝ) ≤ config.det_params.mpgd_gain := by exact_mod_cast hgain
  refine event_bounds htr _ _ ?_
  intro idx hidx z a nucleus momentum track primary s₀ s₁ hz hz0 ha hn hm ht he
  obtain ⟨e1, e2, e3, e4⟩ := stopped_nucleus hr hF hW hivp hst hidx hz hz0 ha hn hm ht he
  have hlen := primary_length he
  obtain ⟨-, r2⟩ := recorded_nucleus hgain hlen e4 idx
  obtain ⟨b1, b2⟩ := nucleusDeposits_bounds (grid := grid) (g := g) hgain track primary hlen.le idx
  constructor
  · refine le_trans ?_ r2
    have := mul_le_mul_of_nonneg_left e2 hg
    linarith
  · have h1 : (windowSum (nucleusDeposits config grid g track primary idx) : ℝ)
        ≤ ((config.det_params.mpgd_gain * released track primary : ℤ) : ℝ) := by
      exact_mod_cast (windowSum_le b1).trans b2
    refine h1.trans ?_
    push_cast
    exact mul_le_mul_of_nonneg_left e1 hg

/-- **C127.** Without diffusion the charge falls short of the energy only by one electron for every 0.1 ns of
flight and the energy lost in the last 0.1 ns. -/
theorem C127_no_diffusion (hb : 0 < g.bin) (hgrid : config.pad_grid = some (grid, g)) (hr : LawfulGen rng)
    (hgain : 0 ≤ config.det_params.mpgd_gain) (hF : config.det_params.fano_factor = 0)
    (hW : 0 < config.det_params.w_value) (hD : config.det_params.diffusion = 0)
    (hivp : SolvesToTheEnd env.solve_ivp)
    (hst : StopsRecorded env momenta vertex Zs As config grid g indices K p S S' late)
    {s s' : σ} {cloud : List CloudPoint} {labels : List ℤ}
    (h : simulate env momenta vertex Zs As config rng indices s = .ok ((cloud, labels), s')) :
    ((indices.filter (isCharged Zs)).map fun idx => config.det_params.mpgd_gain *
      ((K idx - late idx) * 1000000 / config.det_params.w_value - stepBound (p idx) (S idx))).sum
        ≤ (cloud.map (·.e)).sum ∧
    (cloud.map (·.e)).sum ≤ ((indices.filter (isCharged Zs)).map fun idx => config.det_params.mpgd_gain *
      ((K idx - 1e-6) * 1000000 / config.det_params.w_value)).sum := by
  obtain ⟨tr, s₁, htr, hsum⟩ := C76_balance hb hgrid hr h
  rw [hsum]
  have hg : (0 : ℝ) ≤ config.det_params.mpgd_gain := by exact_mod_cast hgain
  refine event_bounds htr _ _ ?_
  intro idx hidx z a nucleus momentum track primary s₀ s₁ hz hz0 ha hn hm ht he
  obtain ⟨e1, e2, e3, e4⟩ := stopped_nucleus hr hF hW hivp hst hidx hz hz0 ha hn hm ht he
  obtain ⟨r1, -⟩ := recorded_nucleus hgain (primary_length he) e4 idx
  rw [r1 hD]
  push_cast
  exact ⟨mul_le_mul_of_nonneg_left e2 hg, mul_le_mul_of_nonneg_left e1 hg⟩

end

/-! ## An event -/

/-- A pad plane of one square metre, all of it active. -/
def wideGrid : PadGrid := { size := 1000, cell := fun _ _ => 5 }

def wideEdges : GridEdges := { low := -500, high := 500, bin := 1 }

theorem wide_active {x y : ℝ} (hx : |x| ≤ 0.4) (hy : |y| ≤ 0.4) : activePad wideGrid wideEdges (x, y) = some 5 := by
  have h : ∀ u : ℝ, |u| ≤ 0.4 → ∃ k, gridIndex wideEdges u = some k := by
    intro u hu
    rw [abs_le] at hu
    unfold gridIndex wideEdges
    have hb1 : (-400 : ℤ) ≤ ⌊u * 1000⌋ := by rw [Int.le_floor]; push_cast; linarith [hu.1]
    have hb2 : ⌊u * 1000⌋ < (401 : ℤ) := by rw [Int.floor_lt]; push_cast; linarith [hu.2]
    have hb1' : (-400 : ℝ) ≤ (⌊u * 1000⌋ : ℝ) := by exact_mod_cast hb1
    have hb2' : (⌊u * 1000⌋ : ℝ) < 401 := by exact_mod_cast hb2
    exact ⟨_, if_pos ⟨by simp only; linarith, by simp only; linarith⟩⟩
  obtain ⟨i, hi⟩ := h x hx
  obtain ⟨j, hj⟩ := h y hy
  unfold activePad
  simp only [hi, hj, wideGrid]
  exact if_neg (by decide)

/-- The detector of `stopFieldDet` with gain 100 and a diffusion of 1 V, read out by `wideGrid`. -/
noncomputable def calDet : DetectorParams := { stopFieldDet with diffusion := 1 }

noncomputable def calConfig : Config :=
  { det_params := calDet, elec_params := exElec, pad_params := {}
    pad_grid := some (wideGrid, wideEdges), pad_centers := none, pad_sizes := []
    drift_velocity := 0.01 }

noncomputable def calMomenta : List Vec4 := [⟨0, 0, 0, 3720⟩, ⟨0, 122, 0, 3722⟩, ⟨0, -122, 0, 942⟩]

theorem cal_arrival (z : ℝ) : arrival calConfig z = (1 - z) * 100 := by
  unfold arrival calConfig
  simp only [exElec]
  have : calDet.length = 1 := rfl
  rw [this]
  norm_num
  ring

theorem cal_stops : StopsInGas (0, 0, 1 / 2) (0, 122, 0) stopNucleus calConfig.det_params 2 122 98 100 := by
  obtain ⟨h1, h2, h3, h4, h5, h6, h7, h8, h9, h10, h11, h12, h13, h14⟩ := stopField_stops
  exact ⟨h1, h2, h3, h4, h5, h6, h7, h8, h9, h10, h11, h12, h13, h14⟩

theorem cal_recorded_near {x y z : ℝ}
    (h : Real.sqrt ((x - 0) ^ 2 + (y - 0) ^ 2 + (z - 1 / 2) ^ 2) ≤ 0.021) :
    Recorded calConfig wideGrid wideEdges x y z := by
  have hsq : (x - 0) ^ 2 + (y - 0) ^ 2 + (z - 1 / 2) ^ 2 ≤ 0.021 ^ 2 := by
    have := (Real.sqrt_le_left (by norm_num)).1 h
    linarith
  have hx : |x| ≤ 0.021 := abs_le_of_sq_le_sq (by nlinarith [sq_nonneg y, sq_nonneg (z - 1 / 2)]) (by norm_num)
  have hy : |y| ≤ 0.021 := abs_le_of_sq_le_sq (by nlinarith [sq_nonneg x, sq_nonneg (z - 1 / 2)]) (by norm_num)
  have hz : |z - 1 / 2| ≤ 0.021 := abs_le_of_sq_le_sq (by nlinarith [sq_nonneg x, sq_nonneg y]) (by norm_num)
  rw [abs_le] at hz
  have hs0 : 0 ≤ spreadAt calConfig z := Real.sqrt_nonneg _
  have hs : spreadAt calConfig z ≤ 0.1 := by
    unfold spreadAt
    rw [cal_arrival]
    simp only [calConfig, calDet, stopFieldDet]
    rw [Real.sqrt_le_iff]
    refine ⟨by norm_num, ?_⟩
    rw [div_le_iff₀ (by norm_num)]
    nlinarith [hz.1]
  refine ⟨by rw [cal_arrival]; linarith [hz.2], by rw [cal_arrival]; linarith [hz.1], fun i j hi hj => ?_⟩
  have hoff : ∀ i : ℕ, i < 10 → |meshOffset i * spreadAt calConfig z| ≤ 0.3 := by
    intro i hi
    have h3 : |meshOffset i| ≤ 3 := by
      have h9 : (i : ℝ) ≤ 9 := by exact_mod_cast Nat.lt_succ_iff.1 hi
      have h0 : (0 : ℝ) ≤ i := Nat.cast_nonneg i
      unfold meshOffset
      rw [abs_le]
      constructor <;> linarith
    rw [abs_mul, abs_of_nonneg hs0]
    have := mul_le_mul h3 hs hs0 (by norm_num)
    linarith
  have h1 := (abs_add_le x (meshOffset i * spreadAt calConfig z)).trans (add_le_add hx (hoff i hi))
  have h2 := (abs_add_le y (meshOffset j * spreadAt calConfig z)).trans (add_le_add hy (hoff j hj))
  exact ⟨5, wide_active (h1.trans (by norm_num)) (h2.trans (by norm_num)), by norm_num⟩

theorem cal_recorded {x y z : ℝ}
    (h : Real.sqrt ((x - 0) ^ 2 + (y - 0) ^ 2 + (z - 1 / 2) ^ 2) ≤ rangeBound 2 98) :
    Recorded calConfig wideGrid wideEdges x y z :=
  cal_recorded_near (h.trans (by norm_num [rangeBound]))

/-- Example: an event with one charged nucleus of 2 MeV and a neutron, in fields of a million V/m and 2 T and with
diffusion, read out with gain 100: the charge of the cloud lies between 6.6 and 6.6667 million electrons, where
2 MeV over 30 eV times the gain is 6.6667 million. -/
example : ∃ (env : SimEnv) (cloud : List CloudPoint) (labels : List ℤ),
    simulate env calMomenta (0, 0, 1 / 2) [2, 2, 0] [4, 4, 1] calConfig exGen [1, 2] ()
      = .ok ((cloud, labels), ()) ∧
    6600000 ≤ (cloud.map (·.e)).sum ∧ (cloud.map (·.e)).sum ≤ 6666670 := by
  obtain ⟨ivp, hend, -, hresp, -, -, hok⟩ := C105_solver
  have hst := cal_stops
  have hKy : KE_LIMIT ≤ kinetic stopNucleus
      (trajectory_problem (0, 0, 1 / 2) (0, 122, 0) stopNucleus calConfig.det_params).y0 := by
    rw [kinetic_initial hst.mass]
    simp only
    have : (0 : ℝ) ^ 2 + 122 ^ 2 + 0 ^ 2 + stopNucleus.mass ^ 2 = 3722 ^ 2 := by norm_num [stopNucleus]
    rw [this, Real.sqrt_sq (by norm_num)]
    norm_num [stopNucleus, KE_LIMIT]
  obtain ⟨sol, hsol⟩ := hok (0, 0, 1 / 2) (0, 122, 0) stopNucleus calConfig.det_params hst.mass hst.dedx
    hst.density hst.smooth hKy
  have htrack : generate_trajectory ivp (0, 0, 1 / 2) (0, 122, 0) stopNucleus calConfig.det_params
      = .ok (sol.map Prod.snd) := by
    unfold generate_trajectory
    rw [hsol]
  have hw : calConfig.det_params.w_value = 30 := rfl
  have hgain : calConfig.det_params.mpgd_gain = 100 := rfl
  have hF : calConfig.det_params.fano_factor = 0 := rfl
  obtain ⟨primary, s', hgen⟩ := generate_electrons_ok exGen (track := sol.map Prod.snd) stopNucleus
    (params := calConfig.det_params) le_rfl (by rw [hw]; norm_num)
    (fun r hr => (trajectory_energy hresp hKy htrack r hr).1) ()
  obtain ⟨-, -, -, htr⟩ := C126_track hend hst htrack
  have hrec : ∀ r ∈ sol.map Prod.snd, Recorded calConfig wideGrid wideEdges r.x r.y r.z := fun r hr =>
    cal_recorded (htr r hr)
  have hcloud := generate_point_cloud_of (ivp := ivp) (momentum := (0, 122, 0)) (vertex := (0, 0, 1 / 2))
    (nucleus := stopNucleus) (g := wideEdges) (by norm_num [wideEdges]) (config := calConfig) (grid := wideGrid) rfl
    [] 1 htrack hgen (by
      intro re hre
      obtain ⟨h1, h2, -⟩ := hrec re.1 (List.of_mem_zip (List.mem_filter.1 hre).1).1
      obtain ⟨-, -, ht4⟩ := C126_track hend hst htrack |>.2
      have hz := ht4 re.1 (List.of_mem_zip (List.mem_filter.1 hre).1).1
      have hR : rangeBound 2 98 ≤ 0.021 := by norm_num [rangeBound]
      have hz2 : re.1.z ≤ 1 := by
        by_contra hcon
        push Not at hcon
        have := (Real.sqrt_le_left (by norm_num)).1 (hz.trans hR)
        simp only at this
        nlinarith [sq_nonneg (re.1.x - 0), sq_nonneg (re.1.y - 0)]
      have ha : 0 ≤ arrival calConfig re.1.z := by
        rw [cal_arrival]
        linarith
      constructor
      · simp only [calConfig, calDet, stopFieldDet]
        norm_num
      · have hd : calConfig.det_params.diffusion = 1 := rfl
        have he : calConfig.det_params.efield = 1000000 := rfl
        have hv : (0 : ℝ) ≤ calConfig.drift_velocity := by norm_num [calConfig]
        rw [hd, he]
        positivity)
  obtain ⟨env, henv⟩ : ∃ env : SimEnv, env = ⟨fun _ _ => .ok stopNucleus, ivp⟩ := ⟨_, rfl⟩
  have h1 : simulate_nucleus env calMomenta (0, 0, 1 / 2) [2, 2, 0] [4, 4, 1] calConfig exGen ([], ()) 1
      = .ok (applyDeposits [] (nucleusDeposits calConfig wideGrid wideEdges (sol.map Prod.snd) primary 1), s') := by
    rw [← hcloud, henv]
    rfl
  have h2 : ∀ ps, simulate_nucleus env calMomenta (0, 0, 1 / 2) [2, 2, 0] [4, 4, 1] calConfig exGen ps 2
      = .ok ps := fun ps => by
    unfold simulate_nucleus
    have : pyGet [(2 : ℤ), 2, 0] 2 = .ok 0 := rfl
    rw [this]
    rfl
  have hsim : ∃ cloud labels, simulate env calMomenta (0, 0, 1 / 2) [2, 2, 0] [4, 4, 1] calConfig exGen [1, 2] ()
      = .ok ((cloud, labels), ()) := by
    unfold simulate
    simp only [List.foldlM_cons, List.foldlM_nil, h1, h2, bind, Except.bind, pure, Except.pure]
    exact ⟨_, _, rfl⟩
  obtain ⟨cloud, labels, hsim⟩ := hsim
  refine ⟨env, cloud, labels, hsim, ?_⟩
  have hrecd : StopsRecorded env calMomenta (0, 0, 1 / 2) [2, 2, 0] [4, 4, 1] calConfig wideGrid wideEdges [1, 2]
      (fun _ => 2) (fun _ => 122) (fun _ => 98) (fun _ => 100) (fun _ => 0.002) := by
    intro idx hidx z a nucleus momentum hz hz0 ha hn hm
    simp only [List.mem_cons, List.not_mem_nil, or_false] at hidx
    rw [henv] at hn
    obtain rfl := Except.ok.inj hn
    rcases hidx with rfl | rfl
    · have e : pyGet calMomenta 1 = .ok ⟨0, 122, 0, 3722⟩ := rfl
      rw [e] at hm
      obtain rfl := Except.ok.inj hm
      exact ⟨cal_stops, stopField_late, fun x y z h => cal_recorded h⟩
    · have e : pyGet [(2 : ℤ), 2, 0] 2 = .ok 0 := rfl
      rw [e] at hz
      exact absurd (Except.ok.inj hz).symm hz0
  have hend' : SolvesToTheEnd env.solve_ivp := by rw [henv]; exact hend
  obtain ⟨b1, b2⟩ := C127_charge (by norm_num [wideEdges]) rfl exGen_lawful (by rw [hgain]; norm_num) hF
    (by rw [hw]; norm_num) hend' hrecd hsim
  have hch : [(1 : ℤ), 2].filter (isCharged [2, 2, 0]) = [1] := by decide
  rw [hch] at b1 b2
  simp only [List.map_cons, List.map_nil, List.sum_cons, List.sum_nil, add_zero, hw, hgain] at b1 b2
  have h4 : stepBound 122 98 ≤ 42 := by norm_num [stepBound]
  push_cast at b1 b2
  constructor
  · linarith
  · linarith

end Verif.Detector
