import Verif.Proofs.EventTrace
import Verif.Props.Transport

/-! # C07, C08, C09, C10, C11, C12: the point cloud of one event -/

namespace Verif.Detector

open Verif.Spec Verif.Kinematics

/-! ## Concrete data for the non-vacuity examples -/

/-- A generator that always returns the lower end (the mean) of the requested distribution. -/
def exGen : Gen Unit := { normal := fun m _ s => (m, s), uniform := fun a _ s => (a, s) }

theorem exGen_lawful : LawfulGen exGen where
  uniform_ge := fun _ _ _ _ => le_refl _
  uniform_lt := fun _ _ _ h => h
  uniform_eq := fun _ _ => rfl
  normal_zero := fun _ _ => rfl

/-- First point of the example track: gamma = 5/4. -/
noncomputable def exTrack0 : Row := { x := 0, y := 0, z := 0.5, gvx := 0, gvy := 0, gvz := 3 / 4 }

/-- Second point of the example track: gamma = 13/12. -/
noncomputable def exTrack1 : Row := { x := 0, y := 0, z := 0.5, gvx := 0, gvy := 0, gvz := 5 / 12 }

/-- A solver that returns a track of two points. -/
noncomputable def exSolver : IvpSolver := fun _ => .ok [(0, exTrack0), (1e-10, exTrack1)]

/-- A nucleus of mass 6. -/
def exNucleus : Nucleus := { Z := 1, A := 1, mass := 6, isotopic_symbol := "1H" }

/-- The environment of the example. -/
noncomputable def exEnv : SimEnv := { get_data := fun _ _ => .ok exNucleus, solve_ivp := exSolver }

/-- Detector parameters: 1 m, gain `gain`, diffusion `D`, one electron per MeV. -/
noncomputable def exDet (gain : ℤ) (D : ℝ) : DetectorParams :=
  { length := 1, efield := 1, bfield := 1, mpgd_gain := gain
    gas_target := { density := 1, get_dedx := fun _ _ => 0, get_energy_loss := fun _ _ _ => 0 }
    diffusion := D, fano_factor := 0, w_value := 1.0e6 }

/-- Electronics parameters: edges 0 and 100. -/
noncomputable def exElec : ElectronicsParams :=
  { clock_freq := 6.25, amp_gain := 900, shaping_time := 1000, micromegas_edge := 0
    windows_edge := 100, adc_threshold := 10 }

/-- Configuration of the example. -/
noncomputable def exConfig (gain : ℤ) (D : ℝ) : Config :=
  { det_params := exDet gain D, elec_params := exElec, pad_params := {}
    pad_grid := some (exGrid, exEdges), pad_centers := none, pad_sizes := []
    drift_velocity := 0.01 }

/-- Momenta of the three nuclei of the example event. -/
noncomputable def exMomenta : List Vec4 := [⟨0, 0, 0, 6⟩, ⟨0, 0, 4, 6⟩, ⟨0, 0, 4.5, 7.5⟩]

theorem sqrt_of_sq {x y : ℝ} (hy : 0 ≤ y) (h : x = y ^ 2) : Real.sqrt x = y := by
  rw [h, Real.sqrt_sq hy]

theorem exTrack0_gv : exTrack0.gv = 3 / 4 := sqrt_of_sq (by norm_num) (by norm_num [exTrack0])

theorem exTrack1_gv : exTrack1.gv = 5 / 12 := sqrt_of_sq (by norm_num) (by norm_num [exTrack1])

theorem exTrack_energy : [exTrack0, exTrack1].map (track_energy exNucleus)
    = [some (3 / 2), some (1 / 2)] := by
  have b0 : betaOf (3 / 4) = 3 / 5 := sqrt_of_sq (by norm_num) (by norm_num)
  have b1 : betaOf (5 / 12) = 5 / 13 := sqrt_of_sq (by norm_num) (by norm_num)
  simp only [List.map_cons, List.map_nil, track_energy, exTrack0_gv, exTrack1_gv, b0, b1, exNucleus]
  norm_num

/-- The example track shifted to other heights produces 0 and 1 electrons with any parameters of one
electron per MeV and Fano factor 0. -/
theorem exElectrons' (params : DetectorParams) (hw : params.w_value = 1.0e6)
    (hf : params.fano_factor = 0) (z0 z1 : ℝ) :
    generate_electrons [{ exTrack0 with z := z0 }, { exTrack1 with z := z1 }] exNucleus params exGen ()
      = .ok ([0, 1], ()) := by
  have h0 : npSqrt (0 : ℝ) = some 0 := by simp [npSqrt]
  have h1 : pyInt 1 = 1 := by simp [pyInt]
  have h2 : pyInt 0 = 0 := by simp [pyInt]
  have hw0 : params.w_value ≠ 0 := by rw [hw]; norm_num
  have hen : [{ exTrack0 with z := z0 }, { exTrack1 with z := z1 }].map (track_energy exNucleus)
      = [some (3 / 2), some (1 / 2)] := exTrack_energy
  have he : (energy_lost [some (3 / 2 : ℝ), some (1 / 2 : ℝ)]).map
      (Option.map (· * (1.0e6 / params.w_value))) = [some 0, some 1] := by
    simp only [energy_lost, energy_lost.go, List.map_cons, List.map_nil, hw]
    have : |(1 / 2 : ℝ) - 3 / 2| = 1 := by norm_num
    simp only [Option.bind_eq_bind, Option.bind_some, Option.pure_def, this, Option.map_some]
    norm_num
  unfold generate_electrons
  simp only [hen]
  rw [if_neg hw0, he, hf]
  simp only [fano_draws, fano_draw, zero_mul, h0, exGen, h1, h2]
  rfl

theorem exElectrons (gain : ℤ) (D : ℝ) :
    generate_electrons [exTrack0, exTrack1] exNucleus (exDet gain D) exGen () = .ok ([0, 1], ()) :=
  exElectrons' (exDet gain D) rfl rfl 0.5 0.5

theorem exArrival (gain : ℤ) (D : ℝ) : arrival (exConfig gain D) 0.5 = 50 := by
  unfold arrival exConfig exDet exElec
  norm_num

/-- The deposits of the example nucleus. -/
noncomputable def exDeposits (gain : ℤ) (D : ℝ) (label : ℤ) : List Deposit :=
  pointDeposits exGrid exEdges 50 (0, 0) gain (Real.sqrt D) label

theorem exNucleusDeposits_eq (gain : ℤ) (D : ℝ) (label : ℤ) :
    nucleusDeposits (exConfig gain D) exGrid exEdges [exTrack0, exTrack1] [0, 1] label
      = exDeposits gain D label := by
  unfold nucleusDeposits exDeposits
  have hf : (([exTrack0, exTrack1].zip [(0 : ℤ), 1]).filter fun re => decide (1 ≤ re.2))
      = [(exTrack1, 1)] := by
    simp [List.filter_cons]
  rw [hf]
  have hz : exTrack1.z = 0.5 := rfl
  have hx : exTrack1.x = 0 := rfl
  have hy : exTrack1.y = 0 := rfl
  simp only [List.flatMap_cons, List.flatMap_nil, List.append_nil, hz, hx, hy, exArrival]
  congr 1
  · simp [exConfig, exDet]
  · congr 1
    simp only [exConfig, exDet]
    ring

/-- The example event is simulated without error; its trace is that of one nucleus with label 2. -/
theorem exSimulate (gain : ℤ) (D : ℝ) (hD : 0 ≤ D) :
    ∃ cloud labels, simulate exEnv exMomenta (0, 0, 0.5) [1, 1, 1] [1, 1, 1] (exConfig gain D) exGen
      [2] () = .ok ((cloud, labels), ()) := by
  have hp : simulate_nucleus exEnv exMomenta (0, 0, 0.5) [1, 1, 1] [1, 1, 1] (exConfig gain D) exGen
      ([], ()) 2 = .ok (applyDeposits [] (exDeposits gain D 2), ()) := by
    rw [← exNucleusDeposits_eq]
    have := generate_point_cloud_of (ivp := exSolver) (momentum := (0, 0, 4.5)) (vertex := (0, 0, 0.5))
      (nucleus := exNucleus) exEdges_bin (config := exConfig gain D) (grid := exGrid) rfl [] 2
      (track := [exTrack0, exTrack1]) rfl (exElectrons gain D) (by
        intro re hre
        have hf : (([exTrack0, exTrack1].zip [(0 : ℤ), 1]).filter fun re => decide (1 ≤ re.2))
            = [(exTrack1, 1)] := by
          simp [List.filter_cons]
        rw [hf, List.mem_singleton] at hre
        subst hre
        have hz : exTrack1.z = 0.5 := rfl
        refine ⟨by norm_num [exConfig, exDet], ?_⟩
        simp only [hz, exArrival]
        simp only [exConfig, exDet]
        have : (2 : ℝ) * D * 0.01 * 50 / 1 = D := by ring
        rw [this]; exact hD)
    exact this
  unfold simulate
  simp only [List.foldlM_cons, List.foldlM_nil, hp, bind, Except.bind, pure, Except.pure]
  exact ⟨_, _, rfl⟩

/-- Every row has a label. -/
theorem row_label {cloud : List CloudPoint} {labels : List ℤ} (h : cloud.length = labels.length)
    {row : CloudPoint} (hrow : row ∈ cloud) : ∃ l, (row, l) ∈ cloud.zip labels := by
  obtain ⟨n, hn, rfl⟩ := List.mem_iff_getElem.1 hrow
  refine ⟨labels[n], List.mem_iff_getElem.2 ⟨n, by simp; omega, by simp⟩⟩

/-- Every labelled row describes a cell. -/
theorem row_cell {h : List Deposit} {cells : List (ℤ × ℤ)} {rows : List (CloudPoint × ℤ)}
    (hd : List.Forall₂ (Describes h) cells rows) {rl : CloudPoint × ℤ} (hrl : rl ∈ rows) :
    ∃ cell ∈ cells, Describes h cell rl := by
  induction hd with
  | nil => simp at hrl
  | cons h1 _ ih =>
    rcases List.mem_cons.1 hrl with rfl | hrl
    · exact ⟨_, by simp, h1⟩
    · obtain ⟨c, hc, hd⟩ := ih hrl
      exact ⟨c, by simp [hc], hd⟩

/-- Every cell is described by a labelled row. -/
theorem cell_row {h : List Deposit} {cells : List (ℤ × ℤ)} {rows : List (CloudPoint × ℤ)}
    (hd : List.Forall₂ (Describes h) cells rows) {cell : ℤ × ℤ} (hc : cell ∈ cells) :
    ∃ rl ∈ rows, Describes h cell rl := by
  induction hd with
  | nil => simp at hc
  | cons h1 _ ih =>
    rcases List.mem_cons.1 hc with rfl | hc
    · exact ⟨_, by simp, h1⟩
    · obtain ⟨c, hc, hd⟩ := ih hc
      exact ⟨c, by simp [hc], hd⟩

theorem describes_floor {h : List Deposit} {cell : ℤ × ℤ} {rl : CloudPoint × ℤ}
    (hd : Describes h cell rl) : ⌊rl.1.tb⌋ = cell.1 :=
  Int.floor_eq_iff.2 ⟨hd.2.1, hd.2.2.1⟩

/-! ## C07 -/

/-- C07: every row of the cloud is on a pad of the grid (at indices inside the `size × size` array)
that is non-negative, not -1 and not a beam pad. -/
theorem C07_active_pads {σ : Type} {env : SimEnv} {momenta : List Vec4} {vertex : ℝ × ℝ × ℝ}
    {Zs As : List ℤ} {config : Config} {grid : PadGrid} {g : GridEdges} (hb : 0 < g.bin)
    (hN : g.high - g.low ≤ grid.size * g.bin) (hgrid : config.pad_grid = some (grid, g))
    {rng : Gen σ} (hr : LawfulGen rng) {indices : List ℤ} {s s' : σ} {cloud : List CloudPoint}
    {labels : List ℤ}
    (h : simulate env momenta vertex Zs As config rng indices s = .ok ((cloud, labels), s')) :
    ∀ row ∈ cloud, ∃ i j : ℤ, 0 ≤ i ∧ i < grid.size ∧ 0 ≤ j ∧ j < grid.size ∧
      row.pad = (grid.cell i j : ℝ) ∧ 0 ≤ grid.cell i j ∧ grid.cell i j ≠ -1 ∧
      grid.cell i j ∉ BEAM_PADS := by
  obtain ⟨tr, s₁, htr, hlen, cells, hnd, hmem, hdesc⟩ := simulate_cells hb hgrid hr h
  intro row hrow
  obtain ⟨l, hl⟩ := row_label hlen hrow
  obtain ⟨cell, hcell, hd⟩ := row_cell hdesc hl
  have hin := (hmem cell.1 cell.2).1 hcell
  obtain ⟨⟨d, hdm, -, hdp⟩, -, -, h0⟩ := hin
  obtain ⟨x, -, -, -, pos, hpos⟩ := htr.deposit hdm
  obtain ⟨i, j, hi, hj, hc, h1, h2⟩ := activePad_some hpos
  obtain ⟨hi0, hi1⟩ := gridIndex_lt hb hN hi
  obtain ⟨hj0, hj1⟩ := gridIndex_lt hb hN hj
  rw [hdp] at hc h1 h2
  exact ⟨i, j, hi0, hi1, hj0, hj1, by rw [hd.1, ← hc], by rw [← hc]; exact h0,
    by rw [← hc]; exact h1, by rw [← hc]; exact h2⟩

/-- C07 applies to the example event. -/
example (cloud : List CloudPoint) (labels : List ℤ)
    (h : simulate exEnv exMomenta (0, 0, 0.5) [1, 1, 1] [1, 1, 1] (exConfig 100 0.0001) exGen
      [2] () = .ok ((cloud, labels), ())) (row : CloudPoint) (hrow : row ∈ cloud) :
    row.pad = 5 := by
  obtain ⟨i, j, -, -, -, -, h, -⟩ := C07_active_pads exEdges_bin (by norm_num [exEdges, exGrid]) rfl
    exGen_lawful h row hrow
  rw [h]
  norm_num [exGrid]

/-! ## C08 -/

/-- C08: every row of the cloud has `0 ≤ tb < 512`. -/
theorem C08_time_range {σ : Type} {env : SimEnv} {momenta : List Vec4} {vertex : ℝ × ℝ × ℝ}
    {Zs As : List ℤ} {config : Config} {rng : Gen σ} {indices : List ℤ} {s s' : σ}
    {cloud : List CloudPoint} {labels : List ℤ}
    (h : simulate env momenta vertex Zs As config rng indices s = .ok ((cloud, labels), s')) :
    ∀ row ∈ cloud, 0 ≤ row.tb ∧ row.tb < 512 := by
  unfold simulate at h
  rw [except_bind_ok] at h
  obtain ⟨⟨p, s2⟩, -, h⟩ := h
  have h := Except.ok.inj h
  have hc := congrArg (fun x => x.1.1) h
  simp only at hc
  intro row hrow
  rw [← hc, maskSel_map, List.mem_filter] at hrow
  have hn : ((NUM_TB : ℕ) : ℝ) = 512 := by norm_num [NUM_TB]
  have := hrow.2
  simp only [Bool.and_eq_true, decide_eq_true_iff] at this
  rw [hn] at this
  exact this

/-- C08: the rows are exactly the recordable pads and time buckets: a pad and time bucket on which
something was deposited gets a row if and only if the integer time bucket lies in `[0, 511]` (and
the pad number is not negative). -/
theorem C08_survivors {σ : Type} {env : SimEnv} {momenta : List Vec4} {vertex : ℝ × ℝ × ℝ}
    {Zs As : List ℤ} {config : Config} {grid : PadGrid} {g : GridEdges} (hb : 0 < g.bin)
    (hgrid : config.pad_grid = some (grid, g)) {rng : Gen σ} (hr : LawfulGen rng)
    {indices : List ℤ} {s s' : σ} {cloud : List CloudPoint} {labels : List ℤ}
    (h : simulate env momenta vertex Zs As config rng indices s = .ok ((cloud, labels), s')) :
    ∃ tr s₁, EventTrace env momenta vertex Zs As config grid g rng indices s tr s₁ ∧
      ∀ tb pad : ℤ, (∃ row ∈ cloud, row.pad = (pad : ℝ) ∧ ⌊row.tb⌋ = tb) ↔
        Occupied (history tr) tb pad ∧ 0 ≤ tb ∧ tb ≤ 511 ∧ 0 ≤ pad := by
  obtain ⟨tr, s₁, htr, hlen, cells, hnd, hmem, hdesc⟩ := simulate_cells hb hgrid hr h
  refine ⟨tr, s₁, htr, fun tb pad => ⟨?_, ?_⟩⟩
  · rintro ⟨row, hrow, hp, ht⟩
    obtain ⟨l, hl⟩ := row_label hlen hrow
    obtain ⟨cell, hcell, hd⟩ := row_cell hdesc hl
    have h1 := describes_floor hd
    have h2 : pad = cell.2 := by
      have := hd.1
      simp only [hp] at this
      exact_mod_cast this
    simp only [ht] at h1
    obtain ⟨h3, h4, h5, h6⟩ := (hmem cell.1 cell.2).1 hcell
    subst h1 h2
    exact ⟨h3, h4, by omega, h6⟩
  · rintro ⟨h1, h2, h3, h4⟩
    obtain ⟨⟨row, l⟩, hrl, hd⟩ := cell_row hdesc ((hmem tb pad).2 ⟨h1, h2, by omega, h4⟩)
    exact ⟨row, (List.of_mem_zip hrl).1, hd.1, describes_floor hd⟩

/-- C08: every row was recorded from a track point, with at least one primary electron, whose exact
time is later than -1 and earlier than 512. -/
theorem C08_source_time {σ : Type} {env : SimEnv} {momenta : List Vec4} {vertex : ℝ × ℝ × ℝ}
    {Zs As : List ℤ} {config : Config} {grid : PadGrid} {g : GridEdges} (hb : 0 < g.bin)
    (hgrid : config.pad_grid = some (grid, g)) {rng : Gen σ} (hr : LawfulGen rng)
    {indices : List ℤ} {s s' : σ} {cloud : List CloudPoint} {labels : List ℤ}
    (h : simulate env momenta vertex Zs As config rng indices s = .ok ((cloud, labels), s')) :
    ∀ row ∈ cloud, ∃ momentum nucleus track primary s₀ s₁, ∃ re ∈ track.zip primary,
      generate_trajectory env.solve_ivp vertex momentum nucleus config.det_params = .ok track ∧
      generate_electrons track nucleus config.det_params rng s₀ = .ok (primary, s₁) ∧
      1 ≤ re.2 ∧ -1 < arrival config re.1.z ∧ arrival config re.1.z < 512 ∧
      ⌊row.tb⌋ = pyInt (arrival config re.1.z) := by
  obtain ⟨tr, s₁, htr, hlen, cells, hnd, hmem, hdesc⟩ := simulate_cells hb hgrid hr h
  intro row hrow
  obtain ⟨l, hl⟩ := row_label hlen hrow
  obtain ⟨cell, hcell, hd⟩ := row_cell hdesc hl
  have hf := describes_floor hd
  obtain ⟨⟨d, hdm, hdt, -⟩, h0, h1, -⟩ := (hmem cell.1 cell.2).1 hcell
  obtain ⟨x, hx, hdx, -⟩ := htr.deposit hdm
  obtain ⟨z, a, nucleus, momentum, track, primary, s₂, s₃, -, -, -, -, -, ht, he, hx2⟩ :=
    htr.entry x hx (List.ne_nil_of_mem hdx)
  rw [hx2] at hdx
  obtain ⟨-, -, re, hre, hre1, htb⟩ := mem_nucleusDeposits hdx
  rw [htb] at hdt
  refine ⟨_, nucleus, track, primary, s₂, s₃, re, hre, ht, he, hre1, ?_, ?_, by rw [hf, hdt]⟩
  · by_contra hc
    push Not at hc
    have : pyInt (arrival config re.1.z) ≤ -1 := by
      unfold pyInt
      rw [if_neg (by linarith), Int.ceil_le]
      push_cast
      linarith
    omega
  · by_contra hc
    push Not at hc
    have : (512 : ℤ) ≤ pyInt (arrival config re.1.z) := by
      unfold pyInt
      rw [if_pos (by linarith), Int.le_floor]
      push_cast
      linarith
    omega

/-! ## C09 -/

/-- C09: two different rows never share pad and integer time bucket, and each row holds the full
charge deposited on its pad in its time bucket. -/
theorem C09_unique_rows {σ : Type} {env : SimEnv} {momenta : List Vec4} {vertex : ℝ × ℝ × ℝ}
    {Zs As : List ℤ} {config : Config} {grid : PadGrid} {g : GridEdges} (hb : 0 < g.bin)
    (hgrid : config.pad_grid = some (grid, g)) {rng : Gen σ} (hr : LawfulGen rng)
    {indices : List ℤ} {s s' : σ} {cloud : List CloudPoint} {labels : List ℤ}
    (h : simulate env momenta vertex Zs As config rng indices s = .ok ((cloud, labels), s')) :
    (∀ i j : ℕ, ∀ hi : i < cloud.length, ∀ hj : j < cloud.length,
      cloud[i].pad = cloud[j].pad → ⌊cloud[i].tb⌋ = ⌊cloud[j].tb⌋ → i = j) ∧
    ∃ tr s₁, EventTrace env momenta vertex Zs As config grid g rng indices s tr s₁ ∧
      ∀ row ∈ cloud, ∃ pad : ℤ, row.pad = (pad : ℝ) ∧
        row.e = (chargeAt (history tr) ⌊row.tb⌋ pad : ℝ) := by
  obtain ⟨tr, s₁, htr, hlen, cells, hnd, hmem, hdesc⟩ := simulate_cells hb hgrid hr h
  have hzl : (cloud.zip labels).length = cloud.length := by rw [List.length_zip]; omega
  have hcl := hdesc.length_eq
  have hget : ∀ n (hn : n < cloud.length), Describes (history tr) (cells[n]'(by omega))
      (cloud[n], labels[n]'(by omega)) := by
    intro n hn
    have hd := hdesc.get (i := n) (by omega) (by omega)
    simpa only [List.get_eq_getElem, List.getElem_zip] using hd
  refine ⟨?_, tr, s₁, htr, ?_⟩
  · intro i j hi hj hp ht
    have h1 := hget i hi
    have h2 := hget j hj
    have e1 := describes_floor h1
    have e2 := describes_floor h2
    have p1 := h1.1
    have p2 := h2.1
    simp only at e1 e2 p1 p2
    rw [p1, p2] at hp
    have hp' : (cells[i]'(by omega)).2 = (cells[j]'(by omega)).2 := by exact_mod_cast hp
    have : cells[i]'(by omega) = cells[j]'(by omega) := Prod.ext (by rw [← e1, ← e2, ht]) hp'
    exact (List.Nodup.getElem_inj_iff hnd).1 this
  · intro row hrow
    obtain ⟨n, hn, rfl⟩ := List.mem_iff_getElem.1 hrow
    have h1 := hget n hn
    have e1 := describes_floor h1
    simp only at e1
    exact ⟨_, h1.1, by rw [e1]; exact h1.2.2.2.1⟩

/-! ## C10 -/

/-- C10: there are as many labels as rows, and the label of each row is a requested index with
non-zero proton number: the last one, in list order, that deposits on the row's pad in the row's
time bucket. -/
theorem C10_labels {σ : Type} {env : SimEnv} {momenta : List Vec4} {vertex : ℝ × ℝ × ℝ}
    {Zs As : List ℤ} {config : Config} {grid : PadGrid} {g : GridEdges} (hb : 0 < g.bin)
    (hgrid : config.pad_grid = some (grid, g)) {rng : Gen σ} (hr : LawfulGen rng)
    {indices : List ℤ} {s s' : σ} {cloud : List CloudPoint} {labels : List ℤ}
    (h : simulate env momenta vertex Zs As config rng indices s = .ok ((cloud, labels), s')) :
    cloud.length = labels.length ∧
    ∃ tr s₁, EventTrace env momenta vertex Zs As config grid g rng indices s tr s₁ ∧
      tr.map (·.1) = indices ∧
      ∀ rl ∈ cloud.zip labels, rl.2 ∈ indices ∧ (∃ z, pyGet Zs rl.2 = .ok z ∧ z ≠ 0) ∧
        ∃ pad : ℤ, rl.1.pad = (pad : ℝ) ∧ ∃ l1 deps l2, tr = l1 ++ (rl.2, deps) :: l2 ∧
          Occupied deps ⌊rl.1.tb⌋ pad ∧ ∀ x ∈ l2, ¬ Occupied x.2 ⌊rl.1.tb⌋ pad := by
  obtain ⟨tr, s₁, htr, hlen, cells, hnd, hmem, hdesc⟩ := simulate_cells hb hgrid hr h
  refine ⟨hlen, tr, s₁, htr, htr.labels, ?_⟩
  intro rl hrl
  obtain ⟨cell, hcell, hd⟩ := row_cell hdesc hrl
  have hf := describes_floor hd
  obtain ⟨l1, deps, l2, h1, h2, h3⟩ := htr.last hd.2.2.2.2
  have hmemtr : (rl.2, deps) ∈ tr := by rw [h1]; simp
  refine ⟨?_, ?_, cell.2, hd.1, l1, deps, l2, h1, by rw [hf]; exact h2, by rw [hf]; exact h3⟩
  · rw [← htr.labels]
    exact List.mem_map.2 ⟨_, hmemtr, rfl⟩
  · obtain ⟨d, hd', -⟩ := h2
    obtain ⟨z, -, -, -, -, -, -, -, hz, hz0, -⟩ := htr.entry _ hmemtr (List.ne_nil_of_mem hd')
    exact ⟨z, hz, hz0⟩

/-- The trace of the example event. -/
theorem exTrace {gain : ℤ} {D : ℝ} {tr : List (ℤ × List Deposit)}
    (h : EventTrace exEnv exMomenta (0, 0, 0.5) [1, 1, 1] [1, 1, 1] (exConfig gain D) exGrid exEdges
      exGen [2] () tr ()) : tr = [(2, exDeposits gain D 2)] := by
  cases h with
  | neutral _ _ _ _ tr hz h => exact absurd (Except.ok.inj hz) (by decide)
  | charged idx z a nucleus momentum track primary rest s s₁ s' tr hz hz0 ha hn hm ht he h =>
    cases h
    have h1 : exNucleus = nucleus := Except.ok.inj hn
    have h2 : [exTrack0, exTrack1] = track := Except.ok.inj ht
    subst h1 h2
    have h3 := he.symm.trans (exElectrons gain D)
    have h4 : primary = [0, 1] := congrArg Prod.fst (Except.ok.inj h3)
    subst h4
    rw [exNucleusDeposits_eq]

/-- If the example nucleus deposits on pad 5, the cloud has a row for it. -/
theorem exSimulate_row (gain : ℤ) (D : ℝ) (hD : 0 ≤ D)
    (hocc : Occupied (exDeposits gain D 2) 50 5) :
    ∃ cloud labels tr, simulate exEnv exMomenta (0, 0, 0.5) [1, 1, 1] [1, 1, 1] (exConfig gain D)
        exGen [2] () = .ok ((cloud, labels), ()) ∧
      EventTrace exEnv exMomenta (0, 0, 0.5) [1, 1, 1] [1, 1, 1] (exConfig gain D) exGrid exEdges
        exGen [2] () tr () ∧ tr = [(2, exDeposits gain D 2)] ∧
      ∃ row, (row, 2) ∈ cloud.zip labels ∧ row.pad = ((5 : ℤ) : ℝ) ∧ ⌊row.tb⌋ = 50 := by
  obtain ⟨cloud, labels, h⟩ := exSimulate gain D hD
  obtain ⟨tr, s₁, htr, hlen, cells, hnd, hmem, hdesc⟩ :=
    simulate_cells exEdges_bin rfl exGen_lawful h
  have e := exTrace htr
  have hh : history tr = exDeposits gain D 2 := by rw [e]; simp [history]
  refine ⟨cloud, labels, tr, h, htr, e, ?_⟩
  obtain ⟨⟨row, l⟩, hrl, hd⟩ := cell_row hdesc ((hmem 50 5).2 ⟨by rw [hh]; exact hocc, by norm_num,
    by norm_num, by norm_num⟩)
  have hl : l = 2 := by
    obtain ⟨l1, deps, l2, h1, h2, -⟩ := htr.last hd.2.2.2.2
    have : (l, deps) ∈ tr := by
      have : (l, deps) ∈ l1 ++ (l, deps) :: l2 := by simp
      rwa [← h1] at this
    rw [e, List.mem_singleton] at this
    exact congrArg Prod.fst this
  subst hl
  exact ⟨row, hrl, hd.1, describes_floor hd⟩

/-- The hypotheses of C07 to C10 are met by an event with a non-empty cloud. -/
theorem exSimulate_nonempty : ∃ cloud labels, simulate exEnv exMomenta (0, 0, 0.5) [1, 1, 1] [1, 1, 1] (exConfig 100 0)
    exGen [2] () = .ok ((cloud, labels), ()) ∧ ∃ row, (row, 2) ∈ cloud.zip labels := by
  obtain ⟨cloud, labels, tr, h, -, -, row, hrow, -⟩ := exSimulate_row 100 0 le_rfl (by
    refine ⟨⟨50, 5, 100, 2⟩, ?_, rfl, rfl⟩
    unfold exDeposits pointDeposits
    have : pyInt (50 : ℝ) = 50 := by simp [pyInt]
    have ha : activePad exGrid exEdges (0, 0) = some 5 := exRow_active
    rw [Real.sqrt_zero, if_pos rfl, ha, this]
    simp)
  exact ⟨cloud, labels, h, row, hrow⟩

/-! ## C11 -/

/-- The electrons that the nucleus `label` contributed to a pad and time bucket. -/
def contribution (tr : List (ℤ × List Deposit)) (label tb pad : ℤ) : ℤ :=
  chargeAt ((tr.filter fun x => x.1 = label).flatMap (·.2)) tb pad

theorem meshWeight_lt_one (i j : ℕ) : meshWeight i j < 1 := by
  unfold meshWeight
  have h1 : Real.exp (-(meshOffset i ^ 2 + meshOffset j ^ 2) / 2) ≤ 1 := by
    apply Real.exp_le_one_iff.2
    have := sq_nonneg (meshOffset i)
    have := sq_nonneg (meshOffset j)
    linarith
  have h2 : (2 / 3 : ℝ) ^ 2 / (2 * Real.pi) < 1 := by
    rw [div_lt_one (by positivity)]
    have := Real.pi_gt_three
    norm_num
    linarith
  have h3 : (0 : ℝ) ≤ (2 / 3) ^ 2 / (2 * Real.pi) := by positivity
  calc _ ≤ (2 / 3 : ℝ) ^ 2 / (2 * Real.pi) * 1 := mul_le_mul_of_nonneg_left h1 h3
    _ < 1 := by linarith

/-- C11 is false: with diffusion, a nucleus that releases a single electron (gain 1) gets a row
labelled with its index to which it contributed no electron at all, because the share of each of
the hundred mesh pixels is truncated to zero but still recorded. -/
theorem C11_refuted : ∃ cloud labels tr, simulate exEnv exMomenta (0, 0, 0.5) [1, 1, 1] [1, 1, 1]
      (exConfig 1 0.000001) exGen [2] () = .ok ((cloud, labels), ()) ∧
    EventTrace exEnv exMomenta (0, 0, 0.5) [1, 1, 1] [1, 1, 1] (exConfig 1 0.000001) exGrid exEdges
      exGen [2] () tr () ∧
    ∃ rl ∈ cloud.zip labels, ∃ pad : ℤ, rl.1.pad = pad ∧
      contribution tr rl.2 ⌊rl.1.tb⌋ pad = 0 := by
  have hs : Real.sqrt (0.000001 : ℝ) = 0.001 := sqrt_of_sq (by norm_num) (by norm_num)
  have h50 : pyInt (50 : ℝ) = 50 := by simp [pyInt]
  have hzero : ∀ d ∈ exDeposits 1 0.000001 2, d.e = 0 ∧ d.tb = 50 ∧ d.pad = 5 := by
    intro d hd
    unfold exDeposits pointDeposits at hd
    rw [hs, if_neg (by norm_num)] at hd
    simp only [List.mem_filterMap, Option.map_eq_some_iff] at hd
    obtain ⟨pw, hpw, pad, hp, rfl⟩ := hd
    obtain ⟨i, j, _, _, rfl⟩ := mem_meshPoints _ _ _ hpw
    obtain ⟨i', j', -, -, hc, -⟩ := activePad_some hp
    refine ⟨?_, h50, hc⟩
    have h1 := meshWeight_pos i j
    have h2 := meshWeight_lt_one i j
    unfold pyInt
    simp only [Int.cast_one, mul_one]
    rw [if_pos h1.le, Int.floor_eq_iff]
    constructor <;> norm_num <;> linarith
  have hocc : Occupied (exDeposits 1 0.000001 2) 50 5 := by
    have hact := exGrid_all_active 0 0 (by norm_num) (by norm_num)
    obtain ⟨pad, hpad⟩ := Option.isSome_iff_exists.1 hact
    have hm : (⟨pyInt 50, pad, pyInt (meshWeight 0 0 * ((1 : ℤ) : ℝ)), 2⟩ : Deposit)
        ∈ exDeposits 1 0.000001 2 := by
      unfold exDeposits pointDeposits
      rw [hs, if_neg (by norm_num), List.mem_filterMap]
      refine ⟨((0 + meshOffset 0 * 0.001, 0 + meshOffset 0 * 0.001), meshWeight 0 0), ?_, ?_⟩
      · unfold meshPoints
        rw [List.mem_flatMap]
        exact ⟨0, by simp, List.mem_map.2 ⟨0, by simp, rfl⟩⟩
      · simp only [hpad, Option.map_some]
    have := hzero _ hm
    exact ⟨_, hm, this.2.1, this.2.2⟩
  obtain ⟨cloud, labels, tr, h, htr, e, row, hrow, hp, ht⟩ :=
    exSimulate_row 1 0.000001 (by norm_num) hocc
  refine ⟨cloud, labels, tr, h, htr, (row, 2), hrow, 5, hp, ?_⟩
  simp only [ht]
  unfold contribution chargeAt
  apply List.sum_eq_zero
  intro x hx
  rw [List.mem_map] at hx
  obtain ⟨d, hd, rfl⟩ := hx
  have hd' := (List.mem_filter.1 hd).1
  rw [e] at hd'
  exact (hzero d (by simpa using hd')).1

/-- Part of C11 that holds: without diffusion and with gain at least 1, the nucleus named by a row's
label contributed at least one electron to that row. Missing for the full property: diffusion, for
which it is false (`C11_refuted`). -/
theorem C11_no_diffusion_partial {σ : Type} {env : SimEnv} {momenta : List Vec4}
    {vertex : ℝ × ℝ × ℝ} {Zs As : List ℤ} {config : Config} {grid : PadGrid} {g : GridEdges}
    (hb : 0 < g.bin) (hgrid : config.pad_grid = some (grid, g)) {rng : Gen σ} (hr : LawfulGen rng)
    (hD : config.det_params.diffusion = 0) (hgain : 1 ≤ config.det_params.mpgd_gain)
    {indices : List ℤ} {s s' : σ} {cloud : List CloudPoint} {labels : List ℤ}
    (h : simulate env momenta vertex Zs As config rng indices s = .ok ((cloud, labels), s')) :
    ∃ tr s₁, EventTrace env momenta vertex Zs As config grid g rng indices s tr s₁ ∧
      ∀ rl ∈ cloud.zip labels, ∃ pad : ℤ, rl.1.pad = (pad : ℝ) ∧
        1 ≤ contribution tr rl.2 ⌊rl.1.tb⌋ pad := by
  obtain ⟨-, tr, s₁, htr, -, hl⟩ := C10_labels hb hgrid hr h
  refine ⟨tr, s₁, htr, ?_⟩
  have hpos : ∀ x ∈ tr, ∀ d ∈ x.2, 1 ≤ d.e := by
    intro x hx d hd
    obtain ⟨z, a, nucleus, momentum, track, primary, s₂, s₃, -, -, -, -, -, -, -, hx2⟩ :=
      htr.entry x hx (List.ne_nil_of_mem hd)
    rw [hx2] at hd
    unfold nucleusDeposits at hd
    rw [List.mem_flatMap] at hd
    obtain ⟨re, hre, hd⟩ := hd
    rw [List.mem_filter, decide_eq_true_eq] at hre
    unfold pointDeposits at hd
    rw [hD, if_pos (by simp)] at hd
    rcases hp : activePad grid g (re.1.x, re.1.y) with _ | pad <;> simp [hp] at hd
    subst hd
    simp only
    nlinarith [hre.2]
  intro rl hrl
  obtain ⟨-, -, pad, hpad, l1, deps, l2, htr', ⟨d, hd, hat⟩, -⟩ := hl rl hrl
  refine ⟨pad, hpad, ?_⟩
  unfold contribution chargeAt
  have hmem : d ∈ ((tr.filter fun x => x.1 = rl.2).flatMap (·.2)).filter
      fun d => decide (d.at ⌊rl.1.tb⌋ pad) := by
    rw [List.mem_filter, List.mem_flatMap]
    refine ⟨⟨(rl.2, deps), ?_, hd⟩, by simpa using hat⟩
    rw [List.mem_filter]
    exact ⟨by rw [htr']; simp, by simp⟩
  have hall : ∀ e ∈ (((tr.filter fun x => x.1 = rl.2).flatMap (·.2)).filter
      fun d => decide (d.at ⌊rl.1.tb⌋ pad)).map (·.e), 1 ≤ e := by
    intro e he
    obtain ⟨d', hd', rfl⟩ := List.mem_map.1 he
    obtain ⟨x, hx, hdx⟩ := List.mem_flatMap.1 (List.mem_filter.1 hd').1
    exact hpos x (List.mem_filter.1 hx).1 d' hdx
  have hle := List.single_le_sum (fun e he => zero_le_one.trans (hall e he)) d.e
    (List.mem_map.2 ⟨d, hmem, rfl⟩)
  exact (hall d.e (List.mem_map.2 ⟨d, hmem, rfl⟩)).trans hle

/-! ## C12 -/

/-- C12: removing a nucleus with proton number 0 from the index list changes neither cloud, nor
labels, nor the random stream, nor whether simulation fails. -/
theorem C12_neutral {σ : Type} (env : SimEnv) (momenta : List Vec4) (vertex : ℝ × ℝ × ℝ)
    (Zs As : List ℤ) (config : Config) (rng : Gen σ) (l1 l2 : List ℤ) (idx : ℤ)
    (hz : pyGet Zs idx = .ok 0) (s : σ) :
    simulate env momenta vertex Zs As config rng (l1 ++ idx :: l2) s
      = simulate env momenta vertex Zs As config rng (l1 ++ l2) s := by
  have hn : ∀ ps : Points × σ, simulate_nucleus env momenta vertex Zs As config rng ps idx
      = .ok ps := by
    intro ps
    unfold simulate_nucleus
    rw [hz]
    rfl
  have : (l1 ++ idx :: l2).foldlM (simulate_nucleus env momenta vertex Zs As config rng)
        (([] : Points), s)
      = (l1 ++ l2).foldlM (simulate_nucleus env momenta vertex Zs As config rng)
        (([] : Points), s) := by
    rw [List.foldlM_append, List.foldlM_append]
    congr 1
    funext ps
    rw [List.foldlM_cons, hn]
    rfl
  unfold simulate
  rw [this]

/-- A neutron among the products: index 2 of the proton numbers [1, 1, 0, 2]. -/
example : pyGet [1, 1, 0, 2] 2 = .ok (0 : ℤ) := rfl

end Verif.Detector
