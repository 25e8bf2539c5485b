import Verif.Props.Simulate
import Mathlib.Analysis.Complex.ExponentialBounds
import Mathlib.Analysis.Real.Pi.Bounds

/-! # C11: the gain from which every labelled nucleus contributed to its rows -/

namespace Verif.Detector

open Verif.Spec Verif.Kinematics

/-- The smallest share of a mesh pixel, that of the four corners. -/
theorem meshWeight_corner {i j : ℕ} (hi : i < 10) (hj : j < 10) :
    2 / (9 * Real.pi * Real.exp 9) ≤ meshWeight i j := by
  have ho : ∀ k : ℕ, k < 10 → meshOffset k ^ 2 ≤ 9 := by
    intro k hk
    have h1 : (0 : ℝ) ≤ k := Nat.cast_nonneg k
    have h2 : (k : ℝ) ≤ 9 := by exact_mod_cast Nat.lt_succ_iff.1 hk
    unfold meshOffset
    nlinarith
  have h1 := ho i hi
  have h2 := ho j hj
  have h3 : Real.exp (-9) ≤ Real.exp (-(meshOffset i ^ 2 + meshOffset j ^ 2) / 2) :=
    Real.exp_le_exp.2 (by linarith)
  have hp := Real.pi_pos
  calc 2 / (9 * Real.pi * Real.exp 9) = (2 / 3) ^ 2 / (2 * Real.pi) * Real.exp (-9) := by
        rw [Real.exp_neg]
        field_simp
        norm_num
    _ ≤ _ := mul_le_mul_of_nonneg_left h3 (by positivity)

theorem meshWeight_zero : meshWeight 0 0 = 2 / (9 * Real.pi * Real.exp 9) := by
  have hp := Real.pi_pos
  have h : -(meshOffset 0 ^ 2 + meshOffset 0 ^ 2) / 2 = -9 := by norm_num [meshOffset]
  unfold meshWeight
  rw [h, Real.exp_neg]
  field_simp
  norm_num

theorem exp_nine : 8103.08 < Real.exp 9 ∧ Real.exp 9 < 8103.0841 := by
  have e : Real.exp 9 = Real.exp 1 ^ 9 := by rw [← Real.exp_nat_mul]; norm_num
  have h1 := Real.exp_one_gt_d9
  have h2 := Real.exp_one_lt_d9
  rw [e]
  constructor
  · calc (8103.08 : ℝ) < 2.7182818283 ^ 9 := by norm_num
      _ < _ := pow_lt_pow_left₀ h1 (by norm_num) (by norm_num)
  · calc Real.exp 1 ^ 9 < 2.7182818286 ^ 9 := pow_lt_pow_left₀ h2 (Real.exp_pos 1).le (by norm_num)
      _ < 8103.0841 := by norm_num

/-- The number of electrons of which a corner pixel gets exactly one lies between 114554 and 114555. -/
theorem corner_gain : 114554 < 9 * Real.pi * Real.exp 9 / 2 ∧ 9 * Real.pi * Real.exp 9 / 2 < 114555 := by
  obtain ⟨h1, h2⟩ := exp_nine
  have h3 := Real.pi_gt_d6
  have h4 := Real.pi_lt_d6
  constructor
  · have : (3.141592 : ℝ) * 8103.08 < Real.pi * Real.exp 9 :=
      mul_lt_mul h3 h1.le (by norm_num) (by positivity)
    norm_num at this ⊢
    linarith
  · have : Real.pi * Real.exp 9 < 3.141593 * 8103.0841 :=
      mul_lt_mul h4 h2.le (by positivity) (by norm_num)
    norm_num at this ⊢
    linarith

theorem one_le_pyInt {x : ℝ} (h : 1 ≤ x) : 1 ≤ pyInt x := by
  unfold pyInt
  rw [if_pos (by linarith)]
  exact Int.le_floor.2 (by exact_mod_cast h)

/-- If every deposit of an event has at least one electron, so has the contribution of the labelled nucleus
to a row. -/
theorem label_contribution {σ : Type} {env : SimEnv} {momenta : List Vec4}
    {vertex : ℝ × ℝ × ℝ} {Zs As : List ℤ} {config : Config} {grid : PadGrid} {g : GridEdges}
    (hb : 0 < g.bin) (hgrid : config.pad_grid = some (grid, g)) {rng : Gen σ} (hr : LawfulGen rng)
    (hpt : ∀ (re : Row × ℤ) (label : ℤ), 1 ≤ re.2 →
      ∀ d ∈ pointDeposits grid g (arrival config re.1.z) (re.1.x, re.1.y)
        (re.2 * config.det_params.mpgd_gain)
        (Real.sqrt (2 * config.det_params.diffusion * config.drift_velocity * arrival config re.1.z
          / config.det_params.efield)) label, 1 ≤ d.e)
    {indices : List ℤ} {s s' : σ} {cloud : List CloudPoint} {labels : List ℤ}
    (h : simulate env momenta vertex Zs As config rng indices s = .ok ((cloud, labels), s')) :
    ∃ tr s₁, EventTrace env momenta vertex Zs As config grid g rng indices s tr s₁ ∧
      ∀ rl ∈ cloud.zip labels, ∃ pad : ℤ, rl.1.pad = (pad : ℝ) ∧
        1 ≤ contribution tr rl.2 ⌊rl.1.tb⌋ pad := by
  obtain ⟨-, tr, s₁, htr, -, hl⟩ := C10_labels hb hgrid hr h
  refine ⟨tr, s₁, htr, ?_⟩
  have hpos : ∀ x ∈ tr, ∀ d ∈ x.2, 1 ≤ d.e := by
    intro x hx d hd
    obtain ⟨z, a, nucleus, momentum, track, primary, s₂, s₃, -, -, -, -, -, -, -, hx2⟩ :=
      htr.entry x hx (List.ne_nil_of_mem hd)
    rw [hx2] at hd
    unfold nucleusDeposits at hd
    rw [List.mem_flatMap] at hd
    obtain ⟨re, hre, hd⟩ := hd
    rw [List.mem_filter, decide_eq_true_eq] at hre
    exact hpt re _ hre.2 d hd
  intro rl hrl
  obtain ⟨-, -, pad, hpad, l1, deps, l2, htr', ⟨d, hd, hat⟩, -⟩ := hl rl hrl
  refine ⟨pad, hpad, ?_⟩
  unfold contribution chargeAt
  have hmem : d ∈ ((tr.filter fun x => x.1 = rl.2).flatMap (·.2)).filter
      fun d => decide (d.at ⌊rl.1.tb⌋ pad) := by
    rw [List.mem_filter, List.mem_flatMap]
    refine ⟨⟨(rl.2, deps), ?_, hd⟩, by simpa using hat⟩
    rw [List.mem_filter]
    exact ⟨by rw [htr']; simp, by simp⟩
  have hall : ∀ e ∈ (((tr.filter fun x => x.1 = rl.2).flatMap (·.2)).filter
      fun d => decide (d.at ⌊rl.1.tb⌋ pad)).map (·.e), 1 ≤ e := by
    intro e he
    obtain ⟨d', hd', rfl⟩ := List.mem_map.1 he
    obtain ⟨x, hx, hdx⟩ := List.mem_flatMap.1 (List.mem_filter.1 hd').1
    exact hpos x (List.mem_filter.1 hx).1 d' hdx
  have hle := List.single_le_sum (fun e he => zero_le_one.trans (hall e he)) d.e
    (List.mem_map.2 ⟨d, hmem, rfl⟩)
  exact (hall d.e (List.mem_map.2 ⟨d, hmem, rfl⟩)).trans hle

/-- C11 with diffusion, the part that holds: from a gain of 114555 every pixel of the mesh receives at least
one electron, and the nucleus named by a row's label contributed to that row.
Missing: smaller gains, see `C11_threshold_refuted`. -/
theorem C11_gain_partial {σ : Type} {env : SimEnv} {momenta : List Vec4}
    {vertex : ℝ × ℝ × ℝ} {Zs As : List ℤ} {config : Config} {grid : PadGrid} {g : GridEdges}
    (hb : 0 < g.bin) (hgrid : config.pad_grid = some (grid, g)) {rng : Gen σ} (hr : LawfulGen rng)
    (hgain : 114555 ≤ config.det_params.mpgd_gain)
    {indices : List ℤ} {s s' : σ} {cloud : List CloudPoint} {labels : List ℤ}
    (h : simulate env momenta vertex Zs As config rng indices s = .ok ((cloud, labels), s')) :
    ∃ tr s₁, EventTrace env momenta vertex Zs As config grid g rng indices s tr s₁ ∧
      ∀ rl ∈ cloud.zip labels, ∃ pad : ℤ, rl.1.pad = (pad : ℝ) ∧
        1 ≤ contribution tr rl.2 ⌊rl.1.tb⌋ pad := by
  refine label_contribution hb hgrid hr ?_ h
  intro re label hre d hd
  have hge : 114555 ≤ re.2 * config.det_params.mpgd_gain := by nlinarith
  revert hd
  generalize Real.sqrt (2 * config.det_params.diffusion * config.drift_velocity * arrival config re.1.z
    / config.det_params.efield) = sigma
  intro hd
  unfold pointDeposits at hd
  split_ifs at hd with hs
  · split at hd
    · obtain rfl := List.mem_singleton.1 hd
      simp only
      omega
    · simp at hd
  · simp only [List.mem_filterMap, Option.map_eq_some_iff] at hd
    obtain ⟨pw, hpw, pad, -, rfl⟩ := hd
    obtain ⟨i, j, hi, hj, rfl⟩ := mem_meshPoints _ _ _ hpw
    apply one_le_pyInt
    have hw := meshWeight_corner hi hj
    have hc := corner_gain.2
    have hp := Real.pi_pos
    have he := Real.exp_pos 9
    have hge' : (114555 : ℝ) ≤ ((re.2 * config.det_params.mpgd_gain : ℤ) : ℝ) := by exact_mod_cast hge
    calc (1 : ℝ) = 2 / (9 * Real.pi * Real.exp 9) * (9 * Real.pi * Real.exp 9 / 2) := by field_simp
      _ ≤ meshWeight i j * ((re.2 * config.det_params.mpgd_gain : ℤ) : ℝ) :=
        mul_le_mul hw (by linarith) (by positivity) (meshWeight_pos i j).le

/-- The gain of 175000 in the documentation is large enough: an event with diffusion meeting the hypotheses. -/
example : ∃ cloud labels, simulate exEnv exMomenta (0, 0, 0.5) [1, 1, 1] [1, 1, 1]
      (exConfig 175000 0.000001) exGen [2] () = .ok ((cloud, labels), ()) ∧
    114555 ≤ (exConfig 175000 0.000001).det_params.mpgd_gain := by
  obtain ⟨cloud, labels, h⟩ := exSimulate 175000 0.000001 (by norm_num)
  exact ⟨cloud, labels, h, by norm_num [exConfig, exDet]⟩

/-! ## Smaller gains -/

/-- A grid with 1 mm cells from -10 mm to 10 mm of which only the cell from -9 mm to -8 mm in both
directions belongs to a pad. -/
def cornerGrid : PadGrid := { size := 20, cell := fun i j => if i = 1 ∧ j = 1 then 5 else -1 }

/-- Its edges. -/
def cornerEdges : GridEdges := { low := -10, high := 10, bin := 1 }

theorem cornerEdges_bin : 0 < cornerEdges.bin := by norm_num [cornerEdges]

/-- The example configuration with that grid and a spread of 3 mm. -/
noncomputable def cornerConfig (gain : ℤ) : Config :=
  { exConfig gain 0.000009 with pad_grid := some (cornerGrid, cornerEdges) }

/-- The deposits of the example nucleus. -/
noncomputable def cornerDeposits (gain : ℤ) : List Deposit :=
  pointDeposits cornerGrid cornerEdges 50 (0, 0) gain 0.003 2

theorem cornerSigma : Real.sqrt (2 * 0.000009 * 0.01 * 50 / 1) = 0.003 :=
  sqrt_of_sq (by norm_num) (by norm_num)

theorem cornerDeposits_eq (gain : ℤ) :
    nucleusDeposits (cornerConfig gain) cornerGrid cornerEdges [exTrack0, exTrack1] [0, 1] 2
      = cornerDeposits gain := by
  unfold nucleusDeposits cornerDeposits
  have hf : (([exTrack0, exTrack1].zip [(0 : ℤ), 1]).filter fun re => decide (1 ≤ re.2))
      = [(exTrack1, 1)] := by
    simp [List.filter_cons]
  rw [hf]
  have hz : exTrack1.z = 0.5 := rfl
  have hx : exTrack1.x = 0 := rfl
  have hy : exTrack1.y = 0 := rfl
  have ha : arrival (cornerConfig gain) 0.5 = 50 := exArrival gain 0.000009
  simp only [List.flatMap_cons, List.flatMap_nil, List.append_nil, hz, hx, hy, ha]
  congr 1
  · simp [cornerConfig, exConfig, exDet]
  · exact cornerSigma

theorem cornerSimulate (gain : ℤ) :
    ∃ cloud labels, simulate exEnv exMomenta (0, 0, 0.5) [1, 1, 1] [1, 1, 1] (cornerConfig gain) exGen
      [2] () = .ok ((cloud, labels), ()) := by
  have hp : simulate_nucleus exEnv exMomenta (0, 0, 0.5) [1, 1, 1] [1, 1, 1] (cornerConfig gain) exGen
      ([], ()) 2 = .ok (applyDeposits [] (cornerDeposits gain), ()) := by
    rw [← cornerDeposits_eq]
    exact generate_point_cloud_of (ivp := exSolver) (momentum := (0, 0, 4.5)) (vertex := (0, 0, 0.5))
      (nucleus := exNucleus) cornerEdges_bin (config := cornerConfig gain) (grid := cornerGrid) rfl [] 2
      (track := [exTrack0, exTrack1]) rfl (exElectrons gain 0.000009) (by
        intro re hre
        have hf : (([exTrack0, exTrack1].zip [(0 : ℤ), 1]).filter fun re => decide (1 ≤ re.2))
            = [(exTrack1, 1)] := by
          simp [List.filter_cons]
        rw [hf, List.mem_singleton] at hre
        subst hre
        have hz : exTrack1.z = 0.5 := rfl
        have ha : arrival (cornerConfig gain) 0.5 = 50 := exArrival gain 0.000009
        refine ⟨by norm_num [cornerConfig, exConfig, exDet], ?_⟩
        simp only [hz, ha]
        norm_num [cornerConfig, exConfig, exDet])
  unfold simulate
  simp only [List.foldlM_cons, List.foldlM_nil, hp, bind, Except.bind, pure, Except.pure]
  exact ⟨_, _, rfl⟩

theorem cornerTrace {gain : ℤ} {tr : List (ℤ × List Deposit)}
    (h : EventTrace exEnv exMomenta (0, 0, 0.5) [1, 1, 1] [1, 1, 1] (cornerConfig gain) cornerGrid
      cornerEdges exGen [2] () tr ()) : tr = [(2, cornerDeposits gain)] := by
  cases h with
  | neutral _ _ _ _ tr hz h => exact absurd (Except.ok.inj hz) (by decide)
  | charged idx z a nucleus momentum track primary rest s s₁ s' tr hz hz0 ha hn hm ht he h =>
    cases h
    have h1 : exNucleus = nucleus := Except.ok.inj hn
    have h2 : [exTrack0, exTrack1] = track := Except.ok.inj ht
    subst h1 h2
    have h3 := he.symm.trans (exElectrons gain 0.000009)
    have h4 : primary = [0, 1] := congrArg Prod.fst (Except.ok.inj h3)
    subst h4
    rw [cornerDeposits_eq]

/-- Only the corner of the mesh lies on the pad. -/
theorem corner_index {k : ℕ} (hk : k < 10) :
    gridIndex cornerEdges (0 + meshOffset k * 0.003) = some 1 ↔ k = 0 := by
  have e : (0 + meshOffset k * 0.003) * 1000 = ((2 * k - 9 : ℤ) : ℝ) := by
    unfold meshOffset
    push_cast
    norm_num
    ring
  unfold gridIndex
  rw [e, Int.floor_intCast]
  have h1 : (0 : ℝ) ≤ k := Nat.cast_nonneg k
  have h2 : (k : ℝ) ≤ 9 := by exact_mod_cast Nat.lt_succ_iff.1 hk
  rw [if_pos (by
    simp only [cornerEdges]
    push_cast
    constructor <;> linarith)]
  have e2 : (((2 * k - 9 : ℤ) : ℝ) - cornerEdges.low) / cornerEdges.bin = ((2 * k + 1 : ℤ) : ℝ) := by
    simp only [cornerEdges]
    push_cast
    ring
  rw [e2, Int.floor_intCast, Option.some.injEq]
  omega

theorem corner_pad {i j : ℕ} (hi : i < 10) (hj : j < 10) (pad : ℤ) :
    activePad cornerGrid cornerEdges (0 + meshOffset i * 0.003, 0 + meshOffset j * 0.003) = some pad
      ↔ i = 0 ∧ j = 0 ∧ pad = 5 := by
  have h1 := corner_index hi
  have h2 := corner_index hj
  unfold activePad
  simp only
  rcases hx : gridIndex cornerEdges (0 + meshOffset i * 0.003) with _ | a
  · rw [hx] at h1
    simp only [reduceCtorEq, false_iff] at h1
    simp [h1]
  rcases hy : gridIndex cornerEdges (0 + meshOffset j * 0.003) with _ | c
  · rw [hy] at h2
    simp only [reduceCtorEq, false_iff] at h2
    simp [h2]
  rw [hx, Option.some.injEq] at h1
  rw [hy, Option.some.injEq] at h2
  by_cases hc : a = 1 ∧ c = 1
  · have hb : (5 : ℤ) ∉ BEAM_PADS := by decide
    have hcell : cornerGrid.cell a c = 5 := if_pos hc
    simp only [hcell]
    rw [if_neg (by simp [hb]), Option.some.injEq, ← h1, ← h2]
    simp [hc, eq_comm]
  · have hcell : cornerGrid.cell a c = -1 := if_neg hc
    simp only [hcell]
    rw [if_pos (by simp)]
    simp only [reduceCtorEq, false_iff]
    rintro ⟨h3, h4, -⟩
    exact hc ⟨h1.2 h3, h2.2 h4⟩

theorem cornerDeposits_zero {gain : ℤ} (h0 : 0 ≤ gain) (h1 : gain ≤ 114554) :
    (∀ d ∈ cornerDeposits gain, d.e = 0) ∧ Occupied (cornerDeposits gain) 50 5 := by
  have h50 : pyInt (50 : ℝ) = 50 := by simp [pyInt]
  have hcorner : pyInt (meshWeight 0 0 * (gain : ℝ)) = 0 := by
    have hp := meshWeight_pos 0 0
    have hg0 : (0 : ℝ) ≤ gain := by exact_mod_cast h0
    have hg1 : (gain : ℝ) ≤ 114554 := by exact_mod_cast h1
    have hc := corner_gain.1
    have hpi := Real.pi_pos
    have he := Real.exp_pos 9
    have h2 : meshWeight 0 0 * (gain : ℝ) < 1 := by
      rw [meshWeight_zero]
      calc 2 / (9 * Real.pi * Real.exp 9) * (gain : ℝ)
          < 2 / (9 * Real.pi * Real.exp 9) * (9 * Real.pi * Real.exp 9 / 2) :=
            mul_lt_mul_of_pos_left (by linarith) (by positivity)
        _ = 1 := by field_simp
    have h3 := mul_nonneg hp.le hg0
    unfold pyInt
    rw [if_pos h3, Int.floor_eq_zero_iff]
    exact ⟨h3, h2⟩
  constructor
  · intro d hd
    unfold cornerDeposits pointDeposits at hd
    rw [if_neg (by norm_num)] at hd
    simp only [List.mem_filterMap, Option.map_eq_some_iff] at hd
    obtain ⟨pw, hpw, pad, hpad, rfl⟩ := hd
    obtain ⟨i, j, hi, hj, rfl⟩ := mem_meshPoints _ _ _ hpw
    obtain ⟨rfl, rfl, -⟩ := (corner_pad hi hj pad).1 hpad
    exact hcorner
  · have hpad := (corner_pad (i := 0) (j := 0) (by norm_num) (by norm_num) 5).2 ⟨rfl, rfl, rfl⟩
    refine ⟨⟨pyInt 50, 5, pyInt (meshWeight 0 0 * (gain : ℝ)), 2⟩, ?_, h50, rfl⟩
    unfold cornerDeposits pointDeposits
    rw [if_neg (by norm_num), List.mem_filterMap]
    refine ⟨((0 + meshOffset 0 * 0.003, 0 + meshOffset 0 * 0.003), meshWeight 0 0), ?_, ?_⟩
    · unfold meshPoints
      rw [List.mem_flatMap]
      exact ⟨0, by simp, List.mem_map.2 ⟨0, by simp, rfl⟩⟩
    · simp only [hpad, Option.map_some]

/-- C11 is false for every gain below that: a nucleus that releases a single electron next to a pad labels
a row to which it contributed no electron. -/
theorem C11_threshold_refuted {gain : ℤ} (h0 : 0 ≤ gain) (h1 : gain ≤ 114554) :
    ∃ cloud labels tr, simulate exEnv exMomenta (0, 0, 0.5) [1, 1, 1] [1, 1, 1] (cornerConfig gain)
        exGen [2] () = .ok ((cloud, labels), ()) ∧
    EventTrace exEnv exMomenta (0, 0, 0.5) [1, 1, 1] [1, 1, 1] (cornerConfig gain) cornerGrid cornerEdges
      exGen [2] () tr () ∧
    ∃ rl ∈ cloud.zip labels, ∃ pad : ℤ, rl.1.pad = pad ∧
      contribution tr rl.2 ⌊rl.1.tb⌋ pad = 0 := by
  obtain ⟨cloud, labels, h⟩ := cornerSimulate gain
  obtain ⟨tr, s₁, htr, hlen, cells, hnd, hmem, hdesc⟩ :=
    simulate_cells cornerEdges_bin rfl exGen_lawful h
  have e := cornerTrace htr
  obtain ⟨hz, hocc⟩ := cornerDeposits_zero h0 h1
  have hh : history tr = cornerDeposits gain := by rw [e]; simp [history]
  refine ⟨cloud, labels, tr, h, htr, ?_⟩
  obtain ⟨⟨row, l⟩, hrl, hd⟩ := cell_row hdesc ((hmem 50 5).2 ⟨by
    rw [hh]
    exact hocc, by norm_num, by norm_num, by norm_num⟩)
  refine ⟨(row, l), hrl, 5, hd.1, ?_⟩
  unfold contribution chargeAt
  apply List.sum_eq_zero
  intro x hx
  rw [List.mem_map] at hx
  obtain ⟨d, hd, rfl⟩ := hx
  obtain ⟨y, hy, hdy⟩ := List.mem_flatMap.1 (List.mem_filter.1 hd).1
  have hy' := (List.mem_filter.1 hy).1
  rw [e, List.mem_singleton] at hy'
  rw [hy'] at hdy
  exact hz d hdy

end Verif.Detector
