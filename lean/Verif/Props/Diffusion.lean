import Verif.Props.Simulate
import Verif.Proofs.Mesh

/-! # C77, C78: shape and width of the diffusion -/

namespace Verif.Detector

open Verif.Spec

/-! ## C77 -/

/-- Summing a function of the offset over the pixels of the mesh. -/
theorem mesh_sum (center : ℝ × ℝ) {sigma : ℝ} (hs : sigma ≠ 0) (e : ℤ) (f : ℝ → ℝ → ℝ) :
    ((transverse_mesh center sigma).map fun p =>
      (pixel_electrons center sigma e p : ℝ) * f (p.1 - center.1) (p.2 - center.2)).sum
    = ((List.range 10).map fun (i : ℕ) => ((List.range 10).map fun (j : ℕ) =>
        (pyInt (meshWeight i j * (e : ℝ)) : ℝ) * f (meshOffset i * sigma) (meshOffset j * sigma)).sum).sum := by
  rw [transverse_mesh_eq]
  unfold meshPoints
  rw [List.map_flatMap, sum_flatMap_map]
  simp only [List.map_map, Function.comp_def, pixel_electrons_eq center sigma hs, add_sub_cancel_left]

theorem meshOffset_reflect {i : ℕ} (hi : i < 10) : meshOffset (9 - i) = -meshOffset i := by
  unfold meshOffset
  interval_cases i <;> norm_num

theorem meshWeight_reflect_left {i : ℕ} (hi : i < 10) (j : ℕ) : meshWeight (9 - i) j = meshWeight i j := by
  unfold meshWeight
  rw [meshOffset_reflect hi, neg_sq]

theorem meshWeight_reflect_right (i : ℕ) {j : ℕ} (hj : j < 10) : meshWeight i (9 - j) = meshWeight i j := by
  unfold meshWeight
  rw [meshOffset_reflect hj, neg_sq]

theorem meshWeight_swap (i j : ℕ) : meshWeight i j = meshWeight j i := by
  unfold meshWeight
  rw [add_comm (meshOffset i ^ 2)]

/-- A sum over the mesh lines that changes sign under the reflection vanishes. -/
theorem sum_odd (F : ℕ → ℝ) (h : ∀ i < 10, F (9 - i) = -F i) : ((List.range 10).map F).sum = 0 := by
  have h0 := h 0 (by norm_num)
  have h1 := h 1 (by norm_num)
  have h2 := h 2 (by norm_num)
  have h3 := h 3 (by norm_num)
  have h4 := h 4 (by norm_num)
  simp only [List.range_succ, List.range_zero, List.nil_append, List.cons_append, List.map_cons,
    List.map_nil, List.sum_cons, List.sum_nil]
  norm_num at h0 h1 h2 h3 h4
  linarith

/-- **C77.** The electrons put into the pixels of the mesh have their centre exactly at the track point
and no correlation between x and y, also after truncation to whole electrons. -/
theorem C77_centred (center : ℝ × ℝ) {sigma : ℝ} (hs : sigma ≠ 0) (e : ℤ) :
    ((transverse_mesh center sigma).map fun p =>
      (pixel_electrons center sigma e p : ℝ) * (p.1 - center.1)).sum = 0 ∧
    ((transverse_mesh center sigma).map fun p =>
      (pixel_electrons center sigma e p : ℝ) * (p.2 - center.2)).sum = 0 ∧
    ((transverse_mesh center sigma).map fun p =>
      (pixel_electrons center sigma e p : ℝ) * ((p.1 - center.1) * (p.2 - center.2))).sum = 0 := by
  refine ⟨?_, ?_, ?_⟩
  · rw [mesh_sum center hs e fun x _ => x]
    apply sum_odd
    intro i hi
    simp only [meshWeight_reflect_left hi, meshOffset_reflect hi]
    rw [sum_map_mul_right', sum_map_mul_right']
    ring
  · rw [mesh_sum center hs e fun _ y => y]
    apply List.sum_eq_zero
    intro x hx
    obtain ⟨i, -, rfl⟩ := List.mem_map.1 hx
    apply sum_odd
    intro j hj
    simp only [meshWeight_reflect_right i hj, meshOffset_reflect hj]
    ring
  · rw [mesh_sum center hs e fun x y => x * y]
    apply List.sum_eq_zero
    intro x hx
    obtain ⟨i, -, rfl⟩ := List.mem_map.1 hx
    apply sum_odd
    intro j hj
    simp only [meshWeight_reflect_right i hj, meshOffset_reflect hj]
    ring

/-- The second moment of one mesh line. -/
noncomputable def meshSum2 : ℝ :=
  2 / 9 * (q18 + 9 * q18 ^ 9 + 25 * q18 ^ 25 + 49 * q18 ^ 49 + 81 * q18 ^ 81)

theorem meshSum2_bounds : (3.723 : ℝ) < meshSum2 ∧ meshSum2 < 3.726 := by
  obtain ⟨h1, h2⟩ := q18_bounds
  unfold meshSum2
  have lo : ∀ n : ℕ, n ≠ 0 → (0.94595 : ℝ) ^ n < q18 ^ n := fun n hn =>
    pow_lt_pow_left₀ h1 (by norm_num) hn
  have hi : ∀ n : ℕ, n ≠ 0 → q18 ^ n < (0.94596 : ℝ) ^ n := fun n hn =>
    pow_lt_pow_left₀ h2 (by linarith) hn
  have a1 := lo 9 (by norm_num)
  have a2 := lo 25 (by norm_num)
  have a3 := lo 49 (by norm_num)
  have a4 := lo 81 (by norm_num)
  have b1 := hi 9 (by norm_num)
  have b2 := hi 25 (by norm_num)
  have b3 := hi 49 (by norm_num)
  have b4 := hi 81 (by norm_num)
  constructor
  · have : (3.723 : ℝ) < 2 / 9 * (0.94595 + 9 * 0.94595 ^ 9 + 25 * 0.94595 ^ 25 + 49 * 0.94595 ^ 49
        + 81 * 0.94595 ^ 81) := by norm_num
    linarith
  · have : 2 / 9 * (0.94596 + 9 * 0.94596 ^ 9 + 25 * 0.94596 ^ 25 + 49 * 0.94596 ^ 49
        + 81 * 0.94596 ^ 81) < (3.726 : ℝ) := by norm_num
    linarith

theorem meshRow_sum2 :
    ((List.range 10).map fun i => Real.exp (-(meshOffset i ^ 2) / 2) * meshOffset i ^ 2).sum
      = meshSum2 := by
  have e : (List.range 10).map (fun i => Real.exp (-(meshOffset i ^ 2) / 2) * meshOffset i ^ 2)
      = (List.range 10).map (fun (i : ℕ) => q18 ^ ((2 * (i : ℤ) - 9).natAbs ^ 2) * meshOffset i ^ 2) := by
    apply List.map_congr_left
    intro i hi
    rw [meshFactor_eq i (List.mem_range.1 hi)]
  rw [e]
  unfold meshOffset
  simp only [List.range_succ, List.range_zero, List.nil_append, List.cons_append,
    List.map_cons, List.map_nil, List.sum_cons, List.sum_nil, meshSum2]
  norm_num
  ring

theorem meshVariance :
    ((List.range 10).map fun (i : ℕ) => ((List.range 10).map fun (j : ℕ) =>
      meshWeight i j * meshOffset i ^ 2).sum).sum
      = (2 / 3) ^ 2 / (2 * Real.pi) * (meshSum1 * meshSum2) := by
  have : ∀ i : ℕ, ((List.range 10).map fun j => meshWeight i j * meshOffset i ^ 2).sum
      = (2 / 3) ^ 2 / (2 * Real.pi) * meshSum1 * (Real.exp (-(meshOffset i ^ 2) / 2) * meshOffset i ^ 2) := by
    intro i
    simp only [meshWeight_eq]
    rw [sum_map_mul_right', sum_map_mul_left', sum_map_mul_left', meshRow_sum]
    ring
  simp only [this]
  rw [sum_map_mul_left', meshRow_sum2]
  ring

theorem meshVariance_bounds :
    0.98 ≤ (2 / 3) ^ 2 / (2 * Real.pi) * (meshSum1 * meshSum2) ∧
    (2 / 3) ^ 2 / (2 * Real.pi) * (meshSum1 * meshSum2) ≤ 1 := by
  obtain ⟨h1, h2⟩ := meshSum1_bounds
  obtain ⟨h3, h4⟩ := meshSum2_bounds
  have p1 := Real.pi_gt_d4
  have p2 := Real.pi_lt_d4
  have hpi := Real.pi_pos
  rw [div_mul_eq_mul_div, le_div_iff₀ (by positivity), div_le_iff₀ (by positivity)]
  have l : (3.7567 : ℝ) * 3.723 ≤ meshSum1 * meshSum2 :=
    mul_le_mul h1.le h3.le (by norm_num) (by linarith)
  have u : meshSum1 * meshSum2 ≤ (3.758 : ℝ) * 3.726 :=
    mul_le_mul h2.le h4.le (by linarith) (by norm_num)
  constructor <;> norm_num at * <;> nlinarith

theorem meshOffset_sq {i : ℕ} (hi : i < 10) : meshOffset i ^ 2 ≤ 9 := by
  unfold meshOffset
  interval_cases i <;> norm_num

theorem range_sum (F : ℕ → ℝ) : ((List.range 10).map F).sum = ∑ i ∈ Finset.range 10, F i := by
  simp only [List.range_succ, List.range_zero, List.nil_append, List.cons_append, List.map_cons,
    List.map_nil, List.sum_cons, List.sum_nil, Finset.sum_range_succ, Finset.sum_range_zero]
  ring

theorem range_swap (F : ℕ → ℕ → ℝ) :
    ((List.range 10).map fun i => ((List.range 10).map fun j => F i j).sum).sum
      = ((List.range 10).map fun i => ((List.range 10).map fun j => F j i).sum).sum := by
  simp only [range_sum]
  exact Finset.sum_comm

theorem second_moment {sigma : ℝ} {e : ℤ} (he : 0 ≤ e)
    (F : ℕ → ℕ → ℝ) (hF : ∀ i < 10, ∀ j < 10, 0 ≤ F i j ∧ F i j ≤ 9 * sigma ^ 2) :
    let S := ((List.range 10).map fun (i : ℕ) => ((List.range 10).map fun (j : ℕ) =>
        (pyInt (meshWeight i j * (e : ℝ)) : ℝ) * F i j).sum).sum
    let T := ((List.range 10).map fun (i : ℕ) => ((List.range 10).map fun (j : ℕ) =>
        meshWeight i j * (e : ℝ) * F i j).sum).sum
    T - 900 * sigma ^ 2 ≤ S ∧ S ≤ T := by
  intro S T
  have he' : (0 : ℝ) ≤ e := by exact_mod_cast he
  have hw : ∀ i j, (pyInt (meshWeight i j * (e : ℝ)) : ℝ) ≤ meshWeight i j * e ∧
      meshWeight i j * (e : ℝ) - 1 ≤ pyInt (meshWeight i j * (e : ℝ)) := by
    intro i j
    have h0 := mul_nonneg (meshWeight_pos i j).le he'
    rw [pyInt_of_nonneg h0]
    exact ⟨Int.floor_le _, by linarith [Int.lt_floor_add_one (meshWeight i j * (e : ℝ))]⟩
  constructor
  · have key : ((List.range 10).map fun (i : ℕ) => ((List.range 10).map fun (j : ℕ) =>
        (meshWeight i j * (e : ℝ) * F i j + -(9 * sigma ^ 2))).sum).sum ≤ S := by
      apply List.sum_le_sum
      intro i hi
      apply List.sum_le_sum
      intro j hj
      obtain ⟨f0, f9⟩ := hF i (List.mem_range.1 hi) j (List.mem_range.1 hj)
      have := mul_le_mul_of_nonneg_right (hw i j).2 f0
      linarith
    have hsplit : ((List.range 10).map fun (i : ℕ) => ((List.range 10).map fun (j : ℕ) =>
        (meshWeight i j * (e : ℝ) * F i j + -(9 * sigma ^ 2))).sum).sum = T - 900 * sigma ^ 2 := by
      simp only [List.sum_map_add, List.map_const', List.sum_replicate, List.length_range,
        smul_eq_mul, nsmul_eq_mul]
      change T + _ = _
      push_cast
      ring
    linarith
  · apply List.sum_le_sum
    intro i hi
    apply List.sum_le_sum
    intro j hj
    exact mul_le_mul_of_nonneg_right (hw i j).1 (hF i (List.mem_range.1 hi) j (List.mem_range.1 hj)).1

/-- **C77.** The spread of the electrons put into the pixels: their summed squared distance from the
track point, along each axis, is at most `e sigma²`, and at least 98 percent of that minus the
truncation (one electron per pixel, at most 3 sigma away). -/
theorem C77_width (center : ℝ × ℝ) {sigma : ℝ} (hs : sigma ≠ 0) {e : ℤ} (he : 0 ≤ e) :
    (0.98 * e - 900) * sigma ^ 2 ≤ ((transverse_mesh center sigma).map fun p =>
      (pixel_electrons center sigma e p : ℝ) * (p.1 - center.1) ^ 2).sum ∧
    ((transverse_mesh center sigma).map fun p =>
      (pixel_electrons center sigma e p : ℝ) * (p.1 - center.1) ^ 2).sum ≤ e * sigma ^ 2 ∧
    ((transverse_mesh center sigma).map fun p =>
      (pixel_electrons center sigma e p : ℝ) * (p.2 - center.2) ^ 2).sum
      = ((transverse_mesh center sigma).map fun p =>
      (pixel_electrons center sigma e p : ℝ) * (p.1 - center.1) ^ 2).sum := by
  have he' : (0 : ℝ) ≤ e := by exact_mod_cast he
  have hswap : ((transverse_mesh center sigma).map fun p =>
      (pixel_electrons center sigma e p : ℝ) * (p.2 - center.2) ^ 2).sum
      = ((transverse_mesh center sigma).map fun p =>
      (pixel_electrons center sigma e p : ℝ) * (p.1 - center.1) ^ 2).sum := by
    rw [mesh_sum center hs e fun _ y => y ^ 2, mesh_sum center hs e fun x _ => x ^ 2]
    rw [range_swap]
    congr 1
    apply List.map_congr_left
    intro i _
    congr 1
    apply List.map_congr_left
    intro j _
    rw [meshWeight_swap]
  have h1 := second_moment he (fun i _ => (meshOffset i * sigma) ^ 2) (by
    intro i hi j _
    refine ⟨sq_nonneg _, ?_⟩
    rw [mul_pow]
    exact mul_le_mul_of_nonneg_right (meshOffset_sq hi) (sq_nonneg _))
  have hT : ((List.range 10).map fun (i : ℕ) => ((List.range 10).map fun (j : ℕ) =>
      meshWeight i j * (e : ℝ) * (meshOffset i * sigma) ^ 2).sum).sum
      = e * sigma ^ 2 * ((2 / 3) ^ 2 / (2 * Real.pi) * (meshSum1 * meshSum2)) := by
    rw [← meshVariance, ← sum_map_mul_left']
    congr 1
    apply List.map_congr_left
    intro i _
    rw [← sum_map_mul_left']
    congr 1
    apply List.map_congr_left
    intro j _
    ring
  simp only [hT] at h1
  rw [mesh_sum center hs e fun x _ => x ^ 2]
  obtain ⟨v1, v2⟩ := meshVariance_bounds
  have hes : 0 ≤ (e : ℝ) * sigma ^ 2 := by positivity
  refine ⟨?_, ?_, ?_⟩
  · have := mul_le_mul_of_nonneg_left v1 hes
    linarith [h1.1]
  · have := mul_le_mul_of_nonneg_left v2 hes
    linarith [h1.2]
  · rw [hswap, mesh_sum center hs e fun x _ => x ^ 2]

/-- Ten thousand electrons with a spread of 1 mm: their centre is at the track point and the summed
squared distance is between 0.0089 and 0.01 m². -/
example (center : ℝ × ℝ) :
    ((transverse_mesh center 0.001).map fun p =>
      (pixel_electrons center 0.001 10000 p : ℝ) * (p.1 - center.1)).sum = 0 ∧
    0.0089 ≤ ((transverse_mesh center 0.001).map fun p =>
      (pixel_electrons center 0.001 10000 p : ℝ) * (p.1 - center.1) ^ 2).sum ∧
    ((transverse_mesh center 0.001).map fun p =>
      (pixel_electrons center 0.001 10000 p : ℝ) * (p.1 - center.1) ^ 2).sum ≤ 0.01 := by
  have h1 := C77_centred center (sigma := 0.001) (by norm_num) 10000
  have h2 := C77_width center (sigma := 0.001) (by norm_num) (e := 10000) (by norm_num)
  refine ⟨h1.1, ?_, ?_⟩
  · refine le_trans ?_ h2.1
    norm_num
  · refine h2.2.1.trans ?_
    norm_num

/-! ## C78 -/

/-- The spread of electrons that drift the distance `d` along the field. -/
noncomputable def driftSigma (params : DetectorParams) (d : ℝ) : ℝ :=
  Real.sqrt (2 * params.diffusion * d / params.efield)

/-- **C78, what the code does.** The spread is that of the drift distance plus the distance drifted in
`micromegas_edge` time buckets. -/
theorem C78_effective_length_partial {grid : PadGrid} {g : GridEdges} (hb : 0 < g.bin)
    {config : Config} (hv : config.drift_velocity ≠ 0) (hE : config.det_params.efield ≠ 0)
    (r : Row) (e label : ℤ) (points : Points)
    (hd : 0 ≤ 2 * config.det_params.diffusion * (config.det_params.length - r.z
      + config.drift_velocity * config.elec_params.micromegas_edge) / config.det_params.efield) :
    transport_step grid g config.det_params.diffusion config.det_params.efield config.drift_velocity
      label points ({ r with z := to_time_bucket config r.z }, e)
    = .ok ((pointDeposits grid g (arrival config r.z) (r.x, r.y) e
        (driftSigma config.det_params (config.det_params.length - r.z
          + config.drift_velocity * config.elec_params.micromegas_edge)) label).foldl
        (fun p d => addCharge p d.tb d.pad d.e d.label) points) := by
  have hr : 2 * config.det_params.diffusion * config.drift_velocity * to_time_bucket config r.z
      / config.det_params.efield
      = 2 * config.det_params.diffusion * (config.det_params.length - r.z
      + config.drift_velocity * config.elec_params.micromegas_edge) / config.det_params.efield := by
    unfold to_time_bucket
    field_simp
  rw [transport_step_ok_iff grid g hb]
  simp only
  rw [hr]
  exact ⟨hE, hd, rfl⟩

/-- **C78, the part that holds.** If the micromegas is at time bucket 0, electrons released at height
`z` spread with the width of their drift distance `length - z`. -/
theorem C78_partial {grid : PadGrid} {g : GridEdges} (hb : 0 < g.bin)
    {config : Config} (hv : config.drift_velocity ≠ 0) (hE : config.det_params.efield ≠ 0)
    (hm : config.elec_params.micromegas_edge = 0) (r : Row) (e label : ℤ) (points : Points)
    (hd : 0 ≤ 2 * config.det_params.diffusion * (config.det_params.length - r.z)
      / config.det_params.efield) :
    transport_step grid g config.det_params.diffusion config.det_params.efield config.drift_velocity
      label points ({ r with z := to_time_bucket config r.z }, e)
    = .ok ((pointDeposits grid g (arrival config r.z) (r.x, r.y) e
        (driftSigma config.det_params (config.det_params.length - r.z)) label).foldl
        (fun p d => addCharge p d.tb d.pad d.e d.label) points) := by
  have h0 : config.det_params.length - r.z
      + config.drift_velocity * config.elec_params.micromegas_edge
      = config.det_params.length - r.z := by rw [hm]; push_cast; ring
  have := C78_effective_length_partial (grid := grid) hb hv hE r e label points (by rw [h0]; exact hd)
  rwa [h0] at this

/-- **C78, the part that holds, for a whole nucleus.** If the micromegas is at time bucket 0, the
electrons of every track point spread with the width of the drift distance of the point. -/
theorem C78_cloud_partial {σ : Type} {ivp : IvpSolver} {momentum vertex : ℝ × ℝ × ℝ}
    {nucleus : Nucleus} {config : Config} {grid : PadGrid} {g : GridEdges} (hb : 0 < g.bin)
    (hgrid : config.pad_grid = some (grid, g)) (hv : config.drift_velocity ≠ 0)
    (hm : config.elec_params.micromegas_edge = 0) {rng : Gen σ} {p p' : Points} {label : ℤ} {s s' : σ}
    (h : generate_point_cloud ivp momentum vertex nucleus config rng p label s = .ok (p', s')) :
    ∃ track primary,
      generate_trajectory ivp vertex momentum nucleus config.det_params = .ok track ∧
      generate_electrons track nucleus config.det_params rng s = .ok (primary, s') ∧
      p' = applyDeposits p (((track.zip primary).filter fun re => decide (1 ≤ re.2)).flatMap fun re =>
        pointDeposits grid g ((config.det_params.length - re.1.z) / config.drift_velocity)
          (re.1.x, re.1.y) (re.2 * config.det_params.mpgd_gain)
          (driftSigma config.det_params (config.det_params.length - re.1.z)) label) := by
  obtain ⟨track, primary, ht, he, hp, -⟩ := generate_point_cloud_ok hb hgrid h
  refine ⟨track, primary, ht, he, ?_⟩
  rw [hp]
  congr 1
  unfold nucleusDeposits
  congr 1
  funext re
  have ha : arrival config re.1.z
      = (config.det_params.length - re.1.z) / config.drift_velocity := by
    unfold arrival
    rw [hm]
    push_cast
    ring
  rw [ha]
  congr 1
  unfold driftSigma
  congr 1
  field_simp

/-- The example configuration with the micromegas at time bucket 10. -/
noncomputable def exShifted : Config :=
  { exConfig 1 0.0001 with elec_params := { exElec with micromegas_edge := 10, windows_edge := 110 } }

/-- A single electron does not survive the distribution over the pixels. -/
theorem pointDeposits_single {grid : PadGrid} {g : GridEdges} {time : ℝ} {center : ℝ × ℝ} {sigma : ℝ}
    (hs : sigma ≠ 0) {label : ℤ} : ∀ d ∈ pointDeposits grid g time center 1 sigma label, d.e = 0 := by
  intro d hd
  unfold pointDeposits at hd
  rw [if_neg hs] at hd
  obtain ⟨pw, hpw, hd⟩ := List.mem_filterMap.1 hd
  obtain ⟨i, j, -, -, rfl⟩ := mem_meshPoints _ _ _ hpw
  obtain ⟨pad, -, rfl⟩ := Option.map_eq_some_iff.1 hd
  have h0 := (meshWeight_pos i j).le
  simp only [Int.cast_one, mul_one]
  rw [pyInt_of_nonneg h0, Int.floor_eq_zero_iff]
  exact ⟨h0, meshWeight_lt_one i j⟩

/-- **C78 is false.** With the micromegas at time bucket 10, an electron released at the pad plane, at
drift distance 0, is spread as if it had drifted 10 time buckets and is lost; without drift it would be
recorded on pad 5. -/
theorem C78_refuted : driftSigma exShifted.det_params (exShifted.det_params.length - 1) = 0 ∧
    ∃ points, transport_step exGrid exEdges exShifted.det_params.diffusion exShifted.det_params.efield
      exShifted.drift_velocity 2 [] ({ exTrack1 with z := to_time_bucket exShifted 1 }, 1) = .ok points ∧
      (points.get (pair 10 5) (0, 0)).1 = 0 ∧
      ((point_transport exGrid exEdges (to_time_bucket exShifted 1) (0, 0) 1 [] 2).get
        (pair 10 5) (0, 0)).1 = 1 := by
  refine ⟨by norm_num [driftSigma, exShifted, exConfig, exDet], ?_⟩
  have h := C78_effective_length_partial (grid := exGrid) exEdges_bin (config := exShifted)
    (by norm_num [exShifted, exConfig]) (by norm_num [exShifted, exConfig, exDet])
    { exTrack1 with z := 1 } 1 2 [] (by norm_num [exShifted, exConfig, exDet])
  refine ⟨_, h, ?_, ?_⟩
  · rw [C03_charge_counter _ 10 5 (by norm_num) (by norm_num)]
    unfold chargeAt
    apply List.sum_eq_zero
    intro x hx
    obtain ⟨d, hd, rfl⟩ := List.mem_map.1 hx
    refine pointDeposits_single ?_ d (List.mem_filter.1 hd).1
    unfold driftSigma
    apply ne_of_gt
    apply Real.sqrt_pos.2
    norm_num [exShifted, exConfig, exDet]
  · have ht : to_time_bucket exShifted 1 = 10 := by
      norm_num [to_time_bucket, exShifted, exConfig, exDet]
    have ha : activePad exGrid exEdges (0, 0) = some 5 := exRow_active
    have hp : pyInt (10 : ℝ) = 10 := by simp [pyInt]
    rw [ht, point_transport_eq _ _ exEdges_bin]
    unfold pointDeposits
    rw [if_pos rfl, ha, hp]
    decide

/-- The hypotheses of the partial theorem are met by the example configuration at any height in the
detector. -/
example (z : ℝ) (hz : z ≤ 1) : (exConfig 100 0.0001).drift_velocity ≠ 0 ∧
    (exConfig 100 0.0001).det_params.efield ≠ 0 ∧
    (exConfig 100 0.0001).elec_params.micromegas_edge = 0 ∧
    0 ≤ 2 * (exConfig 100 0.0001).det_params.diffusion * ((exConfig 100 0.0001).det_params.length - z)
      / (exConfig 100 0.0001).det_params.efield := by
  refine ⟨by norm_num [exConfig], by norm_num [exConfig, exDet], rfl, ?_⟩
  simp only [exConfig, exDet]
  have : (0 : ℝ) ≤ 1 - z := by linarith
  positivity

/-- The point cloud of the example proton, with diffusion, exists. -/
example : ∃ p', generate_point_cloud exSolver (0, 0, 4.5) (0, 0, 0.5) exNucleus (exConfig 100 0.0001)
    exGen [] 2 () = .ok (p', ()) := by
  refine ⟨_, generate_point_cloud_of exEdges_bin (grid := exGrid) rfl [] 2
    (track := [exTrack0, exTrack1]) rfl (exElectrons 100 0.0001) ?_⟩
  intro re hre
  have hf : (([exTrack0, exTrack1].zip [(0 : ℤ), 1]).filter fun re => decide (1 ≤ re.2))
      = [(exTrack1, 1)] := by
    simp [List.filter_cons]
  rw [hf, List.mem_singleton] at hre
  subst hre
  have hz : exTrack1.z = 0.5 := rfl
  refine ⟨by norm_num [exConfig, exDet], ?_⟩
  simp only [hz, exArrival]
  norm_num [exConfig, exDet]

end Verif.Detector
