import Verif.Proofs.Tracks
import Verif.Proofs.Mesh

/-! # C03, C04, C05, C06, C13: transport of electrons to the pad plane -/

namespace Verif.Detector

open Verif.Spec

/-! ## Concrete data for the non-vacuity examples -/

/-- A 10 × 10 grid with 1 mm cells from -5 mm to 5 mm, all cells belonging to pad 5. -/
def exGrid : PadGrid := { size := 10, cell := fun _ _ => 5 }

/-- Its edges. -/
def exEdges : GridEdges := { low := -5, high := 5, bin := 1 }

theorem exEdges_bin : 0 < exEdges.bin := by norm_num [exEdges]

/-- A track point at the centre of the pad plane in time bucket 10. -/
def exRow : Row := { x := 0, y := 0, z := 10, gvx := 0, gvy := 0, gvz := 0.1 }

/-- A job without diffusion. -/
def exJob (label : ℤ) : Job :=
  { diffusion := 0, efield := 1, dv := 1, track := [exRow], electrons := [100], label := label }

theorem exJob_ok (label : ℤ) : JobOk (exJob label) := by
  intro re _
  constructor
  · norm_num [exJob]
  · norm_num [exJob]

/-! ## C03 -/

/-- C03 (dictionary level): after any sequence of deposits into an empty dictionary, the charge
stored for a pad and time bucket is the sum of precisely the electrons deposited there. -/
theorem C03_charge_counter (h : List Deposit) (tb pad : ℤ) (h1 : 0 ≤ tb) (h2 : 0 ≤ pad) :
    ((h.foldl (fun p d => addCharge p d.tb d.pad d.e d.label) ([] : Points)).get
      (pair tb pad) (0, 0)).1 = chargeAt h tb pad := by
  have := applyDeposits_get_key [] h (pair tb pad)
  rw [filter_depKey h tb pad h1 h2] at this
  simp only [Points.get, zero_add] at this
  exact this

/-- C03: after transporting any sequence of tracks, with any diffusion settings and labels, the
charge stored for a pad and time bucket is the sum of precisely the electrons that the tracks
deposit there. -/
theorem C03_tracks (grid : PadGrid) (g : GridEdges) (hb : 0 < g.bin) (jobs : List Job) (p : Points)
    (h : jobs.foldlM (fun p j => transport_track grid g j.diffusion j.efield j.dv j.track
      j.electrons p j.label) [] = .ok p) (tb pad : ℤ) (h1 : 0 ≤ tb) (h2 : 0 ≤ pad) :
    (p.get (pair tb pad) (0, 0)).1 = chargeAt (jobs.flatMap (Job.deposits grid g)) tb pad := by
  have := ((runJobs_ok_iff grid g hb jobs [] p).1 h).2
  subst this
  exact C03_charge_counter _ tb pad h1 h2

/-- C03: a pad and time bucket is in the dictionary exactly when something was deposited there. -/
theorem C03_keys (grid : PadGrid) (g : GridEdges) (hb : 0 < g.bin) (jobs : List Job) (p : Points)
    (h : jobs.foldlM (fun p j => transport_track grid g j.diffusion j.efield j.dv j.track
      j.electrons p j.label) [] = .ok p) (tb pad : ℤ) (h1 : 0 ≤ tb) (h2 : 0 ≤ pad) :
    pair tb pad ∈ p.map (·.1) ↔ Occupied (jobs.flatMap (Job.deposits grid g)) tb pad := by
  have := ((runJobs_ok_iff grid g hb jobs [] p).1 h).2
  subst this
  have := applyDeposits_keys [] (jobs.flatMap (Job.deposits grid g)) (pair tb pad)
  simp only [Points.keys, List.map_nil, List.not_mem_nil, false_or] at this
  rw [this]
  unfold Occupied
  simp only [depKey_eq_iff _ tb pad h1 h2]

/-- Two tracks of the example are transported without error. -/
example : ∃ p, [exJob 2, exJob 3].foldlM (fun p j => transport_track exGrid exEdges j.diffusion
    j.efield j.dv j.track j.electrons p j.label) [] = .ok p :=
  ⟨_, (runJobs_ok_iff exGrid exEdges exEdges_bin _ [] _).2 ⟨by
    intro j hj
    simp only [List.mem_cons, List.not_mem_nil, or_false] at hj
    rcases hj with rfl | rfl <;> exact exJob_ok _, rfl⟩⟩

/-! ## C04 -/

/-- C04: without diffusion, transporting a track never fails for a non-zero field and increases the
total charge by exactly the electrons of the track points that hit an active pad. -/
theorem C04_conservation (grid : PadGrid) (g : GridEdges) (hb : 0 < g.bin) (efield dv : ℝ)
    (hE : efield ≠ 0) (track : List Row) (electrons : List ℤ) (points : Points) (label : ℤ) :
    ∃ p', transport_track grid g 0 efield dv track electrons points label = .ok p' ∧
      (p'.map (·.2.1)).sum = (points.map (·.2.1)).sum +
        (((track.zip electrons).filter fun re =>
          (activePad grid g (re.1.x, re.1.y)).isSome).map (·.2)).sum := by
  refine ⟨_, (transport_track_ok_iff grid g hb 0 efield dv track electrons points _ label).2
    ⟨fun re _ => ⟨hE, by simp⟩, rfl⟩, ?_⟩
  have := applyDeposits_total points (trackDeposits grid g 0 efield dv (track.zip electrons) label)
  unfold Points.total at this
  rw [this]
  congr 1
  generalize track.zip electrons = l
  induction l with
  | nil => simp [trackDeposits]
  | cons a l ih =>
    have e : trackDeposits grid g 0 efield dv (a :: l) label
        = pointDeposits grid g a.1.z (a.1.x, a.1.y) a.2 0 label
          ++ trackDeposits grid g 0 efield dv l label := by
      simp [trackDeposits]
    rw [e, List.map_append, List.sum_append, ih, List.filter_cons]
    unfold pointDeposits
    rw [if_pos rfl]
    rcases hp : activePad grid g (a.1.x, a.1.y) with _ | pad
    · simp [hp]
    · simp [hp]

/-- C04: a track point that does not hit an active pad changes nothing. -/
theorem C04_inactive_point (grid : PadGrid) (g : GridEdges) (hb : 0 < g.bin) (efield dv : ℝ)
    (hE : efield ≠ 0) (label : ℤ) (points : Points) (re : Row × ℤ)
    (h : activePad grid g (re.1.x, re.1.y) = none) :
    transport_step grid g 0 efield dv label points re = .ok points := by
  rw [transport_step_ok_iff grid g hb]
  refine ⟨hE, by simp, ?_⟩
  have : Real.sqrt (2 * 0 * dv * re.1.z / efield) = 0 := by simp
  rw [this]
  unfold pointDeposits
  rw [if_pos rfl, h]
  rfl

/-- C04: a track point that hits an active pad adds exactly its electrons to that pad, in the
truncated time bucket, and to no other key. -/
theorem C04_active_point (grid : PadGrid) (g : GridEdges) (hb : 0 < g.bin) (efield dv : ℝ)
    (hE : efield ≠ 0) (label : ℤ) (points : Points) (re : Row × ℤ) (pad : ℤ)
    (h : activePad grid g (re.1.x, re.1.y) = some pad) :
    ∃ p', transport_step grid g 0 efield dv label points re = .ok p' ∧
      ∀ k, (p'.get k (0, 0)).1 = (points.get k (0, 0)).1 +
        (if k = pair (pyInt re.1.z) pad then re.2 else 0) := by
  refine ⟨_, (transport_step_ok_iff grid g hb 0 efield dv label points _ re).2
    ⟨hE, by simp, rfl⟩, ?_⟩
  intro k
  have : Real.sqrt (2 * 0 * dv * re.1.z / efield) = 0 := by simp
  rw [this, applyDeposits_get_key]
  unfold pointDeposits
  rw [if_pos rfl, h]
  congr 1
  by_cases hk : k = pair (pyInt re.1.z) pad
  · rw [if_pos hk, List.filter_cons_of_pos (by simp [depKey, hk])]; simp
  · rw [if_neg hk, List.filter_cons_of_neg (by simp [depKey, Ne.symm hk])]; simp

/-- The example point hits the active pad 5. -/
theorem exRow_active : activePad exGrid exEdges (exRow.x, exRow.y) = some 5 := by
  have h : gridIndex exEdges 0 = some 5 := by
    unfold gridIndex exEdges
    norm_num
  unfold activePad
  simp only [exRow, h, exGrid]
  decide

/-- A point 1 m off axis is off the grid: the hypothesis of `C04_inactive_point` is satisfiable. -/
example : activePad exGrid exEdges (1, 0) = none := by
  have h : gridIndex exEdges 1 = none := by
    unfold gridIndex exEdges
    norm_num
  unfold activePad
  rw [h]

/-! ## C05 and C06 -/

/-- C05: for a non-negative number of electrons every pixel deposit is non-negative. -/
theorem C05_pixel_nonneg (grid : PadGrid) (g : GridEdges) (time : ℝ) (center : ℝ × ℝ) (e : ℤ)
    (he : 0 ≤ e) (sigma : ℝ) (label : ℤ) :
    ∀ d ∈ pointDeposits grid g time center e sigma label, 0 ≤ d.e := by
  intro d hd
  unfold pointDeposits at hd
  split_ifs at hd with hs
  · rcases hp : activePad grid g center with _ | pad <;> simp [hp] at hd
    subst hd; exact he
  · simp only [List.mem_filterMap, Option.map_eq_some_iff] at hd
    obtain ⟨pw, hpw, pad, -, rfl⟩ := hd
    obtain ⟨i, j, _, _, rfl⟩ := mem_meshPoints _ _ _ hpw
    refine pyInt_nonneg ?_
    have := (meshWeight_pos i j).le
    have : (0 : ℝ) ≤ e := by exact_mod_cast he
    positivity

/-- C05: diffusion never creates or removes charge: the total charge added for one track point with
`e ≥ 0` electrons lies between 0 and `e`. -/
theorem C05_no_charge_created (grid : PadGrid) (g : GridEdges) (hb : 0 < g.bin) (time : ℝ)
    (center : ℝ × ℝ) (e : ℤ) (he : 0 ≤ e) (sigma : ℝ) (hs : 0 < sigma) (points : Points)
    (label : ℤ) :
    (points.map (·.2.1)).sum ≤
      ((transverse_transport grid g time center e sigma points label).map (·.2.1)).sum ∧
    ((transverse_transport grid g time center e sigma points label).map (·.2.1)).sum ≤
      (points.map (·.2.1)).sum + e := by
  rw [transverse_transport_eq grid g hb time center e sigma hs.ne']
  have := applyDeposits_total points (pointDeposits grid g time center e sigma label)
  unfold Points.total at this
  rw [this]
  constructor
  · have h : 0 ≤ ((pointDeposits grid g time center e sigma label).map (·.e)).sum := by
      apply List.sum_nonneg
      intro x hx
      simp only [List.mem_map] at hx
      obtain ⟨d, hd, rfl⟩ := hx
      exact C05_pixel_nonneg grid g time center e he sigma label d hd
    omega
  · have h1 := mesh_deposits_le grid g time e he label _ (meshPoints_nonneg center sigma)
    have h2 := (meshWeights_sum_bounds center sigma).2
    have he' : (0 : ℝ) ≤ e := by exact_mod_cast he
    unfold pointDeposits
    rw [if_neg hs.ne']
    have h3 : ((((meshPoints center sigma).filterMap fun pw => (activePad grid g pw.1).map fun pad =>
      (⟨pyInt time, pad, pyInt (pw.2 * (e : ℝ)), label⟩ : Deposit)).map (·.e)).sum : ℤ) ≤ e := by
      have : ((meshPoints center sigma).map (·.2)).sum * (e : ℝ) ≤ 1 * e :=
        mul_le_mul_of_nonneg_right h2 he'
      exact Int.cast_le.1 (h1.trans (by linarith) : _ ≤ (e : ℝ))
    omega

/-- C06: if every mesh pixel lands on an active pad, at least 99.8 % of the electrons minus one per
pixel are deposited. -/
theorem C06_loss_bound (grid : PadGrid) (g : GridEdges) (hb : 0 < g.bin) (time : ℝ)
    (center : ℝ × ℝ) (e : ℤ) (he : 0 ≤ e) (sigma : ℝ) (hs : 0 < sigma) (points : Points)
    (label : ℤ)
    (hact : ∀ i j : ℕ, i < 10 → j < 10 → (activePad grid g
      (center.1 + meshOffset i * sigma, center.2 + meshOffset j * sigma)).isSome) :
    0.998 * (e : ℝ) - 100 ≤
      ((((transverse_transport grid g time center e sigma points label).map (·.2.1)).sum
        - (points.map (·.2.1)).sum : ℤ) : ℝ) := by
  rw [transverse_transport_eq grid g hb time center e sigma hs.ne']
  have := applyDeposits_total points (pointDeposits grid g time center e sigma label)
  unfold Points.total at this
  rw [this]
  unfold pointDeposits
  rw [if_neg hs.ne']
  have h1 := mesh_deposits_ge grid g time e he label _ (meshPoints_nonneg center sigma) (by
    intro pw hpw
    obtain ⟨i, j, hi, hj, rfl⟩ := mem_meshPoints _ _ _ hpw
    exact hact i j hi hj)
  have h2 := (meshWeights_sum_bounds center sigma).1
  have hlen : ((meshPoints center sigma).length : ℝ) = 100 := by
    simp [meshPoints]
  rw [hlen] at h1
  have he' : (0 : ℝ) ≤ e := by exact_mod_cast he
  have h3 := mul_le_mul_of_nonneg_right h2 he'
  rw [add_sub_cancel_left]
  linarith

/-- All pixels of the example point are active when the spread is 1 mm. -/
theorem exGrid_all_active (i j : ℕ) (hi : i < 10) (hj : j < 10) :
    (activePad exGrid exEdges (0 + meshOffset i * 0.001, 0 + meshOffset j * 0.001)).isSome := by
  have h : ∀ i : ℕ, i < 10 → ∃ k, gridIndex exEdges (0 + meshOffset i * 0.001) = some k := by
    intro i hi
    unfold gridIndex exEdges
    have hb1 : (-4 : ℤ) ≤ ⌊(0 + meshOffset i * 0.001) * 1000⌋ := by
      rw [Int.le_floor]; unfold meshOffset; interval_cases i <;> norm_num
    have hb2 : ⌊(0 + meshOffset i * 0.001) * 1000⌋ < (5 : ℤ) := by
      rw [Int.floor_lt]; unfold meshOffset; interval_cases i <;> norm_num
    have hb1' : (-4 : ℝ) ≤ (⌊(0 + meshOffset i * 0.001) * 1000⌋ : ℝ) := by exact_mod_cast hb1
    have hb2' : (⌊(0 + meshOffset i * 0.001) * 1000⌋ : ℝ) < 5 := by exact_mod_cast hb2
    exact ⟨_, if_pos ⟨by simp only; linarith, by simp only; linarith⟩⟩
  obtain ⟨k, hk⟩ := h i hi
  obtain ⟨l, hl⟩ := h j hj
  unfold activePad
  simp only [hk, hl]
  have : ¬ (exGrid.cell k l = -1 ∨ exGrid.cell k l ∈ BEAM_PADS) := by
    have h5 : exGrid.cell k l = 5 := rfl
    rw [h5]; decide
  rw [if_neg this]
  rfl

/-- The hypotheses of C06 are met by a point spread over 1 mm in the middle of the example grid. -/
example : 0.998 * ((1000000 : ℤ) : ℝ) - 100 ≤
    ((((transverse_transport exGrid exEdges 10 (0, 0) 1000000 0.001 [] 2).map (·.2.1)).sum
      - (([] : Points).map (·.2.1)).sum : ℤ) : ℝ) :=
  C06_loss_bound exGrid exEdges exEdges_bin 10 (0, 0) 1000000 (by norm_num) 0.001 (by norm_num) [] 2
    exGrid_all_active

/-! ## C13 -/

/-- C13: processing the nuclei (transport jobs) in any order gives the same charge for every
dictionary key and the same set of keys. -/
theorem C13_order_independent (grid : PadGrid) (g : GridEdges) (hb : 0 < g.bin)
    (jobs jobs' : List Job) (hperm : jobs.Perm jobs') (p0 p : Points)
    (h : jobs.foldlM (fun p j => transport_track grid g j.diffusion j.efield j.dv j.track
      j.electrons p j.label) p0 = .ok p) :
    ∃ p', jobs'.foldlM (fun p j => transport_track grid g j.diffusion j.efield j.dv j.track
        j.electrons p j.label) p0 = .ok p' ∧
      ∀ k, (p'.get k (0, 0)).1 = (p.get k (0, 0)).1 ∧ (k ∈ p'.map (·.1) ↔ k ∈ p.map (·.1)) := by
  obtain ⟨hok, hp⟩ := (runJobs_ok_iff grid g hb jobs p0 p).1 h
  refine ⟨_, (runJobs_ok_iff grid g hb jobs' p0 _).2
    ⟨fun j hj => hok j (hperm.mem_iff.2 hj), rfl⟩, ?_⟩
  have hd : (jobs.flatMap (Job.deposits grid g)).Perm (jobs'.flatMap (Job.deposits grid g)) :=
    hperm.flatMap_right _
  intro k
  subst hp
  constructor
  · rw [applyDeposits_get_key, applyDeposits_get_key]
    congr 1
    exact ((hd.filter _).map _).sum_eq.symm
  · have h1 := applyDeposits_keys p0 (jobs.flatMap (Job.deposits grid g)) k
    have h2 := applyDeposits_keys p0 (jobs'.flatMap (Job.deposits grid g)) k
    unfold Points.keys at h1 h2
    rw [h1, h2]
    simp only [hd.mem_iff]

/-- Non-vacuity: the two example tracks can be swapped. -/
example : [exJob 2, exJob 3].Perm [exJob 3, exJob 2] := List.Perm.swap _ _ _

end Verif.Detector
