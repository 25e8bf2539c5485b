import Verif.Detector.PadFiles
import Verif.Proofs.BeamPads
import Verif.Proofs.PadPlane
import Verif.Props.Grid

/-! # C65, C66, C68: the packaged pad plane -/

namespace Verif.Detector

/-- The centre of a pad according to detector/data/padxy.csv, in mm. -/
noncomputable def padCenter (p : ℕ) : ℝ × ℝ := ((padX p : ℝ) / 10000000, (padY p : ℝ) / 10000000)

/-- Squared distance of two points of the plane. -/
def sqDist (a b : ℝ × ℝ) : ℝ := (a.1 - b.1) ^ 2 + (a.2 - b.2) ^ 2

/-- A position in metres, in millimetres. -/
def inMm (pos : ℝ × ℝ) : ℝ × ℝ := (pos.1 * 1000, pos.2 * 1000)

/-- The pad that the code looks up for a position in metres: `pad_grid[position_to_index(...)]`, or
`none` outside the grid and where the grid holds -1. -/
noncomputable def lookupPad (grid : PadGrid × GridEdges) (pos : ℝ × ℝ) : Option ℤ :=
  let i := position_to_index grid.2 pos
  if i = (-1, -1) then none
  else if grid.1.cell i.1 i.2 = -1 then none
  else some (grid.1.cell i.1 i.2)

theorem nearAxis_iff (p : ℕ) : nearAxis p = true ↔ sqDist (padCenter p) (0, 0) < 20 ^ 2 := by
  unfold nearAxis sqDist padCenter
  rw [Nat.blt_eq]
  have e : ∀ z : ℤ, ((z.natAbs * z.natAbs : ℕ) : ℤ) = z * z := fun z => Int.natAbs_mul_self
  have h1 : (padX p).natAbs * (padX p).natAbs + (padY p).natAbs * (padY p).natAbs < 40000000000000000
      ↔ padX p * padX p + padY p * padY p < 40000000000000000 := by
    rw [← e, ← e]
    omega
  rw [h1]
  have h2 : padX p * padX p + padY p * padY p < 40000000000000000 ↔
      (padX p : ℝ) * padX p + padY p * padY p < 40000000000000000 := by
    exact_mod_cast Iff.rfl
  rw [h2]
  constructor <;> intro h <;> nlinarith

theorem beam_pads_nonneg : ∀ p ∈ BEAM_PADS, 0 ≤ p := by decide +kernel

theorem mem_beam_iff (n : ℕ) : (n : ℤ) ∈ BEAM_PADS ↔ n ∈ BEAM_PADS.map Int.toNat := by
  rw [List.mem_map]
  constructor
  · intro h
    exact ⟨n, h, by simp⟩
  · rintro ⟨a, ha, rfl⟩
    rwa [Int.toNat_of_nonneg (beam_pads_nonneg a ha)]

/-- The grid row of a position. -/
theorem floor_cell (u : ℝ) (h : (-280 : ℝ) ≤ u ∧ u < 279) :
    ∃ i : ℕ, i < 559 ∧ ⌊u⌋ + 280 = i ∧ (i : ℝ) ≤ u + 280 ∧ u + 280 ≤ i + 1 := by
  have h1 : (-280 : ℤ) ≤ ⌊u⌋ := by rw [Int.le_floor]; push_cast; exact h.1
  have h2 : ⌊u⌋ < 279 := by rw [Int.floor_lt]; push_cast; exact h.2
  refine ⟨(⌊u⌋ + 280).toNat, by omega, by omega, ?_, ?_⟩
  · have : (((⌊u⌋ + 280).toNat : ℕ) : ℝ) = (⌊u⌋ : ℝ) + 280 := by
      rw [← Int.cast_natCast, Int.toNat_of_nonneg (by omega)]; push_cast; ring
    rw [this]
    linarith [Int.floor_le u]
  · have : (((⌊u⌋ + 280).toNat : ℕ) : ℝ) = (⌊u⌋ : ℝ) + 280 := by
      rw [← Int.cast_natCast, Int.toNat_of_nonneg (by omega)]; push_cast; ring
    rw [this]
    linarith [Int.lt_floor_add_one u]

theorem inGrid_packaged (pos : ℝ × ℝ) : InGrid packagedEdges pos ↔
    ((-280 : ℝ) ≤ pos.1 * 1000 ∧ pos.1 * 1000 < 279) ∧
    ((-280 : ℝ) ≤ pos.2 * 1000 ∧ pos.2 * 1000 < 279) := by
  unfold InGrid packagedEdges
  norm_num

/-- The cell looked up for a position, with the packaged grid. -/
theorem lookup_cell {fs : FileSystem} (hfs : PackagedFiles fs) {pos : ℝ × ℝ}
    (h : InGrid packagedEdges pos) :
    ∃ i j : ℕ, i < 559 ∧ j < 559 ∧ ⌊pos.1 * 1000⌋ + 280 = i ∧ ⌊pos.2 * 1000⌋ + 280 = j ∧
      ((i : ℝ) ≤ pos.1 * 1000 + 280 ∧ pos.1 * 1000 + 280 ≤ i + 1) ∧
      ((j : ℝ) ≤ pos.2 * 1000 + 280 ∧ pos.2 * 1000 + 280 ≤ j + 1) ∧
      lookupPad fs.packaged_grid pos
        = if padCell i j = -1 then none else some (padCell i j) := by
  have hp := (inGrid_packaged pos).1 h
  obtain ⟨i, hi, ei, hi1, hi2⟩ := floor_cell _ hp.1
  obtain ⟨j, hj, ej, hj1, hj2⟩ := floor_cell _ hp.2
  refine ⟨i, j, hi, hj, ei, ej, ⟨hi1, hi2⟩, ⟨hj1, hj2⟩, ?_⟩
  unfold lookupPad
  simp only
  rw [hfs.edges, C15_packaged_rows pos h, ei, ej, hfs.cells i j hi hj]
  rw [if_neg]
  intro hc
  have := congrArg Prod.fst hc
  simp only at this
  omega

theorem lookup_none {fs : FileSystem} (hfs : PackagedFiles fs) {pos : ℝ × ℝ}
    (h : ¬ InGrid packagedEdges pos) : lookupPad fs.packaged_grid pos = none := by
  unfold lookupPad
  simp only
  rw [hfs.edges, if_pos]
  exact (C14_in_bounds packagedEdges (by norm_num [packagedEdges]) 5600
    (by norm_num [packagedEdges]) pos).1.2 h

theorem reach_eq (p : ℕ) :
    ((reach p : ℕ) : ℝ) = (if padIsLarge p then 7.35 else 4.36) ^ 2 * 10000000 ^ 2 := by
  unfold reach
  cases padIsLarge p <;> norm_num

/-- The centre of a pad in metres, the unit of the trajectories. -/
noncomputable def ownCenter (p : ℕ) : ℝ × ℝ := ((padCenter p).1 / 1000, (padCenter p).2 / 1000)

theorem floor_scaled (x : ℤ) : ⌊(x : ℝ) / 10000000⌋ = x / 10000000 := by
  rw [Int.floor_eq_iff]
  have h := Int.emod_add_mul_ediv x 10000000
  have h1 := Int.emod_nonneg x (by norm_num : (10000000 : ℤ) ≠ 0)
  have h2 := Int.emod_lt_of_pos x (by norm_num : (0 : ℤ) < 10000000)
  constructor
  · rw [le_div_iff₀ (by norm_num)]
    have : x / 10000000 * 10000000 ≤ x := by omega
    exact_mod_cast this
  · rw [div_lt_iff₀ (by norm_num)]
    have : x < (x / 10000000 + 1) * 10000000 := by omega
    exact_mod_cast this

theorem ownCenter_inGrid (n : ℕ) (hn : n < 10240) (c : ℝ) (h0 : 0 ≤ c) (h1 : c ≤ 0.001) :
    InGrid packagedEdges ((ownCenter n).1, (ownCenter n).2 + c) := by
  obtain ⟨h2, h3, h4, h5⟩ := pad_in_grid n hn
  have h2 : (-2800000000 : ℝ) ≤ padX n := by exact_mod_cast h2
  have h3 : (padX n : ℝ) < 2780000000 := by exact_mod_cast h3
  have h4 : (-2800000000 : ℝ) ≤ padY n := by exact_mod_cast h4
  have h5 : (padY n : ℝ) < 2780000000 := by exact_mod_cast h5
  rw [inGrid_packaged]
  unfold ownCenter padCenter
  refine ⟨⟨?_, ?_⟩, ?_, ?_⟩ <;> simp only <;> linarith

theorem lookup_own {fs : FileSystem} (hfs : PackagedFiles fs) (n : ℕ) (hn : n < 10240) :
    lookupPad fs.packaged_grid (ownCenter n)
      = if padCell (cellOf (padX n)) (cellOf (padY n)) = -1 then none
        else some (padCell (cellOf (padX n)) (cellOf (padY n))) := by
  have hg := ownCenter_inGrid n hn 0 le_rfl (by norm_num)
  rw [add_zero] at hg
  obtain ⟨i, j, hi, hj, ei, ej, -, -, hl⟩ := lookup_cell hfs hg
  have e1 : (ownCenter n).1 * 1000 = (padX n : ℝ) / 10000000 := by
    unfold ownCenter padCenter; simp only; ring
  have e2 : (ownCenter n).2 * 1000 = (padY n : ℝ) / 10000000 := by
    unfold ownCenter padCenter; simp only; ring
  simp only at ei ej
  rw [e1, floor_scaled] at ei
  rw [e2, floor_scaled] at ej
  have h1 : cellOf (padX n) = i := by unfold cellOf; omega
  have h2 : cellOf (padY n) = j := by unfold cellOf; omega
  rw [h1, h2]
  exact hl

theorem lookup_above {fs : FileSystem} (hfs : PackagedFiles fs) (n : ℕ) (hn : n < 10240) :
    lookupPad fs.packaged_grid ((ownCenter n).1, (ownCenter n).2 + 0.001)
      = if padCell (cellOf (padX n)) (cellOf (padY n) + 1) = -1 then none
        else some (padCell (cellOf (padX n)) (cellOf (padY n) + 1)) := by
  have hg := ownCenter_inGrid n hn 0.001 (by norm_num) (by norm_num)
  obtain ⟨i, j, hi, hj, ei, ej, -, -, hl⟩ := lookup_cell hfs hg
  have e1 : (ownCenter n).1 * 1000 = (padX n : ℝ) / 10000000 := by
    unfold ownCenter padCenter; simp only; ring
  have e2 : ((ownCenter n).2 + 0.001) * 1000 = (padY n : ℝ) / 10000000 + (1 : ℤ) := by
    unfold ownCenter padCenter; simp only; push_cast; ring
  simp only at ei ej
  rw [e1, floor_scaled] at ei
  rw [e2, Int.floor_add_intCast, floor_scaled] at ej
  have h4 := (pad_in_grid n hn).2.2.1
  have h1 : cellOf (padX n) = i := by unfold cellOf; omega
  have h2 : cellOf (padY n) + 1 = j := by unfold cellOf; omega
  rw [h1, h2]
  exact hl

/-- A file system with the packaged files. -/
noncomputable def exPackaged : FileSystem where
  packaged_grid := (⟨5600, fun i j => padCell (i / 10).toNat (j / 10).toNat⟩, packagedEdges)
  packaged_padxy := packagedPadXY
  packaged_scale := packagedScale
  npz := fun _ => none
  csv := fun _ => none

theorem exPackaged_ok : PackagedFiles exPackaged where
  padxy := by simp only [exPackaged]
  scale := by simp only [exPackaged]
  edges := by simp only [exPackaged]
  size := by simp only [exPackaged]
  cells := by
    intro i j _ _
    simp only [exPackaged]
    rw [show (10 * (i : ℤ) / 10).toNat = i by omega, show (10 * (j : ℤ) / 10).toNat = j by omega]

end Verif.Detector

namespace Verif.Props

open Verif.Detector

/-- **C65.** The beam pads are exactly the pads of the packaged plane with their centre less than
20 mm from the beam axis. -/
theorem C65_beam_pads (p : ℤ) :
    p ∈ BEAM_PADS ↔ ∃ n : ℕ, p = n ∧ n < 10240 ∧ sqDist (padCenter n) (0, 0) < 20 ^ 2 := by
  constructor
  · intro h
    refine ⟨p.toNat, (Int.toNat_of_nonneg (beam_pads_nonneg p h)).symm, ?_⟩
    have h' : p.toNat ∈ BEAM_PADS.map Int.toNat := List.mem_map_of_mem h
    rw [← beam_pads, mem_selectPads] at h'
    exact ⟨by omega, (nearAxis_iff _).1 h'.2⟩
  · rintro ⟨n, rfl, hn, hd⟩
    rw [mem_beam_iff, ← beam_pads, mem_selectPads]
    exact ⟨⟨by omega, by omega⟩, (nearAxis_iff n).2 hd⟩

/-- The list of beam pads is strictly increasing and has 122 entries. -/
theorem C65_listed_once : BEAM_PADS.Pairwise (· < ·) ∧ BEAM_PADS.length = 122 := by
  constructor <;> decide +kernel

/-- Pad `p + 5120` is the mirror image of pad `p < 5120` in the x axis; the beam pads are symmetric
under this reflection. -/
theorem C65_mirror (p : ℕ) (hp : p < 5120) :
    padCenter (p + 5120) = ((padCenter p).1, -(padCenter p).2) ∧
    (((p : ℤ) + 5120 ∈ BEAM_PADS) ↔ (p : ℤ) ∈ BEAM_PADS) := by
  obtain ⟨h1, h2⟩ := pad_mirror p hp
  have hc : padCenter (p + 5120) = ((padCenter p).1, -(padCenter p).2) := by
    unfold padCenter
    rw [h1, h2]
    push_cast
    rw [neg_div]
  refine ⟨hc, ?_⟩
  have hd : sqDist (padCenter (p + 5120)) (0, 0) = sqDist (padCenter p) (0, 0) := by
    rw [hc]; unfold sqDist; ring
  rw [C65_beam_pads, C65_beam_pads]
  constructor
  · rintro ⟨n, hn, -, h⟩
    obtain rfl : n = p + 5120 := by omega
    exact ⟨p, rfl, by omega, by rwa [← hd]⟩
  · rintro ⟨n, hn, -, h⟩
    obtain rfl : n = p := by omega
    exact ⟨n + 5120, by push_cast; rfl, by omega, by rwa [hd]⟩

/-- **C66.** With the packaged grid, the pad looked up for a position is a pad of the plane, and its
centre is at most 7.35 mm (large pads) or 4.36 mm (small pads) from the position. -/
theorem C66_lookup_near {fs : FileSystem} (hfs : PackagedFiles fs) (pos : ℝ × ℝ) (pad : ℤ)
    (h : lookupPad fs.packaged_grid pos = some pad) :
    ∃ n : ℕ, pad = n ∧ n < 10240 ∧
      sqDist (inMm pos) (padCenter n) ≤ (if padIsLarge n then 7.35 else 4.36) ^ 2 := by
  by_cases hg : InGrid packagedEdges pos
  · obtain ⟨i, j, hi, hj, -, -, hx, hy, hl⟩ := lookup_cell hfs hg
    rw [hl] at h
    rcases padCell_near i j hi with hc | ⟨n, hc, hn, hnear⟩
    · rw [if_pos hc] at h; simp at h
    · rw [hc] at h
      rw [if_neg (by omega)] at h
      refine ⟨n, (Option.some.inj h).symm, hn, ?_⟩
      have := hnear _ _ hx.1 hx.2 hy.1 hy.2
      rw [reach_eq] at this
      unfold sqDist inMm padCenter
      simp only
      nlinarith
  · rw [lookup_none hfs hg] at h; simp at h

/-- Consequence: closer than 12.65 mm to the beam axis only beam pads are found, so no charge from
there is recorded. -/
theorem C66_beam_hole {fs : FileSystem} (hfs : PackagedFiles fs) (pos : ℝ × ℝ) (pad : ℤ)
    (h : lookupPad fs.packaged_grid pos = some pad) (hpos : sqDist (inMm pos) (0, 0) < 12.65 ^ 2) :
    pad ∈ BEAM_PADS := by
  obtain ⟨n, rfl, hn, hd⟩ := C66_lookup_near hfs pos pad h
  rw [C65_beam_pads]
  refine ⟨n, rfl, hn, ?_⟩
  have hd' : sqDist (inMm pos) (padCenter n) ≤ 7.35 ^ 2 := by
    refine hd.trans ?_
    split_ifs <;> norm_num
  generalize inMm pos = a at *
  generalize padCenter n = c at *
  unfold sqDist at *
  simp only at *
  -- triangle inequality
  by_contra hc
  push Not at hc
  have hcs : (a.1 * (c.1 - a.1) + a.2 * (c.2 - a.2)) ^ 2
      ≤ (a.1 ^ 2 + a.2 ^ 2) * ((c.1 - a.1) ^ 2 + (c.2 - a.2) ^ 2) := by
    nlinarith [sq_nonneg (a.1 * (c.2 - a.2) - a.2 * (c.1 - a.1))]
  have hprod : (a.1 ^ 2 + a.2 ^ 2) * ((c.1 - a.1) ^ 2 + (c.2 - a.2) ^ 2)
      ≤ 12.65 ^ 2 * 7.35 ^ 2 := by
    apply mul_le_mul <;> nlinarith [sq_nonneg (c.1 - a.1), sq_nonneg (c.2 - a.2)]
  have hdot : a.1 * (c.1 - a.1) + a.2 * (c.2 - a.2) ≤ 12.65 * 7.35 := by
    apply le_of_sq_le_sq _ (by norm_num)
    rw [mul_pow]
    linarith
  nlinarith

/-- Every pad is found for some position: its own centre, or the point one millimetre above. -/
theorem C66_all_pads_reached {fs : FileSystem} (hfs : PackagedFiles fs) (n : ℕ) (hn : n < 10240) :
    lookupPad fs.packaged_grid (ownCenter n) = some (n : ℤ) ∨
    lookupPad fs.packaged_grid ((ownCenter n).1, (ownCenter n).2 + 0.001) = some (n : ℤ) := by
  by_cases h : padCell (cellOf (padX n)) (cellOf (padY n)) = n
  · exact .inl (by rw [lookup_own hfs n hn, h, if_neg (by omega)])
  · right
    rw [lookup_above hfs n hn, displaced_cell_above n ((displaced_iff n hn).1 h) hn,
      if_neg (by omega)]

/-- The packaged files exist, and the look-up finds large and small pads with them. -/
example : PackagedFiles exPackaged ∧
    lookupPad exPackaged.packaged_grid (ownCenter 24) = some 24 ∧ padIsLarge 24 = false ∧
    lookupPad exPackaged.packaged_grid (ownCenter 10239) = some 10239 ∧ padIsLarge 10239 = true := by
  have h := exPackaged_ok
  refine ⟨h, ?_, by decide +kernel, ?_, by decide +kernel⟩
  · rw [lookup_own h 24 (by norm_num), padCell_of_cellF (p := 24) (by decide +kernel) (by norm_num)]
    norm_num
  · rw [lookup_own h 10239 (by norm_num),
      padCell_of_cellF (p := 10239) (by decide +kernel) (by norm_num)]
    norm_num

/-! ## C68 -/

/-- C68 is false: the code assigns the centre of pad 172 to no pad at all, and that of pad 340 to
its neighbour 338. -/
theorem C68_refuted {fs : FileSystem} (hfs : PackagedFiles fs) :
    lookupPad fs.packaged_grid (ownCenter 172) = none ∧
    lookupPad fs.packaged_grid (ownCenter 340) = some 338 := by
  constructor
  · rw [lookup_own hfs 172 (by norm_num), if_pos]
    unfold padCell
    rw [cellF_eq, if_pos (by decide +kernel)]
  · rw [lookup_own hfs 340 (by norm_num),
      padCell_of_cellF (p := 338) (by decide +kernel) (by norm_num), if_neg (by norm_num)]
    norm_num

/-- Part of C68 that holds: the centre of every pad is assigned to that pad, except for the 428 pads
listed in `displaced`, for which it never is. Missing: those 428 pads, for which the property is
false. -/
theorem C68_partial {fs : FileSystem} (hfs : PackagedFiles fs) (n : ℕ) (hn : n < 10240) :
    lookupPad fs.packaged_grid (ownCenter n) = some (n : ℤ) ↔ n ∉ displaced := by
  rw [← displaced_iff n hn, lookup_own hfs n hn, not_not]
  constructor
  · intro h
    split_ifs at h
    exact Option.some.inj h
  · intro h
    rw [h, if_neg (by omega)]

/-- The listed pads. -/
theorem C68_exceptions_partial : displaced.length = 428 ∧ displaced.Nodup ∧ ∀ n ∈ displaced, n < 10240 := by
  refine ⟨by decide +kernel, ?_, by decide +kernel⟩
  have : displaced.Pairwise (· < ·) := by decide +kernel
  exact this.imp fun h => Nat.ne_of_lt h

/-- The consequence along the middle of the plane: electrons arriving anywhere with
`0 ≤ y < 1 mm` are assigned to no pad. The gap between the two halves of the plane is 0.3 mm. -/
theorem C68_lost_strip_refuted {fs : FileSystem} (hfs : PackagedFiles fs) (pos : ℝ × ℝ)
    (h0 : 0 ≤ pos.2 * 1000) (h1 : pos.2 * 1000 < 1) : lookupPad fs.packaged_grid pos = none := by
  by_cases hg : InGrid packagedEdges pos
  · obtain ⟨i, j, hi, hj, -, ej, -, -, hl⟩ := lookup_cell hfs hg
    have : ⌊pos.2 * 1000⌋ = 0 := by rw [Int.floor_eq_iff]; constructor <;> push_cast <;> linarith
    obtain rfl : j = 280 := by omega
    rw [hl, if_pos (padCell_280 i hi)]
  · exact lookup_none hfs hg

end Verif.Props
