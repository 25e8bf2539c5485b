import Verif.Detector.PadFiles
import Verif.Proofs.Transport

/-! # C14, C15: pad grid indexing -/

namespace Verif.Detector

open Verif.Spec

/-- The position lies in the square of whole-millimetre cells that the code accepts:
`⌈low⌉ ≤ x < ⌈high⌉` and the same for `y`, in millimetres. -/
def InGrid (g : GridEdges) (pos : ℝ × ℝ) : Prop :=
  ((⌈g.low⌉ : ℝ) ≤ pos.1 * 1000 ∧ pos.1 * 1000 < (⌈g.high⌉ : ℝ)) ∧
  ((⌈g.low⌉ : ℝ) ≤ pos.2 * 1000 ∧ pos.2 * 1000 < (⌈g.high⌉ : ℝ))

theorem floor_range_iff (g : GridEdges) (u : ℝ) :
    (g.low ≤ (⌊u⌋ : ℝ) ∧ (⌊u⌋ : ℝ) < g.high) ↔ ((⌈g.low⌉ : ℝ) ≤ u ∧ u < (⌈g.high⌉ : ℝ)) := by
  rw [← Int.le_floor, Int.ceil_le, ← Int.floor_lt, Int.lt_ceil]

/-- C14: for an `N × N` grid with positive step and `N * step ≥ high - low`, the index is `(-1, -1)`
exactly when the position is outside the accepted square, and otherwise both indices lie in
`[0, N)`. -/
theorem C14_in_bounds (g : GridEdges) (hb : 0 < g.bin) (N : ℕ) (hN : g.high - g.low ≤ N * g.bin)
    (pos : ℝ × ℝ) :
    (position_to_index g pos = (-1, -1) ↔ ¬ InGrid g pos) ∧
    (InGrid g pos → 0 ≤ (position_to_index g pos).1 ∧ (position_to_index g pos).1 < N ∧
      0 ≤ (position_to_index g pos).2 ∧ (position_to_index g pos).2 < N) := by
  have key : ∀ u i, gridIndex g u = some i → 0 ≤ i ∧ i < N := by
    intro u i h
    refine ⟨gridIndex_nonneg hb h, ?_⟩
    unfold gridIndex at h
    split_ifs at h with hc
    simp only [Option.some.injEq] at h
    subst h
    rw [Int.floor_lt]
    rw [div_lt_iff₀ hb]
    push_cast
    linarith [hc.2]
  have hin : ∀ u, (gridIndex g u).isSome ↔ ((⌈g.low⌉ : ℝ) ≤ u * 1000 ∧ u * 1000 < (⌈g.high⌉ : ℝ)) := by
    intro u
    rw [← floor_range_iff]
    unfold gridIndex
    split_ifs with hc <;> simp [hc]
  rw [position_to_index_eq g hb]
  unfold InGrid
  rw [← hin, ← hin]
  rcases hx : gridIndex g pos.1 with _ | i
  · simp
  · rcases hy : gridIndex g pos.2 with _ | j
    · simp
    · obtain ⟨h1, h2⟩ := key _ _ hx
      obtain ⟨h3, h4⟩ := key _ _ hy
      simp only [Option.isSome_some, and_self, not_true_eq_false, iff_false, Prod.mk.injEq]
      exact ⟨by omega, fun _ => ⟨h1, h2, h3, h4⟩⟩

/-- C14 for the packaged 5600 × 5600 grid: every access made by the transport functions is inside
the array. -/
theorem C14_packaged (pos : ℝ × ℝ) :
    position_to_index packagedEdges pos = (-1, -1) ∨
    (0 ≤ (position_to_index packagedEdges pos).1 ∧ (position_to_index packagedEdges pos).1 < 5600 ∧
     0 ≤ (position_to_index packagedEdges pos).2 ∧ (position_to_index packagedEdges pos).2 < 5600) := by
  have h := C14_in_bounds packagedEdges (by norm_num [packagedEdges]) 5600
    (by norm_num [packagedEdges]) pos
  by_cases hi : InGrid packagedEdges pos
  · exact .inr (h.2 hi)
  · exact .inl (h.1.2 hi)

/-- The hypotheses of `C14_in_bounds` are met by the packaged grid, and there are positions of both
kinds. -/
example : InGrid packagedEdges (0.1, -0.2) ∧ ¬ InGrid packagedEdges (0.2795, 0) := by
  unfold InGrid packagedEdges
  norm_num

/-! ## C15 -/

/-- The documented meaning of a grid index (detector/parameters.py:116-125): the position lies in
the bin `[low + i * step, low + (i + 1) * step)` along each axis, in millimetres. -/
def BinContains (g : GridEdges) (i : ℤ) (u : ℝ) : Prop :=
  g.low + i * g.bin ≤ u * 1000 ∧ u * 1000 < g.low + (i + 1) * g.bin

/-- C15 is false for the packaged grid: the position x = 0.95 mm is inside the grid, but the index
returned for it (2800, the bin [0, 0.1) mm) is not the bin that contains it. -/
theorem C15_refuted : ∃ pos, InGrid packagedEdges pos ∧
    position_to_index packagedEdges pos = (2800, 2800) ∧
    ¬ BinContains packagedEdges (position_to_index packagedEdges pos).1 pos.1 := by
  have h : position_to_index packagedEdges (0.00095, 0) = (2800, 2800) := by
    rw [position_to_index_eq _ (by norm_num [packagedEdges])]
    have h1 : gridIndex packagedEdges 0.00095 = some 2800 := by
      unfold gridIndex packagedEdges
      have : ⌊(0.00095 : ℝ) * 1000⌋ = 0 := by rw [Int.floor_eq_iff]; norm_num
      rw [this]
      norm_num
    have h2 : gridIndex packagedEdges 0 = some 2800 := by
      unfold gridIndex packagedEdges
      norm_num
    simp only [h1, h2]
  refine ⟨(0.00095, 0), ?_, h, ?_⟩
  · unfold InGrid packagedEdges; norm_num
  · rw [h]; unfold BinContains packagedEdges; norm_num

/-- Part of C15 that holds: for whole-millimetre edges and step the index is that of the bin
containing the position. Missing for the full property: steps below one millimetre, for which it is
false (`C15_refuted`). -/
theorem C15_integer_edges_partial (g : GridEdges) (low bin : ℤ) (hlow : g.low = low)
    (hbin : g.bin = bin) (hb : 0 < bin) (pos : ℝ × ℝ) (h : InGrid g pos) :
    BinContains g (position_to_index g pos).1 pos.1 ∧
    BinContains g (position_to_index g pos).2 pos.2 := by
  have hb' : 0 < g.bin := by rw [hbin]; exact_mod_cast hb
  have key : ∀ u i, gridIndex g u = some i → BinContains g i u := by
    intro u i h
    unfold gridIndex at h
    split_ifs at h with hc
    simp only [Option.some.injEq] at h
    have h1 := Int.floor_le (((⌊u * 1000⌋ : ℝ) - g.low) / g.bin)
    have h2 := Int.lt_floor_add_one (((⌊u * 1000⌋ : ℝ) - g.low) / g.bin)
    rw [h] at h1 h2
    rw [le_div_iff₀ hb'] at h1
    rw [div_lt_iff₀ hb'] at h2
    unfold BinContains
    refine ⟨by linarith [Int.floor_le (u * 1000)], ?_⟩
    have h3 : ⌊u * 1000⌋ < low + (i + 1) * bin := by
      rw [hlow, hbin] at h2
      have : (⌊u * 1000⌋ : ℝ) < (low : ℝ) + ((i : ℝ) + 1) * (bin : ℝ) := by linarith
      exact_mod_cast this
    have h4 := Int.floor_lt.1 h3
    rw [hlow, hbin]
    push_cast at h4
    exact h4
  have hin : ∀ u, ((⌈g.low⌉ : ℝ) ≤ u * 1000 ∧ u * 1000 < (⌈g.high⌉ : ℝ)) →
      ∃ i, gridIndex g u = some i := by
    intro u hu
    unfold gridIndex
    rw [if_pos ((floor_range_iff g _).2 hu)]
    exact ⟨_, rfl⟩
  obtain ⟨i, hi⟩ := hin _ h.1
  obtain ⟨j, hj⟩ := hin _ h.2
  rw [position_to_index_eq g hb', hi, hj]
  exact ⟨key _ _ hi, key _ _ hj⟩

/-- Part of C15 that holds for every step: the bin returned contains the position rounded down to
whole millimetres, hence the bin lies less than one millimetre below the position. -/
theorem C15_within_one_mm_partial (g : GridEdges) (hb : 0 < g.bin) (pos : ℝ × ℝ)
    (h : InGrid g pos) :
    (g.low + (position_to_index g pos).1 * g.bin ≤ pos.1 * 1000 ∧
      pos.1 * 1000 < g.low + ((position_to_index g pos).1 + 1) * g.bin + 1) ∧
    (g.low + (position_to_index g pos).2 * g.bin ≤ pos.2 * 1000 ∧
      pos.2 * 1000 < g.low + ((position_to_index g pos).2 + 1) * g.bin + 1) := by
  have key : ∀ u i, gridIndex g u = some i → g.low + i * g.bin ≤ u * 1000 ∧
      u * 1000 < g.low + (i + 1) * g.bin + 1 := by
    intro u i h
    unfold gridIndex at h
    split_ifs at h with hc
    simp only [Option.some.injEq] at h
    have h1 := Int.floor_le (((⌊u * 1000⌋ : ℝ) - g.low) / g.bin)
    have h2 := Int.lt_floor_add_one (((⌊u * 1000⌋ : ℝ) - g.low) / g.bin)
    rw [h] at h1 h2
    rw [le_div_iff₀ hb] at h1
    rw [div_lt_iff₀ hb] at h2
    have h3 := Int.floor_le (u * 1000)
    have h4 := Int.lt_floor_add_one (u * 1000)
    constructor <;> linarith
  have hin : ∀ u, ((⌈g.low⌉ : ℝ) ≤ u * 1000 ∧ u * 1000 < (⌈g.high⌉ : ℝ)) →
      ∃ i, gridIndex g u = some i := by
    intro u hu
    unfold gridIndex
    rw [if_pos ((floor_range_iff g _).2 hu)]
    exact ⟨_, rfl⟩
  obtain ⟨i, hi⟩ := hin _ h.1
  obtain ⟨j, hj⟩ := hin _ h.2
  rw [position_to_index_eq g hb, hi, hj]
  exact ⟨key _ _ hi, key _ _ hj⟩

/-- Consequence for the packaged grid: only every tenth row and column is ever used. -/
theorem C15_packaged_rows (pos : ℝ × ℝ) (h : InGrid packagedEdges pos) :
    position_to_index packagedEdges pos = (10 * (⌊pos.1 * 1000⌋ + 280), 10 * (⌊pos.2 * 1000⌋ + 280)) := by
  rw [position_to_index_eq _ (by norm_num [packagedEdges])]
  have key : ∀ u, ((⌈packagedEdges.low⌉ : ℝ) ≤ u * 1000 ∧ u * 1000 < (⌈packagedEdges.high⌉ : ℝ)) →
      gridIndex packagedEdges u = some (10 * (⌊u * 1000⌋ + 280)) := by
    intro u hu
    unfold gridIndex
    rw [if_pos ((floor_range_iff _ _).2 hu)]
    congr 1
    have : ((⌊u * 1000⌋ : ℝ) - packagedEdges.low) / packagedEdges.bin
        = ((10 * (⌊u * 1000⌋ + 280) : ℤ) : ℝ) := by
      simp only [packagedEdges]; push_cast; ring
    rw [this, Int.floor_intCast]
  simp only [key _ h.1, key _ h.2]

/-- Whole-millimetre edges exist (the test grid of the repository's documentation style). -/
example : InGrid { low := -5, high := 5, bin := 1 } (0.0031, -0.0049) := by
  unfold InGrid; norm_num

end Verif.Detector
