import Verif.Proofs.Points

/-! # The transport functions perform exactly the specified deposits -/

namespace Verif.Detector

open Verif.Spec

theorem pyInt_of_nonneg {x : ℝ} (h : 0 ≤ x) : pyInt x = ⌊x⌋ := by simp [pyInt, h]

theorem pyInt_nonneg {x : ℝ} (h : 0 ≤ x) : 0 ≤ pyInt x := by
  rw [pyInt_of_nonneg h]; exact Int.floor_nonneg.2 h

theorem pyInt_le {x : ℝ} (h : 0 ≤ x) : (pyInt x : ℝ) ≤ x := by
  rw [pyInt_of_nonneg h]; exact Int.floor_le x

theorem gridIndex_nonneg {g : GridEdges} (hb : 0 < g.bin) {u : ℝ} {i : ℤ}
    (h : gridIndex g u = some i) : 0 ≤ i := by
  unfold gridIndex at h
  split_ifs at h with hc
  simp only [Option.some.injEq] at h
  subst h
  exact Int.floor_nonneg.2 (div_nonneg (by linarith [hc.1]) hb.le)

/-- `position_to_index` in terms of the specification. -/
theorem position_to_index_eq (g : GridEdges) (hb : 0 < g.bin) (pos : ℝ × ℝ) :
    position_to_index g pos = match gridIndex g pos.1, gridIndex g pos.2 with
      | some i, some j => (i, j)
      | _, _ => (-1, -1) := by
  unfold position_to_index gridIndex
  simp only
  by_cases hx : g.low ≤ (⌊pos.1 * 1000⌋ : ℝ) ∧ (⌊pos.1 * 1000⌋ : ℝ) < g.high
  · by_cases hy : g.low ≤ (⌊pos.2 * 1000⌋ : ℝ) ∧ (⌊pos.2 * 1000⌋ : ℝ) < g.high
    · rw [if_neg (by push Not; exact ⟨hx.2, hy.2⟩), if_neg (by push Not; exact ⟨hx.1, hy.1⟩),
        if_pos hx, if_pos hy]
      simp only
      rw [pyInt_of_nonneg (div_nonneg (by linarith [hx.1]) hb.le),
        pyInt_of_nonneg (div_nonneg (by linarith [hy.1]) hb.le)]
    · rw [if_pos hx, if_neg hy]
      simp only
      by_cases h1 : g.high ≤ (⌊pos.2 * 1000⌋ : ℝ)
      · rw [if_pos (Or.inr h1)]
      · rw [if_neg (by push Not; exact ⟨hx.2, not_le.1 h1⟩), if_pos]
        right
        by_contra h2
        exact hy ⟨not_lt.1 h2, not_le.1 h1⟩
  · rw [if_neg hx]
    simp only
    split_ifs with h1 h2
    · rfl
    · rfl
    · exfalso
      push Not at h1 h2
      exact hx ⟨h2.1, h1.1⟩

/-- Reading the pad at a position: the model's nested conditionals are `activePad`. -/
theorem pad_branch (grid : PadGrid) (g : GridEdges) (hb : 0 < g.bin) (pos : ℝ × ℝ) {α : Type}
    (dflt : α) (f : ℤ → α) :
    (let (index_x, index_y) := position_to_index g pos
     if index_x = -1 ∨ index_y = -1 then dflt
     else
       let pad := grid.cell index_x index_y
       if pad ≠ -1 ∧ pad ∉ BEAM_PADS then f pad else dflt)
    = match activePad grid g pos with
      | some pad => f pad
      | none => dflt := by
  rw [position_to_index_eq g hb]
  unfold activePad
  rcases hx : gridIndex g pos.1 with _ | i
  · simp
  · rcases hy : gridIndex g pos.2 with _ | j
    · simp
    · have h1 := gridIndex_nonneg hb hx
      have h2 := gridIndex_nonneg hb hy
      simp only
      rw [if_neg (by omega)]
      by_cases hp : grid.cell i j = -1 ∨ grid.cell i j ∈ BEAM_PADS
      · rw [if_neg (by tauto), if_pos hp]
      · rw [if_pos (by tauto), if_neg hp]

theorem transverse_mesh_eq (center : ℝ × ℝ) (sigma : ℝ) :
    transverse_mesh center sigma = (meshPoints center sigma).map (·.1) := by
  unfold transverse_mesh meshPoints meshgrid linspace STEPS
  have key : ∀ (c : ℝ) (i : ℕ), c - 3 * sigma + (i : ℝ) * ((c + 3 * sigma - (c - 3 * sigma)) /
      (((10 : ℕ) : ℝ) - 1)) = c + meshOffset i * sigma := by
    intro c i
    unfold meshOffset
    push_cast
    ring
  simp only [key, List.flatMap_map, List.map_flatMap, List.map_map]
  rfl

theorem pixel_electrons_eq (center : ℝ × ℝ) (sigma : ℝ) (hs : sigma ≠ 0) (e : ℤ) (i j : ℕ) :
    pixel_electrons center sigma e (center.1 + meshOffset i * sigma, center.2 + meshOffset j * sigma)
      = pyInt (meshWeight i j * (e : ℝ)) := by
  unfold pixel_electrons bivariate_normal_pdf meshWeight STEPS
  simp only
  congr 1
  have hexp : (-1 / 2 / sigma ^ 2) * ((center.1 + meshOffset i * sigma - center.1) ^ 2
      + (center.2 + meshOffset j * sigma - center.2) ^ 2)
      = -(meshOffset i ^ 2 + meshOffset j ^ 2) / 2 := by
    field_simp
    ring
  rw [hexp]
  have hpi := Real.pi_ne_zero
  push_cast
  field_simp
  ring

theorem foldl_filterMap_congr {α β γ δ : Type} (f : α → β → α) (g : α → δ → α) (t : γ → Option δ)
    (u : γ → β) (l : List γ) (a : α)
    (h : ∀ a c, c ∈ l → f a (u c) = match t c with | some d => g a d | none => a) :
    (l.map u).foldl f a = (l.filterMap t).foldl g a := by
  induction l generalizing a with
  | nil => rfl
  | cons c l ih =>
    have hc := h a c (List.mem_cons_self)
    have ih' := fun a => ih a (fun a c hc => h a c (List.mem_cons_of_mem _ hc))
    simp only [List.map_cons, List.foldl_cons, hc]
    rcases ht : t c with _ | d
    · simp only [List.filterMap_cons, ht]; exact ih' a
    · simp only [List.filterMap_cons, ht, List.foldl_cons]; exact ih' _

theorem mem_meshPoints (center : ℝ × ℝ) (sigma : ℝ) (pw : (ℝ × ℝ) × ℝ)
    (h : pw ∈ meshPoints center sigma) :
    ∃ i j : ℕ, i < 10 ∧ j < 10 ∧
      pw = ((center.1 + meshOffset i * sigma, center.2 + meshOffset j * sigma), meshWeight i j) := by
  unfold meshPoints at h
  simp only [List.mem_flatMap, List.mem_map, List.mem_range] at h
  obtain ⟨i, hi, j, hj, rfl⟩ := h
  exact ⟨i, j, hi, hj, rfl⟩

/-- `point_transport` performs the deposits of a track point with zero spread. -/
theorem point_transport_eq (grid : PadGrid) (g : GridEdges) (hb : 0 < g.bin) (time : ℝ)
    (center : ℝ × ℝ) (e : ℤ) (points : Points) (label : ℤ) :
    point_transport grid g time center e points label
      = applyDeposits points (pointDeposits grid g time center e 0 label) := by
  have h := pad_branch grid g hb center points
    (fun pad => addCharge points (pyInt time) pad e label)
  unfold point_transport pointDeposits
  rw [if_pos rfl]
  simp only at h ⊢
  rw [h]
  cases activePad grid g center <;> rfl

/-- `transverse_transport` performs the deposits of a track point with non-zero spread. -/
theorem transverse_transport_eq (grid : PadGrid) (g : GridEdges) (hb : 0 < g.bin) (time : ℝ)
    (center : ℝ × ℝ) (e : ℤ) (sigma : ℝ) (hs : sigma ≠ 0) (points : Points) (label : ℤ) :
    transverse_transport grid g time center e sigma points label
      = applyDeposits points (pointDeposits grid g time center e sigma label) := by
  unfold transverse_transport pointDeposits applyDeposits
  rw [if_neg hs, transverse_mesh_eq]
  apply foldl_filterMap_congr
  intro p pw hpw
  obtain ⟨i, j, _, _, rfl⟩ := mem_meshPoints _ _ _ hpw
  have h := pad_branch grid g hb (center.1 + meshOffset i * sigma, center.2 + meshOffset j * sigma) p
    (fun pad => addCharge p (pyInt time) pad (pixel_electrons center sigma e
      (center.1 + meshOffset i * sigma, center.2 + meshOffset j * sigma)) label)
  unfold transverse_pixel
  simp only at h ⊢
  rw [h, pixel_electrons_eq center sigma hs]
  cases activePad grid g (center.1 + meshOffset i * sigma, center.2 + meshOffset j * sigma) <;> rfl

end Verif.Detector
