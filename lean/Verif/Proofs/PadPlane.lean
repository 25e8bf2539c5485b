import Verif.Proofs.PadData
import Mathlib.Data.List.Sort
import Mathlib.Data.Real.Basic
import Mathlib.Algebra.Order.Ring.Cast
import Mathlib.Tactic.Positivity

/-! # What the evaluation of the packaged pad data means -/

namespace Verif.Detector

open Verif.Data

theorem allPads_iff (f : ℕ → Bool) (a n : ℕ) :
    allPads f a n = true ↔ ∀ p : ℕ, a ≤ p → p < a + n → f p = true := by
  induction n with
  | zero => simp only [allPads, true_iff]; intro p h1 h2; omega
  | succ n ih =>
    rw [allPads, Bool.and_eq_true, ih]
    constructor
    · rintro ⟨h1, h2⟩ p h3 h4
      rcases Nat.lt_or_ge p (a + n) with h | h
      · exact h2 p h3 h
      · obtain rfl : p = a + n := by omega
        exact h1
    · intro h
      exact ⟨h _ (by omega) (by omega), fun p h1 h2 => h p h1 (by omega)⟩

theorem selectPads_eq (f : ℕ → Bool) (a n : ℕ) (l : List ℕ) :
    selectPads f a n l = (List.range' a n).filter f ++ l := by
  induction n generalizing l with
  | zero => simp [selectPads]
  | succ n ih =>
    rw [selectPads, ih, List.range'_1_concat, List.filter_append]
    cases h : f (a + n) <;> simp [h]

theorem mem_selectPads (f : ℕ → Bool) (a n p : ℕ) :
    p ∈ selectPads f a n [] ↔ (a ≤ p ∧ p < a + n) ∧ f p = true := by
  rw [selectPads_eq]
  simp [List.mem_range'_1]

/-- The cell of a row in the encoding of the data file. -/
theorem cellF_eq (fuel v j : ℕ) :
    runCell (decodeRuns fuel v) j
      = if cellF fuel v j = 99999 then -1 else ((cellF fuel v j : ℕ) : ℤ) := by
  induction fuel generalizing v j with
  | zero => simp [decodeRuns, runCell, cellF]
  | succ fuel ih =>
    have hstep : cellF (fuel + 1) v j = bif Nat.beq v 0 then 99999 else
        bif Nat.blt j (v % 1000) then v / 1000 % 100000 else
          cellF fuel (v / 100000000) (j - v % 1000) := rfl
    rw [decodeRuns, hstep]
    by_cases hv : v = 0
    · subst hv; simp [runCell]
    · rw [if_neg hv]
      have h0 : Nat.beq v 0 = false := by
        rw [Bool.eq_false_iff]; intro h; exact hv (Nat.eq_of_beq_eq_true h)
      rw [h0, cond_false, runCell]
      by_cases hj : j < v % 1000
      · have h1 : Nat.blt j (v % 1000) = true := by rw [Nat.blt_eq]; exact hj
        rw [if_pos hj, h1, cond_true]
      · have h1 : Nat.blt j (v % 1000) = false := by
          rw [Bool.eq_false_iff]; intro h; exact hj (by rwa [Nat.blt_eq] at h)
        rw [if_neg hj, h1, cond_false, ih]

theorem far_bound (a b c x : ℝ) (h1 : a ≤ x) (h2 : x ≤ b) :
    (x - c) ^ 2 ≤ max ((a - c) ^ 2) ((b - c) ^ 2) := by
  rcases le_total c x with h | h
  · exact le_trans (by nlinarith) (le_max_right _ _)
  · exact le_trans (by nlinarith) (le_max_left _ _)

theorem far_sq (a b c : ℤ) :
    max (((a : ℝ) - c) ^ 2) (((b : ℝ) - c) ^ 2) = ((far a b c ^ 2 : ℕ) : ℝ) := by
  have e : ∀ z : ℤ, ((z.natAbs : ℕ) : ℝ) ^ 2 = (z : ℝ) ^ 2 := by
    intro z
    rw [show ((z.natAbs : ℕ) : ℝ) = ((z.natAbs : ℤ) : ℝ) by rw [Int.cast_natCast], Int.natCast_natAbs,
      Int.cast_abs, sq_abs]
  have e1 := e (a - c)
  have e2 := e (b - c)
  rw [Int.cast_sub] at e1 e2
  rw [← e1, ← e2]
  unfold far
  cases h : Nat.ble (a - c).natAbs (b - c).natAbs
  · have h' : (b - c).natAbs ≤ (a - c).natAbs := by
      by_contra hh
      have := Eq.mpr Nat.ble_eq (by omega : (a - c).natAbs ≤ (b - c).natAbs)
      rw [h] at this; exact absurd this (by simp)
    rw [cond_false]
    push_cast
    have h'' : (((b - c).natAbs : ℕ) : ℝ) ≤ (((a - c).natAbs : ℕ) : ℝ) := by exact_mod_cast h'
    refine max_eq_left ?_
    exact pow_le_pow_left₀ (by positivity) h'' 2
  · have h' := Eq.mp Nat.ble_eq h
    rw [cond_true]
    push_cast
    have h'' : (((a - c).natAbs : ℕ) : ℝ) ≤ (((b - c).natAbs : ℕ) : ℝ) := by exact_mod_cast h'
    refine max_eq_right ?_
    exact pow_le_pow_left₀ (by positivity) h'' 2

/-- The largest squared distance, in units of (10⁻⁷ mm)², from a pad's centre: (7.35 mm)² and
(4.36 mm)². -/
def reach (p : ℕ) : ℕ := bif padIsLarge p then 5402250000000000 else 1900960000000000

/-- A position in the cell of row `i` and column `j`, both counted from -280 mm in millimetres, is
near the centre of pad `p`. -/
def NearCell (i j p : ℕ) : Prop :=
  ∀ x y : ℝ, (i : ℝ) ≤ x → x ≤ i + 1 → (j : ℝ) ≤ y → y ≤ j + 1 →
    (x * 10000000 - 2800000000 - padX p) ^ 2 + (y * 10000000 - 2800000000 - padY p) ^ 2 ≤ reach p

theorem okRun_sound {i j pad len : ℕ} (h : okRun i j pad len = true) (hp : pad ≠ 99999) :
    pad < 10240 ∧ ∀ k : ℕ, k < len → NearCell i (j + k) pad := by
  unfold okRun at h
  have h0 : Nat.beq pad 99999 = false := by
    rw [Bool.eq_false_iff]; intro h; exact hp (Nat.eq_of_beq_eq_true h)
  rw [h0, cond_false, Bool.and_eq_true, Nat.blt_eq, Nat.ble_eq] at h
  refine ⟨h.1, fun k hk x y hx1 hx2 hy1 hy2 => ?_⟩
  have hd : ((far ((i : ℤ) * 10000000 - 2800000000) (((i + 1 : ℕ) : ℤ) * 10000000 - 2800000000)
        (padX pad) ^ 2 +
       far ((j : ℤ) * 10000000 - 2800000000) (((j + len : ℕ) : ℤ) * 10000000 - 2800000000)
        (padY pad) ^ 2 : ℕ) : ℝ) ≤ (reach pad : ℕ) := by exact_mod_cast h.2
  rw [Nat.cast_add, ← far_sq, ← far_sq] at hd
  refine le_trans (add_le_add (far_bound _ _ _ _ ?_ ?_) (far_bound _ _ _ _ ?_ ?_)) hd
  · push_cast; linarith
  · push_cast; linarith
  · push_cast at hy1 ⊢; linarith
  · push_cast at hy2 ⊢
    have : (k : ℝ) + 1 ≤ len := by exact_mod_cast hk
    linarith

theorem okRuns_sound (i fuel v j : ℕ) (h : okRuns i fuel v j = true) (k : ℕ) :
    runCell (decodeRuns fuel v) k = -1 ∨
    ∃ p : ℕ, runCell (decodeRuns fuel v) k = p ∧ p < 10240 ∧ NearCell i (j + k) p := by
  induction fuel generalizing v j k with
  | zero => exact .inl rfl
  | succ fuel ih =>
    have hstep : okRuns i (fuel + 1) v j = bif Nat.beq v 0 then true else
        force (v / 1000 % 100000) fun pad => force (v % 1000) fun len => force j fun j =>
        okRun i j pad len && okRuns i fuel (v / 100000000) (j + len) := rfl
    rw [hstep] at h
    simp only [force_eq] at h
    rw [decodeRuns]
    by_cases hv : v = 0
    · rw [if_pos hv]; exact .inl rfl
    · rw [if_neg hv]
      have h0 : Nat.beq v 0 = false := by
        rw [Bool.eq_false_iff]; intro h; exact hv (Nat.eq_of_beq_eq_true h)
      rw [h0, cond_false, Bool.and_eq_true] at h
      rw [runCell]
      by_cases hk : k < v % 1000
      · rw [if_pos hk]
        by_cases hp : v / 1000 % 100000 = 99999
        · rw [if_pos hp]; exact .inl rfl
        · rw [if_neg hp]
          obtain ⟨h1, h2⟩ := okRun_sound h.1 hp
          exact .inr ⟨_, rfl, h1, h2 k hk⟩
      · rw [if_neg hk]
        have := ih _ _ h.2 (k - v % 1000)
        rwa [show j + v % 1000 + (k - v % 1000) = j + k by omega] at this

theorem okRows_iff (a n : ℕ) : okRows a n = true ↔
    ∀ i : ℕ, a ≤ i → i < a + n → okRuns i 559 (nth padGridRows i) 0 = true := by
  induction n with
  | zero => simp only [okRows, true_iff]; intro p h1 h2; omega
  | succ n ih =>
    rw [okRows, Bool.and_eq_true, ih, force_eq]
    constructor
    · rintro ⟨h1, h2⟩ p h3 h4
      rcases Nat.lt_or_ge p (a + n) with h | h
      · exact h2 p h3 h
      · obtain rfl : p = a + n := by omega
        exact h1
    · intro h
      exact ⟨h _ (by omega) (by omega), fun p h1 h2 => h p h1 (by omega)⟩

theorem row_ok (i : ℕ) (hi : i < 559) : okRuns i 559 (nth padGridRows i) 0 = true := by
  have h0 := (okRows_iff _ _).1 okRows_0 i
  have h1 := (okRows_iff _ _).1 okRows_43 i
  have h2 := (okRows_iff _ _).1 okRows_86 i
  have h3 := (okRows_iff _ _).1 okRows_129 i
  have h4 := (okRows_iff _ _).1 okRows_172 i
  have h5 := (okRows_iff _ _).1 okRows_215 i
  have h6 := (okRows_iff _ _).1 okRows_258 i
  have h7 := (okRows_iff _ _).1 okRows_301 i
  have h8 := (okRows_iff _ _).1 okRows_344 i
  have h9 := (okRows_iff _ _).1 okRows_387 i
  have h10 := (okRows_iff _ _).1 okRows_430 i
  have h11 := (okRows_iff _ _).1 okRows_473 i
  have h12 := (okRows_iff _ _).1 okRows_516 i
  rcases Nat.lt_or_ge i 43 with h | h
  · exact h0 (by omega) (by omega)
  rcases Nat.lt_or_ge i 86 with h | h
  · exact h1 (by omega) (by omega)
  rcases Nat.lt_or_ge i 129 with h | h
  · exact h2 (by omega) (by omega)
  rcases Nat.lt_or_ge i 172 with h | h
  · exact h3 (by omega) (by omega)
  rcases Nat.lt_or_ge i 215 with h | h
  · exact h4 (by omega) (by omega)
  rcases Nat.lt_or_ge i 258 with h | h
  · exact h5 (by omega) (by omega)
  rcases Nat.lt_or_ge i 301 with h | h
  · exact h6 (by omega) (by omega)
  rcases Nat.lt_or_ge i 344 with h | h
  · exact h7 (by omega) (by omega)
  rcases Nat.lt_or_ge i 387 with h | h
  · exact h8 (by omega) (by omega)
  rcases Nat.lt_or_ge i 430 with h | h
  · exact h9 (by omega) (by omega)
  rcases Nat.lt_or_ge i 473 with h | h
  · exact h10 (by omega) (by omega)
  rcases Nat.lt_or_ge i 516 with h | h
  · exact h11 (by omega) (by omega)
  · exact h12 (by omega) (by omega)

/-- Every cell in use is -1 or a pad whose centre is near. -/
theorem padCell_near (i j : ℕ) (hi : i < 559) :
    padCell i j = -1 ∨ ∃ p : ℕ, padCell i j = p ∧ p < 10240 ∧ NearCell i j p := by
  have := okRuns_sound i 559 _ 0 (row_ok i hi) j
  rwa [Nat.zero_add] at this

theorem padCell_of_cellF {i j p : ℕ} (h : Nat.beq (cellF 559 (nth padGridRows i) j) p = true)
    (hp : p ≠ 99999) : padCell i j = p := by
  have := Nat.eq_of_beq_eq_true h
  unfold padCell
  rw [cellF_eq, this, if_neg hp]

theorem padCell_ne_of_cellF {i j p : ℕ} (h : Nat.beq (cellF 559 (nth padGridRows i) j) p = false) :
    padCell i j ≠ p := by
  unfold padCell
  rw [cellF_eq]
  split_ifs with hc
  · omega
  · intro he
    have he : cellF 559 (nth padGridRows i) j = p := by exact_mod_cast he
    rw [he] at h
    simp at h

/-- The cell with the centre of the pad is a cell of the pad exactly for the pads that are not
listed. -/
theorem displaced_iff (p : ℕ) (hp : p < 10240) :
    padCell (cellOf (padX p)) (cellOf (padY p)) ≠ p ↔ p ∈ displaced := by
  have hself : padCell (cellOf (padX p)) (cellOf (padY p)) ≠ p ↔ (!selfCell p) = true := by
    cases h : selfCell p
    · exact ⟨fun _ => rfl, fun _ => padCell_ne_of_cellF h⟩
    · refine ⟨fun hn => absurd (padCell_of_cellF h (by omega)) hn, fun hn => by simp at hn⟩
  rw [hself]
  have key : ∀ a n : ℕ, a ≤ p → p < a + n →
      selectPads (fun p => !selfCell p) a n [] = displaced.filter (fun p => Nat.ble a p && Nat.blt p (a + n)) →
      ((!selfCell p) = true ↔ p ∈ displaced) := by
    intro a n h1 h2 he
    have := mem_selectPads (fun p => !selfCell p) a n p
    rw [he, List.mem_filter, Bool.and_eq_true, Nat.ble_eq, Nat.blt_eq] at this
    tauto
  rcases Nat.lt_or_ge p 1024 with h | h
  · exact key 0 1024 (by omega) (by omega) displaced_0
  rcases Nat.lt_or_ge p 2048 with h | h
  · exact key 1024 1024 (by omega) (by omega) displaced_1024
  rcases Nat.lt_or_ge p 3072 with h | h
  · exact key 2048 1024 (by omega) (by omega) displaced_2048
  rcases Nat.lt_or_ge p 4096 with h | h
  · exact key 3072 1024 (by omega) (by omega) displaced_3072
  rcases Nat.lt_or_ge p 5120 with h | h
  · exact key 4096 1024 (by omega) (by omega) displaced_4096
  rcases Nat.lt_or_ge p 6144 with h | h
  · exact key 5120 1024 (by omega) (by omega) displaced_5120
  rcases Nat.lt_or_ge p 7168 with h | h
  · exact key 6144 1024 (by omega) (by omega) displaced_6144
  rcases Nat.lt_or_ge p 8192 with h | h
  · exact key 7168 1024 (by omega) (by omega) displaced_7168
  rcases Nat.lt_or_ge p 9216 with h | h
  · exact key 8192 1024 (by omega) (by omega) displaced_8192
  · exact key 9216 1024 (by omega) (by omega) displaced_9216

theorem displaced_cell_above (p : ℕ) (hp : p ∈ displaced) (hlt : p < 10240) :
    padCell (cellOf (padX p)) (cellOf (padY p) + 1) = p :=
  padCell_of_cellF (List.all_eq_true.1 displaced_above p hp) (by omega)

theorem pad_in_grid (p : ℕ) (hp : p < 10240) :
    -2800000000 ≤ padX p ∧ padX p < 2780000000 ∧ -2800000000 ≤ padY p ∧ padY p < 2780000000 := by
  have := (allPads_iff _ _ _).1 in_grid_pads p (by omega) (by omega)
  simp only [inGridPad, Bool.and_eq_true, decide_eq_true_iff] at this
  tauto

theorem pad_mirror (p : ℕ) (hp : p < 5120) :
    padX (p + 5120) = padX p ∧ padY (p + 5120) = -padY p := by
  have := (allPads_iff _ _ _).1 mirror_pads p (by omega) (by omega)
  simpa only [Bool.and_eq_true, decide_eq_true_iff] using this

theorem padCell_280 (i : ℕ) (hi : i < 559) : padCell i 280 = -1 := by
  have := Nat.eq_of_beq_eq_true ((allPads_iff _ _ _).1 column_280 i (by omega) (by omega))
  unfold padCell
  rw [cellF_eq, this, if_pos rfl]

theorem cellOf_lt (x : ℤ) (h1 : -2800000000 ≤ x) (h2 : x < 2780000000) : cellOf x < 558 := by
  unfold cellOf; omega

end Verif.Detector
