import Verif.Proofs.Transport
import Mathlib.Analysis.SpecialFunctions.Exponential
import Mathlib.Analysis.Complex.ExponentialBounds

/-! # The sum of the hundred mesh weights lies between 0.998 and 1 -/

namespace Verif.Detector

open Verif.Spec

/-- `exp(-1/18)`: all mesh weights are products of its powers. -/
noncomputable def q18 : ℝ := Real.exp (-1 / 18)

theorem q18_bounds : (0.94595 : ℝ) < q18 ∧ q18 < 0.94596 := by
  have h := Real.exp_bound (x := (-1 / 18 : ℝ)) (by rw [abs_le]; norm_num) (n := 5) (by norm_num)
  rw [abs_le] at h
  unfold q18
  simp only [Finset.sum_range_succ, Finset.sum_range_zero, Nat.factorial] at h
  norm_num at h
  constructor <;> norm_num <;> linarith [h.1, h.2]

theorem meshFactor_eq (i : ℕ) (hi : i < 10) :
    Real.exp (-(meshOffset i ^ 2) / 2) = q18 ^ ((2 * (i : ℤ) - 9).natAbs ^ 2) := by
  unfold q18
  rw [← Real.exp_nat_mul]
  congr 1
  unfold meshOffset
  interval_cases i <;> norm_num

theorem meshWeight_eq (i j : ℕ) :
    meshWeight i j = (2 / 3) ^ 2 / (2 * Real.pi) *
      (Real.exp (-(meshOffset i ^ 2) / 2) * Real.exp (-(meshOffset j ^ 2) / 2)) := by
  unfold meshWeight
  rw [← Real.exp_add]
  congr 2
  ring

theorem meshWeight_pos (i j : ℕ) : 0 < meshWeight i j := by
  unfold meshWeight
  have := Real.pi_pos
  positivity

/-- Sum of one-dimensional factors. -/
noncomputable def meshSum1 : ℝ := 2 * (q18 + q18 ^ 9 + q18 ^ 25 + q18 ^ 49 + q18 ^ 81)

theorem meshSum1_bounds : (3.7567 : ℝ) < meshSum1 ∧ meshSum1 < 3.758 := by
  obtain ⟨h1, h2⟩ := q18_bounds
  unfold meshSum1
  have lo : ∀ n : ℕ, n ≠ 0 → (0.94595 : ℝ) ^ n < q18 ^ n := fun n hn =>
    pow_lt_pow_left₀ h1 (by norm_num) hn
  have hi : ∀ n : ℕ, n ≠ 0 → q18 ^ n < (0.94596 : ℝ) ^ n := fun n hn =>
    pow_lt_pow_left₀ h2 (by linarith) hn
  have a1 := lo 9 (by norm_num)
  have a2 := lo 25 (by norm_num)
  have a3 := lo 49 (by norm_num)
  have a4 := lo 81 (by norm_num)
  have b1 := hi 9 (by norm_num)
  have b2 := hi 25 (by norm_num)
  have b3 := hi 49 (by norm_num)
  have b4 := hi 81 (by norm_num)
  constructor
  · have : (3.7567 : ℝ) < 2 * (0.94595 + 0.94595 ^ 9 + 0.94595 ^ 25 + 0.94595 ^ 49 + 0.94595 ^ 81) := by
      norm_num
    linarith
  · have : 2 * (0.94596 + 0.94596 ^ 9 + 0.94596 ^ 25 + 0.94596 ^ 49 + 0.94596 ^ 81) < (3.758 : ℝ) := by
      norm_num
    linarith

theorem meshRow_sum :
    ((List.range 10).map fun i => Real.exp (-(meshOffset i ^ 2) / 2)).sum = meshSum1 := by
  have e : (List.range 10).map (fun i => Real.exp (-(meshOffset i ^ 2) / 2))
      = (List.range 10).map (fun (i : ℕ) => q18 ^ ((2 * (i : ℤ) - 9).natAbs ^ 2)) := by
    apply List.map_congr_left
    intro i hi
    exact meshFactor_eq i (List.mem_range.1 hi)
  rw [e]
  simp only [List.range_succ, List.range_zero, List.nil_append, List.cons_append,
    List.map_cons, List.map_nil, List.sum_cons, List.sum_nil, meshSum1]
  norm_num
  ring

theorem sum_map_mul_left' {α : Type} (l : List α) (c : ℝ) (f : α → ℝ) :
    (l.map fun a => c * f a).sum = c * (l.map f).sum := by
  induction l with
  | nil => simp
  | cons a l ih => simp [ih, mul_add]

theorem sum_map_mul_right' {α : Type} (l : List α) (c : ℝ) (f : α → ℝ) :
    (l.map fun a => f a * c).sum = (l.map f).sum * c := by
  induction l with
  | nil => simp
  | cons a l ih => simp [ih, add_mul]

theorem sum_flatMap_map {α β : Type} (l : List α) (f : α → List β) (g : β → ℝ) :
    ((l.flatMap f).map g).sum = (l.map fun a => ((f a).map g).sum).sum := by
  induction l with
  | nil => simp
  | cons a l ih => simp [ih]

theorem meshWeights_sum (center : ℝ × ℝ) (sigma : ℝ) :
    ((meshPoints center sigma).map (·.2)).sum = (2 / 3) ^ 2 / (2 * Real.pi) * meshSum1 ^ 2 := by
  unfold meshPoints
  rw [sum_flatMap_map]
  simp only [List.map_map, Function.comp_def]
  have : ∀ i : ℕ, ((List.range 10).map fun j => meshWeight i j).sum
      = (2 / 3) ^ 2 / (2 * Real.pi) * (Real.exp (-(meshOffset i ^ 2) / 2) * meshSum1) := by
    intro i
    simp only [meshWeight_eq]
    rw [sum_map_mul_left', sum_map_mul_left', meshRow_sum]
  simp only [this]
  rw [sum_map_mul_left', sum_map_mul_right', meshRow_sum]
  ring

theorem meshWeights_sum_bounds (center : ℝ × ℝ) (sigma : ℝ) :
    0.998 ≤ ((meshPoints center sigma).map (·.2)).sum ∧
    ((meshPoints center sigma).map (·.2)).sum ≤ 1 := by
  rw [meshWeights_sum]
  obtain ⟨h1, h2⟩ := meshSum1_bounds
  have p1 := Real.pi_gt_d4
  have p2 := Real.pi_lt_d4
  have hpi := Real.pi_pos
  rw [div_mul_eq_mul_div, le_div_iff₀ (by positivity), div_le_iff₀ (by positivity)]
  constructor <;> norm_num at * <;> nlinarith

theorem mesh_deposits_le (grid : PadGrid) (g : GridEdges) (time : ℝ) (e : ℤ)
    (he : 0 ≤ e) (label : ℤ) (l : List ((ℝ × ℝ) × ℝ)) (hl : ∀ pw ∈ l, 0 ≤ pw.2) :
    ((((l.filterMap fun pw => (activePad grid g pw.1).map fun pad =>
      (⟨pyInt time, pad, pyInt (pw.2 * (e : ℝ)), label⟩ : Deposit)).map (·.e)).sum : ℤ) : ℝ)
      ≤ (l.map (·.2)).sum * e := by
  have he' : (0 : ℝ) ≤ e := by exact_mod_cast he
  induction l with
  | nil => simp
  | cons a l ih =>
    have ih := ih (fun pw h => hl pw (List.mem_cons_of_mem _ h))
    have ha := hl a List.mem_cons_self
    have hp : 0 ≤ a.2 * (e : ℝ) := mul_nonneg ha he'
    rcases h : activePad grid g a.1 with _ | pad
    · simp only [List.filterMap_cons, h, Option.map_none, List.map_cons, List.sum_cons, add_mul]
      linarith
    · simp only [List.filterMap_cons, h, Option.map_some, List.map_cons, List.sum_cons, add_mul]
      rw [Int.cast_add]
      have := pyInt_le hp
      linarith

theorem mesh_deposits_ge (grid : PadGrid) (g : GridEdges) (time : ℝ) (e : ℤ)
    (he : 0 ≤ e) (label : ℤ) (l : List ((ℝ × ℝ) × ℝ)) (hl : ∀ pw ∈ l, 0 ≤ pw.2)
    (hact : ∀ pw ∈ l, (activePad grid g pw.1).isSome) :
    (l.map (·.2)).sum * e - l.length ≤
    ((((l.filterMap fun pw => (activePad grid g pw.1).map fun pad =>
      (⟨pyInt time, pad, pyInt (pw.2 * (e : ℝ)), label⟩ : Deposit)).map (·.e)).sum : ℤ) : ℝ) := by
  have he' : (0 : ℝ) ≤ e := by exact_mod_cast he
  induction l with
  | nil => simp
  | cons a l ih =>
    have ih := ih (fun pw h => hl pw (List.mem_cons_of_mem _ h))
      (fun pw h => hact pw (List.mem_cons_of_mem _ h))
    have ha := hl a List.mem_cons_self
    have hp : 0 ≤ a.2 * (e : ℝ) := mul_nonneg ha he'
    obtain ⟨pad, h⟩ := Option.isSome_iff_exists.1 (hact a List.mem_cons_self)
    simp only [List.filterMap_cons, h, Option.map_some, List.map_cons, List.sum_cons, add_mul,
      List.length_cons]
    rw [Int.cast_add, Nat.cast_add, Nat.cast_one]
    rw [pyInt_of_nonneg hp]
    have := (Int.lt_floor_add_one (a.2 * (e : ℝ))).le
    linarith

theorem meshPoints_nonneg (center : ℝ × ℝ) (sigma : ℝ) :
    ∀ pw ∈ meshPoints center sigma, 0 ≤ pw.2 := by
  intro pw hpw
  obtain ⟨i, j, _, _, rfl⟩ := mem_meshPoints _ _ _ hpw
  exact (meshWeight_pos i j).le

end Verif.Detector
