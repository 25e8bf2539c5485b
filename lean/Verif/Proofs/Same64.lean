import Verif.Props.MachineEvent
import Verif.Proofs.RelError

/-! # Lemmas for C145: two dictionaries with the same cells -/

namespace Verif.Machine

open Verif.Detector Verif.Spec

/-- The sum of the differences of the charges of two dictionaries, entry by entry. -/
noncomputable def chargeDistance (p q : Points) : ℝ :=
  (List.zipWith (fun a b => |((a.2.1 - b.2.1 : ℤ) : ℝ)|) p q).sum

/-- Two dictionaries with the same keys and labels in the same order. -/
def sameCells (p q : Points) : Prop :=
  List.Forall₂ (fun a b : ℤ × (ℤ × ℤ) => a.1 = b.1 ∧ a.2.2 = b.2.2) p q

theorem same_set {p q : Points} (h : sameCells p q) (k e e' l : ℤ) :
    sameCells (p.set k ((p.get k (0, 0)).1 + e, l)) (q.set k ((q.get k (0, 0)).1 + e', l)) ∧
    chargeDistance (p.set k ((p.get k (0, 0)).1 + e, l)) (q.set k ((q.get k (0, 0)).1 + e', l))
      ≤ chargeDistance p q + |((e - e' : ℤ) : ℝ)| := by
  unfold sameCells at *
  induction h with
  | nil => simp [Points.set, Points.get, chargeDistance]
  | @cons a b p q hab hpq ih =>
    obtain ⟨k1, c1, l1⟩ := a
    obtain ⟨k2, c2, l2⟩ := b
    obtain ⟨h1, h2⟩ := hab
    simp only at h1 h2
    subst h1 h2
    obtain ⟨i1, i2⟩ := ih
    by_cases hk : k1 = k
    · simp only [Points.set, Points.get, if_pos hk]
      refine ⟨.cons ⟨rfl, rfl⟩ hpq, ?_⟩
      unfold chargeDistance
      simp only [List.zipWith_cons_cons, List.sum_cons]
      have : ((c1 + e - (c2 + e') : ℤ) : ℝ) = ((c1 - c2 : ℤ) : ℝ) + ((e - e' : ℤ) : ℝ) := by push_cast; ring
      rw [this]
      have := abs_add_le (((c1 - c2 : ℤ) : ℝ)) (((e - e' : ℤ) : ℝ))
      linarith
    · simp only [Points.set, Points.get, if_neg hk]
      refine ⟨.cons ⟨rfl, rfl⟩ i1, ?_⟩
      unfold chargeDistance at i2 ⊢
      simp only [List.zipWith_cons_cons, List.sum_cons]
      linarith

/-- One deposit. -/
theorem same_add {p q : Points} (hs : sameCells p q) (hp : ∀ entry ∈ p, 0 ≤ entry.2.1) {e : ℤ} (he : 0 ≤ e)
    (hroom : storedCharge p + e < 2 ^ 63) {tb pad : ℤ} (h1 : tb < 2 ^ 31) (h2 : pad < 2 ^ 31) (e' label : ℤ) :
    sameCells (addCharge64 p tb pad e label) (addCharge q tb pad e' label) ∧
    chargeDistance (addCharge64 p tb pad e label) (addCharge q tb pad e' label)
      ≤ chargeDistance p q + |((e - e' : ℤ) : ℝ)| := by
  unfold addCharge64 addCharge
  simp only
  obtain ⟨a1, a2, -⟩ := get_le_total hp (pair64 tb pad)
  rw [total_eq] at a2
  rw [wrap64_eq (by omega) (by omega), pair64_eq h1 h2]
  exact same_set hs _ _ _ _

theorem same_key {p q : Points} (hs : sameCells p q) : p.length = q.length := List.Forall₂.length_eq hs

/-! ## The grid -/

/-- The grid edges as stored and as meant give the same decisions and the same indices for every whole number of
millimetres. -/
structure GridSame (rn : ℝ → ℝ) (g64 g : GridEdges) : Prop where
  high : ∀ n : ℤ, g64.high ≤ n ↔ g.high ≤ n
  low : ∀ n : ℤ, (n : ℝ) < g64.low ↔ (n : ℝ) < g.low
  index : ∀ n : ℤ, g.low ≤ n → (n : ℝ) < g.high →
    pyInt (rn (rn ((n : ℝ) - g64.low) / g64.bin)) = pyInt (((n : ℝ) - g.low) / g.bin)

theorem floor_same {x y d : ℝ} (h : |x - y| ≤ d) (hy : ∀ n : ℤ, d < |y - n|) : ⌊x⌋ = ⌊y⌋ := by
  rw [Int.floor_eq_iff]
  obtain ⟨a, b⟩ := abs_le.1 h
  have f1 := Int.floor_le y
  have f2 := Int.lt_floor_add_one y
  have g1 := hy ⌊y⌋
  have g2 := hy (⌊y⌋ + 1)
  rw [abs_of_nonneg (by linarith)] at g1
  rw [abs_of_nonpos (by push_cast; linarith)] at g2
  push_cast at g2
  constructor <;> linarith

/-- A position and a nearby one away from the millimetre lines have the same index. -/
theorem index_same {rn : ℝ → ℝ} (h : Rounding rn) {g64 g : GridEdges} (hg : GridSame rn g64 g)
    {a b : ℝ × ℝ} (h1 : |a.1 - b.1| ≤ 5e-12) (h2 : |a.2 - b.2| ≤ 5e-12) (l1 : |b.1| ≤ 4) (l2 : |b.2| ≤ 4)
    (c1 : ∀ n : ℤ, 1e-8 < |b.1 * 1000 - n|) (c2 : ∀ n : ℤ, 1e-8 < |b.2 * 1000 - n|) :
    position_to_index64 rn g64 a = position_to_index g b := by
  have key : ∀ x y : ℝ, |x - y| ≤ 5e-12 → |y| ≤ 4 → (∀ n : ℤ, 1e-8 < |y * 1000 - n|) →
      ⌊rn (x * 1000)⌋ = ⌊y * 1000⌋ := by
    intro x y hxy hy hc
    refine floor_same (d := 1e-8) ?_ hc
    have hx : |x * 1000 - y * 1000| ≤ 5e-9 := by
      rw [← sub_mul, abs_mul, abs_of_pos (by norm_num : (0 : ℝ) < 1000)]
      norm_num at hxy ⊢
      linarith
    have hY : |y * 1000| ≤ 4000 := by
      rw [abs_mul, abs_of_pos (by norm_num : (0 : ℝ) < 1000)]
      linarith
    have := h.absolute hx (by norm_num at hY ⊢; linarith) (by norm_num)
    refine this.trans ?_
    norm_num at hY ⊢
    linarith
  unfold position_to_index64 position_to_index
  simp only
  rw [key _ _ h1 l1 c1, key _ _ h2 l2 c2]
  simp only [hg.high, hg.low]
  split_ifs with k1 k2
  · rfl
  · rfl
  · push Not at k1 k2
    rw [hg.index _ k2.1 k1.1, hg.index _ k2.2 k1.2]

/-! ## The width -/

theorem sqrt_relative {x X a : ℝ} (hX : 0 < X) (hx : 0 ≤ x) (h : |x - X| ≤ a * X) :
    |Real.sqrt x - Real.sqrt X| ≤ a * Real.sqrt X := by
  have h1 := Real.sqrt_pos.2 hX
  have h2 := Real.sqrt_nonneg x
  have e : (Real.sqrt x - Real.sqrt X) * (Real.sqrt x + Real.sqrt X) = x - X := by
    ring_nf
    rw [Real.sq_sqrt hx, Real.sq_sqrt hX.le]
  have h3 : |Real.sqrt x - Real.sqrt X| * (Real.sqrt x + Real.sqrt X) ≤ a * X := by
    rw [← abs_of_nonneg (by linarith : 0 ≤ Real.sqrt x + Real.sqrt X), ← abs_mul, e]
    exact h
  have h4 : |Real.sqrt x - Real.sqrt X| * Real.sqrt X ≤ a * Real.sqrt X * Real.sqrt X := by
    rw [mul_assoc, Real.mul_self_sqrt hX.le]
    refine le_trans (mul_le_mul_of_nonneg_left ?_ (abs_nonneg _)) h3
    linarith
  exact le_of_mul_le_mul_right h4 h1

theorem near_mul {x X y Y a b : ℝ} (hX : 0 ≤ X) (hY : 0 ≤ Y) (ha : 0 ≤ a) (hx : |x - X| ≤ a * X)
    (hy : |y - Y| ≤ b * Y) : |x * y - X * Y| ≤ (a + b + a * b) * (X * Y) := by
  have e : x * y - X * Y = (x - X) * (y - Y) + (x - X) * Y + X * (y - Y) := by ring
  have h1 : |(x - X) * (y - Y)| ≤ (a * X) * (b * Y) := by
    rw [abs_mul]
    exact mul_le_mul hx hy (abs_nonneg _) (mul_nonneg ha hX)
  have h2 : |(x - X) * Y| ≤ a * X * Y := by
    rw [abs_mul, abs_of_nonneg hY]
    exact mul_le_mul_of_nonneg_right hx hY
  have h3 : |X * (y - Y)| ≤ X * (b * Y) := by
    rw [abs_mul, abs_of_nonneg hX]
    exact mul_le_mul_of_nonneg_left hy hX
  rw [e]
  have := abs_add_le ((x - X) * (y - Y) + (x - X) * Y) (X * (y - Y))
  have := abs_add_le ((x - X) * (y - Y)) ((x - X) * Y)
  calc _ ≤ (a * X) * (b * Y) + a * X * Y + X * (b * Y) := by linarith
    _ = _ := by ring

/-- The width of the diffusion in float64 beside the exact one. -/
theorem spread64_near {rn : ℝ → ℝ} (h : Rounding rn) {D E V dv t T : ℝ} (hD1 : 1e-10 ≤ D) (hD2 : D ≤ 1e3)
    (hE1 : 1 ≤ E) (hV1 : 1e-6 ≤ V) (hV2 : V ≤ 1e3) (hv1 : V * (1 - uro) ≤ dv)
    (hv2 : dv ≤ V * (1 + 2 * uro)) (hT1 : 1 ≤ T) (hT2 : T ≤ 2e3) (ht : |t - T| ≤ 2 ^ (-40 : ℤ))
    (hlo : 1e-30 ≤ 2 * D * V * T / E) (hhi : 2 * D * V * T / E ≤ 1) :
    ∃ sigma, spread64 rn D E dv t = some sigma ∧
      |sigma - Real.sqrt (2 * D * V * T / E)| ≤ 1e-12 := by
  have hu1 : 2 * uro < 2.3e-16 := by unfold uro; norm_num
  have hu := uro_pos
  have hV0 : 0 < V := by linarith
  have hD0 : 0 < D := by linarith
  have hE0 : 0 < E := by linarith
  have hT0 : 0 < T := by linarith
  have ab : ∀ {x : ℝ}, 0 < x → |x| = x := fun hx => abs_of_pos hx
  have d1 : |dv - V| ≤ 3e-16 * V := by
    rw [abs_le]
    constructor <;> nlinarith
  have d2 : |t - T| ≤ 9.1e-13 * T := by
    refine ht.trans ?_
    have : (2 : ℝ) ^ (-40 : ℤ) ≤ 9.1e-13 := by norm_num
    norm_num at this ⊢
    linarith
  have a1 : |rn (2 * D) - 2 * D| ≤ 2e-16 * (2 * D) := by
    have := h.relative (x := 2 * D) (X := 2 * D) (a := 0) (by simp) (by norm_num)
      (by rw [ab (by linarith)]; norm_num at hD1 ⊢; linarith) (by rw [ab (by linarith)]; norm_num at hD2 ⊢; linarith)
    rw [ab (by linarith : 0 < 2 * D)] at this
    norm_num at this ⊢
    linarith
  have s1 : (1e-16 : ℝ) ≤ 2 * D * V := by
    have : (2e-10 : ℝ) * 1e-6 ≤ 2 * D * V := mul_le_mul (by linarith) hV1 (by norm_num) (by linarith)
    linarith
  have s2 : 2 * D * V ≤ 2e6 := by
    have : 2 * D * V ≤ 2e3 * 1e3 := mul_le_mul (by linarith) hV2 (by linarith) (by norm_num)
    linarith
  have s3 : (1e-16 : ℝ) ≤ 2 * D * V * T := by
    have : (1e-16 : ℝ) * 1 ≤ 2 * D * V * T := mul_le_mul s1 hT1 (by norm_num) (by linarith)
    linarith
  have s4 : 2 * D * V * T ≤ 4e9 := by
    have : 2 * D * V * T ≤ 2e6 * 2e3 := mul_le_mul s2 hT2 (by linarith) (by norm_num)
    linarith
  have b1 := near_mul (by linarith) hV0.le (by norm_num) a1 d1
  have b2 : |rn (rn (2 * D) * dv) - 2 * D * V| ≤ 7e-16 * (2 * D * V) := by
    generalize 2 * D * V = P at *
    have hP : 0 < P := by linarith
    have := h.relative (x := rn (2 * D) * dv) (X := P) (a := 5.01e-16) (by
      rw [ab hP]
      refine b1.trans (mul_le_mul_of_nonneg_right (by norm_num) hP.le)) (by norm_num)
      (by rw [ab hP]; linarith) (by rw [ab hP]; linarith)
    rw [ab hP] at this
    refine this.trans (mul_le_mul_of_nonneg_right (by norm_num) hP.le)
  have c1 := near_mul (by linarith) hT0.le (by norm_num) b2 d2
  have c2 : |rn (rn (rn (2 * D) * dv) * t) - 2 * D * V * T| ≤ 9.12e-13 * (2 * D * V * T) := by
    generalize 2 * D * V * T = P at *
    have hP : 0 < P := by linarith
    have := h.relative (x := rn (rn (2 * D) * dv) * t) (X := P) (a := 9.11e-13) (by
      rw [ab hP]
      refine c1.trans (mul_le_mul_of_nonneg_right (by norm_num) hP.le)) (by norm_num)
      (by rw [ab hP]; linarith) (by rw [ab hP]; linarith)
    rw [ab hP] at this
    refine this.trans (mul_le_mul_of_nonneg_right (by norm_num) hP.le)
  have e1 : |rn (rn (rn (rn (2 * D) * dv) * t) / E) - 2 * D * V * T / E| ≤ 9.14e-13 * (2 * D * V * T / E) := by
    have hd : |rn (rn (rn (2 * D) * dv) * t) / E - 2 * D * V * T / E| ≤ 9.12e-13 * (2 * D * V * T / E) := by
      rw [← sub_div, abs_div, ab hE0, ← mul_div_assoc]
      exact div_le_div_of_nonneg_right c2 hE0.le
    generalize 2 * D * V * T / E = P at *
    have hP : 0 < P := by linarith
    have := h.relative (X := P) (a := 9.12e-13) (by rw [ab hP]; exact hd) (by norm_num)
      (by rw [ab hP]; linarith) (by rw [ab hP]; linarith)
    rw [ab hP] at this
    refine this.trans (mul_le_mul_of_nonneg_right (by norm_num) hP.le)
  unfold spread64
  clear hv1 hv2 d1 d2 a1 b1 b2 c1 c2 s1 s2 s3 s4
  generalize rn (rn (rn (rn (2 * D) * dv) * t) / E) = r at *
  generalize 2 * D * V * T / E = X at *
  have hX : 0 < X := by linarith
  have r0 : 0 ≤ r := by
    have := (abs_le.1 e1).1
    nlinarith
  have q := sqrt_relative hX r0 e1
  have hq1 : Real.sqrt X ≤ 1 := by
    rw [Real.sqrt_le_left (by norm_num)]
    linarith
  have hq0 := Real.sqrt_nonneg X
  refine ⟨rn (Real.sqrt r), ?_, ?_⟩
  · rw [npSqrt_of_nonneg r0]
    rfl
  · have hd : |Real.sqrt r - Real.sqrt X| ≤ 9.14e-13 := by
      refine q.trans ?_
      norm_num at hq1 ⊢
      linarith
    have := h.absolute hd (by rw [abs_of_nonneg hq0]; linarith) (by norm_num)
    rw [abs_of_nonneg hq0] at this
    refine this.trans ?_
    norm_num
    linarith

/-! ## The transport of one point -/

/-- Transport without diffusion. -/
theorem same_point {rn : ℝ → ℝ} {grid : PadGrid} {g64 g : GridEdges} (hpads : ∀ i j, grid.cell i j < 2 ^ 26)
    {t64 t : ℝ} (ht : pyInt t64 = pyInt t) (htb : pyInt t < 2 ^ 31) {center : ℝ × ℝ}
    (hi : position_to_index64 rn g64 center = position_to_index g center) {p q : Points} (hs : sameCells p q)
    (hp : ∀ entry ∈ p, 0 ≤ entry.2.1) {e e' : ℤ} (he : 0 ≤ e) (hroom : storedCharge p + e < 2 ^ 63) (label : ℤ) :
    sameCells (point_transport64 rn grid g64 t64 center e p label) (point_transport grid g t center e' q label) ∧
    chargeDistance (point_transport64 rn grid g64 t64 center e p label) (point_transport grid g t center e' q label)
      ≤ chargeDistance p q + |((e - e' : ℤ) : ℝ)| := by
  have h0 : chargeDistance p q ≤ chargeDistance p q + |((e - e' : ℤ) : ℝ)| := by
    have := abs_nonneg (((e - e' : ℤ) : ℝ))
    linarith
  unfold point_transport64 point_transport
  simp only
  rw [hi, ht]
  split_ifs
  · exact ⟨hs, h0⟩
  · refine same_add hs hp he hroom htb ?_ e' label
    refine lt_trans (hpads _ _) (by norm_num)
  · exact ⟨hs, h0⟩

/-- The pixel loop. -/
theorem same_pixels {m : Math64} {grid : PadGrid} {g64 g : GridEdges} (hpads : ∀ i j, grid.cell i j < 2 ^ 26)
    {t64 t : ℝ} (ht : pyInt t64 = pyInt t) (htb : pyInt t < 2 ^ 31) {center : ℝ × ℝ} {e e' label : ℤ}
    {s64 s : ℝ} {f64 f : ℕ × ℕ → ℝ × ℝ} {d : ℕ × ℕ → ℝ} (l : List (ℕ × ℕ))
    (hl : ∀ ij ∈ l, position_to_index64 m.rn g64 (f64 ij) = position_to_index g (f ij) ∧
      0 ≤ pixel_electrons64 m center s64 e (f64 ij) ∧
      |((pixel_electrons64 m center s64 e (f64 ij) - pixel_electrons center s e' (f ij) : ℤ) : ℝ)| ≤ d ij)
    {p q : Points} (hs : sameCells p q) (hp : ∀ entry ∈ p, 0 ≤ entry.2.1)
    (hroom : storedCharge p + (l.map fun ij => pixel_electrons64 m center s64 e (f64 ij)).sum < 2 ^ 63) :
    sameCells ((l.map f64).foldl (transverse_pixel64 m grid g64 t64 center e s64 label) p)
      ((l.map f).foldl (transverse_pixel grid g t center e' s label) q) ∧
    chargeDistance ((l.map f64).foldl (transverse_pixel64 m grid g64 t64 center e s64 label) p)
      ((l.map f).foldl (transverse_pixel grid g t center e' s label) q) ≤ chargeDistance p q + (l.map d).sum := by
  induction l generalizing p q with
  | nil => exact ⟨hs, by simp⟩
  | cons a l ih =>
    obtain ⟨a1, a2, a3⟩ := hl a (by simp)
    have hl' := fun ij (hij : ij ∈ l) => hl ij (List.mem_cons_of_mem _ hij)
    have hsum : 0 ≤ (l.map fun ij => pixel_electrons64 m center s64 e (f64 ij)).sum := by
      apply List.sum_nonneg
      intro x hx
      obtain ⟨y, hy, rfl⟩ := List.mem_map.1 hx
      exact (hl' y hy).2.1
    simp only [List.map_cons, List.sum_cons, List.foldl_cons] at hroom ⊢
    have step : sameCells (transverse_pixel64 m grid g64 t64 center e s64 label p (f64 a))
          (transverse_pixel grid g t center e' s label q (f a)) ∧
        chargeDistance (transverse_pixel64 m grid g64 t64 center e s64 label p (f64 a))
          (transverse_pixel grid g t center e' s label q (f a)) ≤ chargeDistance p q + d a ∧
        (∀ entry ∈ transverse_pixel64 m grid g64 t64 center e s64 label p (f64 a), 0 ≤ entry.2.1) ∧
        storedCharge (transverse_pixel64 m grid g64 t64 center e s64 label p (f64 a))
          ≤ storedCharge p + pixel_electrons64 m center s64 e (f64 a) := by
      have h0 : chargeDistance p q ≤ chargeDistance p q + d a := by
        have := (abs_nonneg _).trans a3
        linarith
      unfold transverse_pixel64 transverse_pixel
      simp only
      rw [a1, ht]
      split_ifs
      · exact ⟨hs, h0, hp, by omega⟩
      · obtain ⟨k1, k2⟩ := same_add hs hp a2 (by omega) htb
          (lt_trans (hpads (position_to_index g (f a)).1 (position_to_index g (f a)).2) (by norm_num))
          (pixel_electrons center s e' (f a)) label
        obtain ⟨k3, k4⟩ := addCharge64_total hp (tb := pyInt t)
          (pad := grid.cell (position_to_index g (f a)).1 (position_to_index g (f a)).2) (label := label) a2
          (by omega)
        exact ⟨k1, by linarith, k4, k3.le⟩
      · exact ⟨hs, h0, hp, by omega⟩
    obtain ⟨s1, s2, s3, s4⟩ := step
    obtain ⟨i1, i2⟩ := ih hl' s1 s3 (by omega)
    exact ⟨i1, by linarith⟩

/-- The indices of the hundred mesh points. -/
def meshIndex : List (ℕ × ℕ) := (List.range 10).flatMap fun i => (List.range 10).map fun j => (i, j)

theorem mem_meshIndex {ij : ℕ × ℕ} (h : ij ∈ meshIndex) : ij.1 < 10 ∧ ij.2 < 10 := by
  unfold meshIndex at h
  obtain ⟨i, hi, h⟩ := List.mem_flatMap.1 h
  obtain ⟨j, hj, rfl⟩ := List.mem_map.1 h
  exact ⟨List.mem_range.1 hi, List.mem_range.1 hj⟩

theorem meshIndex_map {α : Type} (f : ℕ × ℕ → α) :
    meshIndex.map f = (List.range 10).flatMap fun i => (List.range 10).map fun j => f (i, j) := by
  unfold meshIndex
  rw [List.map_flatMap]
  simp only [List.map_map]
  rfl

/-- The differences of the pixels add up to little more than the difference of the electrons. -/
theorem mesh_sum {a : ℝ} (ha : 0 ≤ a) :
    (meshIndex.map fun ij => meshWeight ij.1 ij.2 * a + 1).sum ≤ a + 100 := by
  have e1 : (meshIndex.map fun ij => meshWeight ij.1 ij.2 * a + 1).sum
      = (meshIndex.map fun ij => meshWeight ij.1 ij.2).sum * a + 100 := by
    have : ∀ l : List (ℕ × ℕ), (l.map fun ij => meshWeight ij.1 ij.2 * a + 1).sum
        = (l.map fun ij => meshWeight ij.1 ij.2).sum * a + l.length := by
      intro l
      induction l with
      | nil => simp
      | cons x l ih =>
        simp only [List.map_cons, List.sum_cons, ih, List.length_cons]
        push_cast
        ring
    rw [this]
    have hl : meshIndex.length = 100 := by decide
    rw [hl]
    norm_num
  have e2 : (meshIndex.map fun ij => meshWeight ij.1 ij.2) = (meshPoints (0, 0) 1).map (·.2) := by
    rw [meshIndex_map]
    unfold meshPoints
    rw [List.map_flatMap]
    simp only [List.map_map]
    rfl
  rw [e1, e2]
  have := (meshWeights_sum_bounds (0, 0) 1).2
  nlinarith

/-- Transport with diffusion. -/
theorem same_transverse {m : Math64} (h : m.Ok) {grid : PadGrid} {g64 g : GridEdges} (hg : GridSame m.rn g64 g)
    (hpads : ∀ i j, grid.cell i j < 2 ^ 26) {t64 t : ℝ} (ht : pyInt t64 = pyInt t) (htb : pyInt t < 2 ^ 31)
    {center : ℝ × ℝ} (hx : |center.1| ≤ 1) (hy : |center.2| ≤ 1) {s64 s : ℝ} (hs : (2 : ℝ) ^ (-30 : ℤ) ≤ s64)
    (hs1 : s64 ≤ 1) (hσ0 : 0 < s) (hσ1 : s ≤ 1) (hσ : |s64 - s| ≤ 1e-12)
    (hcx : ∀ i < 10, ∀ n : ℤ, 1e-8 < |(center.1 + meshOffset i * s) * 1000 - n|)
    (hcy : ∀ i < 10, ∀ n : ℤ, 1e-8 < |(center.2 + meshOffset i * s) * 1000 - n|) {e e' : ℤ} (he : 0 ≤ e)
    (he2 : e < 2 ^ 53) (he' : 0 ≤ e') (label : ℤ) {p q : Points} (hpq : sameCells p q)
    (hp : ∀ entry ∈ p, 0 ≤ entry.2.1) (hroom : storedCharge p + e < 2 ^ 63) :
    sameCells (transverse_transport64 m grid g64 t64 center e s64 p label)
      (transverse_transport grid g t center e' s q label) ∧
    chargeDistance (transverse_transport64 m grid g64 t64 center e s64 p label)
      (transverse_transport grid g t center e' s q label)
      ≤ chargeDistance p q + (|((e - e' : ℤ) : ℝ)| + 3e-4 * e + 100) := by
  have h0 : 0 ≤ s64 := le_trans (by positivity) hs
  have heR : (0 : ℝ) ≤ e := by exact_mod_cast he
  have heR' : (0 : ℝ) ≤ e' := by exact_mod_cast he'
  have hpos : ∀ c : ℝ, |c| ≤ 1 → ∀ i < 10, |line64 m.rn c s64 i - (c + meshOffset i * s)| ≤ 5e-12 ∧
      |c + meshOffset i * s| ≤ 4 := by
    intro c hc i hi
    have l1 := linspace_position h.rounding hc h0 hs1 hi (x := line64 m.rn c s64 i) rfl
    have l2 := meshOffset_abs hi
    have l3 : |meshOffset i * s64 - meshOffset i * s| ≤ 3 * 1e-12 := by
      rw [← mul_sub, abs_mul]
      exact mul_le_mul l2 hσ (abs_nonneg _) (by norm_num)
    have l4 : |meshOffset i * s| ≤ 3 * 1 := by
      rw [abs_mul, abs_of_pos hσ0]
      exact mul_le_mul l2 hσ1 hσ0.le (by norm_num)
    have hu : 2 * uro * 64 ≤ 1e-13 := by unfold uro; norm_num
    constructor
    · have e1 : line64 m.rn c s64 i - (c + meshOffset i * s)
          = (line64 m.rn c s64 i - (c + meshOffset i * s64)) + (meshOffset i * s64 - meshOffset i * s) := by ring
      rw [e1]
      refine (abs_add_le _ _).trans ?_
      have := l1.trans hu
      norm_num at this l3 ⊢
      linarith
    · refine (abs_add_le _ _).trans ?_
      linarith
  obtain ⟨-, k2⟩ := mesh64_electrons h hx hy hs hs1 he he2
  have hm64 : transverse_mesh64 m center s64 = meshIndex.map fun ij =>
      (line64 m.rn center.1 s64 ij.1, line64 m.rn center.2 s64 ij.2) := by
    rw [mesh64_eq, meshIndex_map]
  have hm : transverse_mesh center s = meshIndex.map fun ij =>
      (center.1 + meshOffset ij.1 * s, center.2 + meshOffset ij.2 * s) := by
    rw [transverse_mesh_eq, meshIndex_map]
    unfold meshPoints
    rw [List.map_flatMap]
    simp only [List.map_map]
    rfl
  have hsum : (meshIndex.map fun ij => pixel_electrons64 m center s64 e
      (line64 m.rn center.1 s64 ij.1, line64 m.rn center.2 s64 ij.2)).sum ≤ e := by
    rw [hm64, List.map_map] at k2
    exact k2
  have hA : 0 ≤ |((e - e' : ℤ) : ℝ)| + 3e-4 * e := by positivity
  obtain ⟨r1, r2⟩ := same_pixels (m := m) (grid := grid) (g64 := g64) (g := g) hpads ht htb (center := center)
    (e := e) (e' := e') (label := label) (s64 := s64) (s := s)
    (f64 := fun ij => (line64 m.rn center.1 s64 ij.1, line64 m.rn center.2 s64 ij.2))
    (f := fun ij => (center.1 + meshOffset ij.1 * s, center.2 + meshOffset ij.2 * s))
    (d := fun ij => meshWeight ij.1 ij.2 * (|((e - e' : ℤ) : ℝ)| + 3e-4 * e) + 1) meshIndex (by
      intro ij hij
      obtain ⟨hi, hj⟩ := mem_meshIndex hij
      obtain ⟨i, j⟩ := ij
      simp only at hi hj ⊢
      obtain ⟨x1, x2⟩ := hpos _ hx i hi
      obtain ⟨y1, y2⟩ := hpos _ hy j hj
      obtain ⟨v1, v2, v3⟩ := pixel_value_near h hs hs1 hi hj
        (pixel := (line64 m.rn center.1 s64 i, line64 m.rn center.2 s64 j))
        (linspace_near h.rounding hx h0 hs1 hi rfl) (linspace_near h.rounding hy h0 hs1 hj rfl) he he2
      refine ⟨index_same h.rounding hg x1 y1 x2 y2 (hcx i hi) (hcy j hj), v1, ?_⟩
      rw [pixel_electrons_eq center s hσ0.ne' e' i j]
      have w0 := meshWeight_pos i j
      generalize pixel_electrons64 m center s64 e (line64 m.rn center.1 s64 i, line64 m.rn center.2 s64 j) = P at *
      generalize meshWeight i j = w at *
      have hwe : 0 ≤ w * e' := mul_nonneg w0.le heR'
      rw [pyInt_of_nonneg hwe]
      have f1 := Int.floor_le (w * (e' : ℝ))
      have f2 := Int.lt_floor_add_one (w * (e' : ℝ))
      generalize ⌊w * (e' : ℝ)⌋ = Q at *
      push_cast
      have hab : w * (e : ℝ) - w * e' ≤ w * |(e : ℝ) - e'| := by
        rw [← mul_sub]
        exact mul_le_mul_of_nonneg_left (le_abs_self _) w0.le
      have hab' : w * (e' : ℝ) - w * e ≤ w * |(e : ℝ) - e'| := by
        rw [← mul_sub, ← abs_sub_comm]
        exact mul_le_mul_of_nonneg_left (le_abs_self _) w0.le
      rw [abs_le]
      constructor
      · nlinarith
      · nlinarith) hpq hp (by linarith)
  unfold transverse_transport64 transverse_transport
  rw [hm64, hm]
  exact ⟨r1, r2.trans (by linarith [mesh_sum hA])⟩

end Verif.Machine
