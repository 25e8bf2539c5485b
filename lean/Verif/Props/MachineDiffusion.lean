import Verif.Proofs.Diffusion64
import Verif.Props.Machine

/-! # C87: diffusion in machine arithmetic -/

namespace Verif.Machine

open Verif.Detector Verif.Spec

/-- The charges stored in a point dictionary, added up. -/
def storedCharge (p : Points) : ℤ := (p.map fun entry => entry.2.1).sum

theorem total_eq (p : Points) : p.total = storedCharge p := rfl

theorem get_le_total {p : Points} (hp : ∀ entry ∈ p, 0 ≤ entry.2.1) (k : ℤ) :
    0 ≤ (p.get k (0, 0)).1 ∧ (p.get k (0, 0)).1 ≤ p.total ∧ 0 ≤ p.total := by
  induction p with
  | nil => simp [Points.get, Points.total]
  | cons a p ih =>
    obtain ⟨k', w⟩ := a
    have ha := hp (k', w) (by simp)
    obtain ⟨h1, h2, h3⟩ := ih fun en hen => hp en (by simp [hen])
    simp only at ha
    have ht : Points.total ((k', w) :: p) = w.1 + Points.total p := by simp [Points.total]
    rw [ht]
    by_cases h : k' = k
    · simp only [Points.get, if_pos h]
      exact ⟨ha, by omega, by omega⟩
    · simp only [Points.get, if_neg h]
      exact ⟨h1, by omega, by omega⟩

theorem set_nonneg {p : Points} (hp : ∀ entry ∈ p, 0 ≤ entry.2.1) (k : ℤ) {v : ℤ × ℤ} (hv : 0 ≤ v.1) :
    ∀ entry ∈ p.set k v, 0 ≤ entry.2.1 := by
  induction p with
  | nil => simpa [Points.set] using hv
  | cons a p ih =>
    obtain ⟨k', w⟩ := a
    have ha := hp (k', w) (by simp)
    have ih := ih fun en hen => hp en (by simp [hen])
    unfold Points.set
    split_ifs with h
    · intro en hen
      rcases List.mem_cons.1 hen with rfl | hen
      · exact hv
      · exact hp en (by simp [hen])
    · intro en hen
      rcases List.mem_cons.1 hen with rfl | hen
      · exact ha
      · exact ih en hen

/-- One deposit into a dictionary with non-negative charges and room for it. -/
theorem addCharge64_total {p : Points} (hp : ∀ entry ∈ p, 0 ≤ entry.2.1) {tb pad e label : ℤ}
    (he : 0 ≤ e) (hroom : storedCharge p + e < 2 ^ 63) :
    storedCharge (addCharge64 p tb pad e label) = storedCharge p + e ∧
      ∀ entry ∈ addCharge64 p tb pad e label, 0 ≤ entry.2.1 := by
  unfold addCharge64
  simp only
  obtain ⟨h1, h2, -⟩ := get_le_total hp (pair64 tb pad)
  rw [total_eq] at h2
  rw [wrap64_eq (by omega) (by omega)]
  exact ⟨Points.total_set p _ e label, set_nonneg hp _ (by simp only; omega)⟩

/-- The whole pixel loop: the stored charge grows by at most the sum of the pixel values. -/
theorem pixels64_total (m : Math64) (grid : PadGrid) (g : GridEdges) (time : ℝ) (center : ℝ × ℝ)
    (electrons : ℤ) (sigma : ℝ) (label : ℤ) (l : List (ℝ × ℝ))
    (hl : ∀ pixel ∈ l, 0 ≤ pixel_electrons64 m center sigma electrons pixel) (p : Points)
    (hp : ∀ entry ∈ p, 0 ≤ entry.2.1)
    (hroom : storedCharge p + (l.map (pixel_electrons64 m center sigma electrons)).sum < 2 ^ 63) :
    storedCharge p ≤
      storedCharge (l.foldl (transverse_pixel64 m grid g time center electrons sigma label) p) ∧
    storedCharge (l.foldl (transverse_pixel64 m grid g time center electrons sigma label) p)
      ≤ storedCharge p + (l.map (pixel_electrons64 m center sigma electrons)).sum := by
  induction l generalizing p with
  | nil => simp
  | cons a l ih =>
    have ha := hl a (by simp)
    have hl' : ∀ pixel ∈ l, 0 ≤ pixel_electrons64 m center sigma electrons pixel :=
      fun pixel h => hl pixel (by simp [h])
    have hs : 0 ≤ (l.map (pixel_electrons64 m center sigma electrons)).sum := by
      apply List.sum_nonneg
      intro x hx
      obtain ⟨y, hy, rfl⟩ := List.mem_map.1 hx
      exact hl' y hy
    rw [List.map_cons, List.sum_cons] at hroom ⊢
    rw [List.foldl_cons]
    have step : (transverse_pixel64 m grid g time center electrons sigma label p a = p) ∨
        ∃ tb pad, transverse_pixel64 m grid g time center electrons sigma label p a
          = addCharge64 p tb pad (pixel_electrons64 m center sigma electrons a) label := by
      unfold transverse_pixel64
      simp only
      split_ifs
      · exact Or.inl rfl
      · exact Or.inr ⟨_, _, rfl⟩
      · exact Or.inl rfl
    rcases step with h | ⟨tb, pad, h⟩
    · rw [h]
      have := ih hl' p hp (by omega)
      omega
    · rw [h]
      obtain ⟨t1, t2⟩ := addCharge64_total hp (tb := tb) (pad := pad) (label := label) ha (by omega)
      have := ih hl' _ t2 (by omega)
      omega

/-- The `i`-th mesh line around `c` in float64. -/
noncomputable def line64 (rn : ℝ → ℝ) (c sigma : ℝ) (i : ℕ) : ℝ :=
  if i + 1 = STEPS then rn (c + rn (3 * sigma)) else
    rn (rn (c - rn (3 * sigma)) + rn ((i : ℝ) *
      rn (rn (rn (c + rn (3 * sigma)) - rn (c - rn (3 * sigma))) / ((STEPS : ℝ) - 1))))

/-- The mesh in float64, by indices. -/
theorem mesh64_eq (m : Math64) (center : ℝ × ℝ) (sigma : ℝ) :
    transverse_mesh64 m center sigma = (List.range 10).flatMap fun (i : ℕ) =>
      (List.range 10).map fun (j : ℕ) =>
        (line64 m.rn center.1 sigma i, line64 m.rn center.2 sigma j) := by
  unfold transverse_mesh64 linspace64 meshgrid
  simp only [List.flatMap_map, List.map_map]
  rfl

/-- All pixels receive a non-negative number of electrons, and together at most `electrons`. -/
theorem mesh64_electrons {m : Math64} (h : m.Ok) {center : ℝ × ℝ} (hx : |center.1| ≤ 1)
    (hy : |center.2| ≤ 1) {sigma : ℝ} (hs : (2 : ℝ) ^ (-30 : ℤ) ≤ sigma) (hs1 : sigma ≤ 1) {e : ℤ}
    (he : 0 ≤ e) (he2 : e < 2 ^ 53) :
    (∀ pixel ∈ transverse_mesh64 m center sigma, 0 ≤ pixel_electrons64 m center sigma e pixel) ∧
    ((transverse_mesh64 m center sigma).map (pixel_electrons64 m center sigma e)).sum ≤ e := by
  have h0 : 0 ≤ sigma := le_trans (by positivity) hs
  have he' : (0 : ℝ) ≤ e := by exact_mod_cast he
  have key := fun (i j : ℕ) (hi : i < 10) (hj : j < 10) =>
    pixel_value_near h hs hs1 hi hj
      (pixel := (line64 m.rn center.1 sigma i, line64 m.rn center.2 sigma j))
      (linspace_near h.rounding hx h0 hs1 hi rfl) (linspace_near h.rounding hy h0 hs1 hj rfl) he he2
  rw [mesh64_eq]
  constructor
  · intro pixel hp
    obtain ⟨i, hi, hp⟩ := List.mem_flatMap.1 hp
    obtain ⟨j, hj, rfl⟩ := List.mem_map.1 hp
    exact (key i j (List.mem_range.1 hi) (List.mem_range.1 hj)).1
  · have hsum : (((List.range 10).flatMap fun (i : ℕ) => (List.range 10).map fun (j : ℕ) =>
          (line64 m.rn center.1 sigma i, line64 m.rn center.2 sigma j)).map fun pixel =>
          ((pixel_electrons64 m center sigma e pixel : ℤ) : ℝ)).sum
        ≤ ((meshPoints center sigma).map fun pw => pw.2 * (e : ℝ) * (1 + 3e-4)).sum := by
      unfold meshPoints
      rw [sum_flatMap_map, sum_flatMap_map]
      apply List.sum_le_sum
      intro i hi
      simp only [List.map_map]
      apply List.sum_le_sum
      intro j hj
      exact (key i j (List.mem_range.1 hi) (List.mem_range.1 hj)).2.1
    have e1 : ((meshPoints center sigma).map fun pw => pw.2 * (e : ℝ) * (1 + 3e-4)).sum
        = ((meshPoints center sigma).map (·.2)).sum * (e * (1 + 3e-4)) := by
      rw [← sum_map_mul_right']
      congr 1
      apply List.map_congr_left
      intro pw _
      ring
    rw [e1, meshWeights_sum] at hsum
    have hw : (2 / 3) ^ 2 / (2 * Real.pi) * meshSum1 ^ 2 ≤ 0.9995 := by
      have h2 := meshSum1_bounds
      have p1 := Real.pi_gt_d4
      rw [div_mul_eq_mul_div, div_le_iff₀ (by positivity)]
      have : meshSum1 ^ 2 ≤ 3.758 ^ 2 := pow_le_pow_left₀ (by linarith [h2.1]) h2.2.le 2
      norm_num at *
      linarith
    have hfin : (2 / 3) ^ 2 / (2 * Real.pi) * meshSum1 ^ 2 * (e * (1 + 3e-4))
        ≤ 0.9995 * (e * (1 + 3e-4)) :=
      mul_le_mul_of_nonneg_right hw (by positivity)
    have hfin2 : (0.9995 : ℝ) * (e * (1 + 3e-4)) ≤ e := by
      norm_num
      linarith
    have := hsum.trans (hfin.trans hfin2)
    generalize ((List.range 10).flatMap fun (i : ℕ) => (List.range 10).map fun (j : ℕ) =>
          (line64 m.rn center.1 sigma i, line64 m.rn center.2 sigma j)) = l at *
    have hc : (l.map fun pixel => ((pixel_electrons64 m center sigma e pixel : ℤ) : ℝ))
        = (l.map (pixel_electrons64 m center sigma e)).map Int.cast := by
      rw [List.map_map]
      rfl
    rw [hc, ← Int.cast_list_sum] at this
    exact_mod_cast this

/-- **C87, partial.** In machine arithmetic, for every pad grid, time, number of electrons below `2^53`,
position within one metre of the axis and spread between `2^-30` m (a nanometre) and one metre, the
diffusion only adds charge and adds no more than the electrons it was given. Missing: smaller spreads, for
which the statement is false (`C87_refuted`). -/
theorem C87_partial {m : Math64} (h : m.Ok) (grid : PadGrid) (g : GridEdges) (time : ℝ) {center : ℝ × ℝ}
    (hx : |center.1| ≤ 1) (hy : |center.2| ≤ 1) {sigma : ℝ} (hs : (2 : ℝ) ^ (-30 : ℤ) ≤ sigma)
    (hs1 : sigma ≤ 1) {e : ℤ} (he : 0 ≤ e) (he2 : e < 2 ^ 53) (label : ℤ) (p : Points)
    (hp : ∀ entry ∈ p, 0 ≤ entry.2.1) (hroom : storedCharge p + e < 2 ^ 63) :
    storedCharge p ≤ storedCharge (transverse_transport64 m grid g time center e sigma p label) ∧
    storedCharge (transverse_transport64 m grid g time center e sigma p label) ≤ storedCharge p + e := by
  obtain ⟨h1, h2⟩ := mesh64_electrons h hx hy hs hs1 he he2
  have := pixels64_total m grid g time center e sigma label _ h1 p hp (by omega)
  unfold transverse_transport64
  omega

/-- Float operations as assumed exist: round everything, with exactly rounded `exp` and `pi`. -/
theorem exists_math64 : ∃ m : Math64, m.Ok ∧ m.pi ∈ Binary64 ∧ ∀ x, m.exp x ∈ Binary64 := by
  obtain ⟨rn, hr⟩ := exists_rounding
  refine ⟨⟨rn, fun x => rn (Real.exp x), rn Real.pi⟩, ⟨hr, ?_, ?_, ?_, ?_⟩, (hr _).1, fun x => (hr _).1⟩
  · have h1 := Real.pi_gt_three
    have h2 := Real.pi_lt_four
    have := hr.abs (x := Real.pi) (K := 4) (by rw [abs_le]; constructor <;> linarith) (by norm_num)
      (by norm_num)
    refine this.trans ?_
    unfold uro
    norm_num
  · exact fun x => hr.nonneg (Real.exp_pos x).le
  · simp only [Real.exp_zero]
    exact_mod_cast hr.int (n := 1) (by norm_num)
  · intro x h1 h2
    have hp := Real.exp_pos x
    have hle : Real.exp x ≤ 1 := Real.exp_le_one_iff.2 h2
    have hge : (2 : ℝ) ^ (-1022 : ℤ) ≤ Real.exp x := by
      apply tiny_le
      calc (1e-50 : ℝ) ≤ (3 ^ 100)⁻¹ := by norm_num
        _ ≤ (Real.exp 1 ^ 100)⁻¹ := by
          gcongr
          linarith [Real.exp_one_lt_d9]
        _ = Real.exp (-100) := by
          rw [Real.exp_neg, ← Real.exp_nat_mul]; norm_num
        _ ≤ Real.exp x := Real.exp_le_exp.2 h1
    have := hr.rel (x := Real.exp x) (by rwa [abs_of_pos hp])
      (by rw [abs_of_pos hp]; exact big_ge (by linarith))
    rw [abs_of_pos hp] at this
    refine this.trans ?_
    apply mul_le_mul_of_nonneg_right _ hp.le
    norm_num

/-- The hypotheses of `C87_partial` are met by a point 10 cm off the axis with a spread of 1 mm, a
million electrons and a dictionary that already holds charge. -/
example (m : Math64) (h : m.Ok) (grid : PadGrid) (g : GridEdges) :
    storedCharge (transverse_transport64 m grid g 30.5 (0.1, -0.05) 1000000 0.001 [(5, (70, 2))] 3)
      ≤ 1000070 :=
  (C87_partial h grid g 30.5 (center := (0.1, -0.05)) (by norm_num [abs_le]) (by norm_num [abs_le])
    (sigma := 0.001) (by norm_num) (by norm_num) (e := 1000000) (by norm_num) (by norm_num) 3 [(5, (70, 2))]
    (by simp) (by decide)).2

/-- Doubles from `2^j` on are multiples of `2^(j-52)`. -/
theorem multiple_of_ge {j : ℤ} {f : ℝ} (hf : f ∈ Binary64) (hlow : (2 : ℝ) ^ j ≤ f) :
    ∃ n : ℤ, f = n * (2 : ℝ) ^ (j - 52) := by
  obtain ⟨m, e, hm, -, -, rfl⟩ := hf
  have hm0 : (m : ℝ) < 2 ^ 53 := by
    have := (abs_lt.1 hm).2
    exact_mod_cast this
  have he : j - 52 ≤ e := by
    have h1 : (2 : ℝ) ^ j < (2 : ℝ) ^ (53 + e) := by
      rw [zpow_add₀ (by norm_num)]
      calc _ ≤ (m : ℝ) * 2 ^ e := hlow
        _ < 2 ^ 53 * 2 ^ e := by gcongr
        _ = _ := by norm_num
    have := (zpow_lt_zpow_iff_right₀ (by norm_num : (1 : ℝ) < 2)).1 h1
    omega
  obtain ⟨a, ha⟩ := Int.eq_ofNat_of_zero_le (sub_nonneg.2 he)
  refine ⟨m * 2 ^ a, ?_⟩
  have : e = (a : ℤ) + (j - 52) := by omega
  rw [this, zpow_add₀ (by norm_num)]; push_cast; rw [zpow_natCast]; ring

/-- Next to `1/8` there is nothing within `2^-57`. -/
theorem round_eighth {rn : ℝ → ℝ} (h : Rounding rn) {d : ℝ} (hd : |d| < 2 ^ (-57 : ℤ)) :
    rn (1 / 8 + d) = 1 / 8 := by
  have hm : (1 / 8 : ℝ) ∈ Binary64 := ⟨1, -3, by norm_num, by norm_num, by norm_num, by norm_num⟩
  have h1 := (h (1 / 8 + d)).2 _ hm
  have h2 : |rn (1 / 8 + d) - 1 / 8| < 2 ^ (-56 : ℤ) := by
    have e : rn (1 / 8 + d) - 1 / 8 = (rn (1 / 8 + d) - (1 / 8 + d)) + d := by ring
    have e2 : |(1 / 8 : ℝ) - (1 / 8 + d)| = |d| := by
      rw [show (1 / 8 : ℝ) - (1 / 8 + d) = -d by ring, abs_neg]
    rw [e2] at h1
    rw [e]
    calc _ ≤ |rn (1 / 8 + d) - (1 / 8 + d)| + |d| := abs_add_le _ _
      _ ≤ |d| + |d| := by linarith
      _ < 2 ^ (-57 : ℤ) + 2 ^ (-57 : ℤ) := by linarith
      _ = _ := by norm_num
  have h3 := abs_lt.1 h2
  have hlow : (2 : ℝ) ^ (-4 : ℤ) ≤ rn (1 / 8 + d) := by
    have := h3.1
    norm_num at this ⊢
    linarith
  obtain ⟨n, hn⟩ := multiple_of_ge (h (1 / 8 + d)).1 hlow
  rw [hn] at h2 ⊢
  have e8 : (1 / 8 : ℝ) = ((2 ^ 53 : ℤ) : ℝ) * 2 ^ (-4 - 52 : ℤ) := by norm_num
  rw [e8, ← sub_mul, abs_mul, abs_of_pos (by positivity : (0 : ℝ) < 2 ^ (-4 - 52 : ℤ))] at h2
  have h4 : |(n : ℝ) - ((2 ^ 53 : ℤ) : ℝ)| < 1 := by
    have hw : (2 : ℝ) ^ (-4 - 52 : ℤ) = 2 ^ (-56 : ℤ) := by norm_num
    rw [hw] at h2
    have hp : (0 : ℝ) < 2 ^ (-56 : ℤ) := by positivity
    by_contra hc
    push Not at hc
    have := mul_le_mul_of_nonneg_right hc hp.le
    linarith
  have h5 : |n - 2 ^ 53| < 1 := by exact_mod_cast h4
  have h6 : n = 2 ^ 53 := by
    have := abs_lt.1 h5
    omega
  rw [h6, e8]

/-- The spread of the counterexample. -/
noncomputable def tinySpread : ℝ := 2 ^ (-60 : ℤ)

/-- For this spread all mesh lines around `1/8` fall on `1/8`. -/
theorem line64_collapse {rn : ℝ → ℝ} (h : Rounding rn) (i : ℕ) : line64 rn (1 / 8) tinySpread i = 1 / 8 := by
  have h3 : rn (3 * tinySpread) = 3 * 2 ^ (-60 : ℤ) :=
    h.exact ⟨3, -60, by norm_num, by norm_num, by norm_num, by unfold tinySpread; norm_num⟩
  have hp : rn (1 / 8 + 3 * 2 ^ (-60 : ℤ)) = 1 / 8 :=
    round_eighth h (by rw [abs_of_pos (by positivity)]; norm_num)
  have hm : rn (1 / 8 - 3 * 2 ^ (-60 : ℤ)) = 1 / 8 := by
    rw [sub_eq_add_neg]
    exact round_eighth h (by rw [abs_neg, abs_of_pos (by positivity)]; norm_num)
  have h0 : rn 0 = 0 := h.exact zero_mem
  have h8 : rn (1 / 8) = 1 / 8 :=
    h.exact ⟨1, -3, by norm_num, by norm_num, by norm_num, by norm_num⟩
  unfold line64
  rw [h3, hp, hm, sub_self, h0, zero_div, h0, mul_zero, h0, add_zero, h8, ite_self]

/-- What every pixel receives in the collapsed mesh. -/
theorem collapsed_pixel {m : Math64} (h : m.Ok) :
    60 ≤ pixel_electrons64 m (1 / 8, 1 / 8) tinySpread 1000 (1 / 8, 1 / 8) ∧
    pixel_electrons64 m (1 / 8, 1 / 8) tinySpread 1000 (1 / 8, 1 / 8) ≤ 100 := by
  have hr := h.rounding
  have hu := uro_pos
  have hu1 : uro < 2e-16 := by unfold uro; norm_num
  have h0 : m.rn 0 = 0 := hr.exact zero_mem
  have hS : ((STEPS : ℝ) - 1) = 9 := by norm_num [STEPS]
  have h6 : m.rn (2 * 3 * tinySpread) = 6 * 2 ^ (-60 : ℤ) := by
    rw [show 2 * 3 * tinySpread = 6 * 2 ^ (-60 : ℤ) by unfold tinySpread; norm_num]
    exact hr.exact ⟨6, -60, by norm_num, by norm_num, by norm_num, by norm_num⟩
  have hsq : m.rn (tinySpread ^ 2) = 2 ^ (-120 : ℤ) := by
    rw [show tinySpread ^ 2 = 2 ^ (-120 : ℤ) by unfold tinySpread; norm_num]
    exact hr.exact ⟨1, -120, by norm_num, by norm_num, by norm_num, by norm_num⟩
  have h1000 : m.rn ((1000 : ℤ) : ℝ) = 1000 := by
    rw [hr.int (by norm_num)]; norm_num
  have hpi := abs_le.1 h.pi
  have p1 : (3.1 : ℝ) < m.pi := by
    have := le_trans (by norm_num : (-1e-3 : ℝ) ≤ -2 ^ (-50 : ℤ)) hpi.1
    linarith [Real.pi_gt_d2]
  have p2 : m.pi < (3.2 : ℝ) := by
    have := le_trans hpi.2 (by norm_num : (2 : ℝ) ^ (-50 : ℤ) ≤ 1e-3)
    linarith [Real.pi_lt_d2]
  unfold pixel_electrons64 bivariate_normal_pdf64
  simp only [sub_self, h0, hS, h6, hsq, h1000, hr.exact half_mem, zero_pow two_ne_zero, add_zero, mul_zero,
    h.exp_zero, mul_one]
  have a1 : (0.156 : ℝ) ≤ 1 / 2 / m.pi := by rw [le_div_iff₀ (by linarith)]; linarith
  have a2 : 1 / 2 / m.pi ≤ (0.162 : ℝ) := by rw [div_le_iff₀ (by linarith)]; linarith
  have b1 := hr.ge_low a1 (tiny_le (by norm_num)) (big_ge (by norm_num))
  have b2 := hr.le_up a2 (tiny_le (by norm_num)) (big_ge (by norm_num))
  generalize m.rn (1 / 2 / m.pi) = k at *
  have c1 : (0.15 : ℝ) * 2 ^ (120 : ℤ) ≤ k / 2 ^ (-120 : ℤ) := by
    rw [zpow_neg, div_inv_eq_mul]
    apply mul_le_mul_of_nonneg_right _ (by positivity)
    linarith
  have c2 : k / 2 ^ (-120 : ℤ) ≤ (0.17 : ℝ) * 2 ^ (120 : ℤ) := by
    rw [zpow_neg, div_inv_eq_mul]
    apply mul_le_mul_of_nonneg_right _ (by positivity)
    linarith
  have hm := (hr (k / 2 ^ (-120 : ℤ))).1
  have d1 := hr.ge_low c1 (tiny_le (by norm_num)) (big_ge (by norm_num))
  have d2 := hr.le_up c2 (tiny_le (by norm_num)) (big_ge (by norm_num))
  rw [hr.exact hm]
  generalize m.rn (k / 2 ^ (-120 : ℤ)) = q at *
  have e1 := hr.ge_low (x := 6 * 2 ^ (-60 : ℤ) / 9) (X := 2 / 3 * 2 ^ (-60 : ℤ)) (le_of_eq (by ring))
    (tiny_le (by norm_num)) (big_ge (by norm_num))
  have e2 := hr.le_up (x := 6 * 2 ^ (-60 : ℤ) / 9) (X := 2 / 3 * 2 ^ (-60 : ℤ)) (le_of_eq (by ring))
    (tiny_le (by norm_num)) (big_ge (by norm_num))
  generalize m.rn (6 * 2 ^ (-60 : ℤ) / 9) = st at *
  have f1 : (0.66 : ℝ) * 2 ^ (-60 : ℤ) ≤ st := by
    refine le_trans ?_ e1
    rw [mul_right_comm]
    exact mul_le_mul_of_nonneg_right (by linarith) (by positivity)
  have f2 : st ≤ (0.67 : ℝ) * 2 ^ (-60 : ℤ) := by
    refine le_trans e2 ?_
    rw [mul_right_comm]
    exact mul_le_mul_of_nonneg_right (by linarith) (by positivity)
  have f0 : 0 ≤ st := le_trans (by positivity) f1
  have g1 : (0.43 : ℝ) * 2 ^ (-120 : ℤ) ≤ st * st := by
    refine le_trans ?_ (mul_le_mul f1 f1 (by positivity) f0)
    norm_num
  have g2 : st * st ≤ (0.45 : ℝ) * 2 ^ (-120 : ℤ) := by
    refine le_trans (mul_le_mul f2 f2 f0 (by positivity)) ?_
    norm_num
  have i1 := hr.ge_low g1 (tiny_le (by norm_num)) (big_ge (by norm_num))
  have i2 := hr.le_up g2 (tiny_le (by norm_num)) (big_ge (by norm_num))
  generalize m.rn (st * st) = ar at *
  have j1 : (0.42 : ℝ) * 2 ^ (-120 : ℤ) ≤ ar := by
    refine le_trans ?_ i1
    rw [mul_right_comm]
    exact mul_le_mul_of_nonneg_right (by linarith) (by positivity)
  have j2 : ar ≤ (0.46 : ℝ) * 2 ^ (-120 : ℤ) := by
    refine le_trans i2 ?_
    rw [mul_right_comm]
    exact mul_le_mul_of_nonneg_right (by linarith) (by positivity)
  have k1 : (0.149 : ℝ) * 2 ^ (120 : ℤ) ≤ q := by
    refine le_trans ?_ d1
    rw [mul_right_comm]
    exact mul_le_mul_of_nonneg_right (by linarith) (by positivity)
  have k2 : q ≤ (0.171 : ℝ) * 2 ^ (120 : ℤ) := by
    refine le_trans d2 ?_
    rw [mul_right_comm]
    exact mul_le_mul_of_nonneg_right (by linarith) (by positivity)
  have l1 : (0.062 : ℝ) ≤ q * ar := by
    refine le_trans ?_ (mul_le_mul k1 j1 (by positivity) (le_trans (by positivity) k1))
    norm_num
  have l2 : q * ar ≤ (0.08 : ℝ) := by
    refine le_trans (mul_le_mul k2 j2 (le_trans (by positivity) j1) (by positivity)) ?_
    norm_num
  have n1 := hr.ge_low l1 (tiny_le (by norm_num)) (big_ge (by norm_num))
  have n2 := hr.le_up l2 (tiny_le (by norm_num)) (big_ge (by norm_num))
  generalize m.rn (q * ar) = fr at *
  have o1 : (61 : ℝ) ≤ fr * 1000 := by linarith
  have o2 : fr * 1000 ≤ (90 : ℝ) := by linarith
  have q1 := hr.ge_low o1 (tiny_le (by norm_num)) (big_ge (by norm_num))
  have q2 := hr.le_up o2 (tiny_le (by norm_num)) (big_ge (by norm_num))
  rw [pyInt_of_nonneg (by linarith)]
  constructor
  · rw [Int.le_floor]
    push_cast
    linarith
  · have : ⌊m.rn (fr * 1000)⌋ < 101 := by
      rw [Int.floor_lt]
      push_cast
      linarith
    omega

/-- Depositing the same pixel `n` times. -/
theorem repeat_total {f : Points → ℝ × ℝ → Points} {pixel : ℝ × ℝ} {v : ℤ} (hv : 0 ≤ v)
    (hf : ∀ p : Points, (∀ entry ∈ p, 0 ≤ entry.2.1) → storedCharge p + v < 2 ^ 63 →
      storedCharge (f p pixel) = storedCharge p + v ∧ ∀ entry ∈ f p pixel, 0 ≤ entry.2.1) :
    ∀ (n : ℕ) (p : Points), (∀ entry ∈ p, 0 ≤ entry.2.1) → storedCharge p + n * v < 2 ^ 63 →
      storedCharge ((List.replicate n pixel).foldl f p) = storedCharge p + n * v := by
  intro n
  induction n with
  | zero => intro p _ _; simp
  | succ n ih =>
    intro p hp hroom
    have hn : 0 ≤ (n : ℤ) * v := by positivity
    push_cast at hroom
    obtain ⟨h1, h2⟩ := hf p hp (by linarith)
    rw [List.replicate_succ, List.foldl_cons, ih _ h2 (by rw [h1]; linarith), h1]
    push_cast
    ring

/-- **C87, refuted.** For every machine as assumed there is a point at which the diffusion multiplies the
charge: a thousand electrons at `(1/8, 1/8)` with a spread of `2^-60` m become at least six thousand. The
spread is lost when it is added to the position, so all hundred pixels fall on the centre of the
distribution, and each receives the fraction of the central pixel. -/
theorem C87_refuted {m : Math64} (h : m.Ok) :
    ∃ (grid : PadGrid) (g : GridEdges) (time : ℝ) (center : ℝ × ℝ) (sigma : ℝ) (e : ℤ), 0 < sigma ∧
      |center.1| ≤ 1 ∧ |center.2| ≤ 1 ∧ 0 ≤ e ∧ e < 2 ^ 53 ∧
      6 * e ≤ storedCharge (transverse_transport64 m grid g time center e sigma [] 0) := by
  obtain ⟨v1, v2⟩ := collapsed_pixel h
  have hr := h.rounding
  refine ⟨⟨1000, fun _ _ => 5⟩, ⟨0, 1000, 1⟩, 3, (1 / 8, 1 / 8), tinySpread, 1000,
    by unfold tinySpread; positivity, by norm_num [abs_le], by norm_num [abs_le], by norm_num, by norm_num, ?_⟩
  have hmesh : transverse_mesh64 m (1 / 8, 1 / 8) tinySpread = List.replicate 100 (1 / 8, 1 / 8) := by
    rw [mesh64_eq]
    simp only [line64_collapse hr]
    rfl
  have hidx : position_to_index64 m.rn ⟨0, 1000, 1⟩ (1 / 8, 1 / 8) = (125, 125) := by
    have e125 : m.rn (1 / 8 * 1000) = ((125 : ℤ) : ℝ) := by
      rw [show (1 / 8 * 1000 : ℝ) = ((125 : ℤ) : ℝ) by norm_num]
      exact hr.int (by norm_num)
    have e2 : m.rn ((125 : ℤ) : ℝ) = ((125 : ℤ) : ℝ) := hr.int (by norm_num)
    unfold position_to_index64
    simp only [e125, Int.floor_intCast, sub_zero, e2, div_one]
    rw [if_neg (by norm_num), if_neg (by norm_num)]
    have : pyInt ((125 : ℤ) : ℝ) = 125 := by
      rw [pyInt_of_nonneg (by norm_num), Int.floor_intCast]
    rw [this]
  unfold transverse_transport64
  rw [hmesh]
  have hf : ∀ p : Points, (∀ entry ∈ p, 0 ≤ entry.2.1) →
      storedCharge p + pixel_electrons64 m (1 / 8, 1 / 8) tinySpread 1000 (1 / 8, 1 / 8) < 2 ^ 63 →
      storedCharge (transverse_pixel64 m ⟨1000, fun _ _ => 5⟩ ⟨0, 1000, 1⟩ 3 (1 / 8, 1 / 8) 1000 tinySpread 0
        p (1 / 8, 1 / 8))
        = storedCharge p + pixel_electrons64 m (1 / 8, 1 / 8) tinySpread 1000 (1 / 8, 1 / 8) ∧
      ∀ entry ∈ transverse_pixel64 m ⟨1000, fun _ _ => 5⟩ ⟨0, 1000, 1⟩ 3 (1 / 8, 1 / 8) 1000 tinySpread 0
        p (1 / 8, 1 / 8), 0 ≤ entry.2.1 := by
    intro p hp hroom
    have hstep : transverse_pixel64 m ⟨1000, fun _ _ => 5⟩ ⟨0, 1000, 1⟩ 3 (1 / 8, 1 / 8) 1000 tinySpread 0
        p (1 / 8, 1 / 8) = addCharge64 p (pyInt 3) 5
          (pixel_electrons64 m (1 / 8, 1 / 8) tinySpread 1000 (1 / 8, 1 / 8)) 0 := by
      unfold transverse_pixel64
      rw [hidx]
      simp only
      rw [if_neg (by decide), if_pos (by decide +kernel)]
    rw [hstep]
    exact addCharge64_total hp (by omega) hroom
  rw [repeat_total (by omega) hf 100 [] (by simp)
    (by simp only [storedCharge, List.map_nil, List.sum_nil]; push_cast; omega)]
  simp only [storedCharge, List.map_nil, List.sum_nil]
  push_cast
  omega

end Verif.Machine
