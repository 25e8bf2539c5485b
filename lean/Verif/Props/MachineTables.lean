import Verif.Proofs.Sampling64
import Mathlib.Algebra.Order.Floor.Semiring

/-! # C133, C134: tables of polar angle probabilities in machine arithmetic -/

namespace Verif.Machine

open Verif.Kinematics

/-! ## C133: the check of the constructor -/

/-- numpy's sum of a long array of non-negative numbers: the relative error is at most one rounding per entry. -/
def LongSumOk (long : List ℝ → ℝ) : Prop :=
  ∀ l : List ℝ, (∀ x ∈ l, 0 ≤ x) → l.sum ≤ 1e15 → l.length ≤ 10 ^ 12 → |long l - l.sum| ≤ l.length * (1.2e-16 * l.sum)

/-- The probabilities 60 %, 5 %, 5 %, 5 %, 5 %, 20 %. -/
noncomputable def sixProbs : List ℝ := [3 / 5, 1 / 20, 1 / 20, 1 / 20, 1 / 20, 1 / 5]

theorem sixProbs_doubles {rn : ℝ → ℝ} (h : Rounding rn) :
    sixProbs.map rn = [5404319552844595 * (2 : ℝ) ^ (-53 : ℤ), 7205759403792794 * (2 : ℝ) ^ (-57 : ℤ),
      7205759403792794 * (2 : ℝ) ^ (-57 : ℤ), 7205759403792794 * (2 : ℝ) ^ (-57 : ℤ),
      7205759403792794 * (2 : ℝ) ^ (-57 : ℤ), 7205759403792794 * (2 : ℝ) ^ (-55 : ℤ)] := by
  have e1 : rn (3 / 5) = 5404319552844595 * (2 : ℝ) ^ (-53 : ℤ) := by
    have := h.nearest (x := 3 / 5) (m := 5404319552844595) (e := -53) (by norm_num) (by norm_num) (by norm_num)
      (by norm_num) (by rw [abs_lt]; constructor <;> norm_num)
    exact_mod_cast this
  have e2 : rn (1 / 20) = 7205759403792794 * (2 : ℝ) ^ (-57 : ℤ) := by
    have := h.nearest (x := 1 / 20) (m := 7205759403792794) (e := -57) (by norm_num) (by norm_num) (by norm_num)
      (by norm_num) (by rw [abs_lt]; constructor <;> norm_num)
    exact_mod_cast this
  have e3 : rn (1 / 5) = 7205759403792794 * (2 : ℝ) ^ (-55 : ℤ) := by
    have := h.nearest (x := 1 / 5) (m := 7205759403792794) (e := -55) (by norm_num) (by norm_num) (by norm_num)
      (by norm_num) (by rw [abs_lt]; constructor <;> norm_num)
    exact_mod_cast this
  unfold sixProbs
  simp only [List.map_cons, List.map_nil, e1, e2, e3]

theorem sixProbs_sum {rn : ℝ → ℝ} (h : Rounding rn) : (sixProbs.map rn).sum = 1 := by
  rw [sixProbs_doubles h]
  norm_num

theorem sixProbs_sum64 {rn : ℝ → ℝ} (h : Rounding rn) (long : List ℝ → ℝ) :
    npSum64 rn long (sixProbs.map rn) = 4503599627370497 * (2 : ℝ) ^ (-52 : ℤ) := by
  rw [sixProbs_doubles h]
  have s1 : rn (0 + 5404319552844595 * (2 : ℝ) ^ (-53 : ℤ)) = 5404319552844595 * (2 : ℝ) ^ (-53 : ℤ) := by
    have := h.nearest (x := 0 + 5404319552844595 * (2 : ℝ) ^ (-53 : ℤ)) (m := 5404319552844595) (e := -53)
      (by norm_num) (by norm_num) (by norm_num) (by norm_num) (by rw [abs_lt]; constructor <;> norm_num)
    exact_mod_cast this
  have s2 : rn (5404319552844595 * (2 : ℝ) ^ (-53 : ℤ) + 7205759403792794 * (2 : ℝ) ^ (-57 : ℤ))
      = 5854679515581645 * (2 : ℝ) ^ (-53 : ℤ) := by
    have := h.nearest (x := 5404319552844595 * (2 : ℝ) ^ (-53 : ℤ) + 7205759403792794 * (2 : ℝ) ^ (-57 : ℤ))
      (m := 5854679515581645) (e := -53)
      (by norm_num) (by norm_num) (by norm_num) (by norm_num) (by rw [abs_lt]; constructor <;> norm_num)
    exact_mod_cast this
  have s3 : rn (5854679515581645 * (2 : ℝ) ^ (-53 : ℤ) + 7205759403792794 * (2 : ℝ) ^ (-57 : ℤ))
      = 6305039478318695 * (2 : ℝ) ^ (-53 : ℤ) := by
    have := h.nearest (x := 5854679515581645 * (2 : ℝ) ^ (-53 : ℤ) + 7205759403792794 * (2 : ℝ) ^ (-57 : ℤ))
      (m := 6305039478318695) (e := -53)
      (by norm_num) (by norm_num) (by norm_num) (by norm_num) (by rw [abs_lt]; constructor <;> norm_num)
    exact_mod_cast this
  have s4 : rn (6305039478318695 * (2 : ℝ) ^ (-53 : ℤ) + 7205759403792794 * (2 : ℝ) ^ (-57 : ℤ))
      = 6755399441055745 * (2 : ℝ) ^ (-53 : ℤ) := by
    have := h.nearest (x := 6305039478318695 * (2 : ℝ) ^ (-53 : ℤ) + 7205759403792794 * (2 : ℝ) ^ (-57 : ℤ))
      (m := 6755399441055745) (e := -53)
      (by norm_num) (by norm_num) (by norm_num) (by norm_num) (by rw [abs_lt]; constructor <;> norm_num)
    exact_mod_cast this
  have s5 : rn (6755399441055745 * (2 : ℝ) ^ (-53 : ℤ) + 7205759403792794 * (2 : ℝ) ^ (-57 : ℤ))
      = 7205759403792795 * (2 : ℝ) ^ (-53 : ℤ) := by
    have := h.nearest (x := 6755399441055745 * (2 : ℝ) ^ (-53 : ℤ) + 7205759403792794 * (2 : ℝ) ^ (-57 : ℤ))
      (m := 7205759403792795) (e := -53)
      (by norm_num) (by norm_num) (by norm_num) (by norm_num) (by rw [abs_lt]; constructor <;> norm_num)
    exact_mod_cast this
  have s6 : rn (7205759403792795 * (2 : ℝ) ^ (-53 : ℤ) + 7205759403792794 * (2 : ℝ) ^ (-55 : ℤ))
      = 4503599627370497 * (2 : ℝ) ^ (-52 : ℤ) := by
    have := h.nearest (x := 7205759403792795 * (2 : ℝ) ^ (-53 : ℤ) + 7205759403792794 * (2 : ℝ) ^ (-55 : ℤ))
      (m := 4503599627370497) (e := -52)
      (by norm_num) (by norm_num) (by norm_num) (by norm_num) (by rw [abs_lt]; constructor <;> norm_num)
    exact_mod_cast this
  unfold npSum64
  rw [if_pos (by simp)]
  simp only [List.foldl_cons, List.foldl_nil, s1, s2, s3, s4, s5, s6]

/-- A table that numpy's `choice` accepts in float64. -/
structure TableOk64 (angles probs : List ℝ) : Prop where
  nonempty : angles.length ≠ 0
  length : probs.length = angles.length
  short : probs.length ≤ 100000
  nonneg : ∀ x ∈ probs, 0 ≤ x
  sum : |probs.sum - 1| ≤ 1e-9

/-- The numbers that numpy's generator returns from `random()`: multiples of `2^-53` below 1. -/
def RawOk {σ : Type} (next : σ → ℝ × σ) : Prop :=
  ∀ s, ∃ k : ℕ, k < 2 ^ 53 ∧ (next s).1 = k / 2 ^ 53

theorem RawOk.range {σ : Type} {next : σ → ℝ × σ} (h : RawOk next) (s : σ) :
    0 ≤ (next s).1 ∧ (next s).1 ≤ 1 - 2 ^ (-53 : ℤ) := by
  obtain ⟨k, hk, he⟩ := h s
  rw [he]
  refine ⟨by positivity, ?_⟩
  have : (k : ℝ) ≤ 2 ^ 53 - 1 := by
    have : (k : ℤ) ≤ 2 ^ 53 - 1 := by omega
    exact_mod_cast this
  rw [div_le_iff₀ (by positivity)]
  norm_num at *
  linarith

theorem RawOk.lt {σ : Type} {next : σ → ℝ × σ} (h : RawOk next) (s : σ) : (next s).1 < 1 := by
  have h1 := (h.range s).2
  have : (0 : ℝ) < 2 ^ (-53 : ℤ) := by positivity
  linarith

/-- What `choice` returns for a table that it accepts. -/
theorem choice64_eq {σ : Type} {rn : ℝ → ℝ} (h : Rounding rn) {angles probs : List ℝ} (ht : TableOk64 angles probs)
    {next : σ → ℝ × σ} (s : σ) (v0 : 0 ≤ (next s).1) (v1 : (next s).1 < 1) :
    ∃ hlt : searchsortedRight (next s).1 (cdf64 rn probs) < angles.length,
      choice64 rn next angles probs s
        = .ok (angles[searchsortedRight (next s).1 (cdf64 rn probs)], (next s).2) := by
  have hsum := abs_le.1 ht.sum
  obtain ⟨hpos, -⟩ := share64_near h ht.nonneg (by norm_num at *; linarith) (by norm_num at *; linarith) ht.short 0
  have hs := (search64_iff h ht.nonneg hpos v0 v1 _).1 rfl
  have hlt : searchsortedRight (next s).1 (cdf64 rn probs) < angles.length := by rw [← ht.length]; exact hs.1
  refine ⟨hlt, ?_⟩
  unfold choice64
  rw [if_neg ht.nonempty, if_neg (not_not.2 ht.length), if_neg, if_neg]
  · simp only [List.getElem?_eq_getElem hlt]
  · rw [not_lt]
    have hn : (probs.length : ℝ) ≤ 100000 := by exact_mod_cast ht.short
    have hn2 : (probs.length : ℝ) * 1e-15 ≤ 1e-10 := by
      have := mul_le_mul_of_nonneg_right hn (show (0 : ℝ) ≤ 1e-15 by norm_num)
      refine this.trans (by norm_num)
    have hk := kahan_near h probs ht.nonneg (by norm_num at *; linarith) (hn2.trans (by norm_num))
    have hd : |kahan64 rn probs - 1 - 0| ≤ 2e-9 := by
      generalize (probs.length : ℝ) * 1e-15 = e at *
      rw [abs_le] at hk ⊢
      constructor <;> norm_num at * <;> linarith
    have := h.absolute hd (by norm_num) (by norm_num)
    rw [sub_zero] at this
    norm_num at *
    linarith
  · simp only [List.any_eq_true, decide_eq_true_eq, not_exists, not_and, not_lt]
    exact ht.nonneg

/-- **C133.** The documentation asks for probabilities that sum to 1. The constructor compares the rounded sum with 1
without a tolerance, so tables are rejected whose probabilities sum to 1. In float64 the probabilities 0.6, 0.05,
0.05, 0.05, 0.05, 0.2 sum to exactly 1, but the running sum is rounded up and the constructor raises ValueError. In
exact arithmetic the check passes, and numpy's `choice` accepts this table. -/
theorem C133_refuted {σ : Type} {rn : ℝ → ℝ} (h : Rounding rn) (long : List ℝ → ℝ) (angles : List ℝ) (w : ℝ)
    (hn : angles.length = 6) :
    (sixProbs.map rn).sum = 1 ∧ (∃ d, mkPolarArbitrary angles (sixProbs.map rn) w = .ok d) ∧
    (∀ (next : σ → ℝ × σ) (s : σ), RawOk next → ∃ r, choice64 rn next angles (sixProbs.map rn) s = .ok r) ∧
    mkPolarArbitrary64 rn long angles (sixProbs.map rn) w = .error .valueError := by
  have hs := sixProbs_sum h
  refine ⟨hs, ?_, ?_, ?_⟩
  · exact ⟨_, if_neg (by rw [hs]; norm_num)⟩
  · intro next s hr
    have ht : TableOk64 angles (sixProbs.map rn) := by
      refine ⟨by omega, by simp [sixProbs, hn], by simp [sixProbs], ?_, by rw [hs]; norm_num⟩
      intro x hx
      obtain ⟨y, hy, rfl⟩ := List.mem_map.1 hx
      refine h.nonneg ?_
      simp only [sixProbs, List.mem_cons, List.not_mem_nil, or_false] at hy
      rcases hy with rfl | rfl | rfl | rfl | rfl | rfl <;> norm_num
    obtain ⟨_, he⟩ := choice64_eq h ht s (hr.range s).1 (hr.lt s)
    exact ⟨_, he⟩
  · unfold mkPolarArbitrary64
    rw [sixProbs_sum64 h, if_pos (by norm_num)]

/-- **C133.** What holds: the constructor raises if and only if the rounded sum is larger than 1. A table is accepted if
its exact sum is below 1 by one rounding per entry, and an accepted table does not exceed 1 by more than that. Missing:
tables that sum to 1. -/
theorem C133_partial {rn : ℝ → ℝ} (h : Rounding rn) {long : List ℝ → ℝ} (hl : LongSumOk long) {angles probs : List ℝ}
    {w : ℝ} (h0 : ∀ x ∈ probs, 0 ≤ x) (hn : probs.length ≤ 10 ^ 12) (hb : probs.sum ≤ 1e15) :
    (probs.sum ≤ 1 - probs.length * 1.2e-16 → mkPolarArbitrary64 rn long angles probs w
        = .ok { angle_width := w, probs := probs, angles := angles }) ∧
    ((∃ d, mkPolarArbitrary64 rn long angles probs w = .ok d) →
        probs.sum * (1 - probs.length * 1.2e-16) ≤ 1) := by
  have hn' : (probs.length : ℝ) ≤ 10 ^ 12 := by exact_mod_cast hn
  have hs0 : 0 ≤ probs.sum := List.sum_nonneg h0
  have hnear : ∀ S : ℝ, probs.sum ≤ S → 1 ≤ S → S ≤ 1e15 →
      |npSum64 rn long probs - probs.sum| ≤ probs.length * (1.2e-16 * S) := by
    intro S hS S1 S2
    unfold npSum64
    split_ifs with h8
    · have h8' : (probs.length : ℝ) ≤ 8 := by exact_mod_cast h8.le
      have hm : (probs.length : ℝ) * (1.2e-16 * S) ≤ 8 * (1.2e-16 * S) :=
        mul_le_mul_of_nonneg_right h8' (by positivity)
      have := foldl_near h (S := S) (by norm_num at *; linarith) S2 probs 0 0 0 h0 le_rfl (by linarith) (by simp)
        (by norm_num at *; linarith)
      simpa only [zero_add] using this
    · refine (hl probs h0 hb hn).trans ?_
      gcongr
  constructor
  · intro hle
    have h1 := (abs_le.1 (hnear 1 (by
      have : (0 : ℝ) ≤ probs.length * 1.2e-16 := by positivity
      linarith) le_rfl (by norm_num))).2
    unfold mkPolarArbitrary64
    rw [if_neg]
    rw [not_lt]
    linarith
  · rintro ⟨d, hd⟩
    have hle : npSum64 rn long probs ≤ 1 := by
      by_contra hc
      unfold mkPolarArbitrary64 at hd
      rw [if_pos (not_le.1 hc)] at hd
      cases hd
    rcases le_or_gt probs.sum 1 with h1 | h1
    · have : 0 ≤ probs.sum * (probs.length * 1.2e-16) := by positivity
      linarith
    · have := (abs_le.1 (hnear probs.sum le_rfl h1.le hb)).1
      linarith

/-- The hypotheses can be met: exact sums, and a table that is accepted. -/
example : LongSumOk List.sum := fun l h0 _ _ => by
  have := List.sum_nonneg h0
  rw [sub_self, abs_zero]
  positivity

example {rn : ℝ → ℝ} (h : Rounding rn) :
    mkPolarArbitrary64 rn List.sum [0, 1, 2] [1 / 4, 1 / 4, 1 / 4] 1
      = .ok { angle_width := 1, probs := [1 / 4, 1 / 4, 1 / 4], angles := [0, 1, 2] } :=
  (C133_partial h (fun l h0 _ _ => by
    have := List.sum_nonneg h0
    rw [sub_self, abs_zero]
    positivity) (by intro x hx; simp at hx; linarith) (by norm_num) (by norm_num)).1 (by norm_num)

/-! ## C134: bins and their shares -/

/-- **C134.** In float64 every sample of an accepted table lies in a bin of positive probability, from its lower angle to
its rounded upper edge, and `sample` raises no error. -/
theorem C134_bin {σ : Type} {rn : ℝ → ℝ} (h : Rounding rn) {next : σ → ℝ × σ} (hr : RawOk next) {d : PolarArbitrary}
    (ht : TableOk64 d.angles d.probs) (ha : ∀ a ∈ d.angles, a ∈ Binary64) (hw : d.angle_width ∈ Binary64)
    (hw0 : 0 ≤ d.angle_width) (s : σ) :
    ∃ x s', polar_arbitrary_sample64 rn next d s = .ok (x, s') ∧ ∃ (i : ℕ) (a p : ℝ), d.angles[i]? = some a ∧
      d.probs[i]? = some p ∧ 0 < p ∧ a ≤ x ∧ x ≤ rn (a + d.angle_width) := by
  have hsum := abs_le.1 ht.sum
  obtain ⟨hpos, -⟩ := share64_near h ht.nonneg (by norm_num at *; linarith) (by norm_num at *; linarith) ht.short 0
  have hv := hr.range s
  obtain ⟨hlt, hc⟩ := choice64_eq h ht s hv.1 (hr.lt s)
  have hs := (search64_iff h ht.nonneg hpos hv.1 (hr.lt s) _).1 rfl
  obtain ⟨i, hi⟩ : ∃ i, i = searchsortedRight (next s).1 (cdf64 rn d.probs) := ⟨_, rfl⟩
  simp only [← hi] at hlt hc hs
  obtain ⟨hil, hs1, hs2⟩ := hs
  have hp : 0 < d.probs[i] := by
    rcases (ht.nonneg _ (List.getElem_mem hil)).eq_or_lt with h0 | h0
    · exfalso
      have : share64 rn d.probs (i + 1) = share64 rn d.probs i := by
        unfold share64
        rw [partial64_succ rn _ i hil, ← h0, add_zero, h.exact (partial64_mem h _ _)]
      rw [this] at hs2
      linarith
    · exact h0
  obtain ⟨u, hu⟩ : ∃ u, u = rn (0 + rn (rn (1 - 0) * (next (next s).2).1)) := ⟨_, rfl⟩
  have hone : rn (1 - 0) = 1 := by
    have := h.int (n := 1) (by norm_num)
    rw [sub_zero]
    exact_mod_cast this
  have hu0 : 0 ≤ u ∧ u ≤ 1 := by
    have h2 := hr.range (next s).2
    have h3 := hr.lt (next s).2
    have m1 : (1 : ℝ) ∈ Binary64 := by simpa using int_mem (n := 1) (by norm_num)
    rw [hu, hone, one_mul, zero_add]
    exact ⟨h.nonneg (h.nonneg h2.1), h.le_of_le m1 (h.le_of_le m1 h3.le)⟩
  refine ⟨rn (d.angles[i] + rn (u * d.angle_width)), (next (next s).2).2, ?_, i, _, _,
    List.getElem?_eq_getElem hlt, List.getElem?_eq_getElem hil, hp, ?_, ?_⟩
  · unfold polar_arbitrary_sample64
    rw [hc, hu]
    rfl
  · refine h.ge_of_ge (ha _ (List.getElem_mem hlt)) ?_
    have := h.nonneg (mul_nonneg hu0.1 hw0)
    linarith
  · refine h.mono ?_
    have := h.le_of_le hw (show u * d.angle_width ≤ d.angle_width by nlinarith)
    linarith

/-- The multiples of `1 / N` in an interval. -/
theorem card_grid {a b : ℝ} {N : ℕ} (hN : 0 < N) (h0 : 0 ≤ a) (h1 : a ≤ b) (h2 : b ≤ 1) :
    |(((Finset.range N).filter fun k : ℕ => a ≤ (k : ℝ) / N ∧ (k : ℝ) / N < b).card : ℝ) - (b - a) * N| ≤ 1 := by
  have hN' : (0 : ℝ) < N := by exact_mod_cast hN
  have e : (Finset.range N).filter (fun k : ℕ => a ≤ (k : ℝ) / N ∧ (k : ℝ) / N < b)
      = Finset.Ico ⌈a * N⌉₊ ⌈b * N⌉₊ := by
    ext k
    simp only [Finset.mem_filter, Finset.mem_range, Finset.mem_Ico, le_div_iff₀ hN', div_lt_iff₀ hN', Nat.ceil_le,
      Nat.lt_ceil]
    constructor
    · exact fun h => h.2
    · intro h
      refine ⟨?_, h⟩
      have : (k : ℝ) < N := h.2.trans_le (by nlinarith)
      exact_mod_cast this
  rw [e, Nat.card_Ico, Nat.cast_sub (Nat.ceil_mono (by gcongr))]
  have a1 := Nat.le_ceil (a * N)
  have a2 := Nat.ceil_lt_add_one (show 0 ≤ a * N by positivity)
  have b1 := Nat.le_ceil (b * N)
  have b2 := Nat.ceil_lt_add_one (show 0 ≤ b * N from mul_nonneg (h0.trans h1) hN'.le)
  rw [abs_le]
  constructor <;> linarith

/-- **C134.** Of the `2^53` numbers that the generator returns with equal probability, the share for which `choice`
returns the angle of bin `i` is the weight of the bin divided by the sum of the weights, to `1e-15` per bin of the
table. -/
theorem C134_share {rn : ℝ → ℝ} (h : Rounding rn) {angles probs : List ℝ} (ht : TableOk64 angles probs)
    (hnd : angles.Nodup) {i : ℕ} {a p : ℝ} (hi : angles[i]? = some a) (hp : probs[i]? = some p) :
    |((Set.ncard {k : ℕ | k < 2 ^ 53 ∧
        choice64 rn (fun s : Unit => ((k : ℝ) / 2 ^ 53, s)) angles probs () = .ok (a, ())} : ℕ) : ℝ) / 2 ^ 53
      - p / probs.sum| ≤ (angles.length : ℝ) * 1e-15 := by
  obtain ⟨hil, rfl⟩ := List.getElem?_eq_some_iff.1 hi
  obtain ⟨hip, rfl⟩ := List.getElem?_eq_some_iff.1 hp
  have hsum := abs_le.1 ht.sum
  have hhalf : 1 / 2 ≤ probs.sum := by norm_num at *; linarith
  have htwo : probs.sum ≤ 2 := by norm_num at *; linarith
  obtain ⟨hpos, hn1⟩ := share64_near h ht.nonneg hhalf htwo ht.short i
  obtain ⟨-, hn2⟩ := share64_near h ht.nonneg hhalf htwo ht.short (i + 1)
  have hset : {k : ℕ | k < 2 ^ 53 ∧
        choice64 rn (fun s : Unit => ((k : ℝ) / 2 ^ 53, s)) angles probs () = .ok (angles[i], ())}
      = ((Finset.range (2 ^ 53)).filter fun k : ℕ => share64 rn probs i ≤ (k : ℝ) / (2 ^ 53 : ℕ) ∧
          (k : ℝ) / (2 ^ 53 : ℕ) < share64 rn probs (i + 1) : Finset ℕ) := by
    ext k
    simp only [Set.mem_ofPred_eq, Finset.coe_filter, Finset.mem_range, Nat.cast_pow, Nat.cast_ofNat]
    refine and_congr_right fun hk => ?_
    have v0 : (0 : ℝ) ≤ (k : ℝ) / 2 ^ 53 := by positivity
    have v1 : (k : ℝ) / 2 ^ 53 < 1 := by
      rw [div_lt_one (by positivity)]
      exact_mod_cast hk
    obtain ⟨hlt, hc⟩ := choice64_eq h ht (next := fun s : Unit => ((k : ℝ) / 2 ^ 53, s)) () v0 v1
    rw [hc]
    have hiff := search64_iff h ht.nonneg hpos v0 v1 i
    constructor
    · intro he
      simp only [Except.ok.injEq, Prod.mk.injEq, and_true] at he
      exact (hiff.1 (hnd.getElem_inj_iff.1 he)).2
    · intro he
      have := hiff.2 ⟨hip, he⟩
      simp only [this]
  rw [hset, Set.ncard_coe_finset]
  have hz : 0 ≤ share64 rn probs i := by
    have := share64_mono h ht.nonneg (Nat.zero_le i)
    refine le_trans (le_of_eq ?_) this
    unfold share64
    rw [show partial64 rn probs 0 = 0 by simp [partial64], zero_div]
    exact (h.exact zero_mem).symm
  have ho : share64 rn probs (i + 1) ≤ 1 := by
    have := share64_mono h ht.nonneg (show i + 1 ≤ probs.length from hip)
    refine this.trans (le_of_eq ?_)
    unfold share64
    rw [div_self hpos.ne']
    have := h.int (n := 1) (by norm_num)
    exact_mod_cast this
  have hg := card_grid (N := 2 ^ 53) (by positivity) hz (share64_mono h ht.nonneg (Nat.le_succ i)) ho
  obtain ⟨c, hc⟩ : ∃ c : ℝ, c = ((Finset.range (2 ^ 53)).filter fun k : ℕ => share64 rn probs i ≤
    (k : ℝ) / (2 ^ 53 : ℕ) ∧ (k : ℝ) / (2 ^ 53 : ℕ) < share64 rn probs (i + 1)).card := ⟨_, rfl⟩
  rw [← hc] at hg ⊢
  rw [List.sum_take_succ _ _ hip, add_div] at hn2
  rw [← ht.length]
  have hn0 : (1 : ℝ) ≤ probs.length := by exact_mod_cast (show 1 ≤ probs.length by omega)
  clear hc hset
  generalize share64 rn probs i = x at *
  generalize share64 rn probs (i + 1) = y at *
  generalize (probs.take i).sum / probs.sum = A at *
  generalize probs[i] / probs.sum = B at *
  generalize (probs.length : ℝ) = n at *
  have hcd : |c / 2 ^ 53 - (y - x)| ≤ 1.2e-16 := by
    have e : c / 2 ^ 53 - (y - x) = (c - (y - x) * ((2 ^ 53 : ℕ) : ℝ)) / 2 ^ 53 := by
      rw [Nat.cast_pow, Nat.cast_ofNat, sub_div, mul_div_cancel_right₀ (y - x) (by positivity : (2 : ℝ) ^ 53 ≠ 0)]
    rw [e, abs_div, abs_of_pos (by positivity : (0 : ℝ) < 2 ^ 53), div_le_iff₀ (by positivity)]
    refine hg.trans ?_
    norm_num
  rw [abs_le] at hcd hn1 hn2 ⊢
  constructor <;> norm_num at * <;> linarith

/-- The hypotheses of C134 can be met: three bins. -/
example : TableOk64 [0, 1, 2] [1 / 2, 1 / 4, 1 / 4] :=
  ⟨by simp, by simp, by simp, by intro x hx; simp at hx; rcases hx with rfl | rfl <;> norm_num, by norm_num⟩

example : RawOk (fun s : ℕ => (((s % 2 ^ 53 : ℕ) : ℝ) / 2 ^ 53, s + 1)) :=
  fun s => ⟨s % 2 ^ 53, Nat.mod_lt _ (by positivity), rfl⟩

end Verif.Machine
