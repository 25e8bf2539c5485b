import Verif.Machine.Sampling
import Verif.Proofs.Nearest
import Mathlib.Tactic.LinearCombination

/-! # Sums and searches in float64 -/

namespace Verif.Machine

open Verif.Kinematics

/-- Adding up non-negative numbers one after the other in float64. -/
theorem foldl_near {rn : ℝ → ℝ} (h : Rounding rn) {S : ℝ} (hS : 1e-30 ≤ S) (hS2 : S ≤ 1e15) :
    ∀ (l : List ℝ) (acc A K : ℝ), (∀ x ∈ l, 0 ≤ x) → 0 ≤ A → A + l.sum ≤ S → |acc - A| ≤ K →
      K + l.length * (1.2e-16 * S) ≤ 1e-3 * S →
      |l.foldl (fun acc x => rn (acc + x)) acc - (A + l.sum)| ≤ K + l.length * (1.2e-16 * S) := by
  intro l
  induction l with
  | nil => intro acc A K _ _ _ h1 _; simpa using h1
  | cons x l ih =>
    intro acc A K h0 hA hle h1 hK
    have hx : 0 ≤ x := h0 x (by simp)
    have hl : 0 ≤ l.sum := List.sum_nonneg fun y hy => h0 y (by simp [hy])
    rw [List.sum_cons] at hle ⊢
    rw [List.length_cons] at hK ⊢
    push_cast at hK ⊢
    have hlen : (0 : ℝ) ≤ l.length * (1.2e-16 * S) := by positivity
    have hK0 : 0 ≤ K := (abs_nonneg _).trans h1
    have hstep : |rn (acc + x) - (A + x)| ≤ K + 1.2e-16 * S := by
      have hax : |A + x| ≤ S := by rw [abs_of_nonneg (by linarith)]; linarith
      have := h.absolute (x := acc + x) (X := A + x) (d := K)
        (by rw [show acc + x - (A + x) = acc - A by ring]; exact h1) (by linarith) (by linarith)
      norm_num at *
      linarith
    rw [List.foldl_cons]
    have := ih (rn (acc + x)) (A + x) (K + 1.2e-16 * S) (fun y hy => h0 y (by simp [hy])) (by linarith)
      (by linarith) hstep (by linarith)
    rw [show A + (x + l.sum) = A + x + l.sum by ring]
    refine this.trans (le_of_eq (by ring))

/-- The compensated sum of non-negative numbers. -/
theorem kahanLoop_near {rn : ℝ → ℝ} (h : Rounding rn) :
    ∀ (l : List ℝ) (sum c S K : ℝ), (∀ x ∈ l, 0 ≤ x) → 0 ≤ S → S + l.sum ≤ 1.5 → |sum - S| ≤ K → |c| ≤ 5e-16 →
      K + l.length * 1e-15 ≤ 1e-3 → |kahanLoop rn l sum c - (S + l.sum)| ≤ K + l.length * 1e-15 := by
  intro l
  induction l with
  | nil => intro sum c S K _ _ _ h1 _ _; simpa [kahanLoop] using h1
  | cons x l ih =>
    intro sum c S K h0 hS hle h1 hc hK
    have hx : 0 ≤ x := h0 x (by simp)
    have hl : 0 ≤ l.sum := List.sum_nonneg fun y hy => h0 y (by simp [hy])
    rw [List.sum_cons] at hle ⊢
    rw [List.length_cons] at hK ⊢
    push_cast at hK ⊢
    have hlen : (0 : ℝ) ≤ l.length * 1e-15 := by positivity
    have hK0 : 0 ≤ K := (abs_nonneg _).trans h1
    rw [kahanLoop]
    obtain ⟨y, hy⟩ : ∃ y, y = rn (x - c) := ⟨_, rfl⟩
    rw [← hy]
    obtain ⟨t, ht⟩ : ∃ t, t = rn (sum + y) := ⟨_, rfl⟩
    rw [← ht]
    have y1 : |y - x| ≤ 7e-16 := by
      have := h.absolute (x := x - c) (X := x) (d := 5e-16)
        (by rw [show x - c - x = -c by ring, abs_neg]; exact hc)
        (by rw [abs_of_nonneg hx]; norm_num at *; linarith) (by norm_num)
      rw [← hy, abs_of_nonneg hx] at this
      norm_num at *
      linarith
    have hsum : |sum + y| ≤ 1.51 := by
      rw [abs_le] at h1 y1 ⊢
      constructor <;> norm_num at * <;> linarith
    have t1 : |t - (sum + y)| ≤ 1.8e-16 := by
      have := h.absolute (x := sum + y) (X := sum + y) (d := 0) (by simp)
        (by norm_num at *; linarith) (by norm_num)
      rw [← ht] at this
      norm_num at *
      linarith
    have hy2 : |y| ≤ 1.51 := by
      rw [abs_le] at y1 ⊢
      constructor <;> norm_num at * <;> linarith
    have c1 : |rn (t - sum) - y| ≤ 3.6e-16 := by
      have := h.absolute (x := t - sum) (X := y) (d := 1.8e-16)
        (by rw [show t - sum - y = t - (sum + y) by ring]; exact t1)
        (by norm_num at *; linarith) (by norm_num)
      norm_num at *
      linarith
    have c2 : |rn (rn (t - sum) - y)| ≤ 5e-16 := by
      have := h.absolute (x := rn (t - sum) - y) (X := 0) (d := 3.6e-16) (by simpa using c1)
        (by norm_num) (by norm_num)
      simp only [sub_zero, abs_zero] at this
      norm_num at *
      linarith
    have s1 : |t - (S + x)| ≤ K + 1e-15 := by
      rw [abs_le] at h1 y1 t1 ⊢
      constructor <;> norm_num at * <;> linarith
    have := ih t (rn (rn (t - sum) - y)) (S + x) (K + 1e-15) (fun z hz => h0 z (by simp [hz])) (by linarith)
      (by linarith) s1 c2 (by linarith)
    rw [show S + (x + l.sum) = S + x + l.sum by ring]
    refine this.trans (le_of_eq (by ring))

theorem kahan_near {rn : ℝ → ℝ} (h : Rounding rn) (l : List ℝ) (h0 : ∀ x ∈ l, 0 ≤ x) (hle : l.sum ≤ 1.5)
    (hn : l.length * (1e-15 : ℝ) ≤ 1e-3) : |kahan64 rn l - l.sum| ≤ l.length * 1e-15 := by
  cases l with
  | nil => simp [kahan64]
  | cons x l =>
    rw [List.sum_cons] at hle ⊢
    rw [List.length_cons] at hn ⊢
    push_cast at hn ⊢
    have hx : 0 ≤ x := h0 x (by simp)
    have := kahanLoop_near h l x 0 x 0 (fun z hz => h0 z (by simp [hz])) hx hle (by simp) (by norm_num) (by linarith)
    rw [kahan64]
    linarith

theorem searchsortedRight_spec (v : ℝ) : ∀ l : List ℝ, searchsortedRight v l ≤ l.length ∧
    (∀ (j : ℕ) (hj : j < l.length), j < searchsortedRight v l → l[j] ≤ v) ∧
    ∀ hj : searchsortedRight v l < l.length, v < l[searchsortedRight v l] := by
  intro l
  induction l with
  | nil => exact ⟨le_rfl, fun j hj => absurd hj (by simp), fun hj => absurd hj (by simp [searchsortedRight])⟩
  | cons a l ih =>
    by_cases ha : a ≤ v
    · have e : searchsortedRight v (a :: l) = searchsortedRight v l + 1 := by
        simp only [searchsortedRight, if_pos ha]
      refine ⟨by rw [e, List.length_cons]; omega, fun j hj hlt => ?_, fun hj => ?_⟩
      · rw [e] at hlt
        cases j with
        | zero => simpa using ha
        | succ j =>
          rw [List.getElem_cons_succ]
          exact ih.2.1 j (by simpa using hj) (by omega)
      · have hj' : searchsortedRight v l < l.length := by
          rw [e, List.length_cons] at hj
          omega
        have := ih.2.2 hj'
        simp only [e, List.getElem_cons_succ]
        exact this
    · have e : searchsortedRight v (a :: l) = 0 := by simp only [searchsortedRight, if_neg ha]
      refine ⟨by rw [e]; omega, fun j hj hlt => absurd hlt (by rw [e]; omega), fun hj => ?_⟩
      simp only [e, List.getElem_cons_zero]
      exact not_le.1 ha

/-- The rounded sum of the first `k` entries. -/
noncomputable def partial64 (rn : ℝ → ℝ) (p : List ℝ) (k : ℕ) : ℝ :=
  (p.take k).foldl (fun acc x => rn (acc + x)) 0

theorem cumsum64_length (rn : ℝ → ℝ) (p : List ℝ) : ∀ acc, (cumsum64 rn acc p).length = p.length := by
  induction p with
  | nil => intro acc; rfl
  | cons x p ih => intro acc; simp [cumsum64, ih]

theorem cumsum64_get (rn : ℝ → ℝ) (p : List ℝ) : ∀ (acc : ℝ) (i : ℕ) (hi : i < (cumsum64 rn acc p).length),
    (cumsum64 rn acc p)[i] = (p.take (i + 1)).foldl (fun acc x => rn (acc + x)) acc := by
  induction p with
  | nil => intro acc i hi; simp [cumsum64] at hi
  | cons x p ih =>
    intro acc i hi
    cases i with
    | zero => simp [cumsum64]
    | succ i =>
      simp only [cumsum64, List.getElem_cons_succ, List.take_succ_cons, List.foldl_cons]
      exact ih _ _ _

theorem cumsum64_last (rn : ℝ → ℝ) {p : List ℝ} (hp : p ≠ []) :
    (cumsum64 rn 0 p).getLastD 0 = partial64 rn p p.length := by
  have hlen := cumsum64_length rn p 0
  have h0 : 0 < p.length := List.length_pos_iff.2 hp
  have hne : cumsum64 rn 0 p ≠ [] := by
    rw [← List.length_pos_iff, hlen]
    exact h0
  rw [List.getLastD_eq_getLast?, List.getLast?_eq_getLast_of_ne_nil hne, Option.getD_some, List.getLast_eq_getElem,
    cumsum64_get]
  unfold partial64
  rw [hlen, Nat.sub_add_cancel h0]

/-- The rounded share of the first `k` entries. -/
noncomputable def share64 (rn : ℝ → ℝ) (p : List ℝ) (k : ℕ) : ℝ :=
  rn (partial64 rn p k / partial64 rn p p.length)

theorem cdf64_length (rn : ℝ → ℝ) (p : List ℝ) : (cdf64 rn p).length = p.length := by
  unfold cdf64
  rw [List.length_map, cumsum64_length]

theorem cdf64_get (rn : ℝ → ℝ) (p : List ℝ) (i : ℕ) (hi : i < (cdf64 rn p).length) :
    (cdf64 rn p)[i] = share64 rn p (i + 1) := by
  have hp : p ≠ [] := by
    rw [cdf64_length] at hi
    exact List.ne_nil_of_length_pos (by omega)
  unfold cdf64 share64
  simp only [List.getElem_map, cumsum64_last rn hp, cumsum64_get]
  rfl

theorem partial64_mem {rn : ℝ → ℝ} (h : Rounding rn) (p : List ℝ) (k : ℕ) : partial64 rn p k ∈ Binary64 := by
  unfold partial64
  generalize p.take k = l
  have : ∀ acc ∈ Binary64, l.foldl (fun acc x => rn (acc + x)) acc ∈ Binary64 := by
    induction l with
    | nil => exact fun acc h => h
    | cons x l ih => exact fun acc _ => ih _ (h _).1
  exact this 0 zero_mem

theorem partial64_succ (rn : ℝ → ℝ) (p : List ℝ) (k : ℕ) (hk : k < p.length) :
    partial64 rn p (k + 1) = rn (partial64 rn p k + p[k]) := by
  unfold partial64
  rw [List.take_add_one, List.getElem?_eq_getElem hk, Option.toList_some, List.foldl_append, List.foldl_cons,
    List.foldl_nil]

theorem partial64_ge (rn : ℝ → ℝ) (p : List ℝ) (k : ℕ) (hk : p.length ≤ k) :
    partial64 rn p k = partial64 rn p p.length := by
  unfold partial64
  rw [List.take_of_length_le hk, List.take_length]

theorem partial64_step {rn : ℝ → ℝ} (h : Rounding rn) {p : List ℝ} (h0 : ∀ x ∈ p, 0 ≤ x) (k : ℕ) :
    partial64 rn p k ≤ partial64 rn p (k + 1) := by
  rcases lt_or_ge k p.length with hk | hk
  · rw [partial64_succ rn p k hk]
    refine h.ge_of_ge (partial64_mem h p k) ?_
    have := h0 p[k] (List.getElem_mem hk)
    linarith
  · rw [partial64_ge rn p k hk, partial64_ge rn p (k + 1) (by omega)]

theorem partial64_mono {rn : ℝ → ℝ} (h : Rounding rn) {p : List ℝ} (h0 : ∀ x ∈ p, 0 ≤ x) :
    Monotone (partial64 rn p) := monotone_nat_of_le_succ (partial64_step h h0)

theorem share64_mono {rn : ℝ → ℝ} (h : Rounding rn) {p : List ℝ} (h0 : ∀ x ∈ p, 0 ≤ x) :
    Monotone (share64 rn p) := fun i j hij => by
  refine h.mono (div_le_div_of_nonneg_right (partial64_mono h h0 hij) ?_)
  have := partial64_mono h h0 (Nat.zero_le p.length)
  simpa [partial64] using this

/-- Entry `i` is found for the numbers from share `i` to share `i + 1`. -/
theorem search64_iff {rn : ℝ → ℝ} (h : Rounding rn) {p : List ℝ} (h0 : ∀ x ∈ p, 0 ≤ x)
    (hpos : 0 < partial64 rn p p.length) {v : ℝ} (v0 : 0 ≤ v) (v1 : v < 1) (i : ℕ) :
    searchsortedRight v (cdf64 rn p) = i ↔ i < p.length ∧ share64 rn p i ≤ v ∧ v < share64 rn p (i + 1) := by
  obtain ⟨r, hr⟩ : ∃ r, r = searchsortedRight v (cdf64 rn p) := ⟨_, rfl⟩
  have hspec := searchsortedRight_spec v (cdf64 rn p)
  rw [← hr] at hspec
  have hlen := cdf64_length rn p
  have hone : share64 rn p p.length = 1 := by
    unfold share64
    rw [div_self hpos.ne']
    have := h.int (n := 1) (by norm_num)
    exact_mod_cast this
  have hzero : share64 rn p 0 = 0 := by
    unfold share64
    rw [show partial64 rn p 0 = 0 by simp [partial64], zero_div]
    exact h.exact zero_mem
  have hrlt : r < p.length := by
    rcases hspec.1.eq_or_lt with he | hlt
    · exfalso
      have hp0 : 0 < p.length := by
        by_contra hc
        have hl : p = [] := List.eq_nil_of_length_eq_zero (by omega)
        rw [hl] at hpos
        simp [partial64] at hpos
      have := hspec.2.1 (p.length - 1) (by omega) (by omega)
      rw [cdf64_get, Nat.sub_add_cancel hp0, hone] at this
      linarith
    · omega
  have hup : v < share64 rn p (r + 1) := by
    have := hspec.2.2 (by omega)
    rwa [cdf64_get] at this
  have hlow : share64 rn p r ≤ v := by
    cases hrr : r with
    | zero => rw [hzero]; exact v0
    | succ k =>
      have := hspec.2.1 k (by omega) (by omega)
      rwa [cdf64_get] at this
  rw [← hr]
  constructor
  · rintro rfl
    exact ⟨hrlt, hlow, hup⟩
  · rintro ⟨-, h2, h3⟩
    have m := share64_mono h h0
    rcases lt_trichotomy r i with hlt | he | hgt
    · have := m (show r + 1 ≤ i by omega)
      linarith
    · exact he
    · have := m (show i + 1 ≤ r by omega)
      linarith

/-- The rounded shares against the exact ones. -/
theorem share64_near {rn : ℝ → ℝ} (h : Rounding rn) {p : List ℝ} (h0 : ∀ x ∈ p, 0 ≤ x) (hS : 1 / 2 ≤ p.sum)
    (hS2 : p.sum ≤ 2) (hn : p.length ≤ 100000) (k : ℕ) :
    0 < partial64 rn p p.length ∧
      |share64 rn p k - (p.take k).sum / p.sum| ≤ (2 * p.length + 1) * 1.3e-16 := by
  have hn' : (p.length : ℝ) ≤ 100000 := by exact_mod_cast hn
  have hnear : ∀ k, |partial64 rn p k - (p.take k).sum| ≤ p.length * (1.2e-16 * p.sum) := by
    intro k
    have hlen : ((p.take k).length : ℝ) ≤ p.length := by
      exact_mod_cast (by rw [List.length_take]; exact min_le_right _ _)
    have hm : ((p.take k).length : ℝ) * (1.2e-16 * p.sum) ≤ p.length * (1.2e-16 * p.sum) :=
      mul_le_mul_of_nonneg_right hlen (by positivity)
    have hm2 : (p.length : ℝ) * (1.2e-16 * p.sum) ≤ 100000 * (1.2e-16 * p.sum) :=
      mul_le_mul_of_nonneg_right hn' (by positivity)
    have hle : (p.take k).sum ≤ p.sum := by
      have := List.sum_take_add_sum_drop p k
      have h2 : 0 ≤ (p.drop k).sum := List.sum_nonneg fun x hx => h0 x (List.mem_of_mem_drop hx)
      linarith
    have := foldl_near h (S := p.sum) (by norm_num at *; linarith) (by norm_num at *; linarith) (p.take k) 0 0 0
      (fun x hx => h0 x (List.mem_of_mem_take hx)) le_rfl (by linarith) (by simp)
      (by norm_num at *; linarith)
    simp only [zero_add] at this
    exact this.trans hm
  obtain ⟨S, hSe⟩ : ∃ S, S = p.sum := ⟨_, rfl⟩
  obtain ⟨L, hL⟩ : ∃ L, L = partial64 rn p p.length := ⟨_, rfl⟩
  obtain ⟨a, ha⟩ : ∃ a, a = partial64 rn p k := ⟨_, rfl⟩
  obtain ⟨A, hA⟩ : ∃ A, A = (p.take k).sum := ⟨_, rfl⟩
  obtain ⟨n, hne⟩ : ∃ n : ℝ, n = p.length := ⟨_, rfl⟩
  have n0 : 0 ≤ n := by rw [hne]; positivity
  have e1 := hnear k
  have e2 := hnear p.length
  rw [List.take_length] at e2
  have hA0 : 0 ≤ A := by
    rw [hA]
    exact List.sum_nonneg fun x hx => h0 x (List.mem_of_mem_take hx)
  have hAS : A ≤ S := by
    rw [hA, hSe]
    have := List.sum_take_add_sum_drop p k
    have h2 : 0 ≤ (p.drop k).sum := List.sum_nonneg fun x hx => h0 x (List.mem_of_mem_drop hx)
    linarith
  unfold share64
  rw [← hL, ← ha, ← hA, ← hSe, ← hne]
  rw [← ha, ← hA, ← hSe, ← hne] at e1
  rw [← hL, ← hSe, ← hne] at e2
  rw [← hSe] at hS hS2
  rw [← hne] at hn'
  clear hnear
  have hSp : 0 < S := by linarith
  have hk : n * (1.2e-16 * S) ≤ 1.2e-11 * S := by
    have := mul_le_mul_of_nonneg_right hn' (show (0 : ℝ) ≤ 1.2e-16 * S by positivity)
    norm_num at *
    linarith
  have hLlow : 0.999 * S ≤ L := by
    have := (abs_le.1 e2).1
    norm_num at *
    linarith
  have hLp : 0 < L := lt_of_lt_of_le (by positivity) hLlow
  refine ⟨hLp, ?_⟩
  have hq : |a / L - A / S| ≤ n * 2.41e-16 := by
    have e : a / L - A / S = ((a - A) * S - A * (L - S)) / (L * S) := by
      field_simp
      ring
    rw [e, abs_div, abs_of_pos (mul_pos hLp hSp), div_le_iff₀ (mul_pos hLp hSp)]
    have t1 : |(a - A) * S - A * (L - S)| ≤ n * (1.2e-16 * S) * S + S * (n * (1.2e-16 * S)) := by
      refine (abs_sub _ _).trans ?_
      rw [abs_mul, abs_mul, abs_of_pos hSp, abs_of_nonneg hA0]
      exact add_le_add (mul_le_mul_of_nonneg_right e1 hSp.le) (mul_le_mul hAS e2 (abs_nonneg _) hSp.le)
    have t2 : 0.999 * S * S * n ≤ L * S * n :=
      mul_le_mul_of_nonneg_right (mul_le_mul_of_nonneg_right hLlow hSp.le) n0
    have t3 : 0 ≤ S * S * n := by positivity
    norm_num at *
    nlinarith
  have hAS1 : |A / S| ≤ 1 := by
    rw [abs_of_nonneg (by positivity)]
    exact (div_le_one hSp).2 hAS
  have := h.absolute (x := a / L) (X := A / S) hq (by norm_num at *; linarith) (by norm_num at *; linarith)
  norm_num at *
  linarith

end Verif.Machine
