import Verif.Props.MachineTables
import Mathlib.Analysis.SpecialFunctions.Trigonometric.Bounds

/-! # C135: uniform random numbers in machine arithmetic -/

namespace Verif.Machine

open Verif.Kinematics

variable {σ : Type}

/-- A small difference of two doubles is a double. -/
theorem sub_mem {a b : ℝ} (ha : a ∈ Binary64) (hb : b ∈ Binary64) (h : |a - b| < (2 : ℝ) ^ (-1021 : ℤ)) :
    a - b ∈ Binary64 := by
  have grid : ∀ x ∈ Binary64, ∃ M : ℤ, x = M * (2 : ℝ) ^ (-1074 : ℤ) := by
    rintro x ⟨m, e, -, he, -, rfl⟩
    obtain ⟨n, hn⟩ := Int.exists_add_of_le he
    refine ⟨m * 2 ^ n, ?_⟩
    rw [hn, zpow_add₀ (by norm_num)]
    push_cast
    rw [zpow_natCast]
    ring
  obtain ⟨A, hA⟩ := grid a ha
  obtain ⟨B, hB⟩ := grid b hb
  have hp : (0 : ℝ) < (2 : ℝ) ^ (-1074 : ℤ) := by positivity
  have e : a - b = ((A - B : ℤ) : ℝ) * (2 : ℝ) ^ (-1074 : ℤ) := by
    rw [hA, hB]
    push_cast
    ring
  refine mem_of_eq (A - B) (-1074) ?_ (by norm_num) (by norm_num) e
  rw [e, abs_mul, abs_of_pos hp] at h
  have h53 : (2 : ℝ) ^ (-1021 : ℤ) = 2 ^ 53 * (2 : ℝ) ^ (-1074 : ℤ) := by
    rw [show (-1021 : ℤ) = 53 + -1074 by norm_num, zpow_add₀ (by norm_num)]
    norm_cast
  rw [h53] at h
  have := lt_of_mul_lt_mul_right h hp.le
  exact_mod_cast this

/-- **C135.** `rng.uniform(low, high)` returns a number from `low` to `high` in float64. -/
theorem C135_closed {rn : ℝ → ℝ} (h : Rounding rn) {next : σ → ℝ × σ} (hr : RawOk next) {low high : ℝ}
    (hl : low ∈ Binary64) (hh : high ∈ Binary64) (hle : low ≤ high) (s : σ) :
    low ≤ (uniform64 rn next low high s).1 ∧ (uniform64 rn next low high s).1 ≤ high := by
  have hu := hr.range s
  unfold uniform64
  simp only
  generalize (next s).1 = u at hu
  have h53 : (0 : ℝ) < 2 ^ (-53 : ℤ) := by positivity
  have hd0 : 0 ≤ rn (high - low) := h.nonneg (by linarith)
  have hw0 : 0 ≤ rn (rn (high - low) * u) := h.nonneg (mul_nonneg hd0 hu.1)
  refine ⟨h.ge_of_ge hl (by linarith), h.le_of_le hh ?_⟩
  rcases lt_or_ge (high - low) ((2 : ℝ) ^ (-1021 : ℤ)) with hsmall | hbig
  · have hmem := sub_mem hh hl (by rw [abs_of_nonneg (by linarith)]; exact hsmall)
    rw [h.exact hmem]
    have := h.le_of_le hmem (show (high - low) * u ≤ high - low by nlinarith)
    linarith
  · have m : (2 : ℝ) ^ (-1021 : ℤ) ∈ Binary64 := mem_of_eq 1 (-1021) (by norm_num) (by norm_num) (by norm_num) (by simp)
    have hlt := h.mul_lt (h (high - low)).1 (h.ge_of_ge m hbig) hu.2
    obtain ⟨r, hr⟩ : ∃ r, r = rn (high - low) := ⟨_, rfl⟩
    obtain ⟨w, hw⟩ : ∃ w, w = rn (r * u) := ⟨_, rfl⟩
    rw [← hr, ← hw] at hlt ⊢
    by_contra hc
    push Not at hc
    have hn := (h (high - low)).2 w (by rw [hw]; exact (h _).1)
    rw [← hr, abs_of_pos (by linarith), abs_of_pos (by linarith)] at hn
    linarith

/-- **C135.** A range that starts at 0, as for the azimuths and the time offset, does not return its end. -/
theorem C135_open {rn : ℝ → ℝ} (h : Rounding rn) {next : σ → ℝ × σ} (hr : RawOk next) {high : ℝ}
    (hh : high ∈ Binary64) (hb : (2 : ℝ) ^ (-1021 : ℤ) ≤ high) (s : σ) :
    0 ≤ (uniform64 rn next 0 high s).1 ∧ (uniform64 rn next 0 high s).1 < high := by
  have h0 : 0 ≤ high := le_trans (by positivity) hb
  refine ⟨(C135_closed h hr zero_mem hh h0 s).1, ?_⟩
  unfold uniform64
  simp only [sub_zero, zero_add]
  rw [h.exact hh, h.exact (h _).1]
  exact h.mul_lt hh hb (hr.range s).2

/-- **C135.** Other ranges can return their end: the range from 1 to the next double does for three quarters. -/
theorem C135_end {rn : ℝ → ℝ} (h : Rounding rn) (next : σ → ℝ × σ) (s : σ) (hs : (next s).1 = 3 / 4) :
    (uniform64 rn next 1 (1 + 2 ^ (-52 : ℤ)) s).1 = 1 + 2 ^ (-52 : ℤ) := by
  unfold uniform64
  simp only [hs]
  have e1 : rn (1 + 2 ^ (-52 : ℤ) - 1) = (2 : ℝ) ^ (-52 : ℤ) := by
    rw [add_sub_cancel_left]
    exact h.exact (mem_of_eq 1 (-52) (by norm_num) (by norm_num) (by norm_num) (by simp))
  have e2 : rn ((2 : ℝ) ^ (-52 : ℤ) * (3 / 4)) = 3 * (2 : ℝ) ^ (-54 : ℤ) := by
    rw [show (2 : ℝ) ^ (-52 : ℤ) * (3 / 4) = 3 * (2 : ℝ) ^ (-54 : ℤ) by norm_num]
    exact h.exact (mem_of_eq 3 (-54) (by norm_num) (by norm_num) (by norm_num) (by simp))
  rw [e1, e2]
  have := h.nearest (x := 1 + 3 * (2 : ℝ) ^ (-54 : ℤ)) (m := 2 ^ 52 + 1) (e := -52) (by norm_num) (by norm_num)
    (by norm_num) (by norm_num) (by rw [abs_lt]; constructor <;> norm_num)
  rw [this]
  norm_num

/-- **C135.** `ExcitationUniform` samples from its minimum to its maximum in float64. -/
theorem C135_excitation {rn : ℝ → ℝ} (h : Rounding rn) {next : σ → ℝ × σ} (hr : RawOk next) {low high : ℝ}
    (hl : low ∈ Binary64) (hh : high ∈ Binary64) (hle : low ≤ high) (s : σ) :
    ∃ x s', excitation_uniform_sample64 rn next low high s = .ok (x, s') ∧ low ≤ x ∧ x ≤ high := by
  refine ⟨_, (uniform64 rn next low high s).2, ?_, C135_closed h hr hl hh hle s⟩
  unfold excitation_uniform_sample64
  rw [if_neg (not_lt.2 hle)]

/-- `np.cos` on the polar angles: doubles in [-1, 1], to one part in `2^52`. -/
structure CosOk (cos : ℝ → ℝ) : Prop where
  mem : ∀ x, 0 ≤ x → x ≤ Real.pi → cos x ∈ Binary64
  near : ∀ x, 0 ≤ x → x ≤ Real.pi → |cos x - Real.cos x| ≤ 2 ^ (-52 : ℤ)
  low : ∀ x, 0 ≤ x → x ≤ Real.pi → -1 ≤ cos x
  high : ∀ x, 0 ≤ x → x ≤ Real.pi → cos x ≤ 1

/-- `np.arccos`, to one part in `2^50`. -/
def ArccosOk (arccos : ℝ → ℝ) : Prop := ∀ x, -1 ≤ x → x ≤ 1 → |arccos x - Real.arccos x| ≤ 2 ^ (-50 : ℤ)

/-- The cosine drops by at least `2 sin²(δ/2)` over an interval of length `δ` in [0, π]. -/
theorem cos_drop {t d : ℝ} (hd : 0 ≤ d) (h1 : 0 ≤ t) (h2 : t + d ≤ Real.pi) :
    2 * Real.sin (d / 2) ^ 2 ≤ Real.cos t - Real.cos (t + d) := by
  have hpi := Real.pi_pos
  have e : Real.cos t - Real.cos (t + d) = 2 * Real.sin (t + d / 2) * Real.sin (d / 2) := by
    rw [Real.cos_sub_cos, show (t + (t + d)) / 2 = t + d / 2 by ring, show (t - (t + d)) / 2 = -(d / 2) by ring,
      Real.sin_neg]
    ring
  have hs : 0 ≤ Real.sin (d / 2) := Real.sin_nonneg_of_nonneg_of_le_pi (by linarith) (by linarith)
  have hm : Real.sin (d / 2) ≤ Real.sin (t + d / 2) := by
    rcases le_or_gt (t + d / 2) (Real.pi / 2) with hc | hc
    · exact Real.sin_le_sin_of_le_of_le_pi_div_two (by linarith) hc (by linarith)
    · rw [← Real.sin_pi_sub (t + d / 2)]
      exact Real.sin_le_sin_of_le_of_le_pi_div_two (by linarith) (by linarith) (by linarith)
  rw [e]
  nlinarith

theorem cos_drop_small {t d : ℝ} (hd : 2.9e-8 ≤ d) (h1 : 0 ≤ t) (h2 : t + d ≤ Real.pi) :
    (2 : ℝ) ^ (-52 : ℤ) < Real.cos t - Real.cos (t + d) := by
  have hmono : Real.cos (t + d) ≤ Real.cos (t + 2.9e-8) :=
    Real.cos_le_cos_of_nonneg_of_le_pi (by positivity) h2 (by linarith)
  have h3 := cos_drop (t := t) (d := 2.9e-8) (by norm_num) h1 (by linarith)
  have h4 := Real.sin_gt_sub_cube (x := 2.9e-8 / 2) (by norm_num)
  have h5 : (1.4e-8 : ℝ) ≤ Real.sin (2.9e-8 / 2) := by
    refine le_trans ?_ h4.le
    norm_num
  have h6 : (1.4e-8 : ℝ) ^ 2 ≤ Real.sin (2.9e-8 / 2) ^ 2 := pow_le_pow_left₀ (by norm_num) h5 2
  have h7 : (2 : ℝ) ^ (-52 : ℤ) < 2 * 1.4e-8 ^ 2 := by norm_num
  refine h7.trans_le ((mul_le_mul_of_nonneg_left h6 (by norm_num)).trans (h3.trans ?_))
  linarith

/-- **C135.** `PolarUniform` samples from its minimum to its maximum up to `3e-8` rad in float64. -/
theorem C135_polar {rn : ℝ → ℝ} (h : Rounding rn) {next : σ → ℝ × σ} (hr : RawOk next) {cos arccos : ℝ → ℝ}
    (hc : CosOk cos) (ha : ArccosOk arccos) {angle_min angle_max : ℝ} (h0 : 0 ≤ angle_min) (hle : angle_min ≤ angle_max)
    (hpi : angle_max ≤ Real.pi) {s s' : σ} {x : ℝ}
    (hx : polar_uniform_sample64 rn arccos next (mkPolarUniform64 cos angle_min angle_max) s = .ok (x, s')) :
    angle_min - 3e-8 ≤ x ∧ x ≤ angle_max + 3e-8 := by
  have i1 : 0 ≤ angle_max := h0.trans hle
  have i2 : angle_min ≤ Real.pi := hle.trans hpi
  unfold polar_uniform_sample64 mkPolarUniform64 at hx
  simp only at hx
  split_ifs at hx with hlt
  push Not at hlt
  simp only [Except.ok.injEq, Prod.mk.injEq] at hx
  obtain ⟨rfl, -⟩ := hx
  obtain ⟨v1, v2⟩ := C135_closed h hr (hc.mem _ i1 hpi) (hc.mem _ h0 i2) hlt s
  generalize (uniform64 rn next (cos angle_max) (cos angle_min) s).1 = v at v1 v2
  have vl : -1 ≤ v := (hc.low _ i1 hpi).trans v1
  have vh : v ≤ 1 := v2.trans (hc.high _ h0 i2)
  have hnear := abs_le.1 (ha v vl vh)
  have n1 := abs_le.1 (hc.near _ i1 hpi)
  have n2 := abs_le.1 (hc.near _ h0 i2)
  have hcos := Real.cos_arccos vl vh
  have a0 := Real.arccos_nonneg v
  have api := Real.arccos_le_pi v
  generalize Real.arccos v = t at *
  have h50 : (2 : ℝ) ^ (-50 : ℤ) ≤ 1e-9 := by norm_num
  constructor
  · by_contra hcon
    push Not at hcon
    have ht : 2.9e-8 ≤ angle_min - t := by
      have := hnear.1
      norm_num at *
      linarith
    have := cos_drop_small ht a0 (by linarith)
    rw [show t + (angle_min - t) = angle_min by ring, hcos] at this
    linarith [n2.2]
  · by_contra hcon
    push Not at hcon
    have ht : 2.9e-8 ≤ t - angle_max := by
      have := hnear.2
      norm_num at *
      linarith
    have := cos_drop_small ht i1 (by linarith)
    rw [show angle_max + (t - angle_max) = t by ring, hcos] at this
    linarith [n1.1]

/-- **C135.** A sample is returned whenever the two angles are at least `5e-8` rad apart. -/
theorem C135_polar_returns (rn arccos : ℝ → ℝ) (next : σ → ℝ × σ) {cos : ℝ → ℝ} (hc : CosOk cos)
    {angle_min angle_max : ℝ} (h0 : 0 ≤ angle_min) (hle : angle_min + 5e-8 ≤ angle_max) (hpi : angle_max ≤ Real.pi)
    (s : σ) : ∃ r, polar_uniform_sample64 rn arccos next (mkPolarUniform64 cos angle_min angle_max) s = .ok r := by
  have i1 : 0 ≤ angle_max := by norm_num at *; linarith
  have i2 : angle_min ≤ Real.pi := by norm_num at *; linarith
  have n1 := abs_le.1 (hc.near _ i1 hpi)
  have n2 := abs_le.1 (hc.near _ h0 i2)
  have h3 := cos_drop (t := angle_min) (d := 5e-8) (by norm_num) h0 (by linarith)
  have hmono : Real.cos angle_max ≤ Real.cos (angle_min + 5e-8) :=
    Real.cos_le_cos_of_nonneg_of_le_pi (by positivity) hpi hle
  have h4 := Real.sin_gt_sub_cube (x := 5e-8 / 2) (by norm_num)
  have h5 : (2.4e-8 : ℝ) ≤ Real.sin (5e-8 / 2) := by
    refine le_trans ?_ h4.le
    norm_num
  have h6 : (2.4e-8 : ℝ) ^ 2 ≤ Real.sin (5e-8 / 2) ^ 2 := pow_le_pow_left₀ (by norm_num) h5 2
  have h7 : 2 * (2 : ℝ) ^ (-52 : ℤ) < 2 * 2.4e-8 ^ 2 := by norm_num
  have h8 : 2 * (2 : ℝ) ^ (-52 : ℤ) < Real.cos angle_min - Real.cos angle_max := by
    refine h7.trans_le ((mul_le_mul_of_nonneg_left h6 (by norm_num)).trans (h3.trans ?_))
    linarith
  have hnot : ¬ cos angle_min < cos angle_max := by
    push Not
    linarith [n1.2, n2.1]
  exact ⟨_, if_neg hnot⟩

theorem one_mem : (1 : ℝ) ∈ Binary64 := by simpa using int_mem (n := 1) (by norm_num)

/-- The correctly rounded cosine meets the assumptions. -/
theorem rounded_cos_ok {rn : ℝ → ℝ} (h : Rounding rn) : CosOk fun x => rn (Real.cos x) where
  mem x _ _ := (h _).1
  near x _ _ := by
    have h1 := Real.abs_cos_le_one x
    have := h.absolute (x := Real.cos x) (X := Real.cos x) (d := 0) (by simp) (by norm_num at *; linarith)
      (by norm_num)
    norm_num at *
    linarith
  low x _ _ := h.ge_of_ge (neg_mem one_mem) (Real.neg_one_le_cos x)
  high x _ _ := h.le_of_le one_mem (Real.cos_le_one x)

/-- **C135.** Some deviation cannot be avoided: with correctly rounded functions and both angles `1e-9` rad, the sample is
0. -/
theorem C135_polar_outside {rn : ℝ → ℝ} (h : Rounding rn) (next : σ → ℝ × σ) (s : σ) :
    ∃ s', polar_uniform_sample64 rn (fun x => rn (Real.arccos x)) next
      (mkPolarUniform64 (fun x => rn (Real.cos x)) 1e-9 1e-9) s = .ok (0, s') := by
  have hc : rn (Real.cos 1e-9) = 1 := by
    refine le_antisymm (h.le_of_le one_mem (Real.cos_le_one _)) ?_
    have h1 := Real.one_sub_sq_div_two_le_cos (x := 1e-9)
    have hlt : (1 : ℝ) - 2 ^ (-54 : ℤ) < Real.cos 1e-9 := lt_of_lt_of_le (by norm_num) h1
    obtain ⟨f, hf⟩ : ∃ f, f = rn (Real.cos 1e-9) := ⟨_, rfl⟩
    have hm := (h (Real.cos 1e-9)).1
    have hn := (h (Real.cos 1e-9)).2 1 one_mem
    rw [← hf] at hm hn ⊢
    by_contra hcon
    push Not at hcon
    have hhalf : (2 : ℝ) ^ (-1 : ℤ) ≤ f := by
      rw [hf]
      refine h.ge_of_ge (mem_of_eq 1 (-1) (by norm_num) (by norm_num) (by norm_num) (by simp)) ?_
      refine le_trans ?_ hlt.le
      norm_num
    have hg := gap (j := -1) (by norm_num) (n := 1) hm hhalf (by exact_mod_cast hcon)
    have hle := Real.cos_le_one 1e-9
    rw [abs_of_nonneg (show 0 ≤ 1 - Real.cos 1e-9 by linarith)] at hn
    have e : f - Real.cos 1e-9 ≤ -2 ^ (-54 : ℤ) := by
      norm_num at *
      linarith
    rw [abs_of_neg (lt_of_le_of_lt e (by norm_num))] at hn
    norm_num at *
    linarith
  refine ⟨(next s).2, ?_⟩
  unfold polar_uniform_sample64 mkPolarUniform64 uniform64
  simp only [hc, lt_irrefl, if_false, sub_self]
  rw [h.exact zero_mem, zero_mul, h.exact zero_mem, add_zero, h.exact one_mem, Real.arccos_one, h.exact zero_mem]

/-- The hypotheses can be met: correctly rounded functions. -/
example {rn : ℝ → ℝ} (h : Rounding rn) : ArccosOk fun x => rn (Real.arccos x) := fun x _ _ => by
  have h1 : |Real.arccos x| ≤ 4 := by
    rw [abs_of_nonneg (Real.arccos_nonneg x)]
    exact (Real.arccos_le_pi x).trans (Real.pi_le_four)
  have := h.absolute (x := Real.arccos x) (X := Real.arccos x) (d := 0) (by simp) (by norm_num at *; linarith)
    (by norm_num)
  norm_num at *
  linarith

end Verif.Machine
