import Verif.Machine.Response
import Verif.Proofs.Diffusion64
import Verif.Props.Response

/-! # C109: signals and positions of the writer in machine arithmetic -/

namespace Verif.Machine

open Verif.Detector Verif.Spec

theorem signal64_eq (rn : ℝ → ℝ) (R : List ℝ) (e : ℝ) :
    signal64 rn R e = R.map fun r => min (rn (r * e)) 4095 := by
  unfold signal64
  rw [List.map_map]
  apply List.map_congr_left
  intro r _
  simp only [Function.comp]
  split_ifs with h
  · rw [min_eq_right h.le]
  · rw [min_eq_left (not_lt.1 h)]

theorem adc_mem : (4095 : ℝ) ∈ Binary64 := by
  have := int_mem (n := 4095) (by norm_num)
  simpa using this

/-- The largest of a list of values of a monotone function. -/
theorem npMax_mono_map {f : ℝ → ℝ} (hf : Monotone f) {l : List ℝ} (hl : l ≠ []) :
    npMax (l.map f) = f (npMax l) := by
  obtain ⟨m1, m2⟩ := npMax_isMax l hl
  obtain ⟨n1, n2⟩ := npMax_isMax (l.map f) (by simpa using hl)
  apply le_antisymm
  · obtain ⟨r, hr, he⟩ := List.mem_map.1 n1
    rw [← he]
    exact hf (m2 r hr)
  · exact n2 _ (List.mem_map.2 ⟨_, m1, rfl⟩)

theorem signal_monotone {rn : ℝ → ℝ} (h : Rounding rn) {e : ℝ} (he : 0 ≤ e) :
    Monotone fun r => min (rn (r * e)) 4095 := by
  intro a b hab
  exact min_le_min (h.mono (mul_le_mul_of_nonneg_right hab he)) le_rfl

theorem amplitude64_eq {rn : ℝ → ℝ} (h : Rounding rn) {R : List ℝ} (hne : R ≠ []) {e : ℝ} (he : 0 ≤ e) :
    (apply_response64 rn R e).1 = min (rn (npMax R * e)) 4095 := by
  unfold apply_response64
  simp only
  rw [signal64_eq, npMax_mono_map (signal_monotone h he) hne]

theorem amplitude_eq {R : List ℝ} (hne : R ≠ []) {e : ℝ} (he : 0 ≤ e) :
    (apply_response R e).1 = min (npMax R * e) 4095 := by
  rw [apply_response_eq]
  simp only
  rw [npMax_mono_map (f := fun r => min (r * e) 4095) _ hne]
  intro a b hab
  exact min_le_min (mul_le_mul_of_nonneg_right hab he) le_rfl

/-- **C109.** The amplitude computed in float64 lies between 0 and 4095, is 4095 exactly when the rounded
product of the largest sample and the charge reaches 4095, and differs from the exact amplitude by at most the
fraction `2^-53` of it (or by half the smallest double). -/
theorem C109_amplitude {rn : ℝ → ℝ} (h : Rounding rn) {R : List ℝ} (hne : R ≠ []) (hR : ∀ r ∈ R, 0 ≤ r)
    {e : ℝ} (he : 0 ≤ e) :
    0 ≤ (apply_response64 rn R e).1 ∧ (apply_response64 rn R e).1 ≤ 4095 ∧
    |(apply_response64 rn R e).1 - (apply_response R e).1|
      ≤ 2 ^ (-53 : ℤ) * (apply_response R e).1 + 2 ^ (-1075 : ℤ) := by
  rw [amplitude64_eq h hne he, amplitude_eq hne he]
  have hm : 0 ≤ npMax R := hR _ (npMax_isMax R hne).1
  have hx : 0 ≤ npMax R * e := mul_nonneg hm he
  generalize npMax R * e = x at hx
  have hη : (0 : ℝ) < 2 ^ (-1075 : ℤ) := by positivity
  refine ⟨le_min (h.nonneg hx) (by norm_num), min_le_right _ _, ?_⟩
  rcases le_or_gt x 4095 with hx1 | hx1
  · rw [min_eq_left hx1, min_eq_left (h.le_of_le adc_mem hx1)]
    have := h.err (x := x) (big_ge (by rw [abs_of_nonneg hx]; linarith))
    rwa [abs_of_nonneg hx] at this
  · rw [min_eq_right hx1.le, min_eq_right (h.ge_of_ge adc_mem hx1.le), sub_self, abs_zero]
    positivity

/-- **C109.** The threshold decides as with exact numbers unless the amplitude agrees with the threshold to
within `2^-52` of full scale. -/
theorem C109_threshold {rn : ℝ → ℝ} (h : Rounding rn) {R : List ℝ} (hne : R ≠ []) (hR : ∀ r ∈ R, 0 ≤ r)
    {e : ℝ} (he : 0 ≤ e) {thr : ℝ} (hd : 4095 * 2 ^ (-52 : ℤ) < |(apply_response R e).1 - thr|) :
    (apply_response64 rn R e).1 > thr ↔ (apply_response R e).1 > thr := by
  obtain ⟨-, -, h3⟩ := C109_amplitude h hne hR he
  have hle : (apply_response R e).1 ≤ 4095 := by
    rw [amplitude_eq hne he]
    exact min_le_right _ _
  have hη : (2 : ℝ) ^ (-1075 : ℤ) ≤ 2 ^ (-53 : ℤ) := zpow_le_zpow_right₀ (by norm_num) (by norm_num)
  have e52 : (2 : ℝ) ^ (-52 : ℤ) = 2 * 2 ^ (-53 : ℤ) := by norm_num
  rw [e52] at hd
  have hp : (0 : ℝ) < 2 ^ (-53 : ℤ) := by positivity
  generalize (2 : ℝ) ^ (-53 : ℤ) = u at *
  generalize (apply_response64 rn R e).1 = a at *
  generalize (apply_response R e).1 = b at *
  have h4 : |a - b| < |b - thr| := by
    refine h3.trans_lt (lt_of_le_of_lt ?_ hd)
    nlinarith
  constructor
  · intro hgt
    by_contra hc
    push Not at hc
    rw [abs_of_nonpos (by linarith : b - thr ≤ 0)] at h4
    have := (abs_lt.1 h4).2
    linarith
  · intro hgt
    rw [abs_of_pos (by linarith : 0 < b - thr)] at h4
    have := (abs_lt.1 h4).1
    linarith

/-- Rounded sums of smaller terms are smaller. -/
theorem sum64_mono {rn : ℝ → ℝ} (h : Rounding rn) {l l' : List ℝ} (hl : List.Forall₂ (· ≤ ·) l l') :
    ∀ {a a' : ℝ}, a ≤ a' →
      l.foldl (fun a x => rn (a + x)) a ≤ l'.foldl (fun a x => rn (a + x)) a' := by
  induction hl with
  | nil => intro a a' ha; exact ha
  | cons hx _ ih =>
    intro a a' ha
    simp only [List.foldl_cons]
    exact ih (h.mono (add_le_add ha hx))

/-- **C109.** A larger charge never gives a smaller amplitude or integral. -/
theorem C109_monotone {rn : ℝ → ℝ} (h : Rounding rn) {R : List ℝ} (hne : R ≠ []) (hR : ∀ r ∈ R, 0 ≤ r)
    {e e' : ℝ} (he : 0 ≤ e) (hee : e ≤ e') :
    (apply_response64 rn R e).1 ≤ (apply_response64 rn R e').1 ∧
    (apply_response64 rn R e).2 ≤ (apply_response64 rn R e').2 := by
  constructor
  · rw [amplitude64_eq h hne he, amplitude64_eq h hne (he.trans hee)]
    have hm : 0 ≤ npMax R := hR _ (npMax_isMax R hne).1
    exact min_le_min (h.mono (mul_le_mul_of_nonneg_left hee hm)) le_rfl
  · unfold apply_response64
    simp only
    rw [signal64_eq, signal64_eq]
    refine sum64_mono h ?_ le_rfl
    rw [List.forall₂_map_left_iff, List.forall₂_map_right_iff]
    refine List.forall₂_same.2 fun r hr => ?_
    exact min_le_min (h.mono (mul_le_mul_of_nonneg_left hee (hR r hr))) le_rfl

/-- Rounded sums of at most `N` terms between 0 and 4095 stay below `4095 N`. -/
theorem sum64_le {rn : ℝ → ℝ} (h : Rounding rn) : ∀ {l : List ℝ} {a : ℝ} {k : ℕ},
    (∀ x ∈ l, 0 ≤ x ∧ x ≤ 4095) → 0 ≤ a → a ≤ 4095 * k → k + l.length ≤ 10 ^ 6 →
    0 ≤ l.foldl (fun a x => rn (a + x)) a ∧
      l.foldl (fun a x => rn (a + x)) a ≤ 4095 * ((k + l.length : ℕ) : ℝ)
  | [], a, k, _, h0, h1, _ => ⟨h0, by simpa using h1⟩
  | x :: l, a, k, hx, h0, h1, hk => by
    simp only [List.foldl_cons]
    obtain ⟨x0, x1⟩ := hx x (by simp)
    have hmem : (4095 * ((k + 1 : ℕ) : ℝ)) ∈ Binary64 := by
      have := int_mem (n := 4095 * (k + 1 : ℕ)) (by
        rw [List.length_cons] at hk
        rw [abs_of_nonneg (by positivity)]
        have : ((k + 1 : ℕ) : ℤ) ≤ 10 ^ 6 := by exact_mod_cast (by omega : k + 1 ≤ 10 ^ 6)
        norm_num at this ⊢
        linarith)
      simpa using this
    have := sum64_le h (l := l) (a := rn (a + x)) (k := k + 1) (fun y hy => hx y (List.mem_cons_of_mem _ hy))
      (h.nonneg (add_nonneg h0 x0)) (h.le_of_le hmem (by push_cast; linarith))
      (by rw [List.length_cons] at hk; omega)
    rw [List.length_cons, show k + (l.length + 1) = k + 1 + l.length by ring]
    exact this

/-- Error of a rounded sum whose terms are known up to rounding. -/
theorem sum64_error {rn : ℝ → ℝ} (h : Rounding rn) {S η : ℝ} (hη : η = 2 ^ (-1075 : ℤ)) (hS0 : 0 ≤ S)
    (hS : S ≤ 1e10) : ∀ {l l' : List ℝ}, List.Forall₂ (fun x x' => 0 ≤ x' ∧ |x - x'| ≤ uro * x' + η) l l' →
    ∀ {a a' : ℝ} {k : ℕ}, 0 ≤ a' → a' + l'.sum ≤ S → k + l.length ≤ 10 ^ 6 →
      |a - a'| ≤ k * (3 * (uro * S + η)) →
      |l.foldl (fun a x => rn (a + x)) a - (a' + l'.sum)| ≤ ((k + l.length : ℕ) : ℝ) * (3 * (uro * S + η)) := by
  intro l l' hl
  induction hl with
  | nil => intro a a' k _ _ _ hk; simpa using hk
  | @cons x x' l l' hx hl ih =>
    intro a a' k ha' hsum hk hd
    simp only [List.foldl_cons, List.sum_cons] at hsum ⊢
    obtain ⟨hx0, hxd⟩ := hx
    have hu := uro_pos
    have hu1 := uro_lt
    have hη0 : 0 < η := by rw [hη]; positivity
    have hηu : η ≤ uro := by rw [hη]; exact tiny_lt_uro
    have hl0 : 0 ≤ l'.sum := by
      apply List.sum_nonneg
      intro y hy
      obtain ⟨i, hi, rfl⟩ := List.mem_iff_getElem.1 hy
      have hi' : i < l.length := by rw [hl.length_eq]; exact hi
      exact (List.Forall₂.get hl hi' hi).1
    have hkR : (k : ℝ) ≤ 1e6 := by
      have : k ≤ 10 ^ 6 := by omega
      have : (k : ℝ) ≤ ((10 ^ 6 : ℕ) : ℝ) := by exact_mod_cast this
      refine this.trans (by norm_num)
    have hxS : x' ≤ S := by linarith
    have haS : a' + x' ≤ S := by linarith
    have hux : uro * x' ≤ uro * S := by gcongr
    obtain ⟨D, hD⟩ : ∃ D, D = uro * S + η := ⟨_, rfl⟩
    have hD0 : 0 < D := by rw [hD]; positivity
    have hDu : D ≤ uro * (1e10 + 1) := by rw [hD]; nlinarith
    rw [← hD] at hd ⊢
    have hxD : |x - x'| ≤ D := by rw [hD]; linarith
    have hsumd : |(a + x) - (a' + x')| ≤ (3 * k + 1) * D := by
      have : (a + x) - (a' + x') = (a - a') + (x - x') := by ring
      rw [this]
      refine (abs_add_le _ _).trans ?_
      linarith
    have habs : |a + x| ≤ S + (3 * k + 1) * D := by
      have : a + x = ((a + x) - (a' + x')) + (a' + x') := by ring
      rw [this]
      refine (abs_add_le _ _).trans ?_
      rw [abs_of_nonneg (by linarith : 0 ≤ a' + x')]
      linarith
    have hk0 : (0 : ℝ) ≤ k := Nat.cast_nonneg k
    have hkD : (3 * (k : ℝ) + 1) * D ≤ 1e7 * D := mul_le_mul_of_nonneg_right (by linarith) hD0.le
    have hbig : |a + x| ≤ 1e20 := by nlinarith
    have herr := h.err (x := a + x) (big_ge (by linarith))
    change |rn (a + x) - (a + x)| ≤ uro * |a + x| + _ at herr
    rw [← hη] at herr
    have hround : |rn (a + x) - (a + x)| ≤ 2 * D := by
      have h1 : uro * |a + x| ≤ uro * S + uro * (1e7 * D) := by
        rw [← mul_add]
        gcongr
        linarith
      have h2 : uro * (1e7 * D) ≤ D := by
        have : uro * 1e7 ≤ 1 := by linarith
        calc uro * (1e7 * D) = (uro * 1e7) * D := by ring
          _ ≤ 1 * D := by gcongr
          _ = D := one_mul D
      linarith
    have hnew : |rn (a + x) - (a' + x')| ≤ ((k + 1 : ℕ) : ℝ) * (3 * D) := by
      have : rn (a + x) - (a' + x') = (rn (a + x) - (a + x)) + ((a + x) - (a' + x')) := by ring
      rw [this]
      refine (abs_add_le _ _).trans ?_
      push_cast
      linarith
    have := ih (a := rn (a + x)) (a' := a' + x') (k := k + 1) (by linarith) (by linarith)
      (by rw [List.length_cons] at hk; omega) (by rw [← hD]; exact hnew)
    rw [List.length_cons, show k + (l.length + 1) = k + 1 + l.length by ring,
      show a' + (x' + l'.sum) = a' + x' + l'.sum by ring]
    rw [hD]
    exact this

/-- **C109.** The integral computed in float64 is at most 4095 times the number of samples and differs from the
exact one by at most the fraction 2e-13 of it (or by `1536` times half the smallest double). -/
theorem C109_integral {rn : ℝ → ℝ} (h : Rounding rn) {R : List ℝ} (hlen : R.length = NUM_TB)
    (hR : ∀ r ∈ R, 0 ≤ r) {e : ℝ} (he : 0 ≤ e) :
    0 ≤ (apply_response64 rn R e).2 ∧ (apply_response64 rn R e).2 ≤ 4095 * NUM_TB ∧
    |(apply_response64 rn R e).2 - (apply_response R e).2|
      ≤ 2e-13 * (apply_response R e).2 + 1536 * 2 ^ (-1075 : ℤ) := by
  have hN : NUM_TB = 512 := rfl
  have hη : (0 : ℝ) < 2 ^ (-1075 : ℤ) := by positivity
  unfold apply_response64
  rw [apply_response_eq]
  simp only
  rw [signal64_eq]
  have hterm : ∀ r ∈ R, 0 ≤ min (rn (r * e)) 4095 ∧ min (rn (r * e)) 4095 ≤ 4095 := fun r hr =>
    ⟨le_min (h.nonneg (mul_nonneg (hR r hr) he)) (by norm_num), min_le_right _ _⟩
  have hb := sum64_le h (l := R.map fun r => min (rn (r * e)) 4095) (a := 0) (k := 0)
    (by
      intro x hx
      obtain ⟨r, hr, rfl⟩ := List.mem_map.1 hx
      exact hterm r hr) le_rfl (by simp) (by rw [List.length_map, hlen, hN]; norm_num)
  rw [List.length_map, hlen, zero_add] at hb
  refine ⟨hb.1, hb.2, ?_⟩
  have hexact : ∀ x ∈ R.map fun r => min (r * e) 4095, 0 ≤ x ∧ x ≤ 4095 := by
    intro x hx
    obtain ⟨r, hr, rfl⟩ := List.mem_map.1 hx
    exact ⟨le_min (mul_nonneg (hR r hr) he) (by norm_num), min_le_right _ _⟩
  have hS0 : 0 ≤ (R.map fun r => min (r * e) 4095).sum := List.sum_nonneg fun x hx => (hexact x hx).1
  have hS1 : (R.map fun r => min (r * e) 4095).sum ≤ 1e10 := by
    have := List.sum_le_card_nsmul (R.map fun r => min (r * e) 4095) 4095 fun x hx => (hexact x hx).2
    rw [List.length_map, hlen, hN] at this
    refine this.trans ?_
    norm_num
  have herr := sum64_error h (η := 2 ^ (-1075 : ℤ)) rfl hS0 hS1
    (l := R.map fun r => min (rn (r * e)) 4095) (l' := R.map fun r => min (r * e) 4095)
    (by
      rw [List.forall₂_map_left_iff, List.forall₂_map_right_iff]
      refine List.forall₂_same.2 fun r hr => ?_
      have hx : 0 ≤ r * e := mul_nonneg (hR r hr) he
      generalize r * e = x at hx
      refine ⟨le_min hx (by norm_num), ?_⟩
      rcases le_or_gt x 4095 with hx1 | hx1
      · rw [min_eq_left hx1, min_eq_left (h.le_of_le adc_mem hx1)]
        have := h.err (x := x) (big_ge (by rw [abs_of_nonneg hx]; linarith))
        rwa [abs_of_nonneg hx] at this
      · rw [min_eq_right hx1.le, min_eq_right (h.ge_of_ge adc_mem hx1.le), sub_self, abs_zero]
        have := uro_pos
        positivity)
    (a := 0) (a' := 0) (k := 0) le_rfl (by rw [zero_add]) (by rw [List.length_map, hlen, hN]; norm_num)
    (by simp)
  rw [zero_add, List.length_map, hlen, hN, zero_add] at herr
  refine herr.trans ?_
  have hu : uro * 1536 ≤ 2e-13 := by unfold uro; norm_num
  generalize (R.map fun r => min (r * e) 4095).sum = S at *
  have : uro * 1536 * S ≤ 2e-13 * S := by gcongr
  push_cast
  linarith

/-- **C109.** Later arrival never means a larger z: sorting the stored rows by z sorts them by time. -/
theorem C109_order {rn : ℝ → ℝ} (h : Rounding rn) {M W : ℤ} (hMW : M < W) {L : ℝ} (hL : 0 ≤ L) {t t' : ℝ}
    (ht : t ≤ t') : position64 rn W M L t' ≤ position64 rn W M L t := by
  have hN : (0 : ℝ) < ((W - M : ℤ) : ℝ) := by exact_mod_cast (by omega : (0 : ℤ) < W - M)
  unfold position64
  apply h.mono
  refine mul_le_mul_of_nonneg_right (h.mono ?_) (by norm_num)
  refine mul_le_mul_of_nonneg_right (h.mono ?_) hL
  exact div_le_div_of_nonneg_right (h.mono (by linarith)) hN.le

/-- **C109.** The z coordinate of a time bucket between the edges lies between 0 and the length of the detector in
mm, and differs from the exact one by at most 1e-15 of that length. -/
theorem C109_position {rn : ℝ → ℝ} (h : Rounding rn) {M W : ℤ} (hM : 0 ≤ M) (hMW : M < W) (hW : W ≤ 1000)
    {L : ℝ} (hL0 : 1e-3 ≤ L) (hL1 : L ≤ 1e3) (hLm : L ∈ Binary64) {t : ℝ} (h0 : (M : ℝ) ≤ t)
    (h1 : t ≤ (W : ℝ)) :
    0 ≤ position64 rn W M L t ∧ position64 rn W M L t ≤ rn (L * 1000) ∧
    |position64 rn W M L t - ((W : ℝ) - t) / ((W - M : ℤ) : ℝ) * L * 1000| ≤ 1e-15 * (L * 1000) := by
  have hN1 : (1 : ℝ) ≤ ((W - M : ℤ) : ℝ) := by exact_mod_cast (by omega : (1 : ℤ) ≤ W - M)
  have hN2 : ((W - M : ℤ) : ℝ) ≤ 1000 := by exact_mod_cast (by omega : W - M ≤ (1000 : ℤ))
  have hNm : ((W - M : ℤ) : ℝ) ∈ Binary64 := int_mem (by
    rw [abs_of_pos (by omega)]
    have : W - M ≤ 1000 := by omega
    refine this.trans_lt (by norm_num))
  have hle : (W : ℝ) - t ≤ ((W - M : ℤ) : ℝ) := by push_cast; linarith
  have hd0 : 0 ≤ (W : ℝ) - t := by linarith
  unfold position64
  generalize ((W - M : ℤ) : ℝ) = N at *
  generalize (W : ℝ) - t = y at *
  have hu := uro_pos
  have hu1 := uro_lt
  have hη : (2 : ℝ) ^ (-1075 : ℤ) ≤ 1e-7 * uro := by
    have : (2 : ℝ) ^ (-1075 : ℤ) ≤ 2 ^ (-100 : ℤ) := zpow_le_zpow_right₀ (by norm_num) (by norm_num)
    refine this.trans ?_
    unfold uro
    norm_num
  have hN0 : 0 < N := by linarith
  have e1 := h.err (x := y) (big_ge (by rw [abs_of_nonneg hd0]; linarith))
  rw [abs_of_nonneg hd0] at e1
  change |rn y - y| ≤ uro * y + _ at e1
  have a0 : 0 ≤ rn y := h.nonneg hd0
  have a1 : rn y ≤ N := h.le_of_le hNm hle
  generalize rn y = a at *
  have q0 : 0 ≤ a / N := div_nonneg a0 hN0.le
  have q1 : a / N ≤ 1 := (div_le_one hN0).2 a1
  have one_mem : (1 : ℝ) ∈ Binary64 := by simpa using int_mem (n := 1) (by norm_num)
  have e2 := h.err (x := a / N) (big_ge (by rw [abs_of_nonneg q0]; linarith))
  rw [abs_of_nonneg q0] at e2
  change |rn (a / N) - a / N| ≤ uro * (a / N) + _ at e2
  have b0 : 0 ≤ rn (a / N) := h.nonneg q0
  have b1 : rn (a / N) ≤ 1 := h.le_of_le one_mem q1
  have e12 : |rn (a / N) - y / N| ≤ uro * (2 + 2e-7) := by
    have f1 : |a / N - y / N| ≤ uro * (1 + 1e-7) := by
      rw [← sub_div, abs_div, abs_of_pos hN0, div_le_iff₀ hN0]
      refine e1.trans ?_
      have : uro * y ≤ uro * N := by gcongr
      nlinarith
    have f2 : uro * (a / N) ≤ uro * 1 := by gcongr
    have : rn (a / N) - y / N = (rn (a / N) - a / N) + (a / N - y / N) := by ring
    rw [this]
    refine (abs_add_le _ _).trans ?_
    linarith
  generalize rn (a / N) = b at *
  have hL : 0 < L := by linarith
  have p0 : 0 ≤ b * L := mul_nonneg b0 hL.le
  have p1 : b * L ≤ L := mul_le_of_le_one_left hL.le b1
  have e3 := h.err (x := b * L) (big_ge (by rw [abs_of_nonneg p0]; linarith))
  rw [abs_of_nonneg p0] at e3
  change |rn (b * L) - b * L| ≤ uro * (b * L) + _ at e3
  have c0 : 0 ≤ rn (b * L) := h.nonneg p0
  have c1 : rn (b * L) ≤ L := h.le_of_le hLm p1
  have e13 : |rn (b * L) - y / N * L| ≤ uro * L * (3 + 2e-4) := by
    have f1 : |b * L - y / N * L| ≤ uro * (2 + 2e-7) * L := by
      rw [← sub_mul, abs_mul, abs_of_pos hL]
      gcongr
    have f2 : uro * (b * L) ≤ uro * L := by gcongr
    have f3 : 1e-7 * uro ≤ uro * L * 1e-4 := by nlinarith
    have : rn (b * L) - y / N * L = (rn (b * L) - b * L) + (b * L - y / N * L) := by ring
    rw [this]
    refine (abs_add_le _ _).trans ?_
    nlinarith
  generalize rn (b * L) = c at *
  have r0 : 0 ≤ c * 1000 := by positivity
  have r1 : c * 1000 ≤ L * 1000 := by linarith
  have e4 := h.err (x := c * 1000) (big_ge (by rw [abs_of_nonneg r0]; linarith))
  rw [abs_of_nonneg r0] at e4
  change |rn (c * 1000) - c * 1000| ≤ uro * (c * 1000) + _ at e4
  refine ⟨h.nonneg r0, h.mono r1, ?_⟩
  have f1 : |c * 1000 - y / N * L * 1000| ≤ uro * L * (3 + 2e-4) * 1000 := by
    rw [← sub_mul, abs_mul, abs_of_pos (by norm_num : (0 : ℝ) < 1000)]
    gcongr
  have f2 : uro * (c * 1000) ≤ uro * (L * 1000) := by gcongr
  have f3 : 1e-7 * uro ≤ uro * L * 1e-1 := by nlinarith
  have hu2 : uro * 4.1 ≤ 1e-15 := by unfold uro; norm_num
  have f4 : uro * 4.1 * (L * 1000) ≤ 1e-15 * (L * 1000) := by gcongr
  have : rn (c * 1000) - y / N * L * 1000 = (rn (c * 1000) - c * 1000) + (c * 1000 - y / N * L * 1000) := by ring
  rw [this]
  refine (abs_add_le _ _).trans ?_
  linarith

/-- A row in float64 beside the row with exact numbers: copied entries agree, computed ones up to rounding. -/
structure RowNear (L : ℝ) (m r : SpyralRow) : Prop where
  x : m.x = r.x
  y : m.y = r.y
  pad : m.pad = r.pad
  tb : m.tb = r.tb
  scale : m.scale = r.scale
  z : |m.z - r.z| ≤ 1e-15 * (L * 1000)
  amp : |m.amp - r.amp| ≤ 2e-16 * r.amp + 1e-50
  integral : |m.integral - r.integral| ≤ 2e-13 * r.integral + 1e-50

theorem convert_point64_near {rn : ℝ → ℝ} (h : Rounding rn) {R : List ℝ} (hlen : R.length = NUM_TB)
    (hR : ∀ r ∈ R, 0 ≤ r) {M W : ℤ} (hM : 0 ≤ M) (hMW : M < W) (hW : W ≤ 1000) {L : ℝ} (hL0 : 1e-3 ≤ L)
    (hL1 : L ≤ 1e3) (hLm : L ∈ Binary64) {centers : List (ℝ × ℝ)} {sizes : List ℝ} {p : CloudPoint}
    (he : 0 ≤ p.e) (h0 : (M : ℝ) ≤ p.tb) (h1 : p.tb ≤ (W : ℝ)) {r : SpyralRow}
    (hr : convert_point W M L R centers sizes p = .ok r) :
    ∃ m, convert_point64 rn W M L R centers sizes p = .ok m ∧ RowNear L m r := by
  have hne : R ≠ [] := by
    rintro rfl
    simp [NUM_TB] at hlen
  have hη : (2 : ℝ) ^ (-1075 : ℤ) ≤ 2 ^ (-1074 : ℤ) := zpow_le_zpow_right₀ (by norm_num) (by norm_num)
  have hη2 : (1536 : ℝ) * 2 ^ (-1075 : ℤ) ≤ 1e-50 := by
    have : (1536 : ℝ) * 2 ^ (-1075 : ℤ) ≤ 2 ^ (11 : ℤ) * 2 ^ (-1075 : ℤ) := by gcongr; norm_num
    refine this.trans ?_
    rw [← zpow_add₀ (by norm_num)]
    refine (zpow_le_zpow_right₀ (n := -200) (by norm_num) (by norm_num)).trans ?_
    norm_num
  have hp : (0 : ℝ) < 2 ^ (-1075 : ℤ) := by positivity
  obtain ⟨a0, -, a2⟩ := C109_amplitude h hne hR he
  obtain ⟨i0, -, i2⟩ := C109_integral h hlen hR he
  obtain ⟨-, -, z2⟩ := C109_position h hM hMW hW hL0 hL1 hLm h0 h1
  have hamp0 : 0 ≤ (apply_response R p.e).1 := by
    rw [amplitude_eq hne he]
    exact le_min (mul_nonneg (hR _ (npMax_isMax R hne).1) he) (by norm_num)
  unfold convert_point at hr
  unfold convert_point64
  cases hc : numbaGet centers (pyInt p.pad) with
  | error err => rw [hc] at hr; cases hr
  | ok c =>
    rw [hc] at hr
    cases hs : numbaGet sizes (pyInt p.pad) with
    | error err =>
      rw [hs] at hr
      have : W - M ≠ 0 := by omega
      simp only [bind, Except.bind, this, if_false] at hr
      cases hr
    | ok s =>
      rw [hs] at hr
      have hne0 : W - M ≠ 0 := by omega
      simp only [bind, Except.bind, hne0, if_false, pure, Except.pure] at hr ⊢
      injection hr with hr
      subst hr
      refine ⟨_, rfl, ⟨rfl, rfl, rfl, rfl, rfl, z2, ?_, ?_⟩⟩
      · refine a2.trans ?_
        have : (2 : ℝ) ^ (-53 : ℤ) ≤ 2e-16 := by norm_num
        have : (2 : ℝ) ^ (-53 : ℤ) * (apply_response R p.e).1 ≤ 2e-16 * (apply_response R p.e).1 := by gcongr
        simp only
        linarith
      · refine i2.trans ?_
        simp only
        linarith

/-- **C109.** Whenever the conversion with exact numbers gives rows, the conversion in float64 gives as many rows in
the same order, each near its counterpart. -/
theorem C109_rows {rn : ℝ → ℝ} (h : Rounding rn) {R : List ℝ} (hlen : R.length = NUM_TB)
    (hR : ∀ r ∈ R, 0 ≤ r) {M W : ℤ} (hM : 0 ≤ M) (hMW : M < W) (hW : W ≤ 1000) {L : ℝ} (hL0 : 1e-3 ≤ L)
    (hL1 : L ≤ 1e3) (hLm : L ∈ Binary64) {centers : List (ℝ × ℝ)} {sizes : List ℝ} :
    ∀ {points : List CloudPoint}, (∀ p ∈ points, 0 ≤ p.e ∧ (M : ℝ) ≤ p.tb ∧ p.tb ≤ (W : ℝ)) →
    ∀ {rows : List SpyralRow}, convert_to_spyral points W M L R centers sizes = .ok rows →
    ∃ rows64, convert_to_spyral64 rn points W M L R centers sizes = .ok rows64 ∧
      List.Forall₂ (RowNear L) rows64 rows
  | [], _, rows, hr => by
    unfold convert_to_spyral at hr
    rw [List.mapM_nil] at hr
    injection hr with hr
    subst hr
    exact ⟨[], rfl, .nil⟩
  | p :: ps, hp, rows, hr => by
    unfold convert_to_spyral at hr
    rw [List.mapM_cons] at hr
    cases hc : convert_point W M L R centers sizes p with
    | error err => rw [hc] at hr; cases hr
    | ok r =>
      cases hcs : ps.mapM (convert_point W M L R centers sizes) with
      | error err => rw [hc, hcs] at hr; cases hr
      | ok rs =>
        rw [hc, hcs] at hr
        injection hr with hr
        subst hr
        obtain ⟨q0, q1, q2⟩ := hp p (by simp)
        obtain ⟨m, hm, hmr⟩ := convert_point64_near h hlen hR hM hMW hW hL0 hL1 hLm q0 q1 q2 hc
        obtain ⟨ms, hms, hmsr⟩ := C109_rows h hlen hR hM hMW hW hL0 hL1 hLm (points := ps)
          (fun q hq => hp q (List.mem_cons_of_mem _ hq)) (rows := rs) hcs
        refine ⟨m :: ms, ?_, .cons hmr hmsr⟩
        unfold convert_to_spyral64 at hms ⊢
        rw [List.mapM_cons, hm, hms]
        rfl

/-- A detector of 1 m read out between buckets 10 and 510: a point with 1000 electrons at bucket 260 in the response
of 512 equal samples `1/2`, and its rounded row. -/
example {rn : ℝ → ℝ} (h : Rounding rn) : ∃ rows rows64,
    convert_to_spyral [⟨0, 260, 1000⟩] 510 10 1 (List.replicate NUM_TB (1 / 2)) [(3, 4)] [1] = .ok rows ∧
    convert_to_spyral64 rn [⟨0, 260, 1000⟩] 510 10 1 (List.replicate NUM_TB (1 / 2)) [(3, 4)] [1] = .ok rows64 ∧
    List.Forall₂ (RowNear 1) rows64 rows ∧ rows.map (·.z) = [500] := by
  have one_mem : (1 : ℝ) ∈ Binary64 := by simpa using int_mem (n := 1) (by norm_num)
  have hp : pyInt 0 = 0 := by simp [pyInt]
  have hr : ∃ r, convert_to_spyral [⟨0, 260, 1000⟩] 510 10 1 (List.replicate NUM_TB (1 / 2)) [(3, 4)] [1]
      = .ok [r] ∧ r.z = 500 := by
    unfold convert_to_spyral convert_point
    simp only [List.mapM_cons, List.mapM_nil, hp]
    refine ⟨_, rfl, ?_⟩
    norm_num
  obtain ⟨r, hr, hz⟩ := hr
  obtain ⟨m, hm, hmr⟩ := C109_rows h (R := List.replicate NUM_TB (1 / 2)) (by simp)
    (by intro r hr; rw [List.eq_of_mem_replicate hr]; norm_num) (M := 10) (W := 510) (by norm_num) (by norm_num)
    (by norm_num) (L := 1) (by norm_num) (by norm_num) one_mem (points := [⟨0, 260, 1000⟩])
    (by simp; norm_num) hr
  exact ⟨_, m, hr, hm, hmr, by simp [hz]⟩

/-- The decision of the threshold 40 for a signal of 100. -/
example {rn : ℝ → ℝ} (h : Rounding rn) : (apply_response64 rn [0, 1 / 2, 1, 1 / 2] 100).1 > 40 := by
  have hm : (apply_response [0, 1 / 2, 1, 1 / 2] 100).1 = 100 := by
    rw [apply_response_eq]
    simp only [List.map, npMax, List.foldl]
    norm_num
  rw [C109_threshold h (by simp) (by intro r hr; fin_cases hr <;> norm_num) (by norm_num)
    (by rw [hm]; norm_num [abs_of_pos]), hm]
  norm_num

end Verif.Machine
