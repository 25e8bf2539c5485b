import Verif.Proofs.Float
import Verif.Props.Grid
import Verif.Props.Pairing

/-!
# Machine arithmetic: C02, C16, C19 (float64), C59

The same functions as in `Verif/Detector`, but every int64 operation wraps and every float64 operation
rounds to a nearest double.
-/

namespace Verif.Machine

open Verif.Detector Verif.Spec

/-! ## C02 -/

/-- C02: for every id below `2^52` the compiled `unpair` returns the exact mathematical result. -/
theorem C02_unpair_exact (rn : ℝ → ℝ) (h : Rounding rn) (id : ℤ) (hid : id < 2 ^ 52) :
    unpair64 rn id = (((unpair id).1 : ℝ), ((unpair id).2 : ℝ)) := by
  unfold unpair64 unpair
  by_cases h0 : id < 0
  · simp [h0]
  rw [if_neg h0, if_neg h0]
  push Not at h0
  have hidf : rn (id : ℝ) = id := h.int (by rw [abs_lt]; constructor <;> omega)
  simp only [hidf, floor_sqrt h h0 hid]
  set s : ℤ := (Nat.sqrt id.toNat : ℤ) with hs
  have l1 : s * s ≤ id := by
    have := Nat.sqrt_le id.toNat
    have h2 : ((Nat.sqrt id.toNat * Nat.sqrt id.toNat : ℕ) : ℤ) ≤ (id.toNat : ℤ) := by
      exact_mod_cast this
    rw [Int.toNat_of_nonneg h0] at h2
    push_cast at h2; exact h2
  have s0 : 0 ≤ s := by positivity
  have ss : s ≤ s * s := by nlinarith
  have e1 : rn ((s : ℝ) * (s : ℝ)) = ((s ^ 2 : ℤ) : ℝ) := by
    have := h.int (n := s ^ 2) (by rw [abs_lt]; constructor <;> nlinarith)
    rw [← this]; congr 1; push_cast; ring
  have e2 : rn ((id : ℝ) - ((s ^ 2 : ℤ) : ℝ)) = ((id - s ^ 2 : ℤ) : ℝ) := by
    have := h.int (n := id - s ^ 2) (by rw [abs_lt]; constructor <;> nlinarith)
    rw [← this]; congr 1; push_cast; ring
  have e3 : rn (((id - s ^ 2 : ℤ) : ℝ) - (s : ℝ)) = ((id - s ^ 2 - s : ℤ) : ℝ) := by
    have := h.int (n := id - s ^ 2 - s) (by rw [abs_lt]; constructor <;> nlinarith)
    rw [← this]; congr 1; push_cast; ring
  rw [e1, e2, e3]
  by_cases hc : id - s ^ 2 < s
  · rw [if_pos hc, if_pos (by exact_mod_cast hc)]
  · rw [if_neg hc, if_neg (by exact_mod_cast hc)]

/-- C02: the compiled `pair` does not overflow for arguments below `2^31`. -/
theorem C02_pair_exact (tb pad : ℤ) (h1 : tb < 2 ^ 31) (h2 : pad < 2 ^ 31) :
    pair64 tb pad = pair tb pad := pair64_eq h1 h2

/-- C02: in machine arithmetic `unpair(pair(tb, pad))` is exactly `(tb, pad)` for all
`0 ≤ tb, pad < 2^26`. -/
theorem C02_roundtrip (rn : ℝ → ℝ) (h : Rounding rn) (tb pad : ℤ) (h1 : 0 ≤ tb) (h2 : tb < 2 ^ 26)
    (h3 : 0 ≤ pad) (h4 : pad < 2 ^ 26) : unpair64 rn (pair64 tb pad) = ((tb : ℝ), (pad : ℝ)) := by
  have hb : pair tb pad < 2 ^ 52 := by
    unfold pair
    split
    · norm_num
    · split <;> nlinarith
  rw [C02_pair_exact tb pad (by omega) (by omega), C02_unpair_exact rn h _ hb,
    C01_unpair_pair tb pad h1 h3]

/-- C02: below `2^26` different pairs get different int64 keys. -/
theorem C02_injective (tb pad tb' pad' : ℤ) (h1 : 0 ≤ tb ∧ tb < 2 ^ 26) (h2 : 0 ≤ pad ∧ pad < 2 ^ 26)
    (h1' : 0 ≤ tb' ∧ tb' < 2 ^ 26) (h2' : 0 ≤ pad' ∧ pad' < 2 ^ 26)
    (h : pair64 tb pad = pair64 tb' pad') : tb = tb' ∧ pad = pad' := by
  obtain ⟨rn, hrn⟩ := exists_rounding
  have e := C02_roundtrip rn hrn tb pad h1.1 h1.2 h2.1 h2.2
  rw [h, C02_roundtrip rn hrn tb' pad' h1'.1 h1'.2 h2'.1 h2'.2] at e
  simp only [Prod.mk.injEq, Int.cast_inj] at e
  exact ⟨e.1.symm, e.2.symm⟩

/-- The largest pair covered, and a rounding to use it with. -/
example : ∃ rn, Rounding rn ∧ unpair64 rn (pair64 67108863 67108863) =
    (((67108863 : ℤ) : ℝ), ((67108863 : ℤ) : ℝ)) := by
  obtain ⟨rn, hrn⟩ := exists_rounding
  exact ⟨rn, hrn, C02_roundtrip rn hrn 67108863 67108863 (by norm_num) (by norm_num) (by norm_num) (by norm_num)⟩

/-! ## C16 -/

/-- The packaged grid edges as stored: -280, 279 and the double nearest 0.1. -/
noncomputable def packagedEdges64 : GridEdges := { low := -280, high := 279, bin := tenth64 }

/-- The stored step really is a nearest double to 0.1. -/
example (rn : ℝ → ℝ) (h : Rounding rn) : tenth64 ∈ Binary64 ∧ |rn 0.1 - 0.1| = |tenth64 - 0.1| := by
  have hm : tenth64 ∈ Binary64 :=
    mem_of_eq 3602879701896397 (-55) (by norm_num) (by norm_num) (by norm_num)
      (by unfold tenth64; norm_num)
  refine ⟨hm, le_antisymm ((h 0.1).2 _ hm) ?_⟩
  by_contra hc
  push Not at hc
  have hf := (h 0.1).1
  have hv : tenth64 = 0.1 + 2 ^ (-54 : ℤ) / 10 := by unfold tenth64; norm_num
  have hd : |tenth64 - 0.1| = 2 ^ (-54 : ℤ) / 10 := by rw [hv]; norm_num
  rw [hd] at hc
  -- a strictly nearer double would be a multiple of 2^-57 closer than the gap allows
  obtain ⟨m, e, hmm, he1, he2, hx⟩ := hf
  have hx1 : (0.0625 : ℝ) ≤ rn 0.1 := by
    apply h.ge_of_ge _ (by norm_num)
    exact mem_of_eq 1 (-4) (by norm_num) (by norm_num) (by norm_num) (by norm_num)
  have hp : (0 : ℝ) < (2 : ℝ) ^ e := by positivity
  have hm0 : (m : ℝ) < 2 ^ 53 := by
    have := (abs_lt.1 hmm).2
    exact_mod_cast this
  have he : -56 ≤ e := by
    have h1 : (2 : ℝ) ^ (-4 : ℤ) < (2 : ℝ) ^ (53 + e) := by
      rw [zpow_add₀ (by norm_num)]
      calc _ ≤ (m : ℝ) * 2 ^ e := by rw [← hx]; norm_num at hx1 ⊢; exact hx1
        _ < 2 ^ 53 * 2 ^ e := by gcongr
        _ = _ := by norm_num
    have := (zpow_lt_zpow_iff_right₀ (by norm_num : (1 : ℝ) < 2)).1 h1
    omega
  obtain ⟨a, ha⟩ := Int.eq_ofNat_of_zero_le (by omega : 0 ≤ e + 56)
  have hx' : rn 0.1 = ((m * 2 ^ a : ℤ) : ℝ) * 2 ^ (-56 : ℤ) := by
    have : e = (a : ℤ) + (-56) := by omega
    rw [hx, this, zpow_add₀ (by norm_num)]; push_cast; rw [zpow_natCast]; ring
  rw [hx', abs_lt] at hc
  generalize m * 2 ^ a = N at hc
  norm_num at hc
  have g1 : (N : ℝ) < 7205759403792794 := by linarith [hc.2]
  have g2 : (7205759403792793 : ℝ) < N := by linarith [hc.1]
  have g1' : N < 7205759403792794 := by exact_mod_cast g1
  have g2' : 7205759403792793 < N := by exact_mod_cast g2
  omega

/-- C16: dividing a whole number of millimetres by the stored step is exact after rounding. -/
theorem C16_division (rn : ℝ → ℝ) (h : Rounding rn) (k : ℤ) (hk0 : 0 ≤ k) (hk : k < 2 ^ 40) :
    rn ((k : ℝ) / tenth64) = ((10 * k : ℤ) : ℝ) := by
  rcases hk0.eq_or_lt with rfl | hpos
  · simpa using h.int (n := 0) (by norm_num)
  have ht : tenth64 = (1 + (2 : ℝ) ^ (-54 : ℤ)) / 10 := by unfold tenth64; norm_num
  obtain ⟨d, hd⟩ : ∃ d : ℝ, d = (2 : ℝ) ^ (-54 : ℤ) := ⟨_, rfl⟩
  rw [← hd] at ht
  have hd0 : 0 < d := by rw [hd]; positivity
  have hq : (k : ℝ) / tenth64 = ((10 * k : ℤ) : ℝ) / (1 + d) := by
    rw [ht]; push_cast; field_simp
  rw [hq]
  have hn0 : (0 : ℤ) < 10 * k := by omega
  generalize hn : 10 * k = n at hn0 ⊢
  -- the binade of n; n is a multiple of 5, so it is not a power of two
  obtain ⟨N, rfl⟩ := Int.eq_ofNat_of_zero_le hn0.le
  have hN0 : N ≠ 0 := by rintro rfl; simp at hn0
  set j := Nat.log 2 N with hj
  have j1 : 2 ^ j ≤ N := Nat.pow_log_le_self 2 hN0
  have j2 : N < 2 ^ (j + 1) := Nat.lt_pow_succ_log_self (by norm_num) N
  have j3 : 2 ^ j ≠ N := by
    intro he
    have : 5 ∣ 2 ^ j := by rw [he]; omega
    have := (Nat.Prime.dvd_of_dvd_pow (by decide : Nat.Prime 5) this)
    omega
  have j4 : j < 44 := by
    by_contra hc
    push Not at hc
    have : 2 ^ 44 ≤ 2 ^ j := Nat.pow_le_pow_right (by norm_num) hc
    omega
  have j5 : 2 ^ j + 1 ≤ N := by omega
  have hNb : |(N : ℤ)| < 2 ^ 53 := by rw [abs_lt]; constructor <;> omega
  have j5' : (2 : ℝ) ^ j + 1 ≤ (N : ℝ) := by exact_mod_cast j5
  have j2' : (N : ℝ) < (2 : ℝ) ^ j * 2 := by
    have : (N : ℝ) < (2 : ℝ) ^ (j + 1) := by exact_mod_cast j2
    rwa [pow_succ] at this
  have hq1 : ((N : ℤ) : ℝ) / (1 + d) ≤ ((N : ℤ) : ℝ) := by
    apply div_le_self (by positivity); linarith
  have herr : ((N : ℤ) : ℝ) - ((N : ℤ) : ℝ) / (1 + d) < (2 : ℝ) ^ j * 2 * d := by
    have : ((N : ℤ) : ℝ) - ((N : ℤ) : ℝ) / (1 + d) = (N : ℝ) * d / (1 + d) := by
      push_cast; field_simp; ring
    rw [this]
    calc (N : ℝ) * d / (1 + d) ≤ (N : ℝ) * d := by
          apply div_le_self (by positivity); linarith
      _ < _ := by gcongr
  have hj2d : (2 : ℝ) ^ j * 2 * d ≤ 1 := by
    have : (2 : ℝ) ^ j ≤ 2 ^ 44 := pow_le_pow_right₀ (by norm_num) j4.le
    have hd' : d = 1 / 2 ^ 54 := by rw [hd]; norm_num
    rw [hd']
    norm_num at this ⊢
    linarith
  have hup : rn (((N : ℤ) : ℝ) / (1 + d)) ≤ ((N : ℤ) : ℝ) := h.le_of_le (int_mem hNb) hq1
  rcases hup.eq_or_lt with he | hlt
  · exact he
  exfalso
  have hlow : (2 : ℝ) ^ (j : ℤ) ≤ rn (((N : ℤ) : ℝ) / (1 + d)) := by
    apply h.ge_of_ge
    · exact mem_of_eq 1 j (by norm_num) (by omega) (by omega) (by simp)
    · rw [zpow_natCast]
      push_cast at herr ⊢
      linarith
  have hg := gap (j := (j : ℤ)) (by omega) (h _).1 hlow hlt
  have hne := (h (((N : ℤ) : ℝ) / (1 + d))).2 _ (int_mem hNb)
  have hulp : (2 : ℝ) ^ ((j : ℤ) - 52) = (2 : ℝ) ^ j * 4 * d := by
    have : ((j : ℤ) - 52) = (j : ℤ) + 2 + (-54) := by ring
    rw [this, zpow_add₀ (by norm_num), zpow_add₀ (by norm_num), zpow_natCast, hd]
    norm_num
  rw [hulp] at hg
  generalize rn (((N : ℤ) : ℝ) / (1 + d)) = r at *
  generalize ((N : ℤ) : ℝ) / (1 + d) = q at *
  have a1 : |((N : ℤ) : ℝ) - q| = ((N : ℤ) : ℝ) - q := abs_of_nonneg (by linarith)
  rw [a1] at hne
  have a2 := neg_abs_le (r - q)
  linarith

/-- C16: with the packaged grid, the float64 index computation returns exactly
`10 * (floor + 280)` on both axes, for every position inside the grid (`x`, `y` are the coordinates in
millimetres as the machine holds them); rounding never moves a hit to a neighbouring row. -/
theorem C16_exact (rn : ℝ → ℝ) (h : Rounding rn) (pos : ℝ × ℝ)
    (hx1 : -280 ≤ ⌊rn (pos.1 * 1000)⌋) (hx2 : ⌊rn (pos.1 * 1000)⌋ < 279)
    (hy1 : -280 ≤ ⌊rn (pos.2 * 1000)⌋) (hy2 : ⌊rn (pos.2 * 1000)⌋ < 279) :
    position_to_index64 rn packagedEdges64 pos
      = (10 * (⌊rn (pos.1 * 1000)⌋ + 280), 10 * (⌊rn (pos.2 * 1000)⌋ + 280)) := by
  have key : ∀ n : ℤ, -280 ≤ n → n < 279 →
      pyInt (rn (rn ((n : ℝ) - (-280)) / tenth64)) = 10 * (n + 280) := by
    intro n h1 h2
    have e1 : rn ((n : ℝ) - (-280)) = ((n + 280 : ℤ) : ℝ) := by
      have := h.int (n := n + 280) (by rw [abs_lt]; constructor <;> omega)
      rw [← this]; congr 1; push_cast; ring
    rw [e1, C16_division rn h _ (by omega) (by omega), pyInt_of_nonneg]
    · exact Int.floor_intCast _
    · have : (0 : ℤ) ≤ 10 * (n + 280) := by omega
      exact_mod_cast this
  unfold position_to_index64 packagedEdges64
  simp only
  rw [if_neg, if_neg, key _ hx1 hx2, key _ hy1 hy2]
  · push Not
    constructor
    · exact_mod_cast hx1
    · exact_mod_cast hy1
  · push Not
    constructor
    · exact_mod_cast hx2
    · exact_mod_cast hy2

/-- C16: positions off the grid give the sentinel, in floating point too. -/
theorem C16_outside (rn : ℝ → ℝ) (pos : ℝ × ℝ)
    (h : ¬ ((-280 ≤ ⌊rn (pos.1 * 1000)⌋ ∧ ⌊rn (pos.1 * 1000)⌋ < 279) ∧
      (-280 ≤ ⌊rn (pos.2 * 1000)⌋ ∧ ⌊rn (pos.2 * 1000)⌋ < 279))) :
    position_to_index64 rn packagedEdges64 pos = (-1, -1) := by
  unfold position_to_index64 packagedEdges64
  simp only
  split_ifs with h1 h2
  · rfl
  · rfl
  · exfalso
    push Not at h1 h2
    apply h
    refine ⟨⟨?_, ?_⟩, ?_, ?_⟩
    · exact_mod_cast h2.1
    · exact_mod_cast h1.1
    · exact_mod_cast h2.2
    · exact_mod_cast h1.2

/-- C16: the float64 index agrees with the exact one of the packaged grid (C15) as soon as the
conversion to millimetres is exact. -/
theorem C16_agrees (rn : ℝ → ℝ) (h : Rounding rn) (pos : ℝ × ℝ)
    (hx : pos.1 * 1000 ∈ Binary64) (hy : pos.2 * 1000 ∈ Binary64) (hin : InGrid packagedEdges pos) :
    position_to_index64 rn packagedEdges64 pos = position_to_index packagedEdges pos := by
  rw [C15_packaged_rows pos hin]
  have key : ∀ u : ℝ, (⌈packagedEdges.low⌉ : ℝ) ≤ u ∧ u < (⌈packagedEdges.high⌉ : ℝ) →
      -280 ≤ ⌊u⌋ ∧ ⌊u⌋ < 279 := by
    intro u hu
    simp only [packagedEdges] at hu
    have e1 : ⌈(-280 : ℝ)⌉ = -280 := by simpa using Int.ceil_intCast (R := ℝ) (-280)
    have e2 : ⌈(279 : ℝ)⌉ = 279 := by simpa using Int.ceil_intCast (R := ℝ) (279)
    rw [e1, e2] at hu
    exact ⟨Int.le_floor.2 hu.1, Int.floor_lt.2 hu.2⟩
  have k1 := key _ hin.1
  have k2 := key _ hin.2
  have r1 := h.exact hx
  have r2 := h.exact hy
  rw [C16_exact rn h pos (by rw [r1]; exact k1.1) (by rw [r1]; exact k1.2)
    (by rw [r2]; exact k2.1) (by rw [r2]; exact k2.2), r1, r2]

/-- A position inside the grid: (12.5 mm, -3 mm). -/
example (rn : ℝ → ℝ) (h : Rounding rn) :
    position_to_index64 rn packagedEdges64 (0.0125, -0.003) = (2920, 2770) := by
  have e1 : rn (0.0125 * 1000) = 12.5 := by
    rw [show (0.0125 * 1000 : ℝ) = 12.5 by norm_num]
    exact h.exact (mem_of_eq 25 (-1) (by norm_num) (by norm_num) (by norm_num) (by norm_num))
  have e2 : rn (-0.003 * 1000) = ((-3 : ℤ) : ℝ) := by
    rw [show (-0.003 * 1000 : ℝ) = ((-3 : ℤ) : ℝ) by norm_num]
    exact h.int (by norm_num)
  have f1 : ⌊(12.5 : ℝ)⌋ = 12 := by rw [Int.floor_eq_iff]; norm_num
  have f2 : ⌊((-3 : ℤ) : ℝ)⌋ = -3 := Int.floor_intCast _
  have := C16_exact rn h (0.0125, -0.003)
  simp only [e1, e2, f1, f2] at this
  simpa using this (by norm_num) (by norm_num) (by norm_num) (by norm_num)

/-! ## C19 in float64 -/

/-- C19 in float64 is false: the offset `1 - 2^-53`, the largest value `rng.uniform(0, 1)` returns,
turns time bucket 511 into 512.0, which the following mask then removes. -/
theorem C19_float_refuted (rn : ℝ → ℝ) (h : Rounding rn) :
    ∃ (tb : ℤ) (u : ℝ), 0 ≤ tb ∧ tb < 512 ∧ 0 ≤ u ∧ u < 1 ∧ u ∈ Binary64 ∧
      wiggle64 rn tb u = 512 ∧ ⌊wiggle64 rn tb u⌋ ≠ tb := by
  have hu : (1 - 2 ^ (-53 : ℤ) : ℝ) ∈ Binary64 :=
    mem_of_eq (2 ^ 53 - 1) (-53) (by norm_num) (by norm_num) (by norm_num) (by norm_num)
  have key : wiggle64 rn 511 (1 - 2 ^ (-53 : ℤ)) = 512 := by
    unfold wiggle64
    set x : ℝ := ((511 : ℤ) : ℝ) + (1 - 2 ^ (-53 : ℤ)) with hx
    have hx' : x = 512 - 2 ^ (-53 : ℤ) := by rw [hx]; norm_num
    have m512 : (512 : ℝ) ∈ Binary64 := by
      simpa using int_mem (n := 512) (by norm_num)
    have hup : rn x ≤ 512 := h.le_of_le m512 (by rw [hx']; norm_num)
    rcases hup.eq_or_lt with he | hlt
    · exact he
    exfalso
    have hlow : (2 : ℝ) ^ (8 : ℤ) ≤ rn x := by
      apply h.ge_of_ge (mem_of_eq 1 8 (by norm_num) (by norm_num) (by norm_num) (by simp))
      rw [hx']; norm_num
    have hg := gap (j := 8) (n := 512) (by norm_num) (h x).1 hlow (by exact_mod_cast hlt)
    have hne := (h x).2 _ m512
    rw [hx'] at hne
    rw [hx'] at hg
    have a2 := neg_abs_le (rn (512 - 2 ^ (-53 : ℤ)) - (512 - 2 ^ (-53 : ℤ)))
    have a1 : |(512 : ℝ) - (512 - 2 ^ (-53 : ℤ))| = 2 ^ (-53 : ℤ) := by norm_num
    rw [a1] at hne
    generalize rn (512 - 2 ^ (-53 : ℤ)) = r at *
    norm_num at hg hne a2
    linarith
  refine ⟨511, 1 - 2 ^ (-53 : ℤ), by norm_num, by norm_num, ?_, ?_, hu, key, ?_⟩
  · norm_num
  · norm_num
  · rw [key]; norm_num

/-- C19 in float64, partial: the integer part is kept for every time bucket of the window whenever the
offset is at most `1 - 2^-44`; only the last `2^-44` of the offsets can round up. -/
theorem C19_float_partial (rn : ℝ → ℝ) (h : Rounding rn) (tb : ℤ) (u : ℝ) (h0 : 0 ≤ tb)
    (h1 : tb < 512) (hu0 : 0 ≤ u) (hu : u ≤ 1 - 2 ^ (-44 : ℤ)) : ⌊wiggle64 rn tb u⌋ = tb := by
  unfold wiggle64
  rw [Int.floor_eq_iff]
  constructor
  · apply h.ge_of_ge (int_mem _) (by linarith)
    rw [abs_lt]; constructor <;> omega
  · have hm := pred_mem (n := tb + 1) 9 44 (by omega) (by norm_num; omega) (by norm_num)
    have hle : (tb : ℝ) + u ≤ ((tb + 1 : ℤ) : ℝ) - (2 : ℝ) ^ (-((44 : ℕ) : ℤ)) := by
      push_cast at hu ⊢; linarith
    have := h.le_of_le hm hle
    have hp : (0 : ℝ) < (2 : ℝ) ^ (-((44 : ℕ) : ℤ)) := by positivity
    push_cast at this hp ⊢
    linarith

/-- C19 in float64: no offset in `[0, 1)` can move a time bucket by more than to the next integer, and
never below itself. -/
theorem C19_float_bound_partial (rn : ℝ → ℝ) (h : Rounding rn) (tb : ℤ) (u : ℝ) (h0 : 0 ≤ tb)
    (h1 : tb < 512) (hu0 : 0 ≤ u) (hu : u < 1) :
    (tb : ℝ) ≤ wiggle64 rn tb u ∧ wiggle64 rn tb u ≤ tb + 1 := by
  unfold wiggle64
  constructor
  · apply h.ge_of_ge (int_mem _) (by linarith)
    rw [abs_lt]; constructor <;> omega
  · have := h.le_of_le (int_mem (n := tb + 1) (by rw [abs_lt]; constructor <;> omega))
      (x := (tb : ℝ) + u) (by push_cast; linarith)
    push_cast at this; exact this

/-- C19 in float64, the exact condition: a time bucket `tb` with `2^k ≤ tb < 2^(k+1)` keeps its
integer part for offsets below `1 - 2^(k-53)` and becomes `tb + 1` for offsets above (at that very
offset the two neighbours are equally near). Time bucket 0 keeps its integer part always. -/
theorem C19_float_exact_partial (rn : ℝ → ℝ) (h : Rounding rn) (u : ℝ) (hu0 : 0 ≤ u) (hu : u < 1) :
    (u ∈ Binary64 → ⌊wiggle64 rn 0 u⌋ = 0) ∧
    ∀ (k : ℕ) (tb : ℤ), k ≤ 8 → 2 ^ k ≤ tb → tb < 2 ^ (k + 1) →
      (u < 1 - 2 ^ ((k : ℤ) - 53) → ⌊wiggle64 rn tb u⌋ = tb) ∧
      (1 - 2 ^ ((k : ℤ) - 53) < u → wiggle64 rn tb u = tb + 1) := by
  constructor
  · intro hm
    unfold wiggle64
    rw [Int.cast_zero, zero_add, h.exact hm, Int.floor_eq_iff]
    simp [hu0, hu]
  · intro k tb hk h0 h1
    have hk1 : (2 : ℤ) ^ (k + 1) ≤ 512 := by
      calc (2 : ℤ) ^ (k + 1) ≤ 2 ^ (8 + 1) := pow_le_pow_right₀ (by norm_num) (by omega)
        _ = 512 := by norm_num
    have hk0 : (1 : ℤ) ≤ 2 ^ k := one_le_pow₀ (by norm_num)
    have htb := C19_float_bound_partial rn h tb u (by omega) (by omega) hu0 hu
    unfold wiggle64 at htb ⊢
    set x : ℝ := (tb : ℝ) + u with hx
    have hhalf : (2 : ℝ) ^ ((k : ℤ) - 52) = 2 * 2 ^ ((k : ℤ) - 53) := by
      rw [show ((k : ℤ) - 52) = ((k : ℤ) - 53) + 1 by ring, zpow_add_one₀ (by norm_num)]; ring
    have hpos : (0 : ℝ) < 2 ^ ((k : ℤ) - 53) := by positivity
    have hpred := pred_mem (n := tb + 1) (k + 1) (52 - k) (by omega) (by omega) (by omega)
    rw [show (-((52 - k : ℕ) : ℤ)) = (k : ℤ) - 52 by omega, hhalf] at hpred
    have hnext : ((tb + 1 : ℤ) : ℝ) ∈ Binary64 := int_mem (by rw [abs_lt]; constructor <;> omega)
    rw [Int.cast_add, Int.cast_one] at hpred hnext
    constructor
    · intro hlt
      rw [Int.floor_eq_iff]
      refine ⟨htb.1, ?_⟩
      rcases le_total x ((tb : ℝ) + 1 - 2 * 2 ^ ((k : ℤ) - 53)) with hle | hge
      · have := h.le_of_le hpred hle
        linarith
      · have h3 := (h x).2 _ hpred
        rw [abs_of_nonpos (sub_nonpos.2 hge)] at h3
        have := le_abs_self (rn x - x)
        linarith
    · intro hgt
      rcases htb.2.eq_or_lt with he | hlt
      · exact he
      exfalso
      have hlow : (2 : ℝ) ^ (k : ℤ) ≤ rn x := by
        refine le_trans ?_ htb.1
        rw [zpow_natCast]
        exact_mod_cast h0
      have hg := gap (j := k) (n := tb + 1) (by omega) (h x).1 hlow (by push_cast; exact hlt)
      rw [Int.cast_add, Int.cast_one, hhalf] at hg
      have h3 := (h x).2 _ hnext
      rw [abs_of_nonneg (show (0 : ℝ) ≤ (tb : ℝ) + 1 - x by linarith)] at h3
      have := neg_abs_le (rn x - x)
      linarith

/-- In the last time bucket the offsets above `1 - 2^-45` are moved: 255 of the `2^53` values of the
generator, and the 256th according to the rule for ties. -/
example (rn : ℝ → ℝ) (h : Rounding rn) (u : ℝ) (hu : u < 1) (hl : 1 - 2 ^ (-45 : ℤ) < u) :
    wiggle64 rn 511 u = 512 := by
  have h0 : 0 ≤ u := le_trans (by norm_num) hl.le
  have := ((C19_float_exact_partial rn h u h0 hu).2 8 511 le_rfl (by norm_num) (by norm_num)).2
    (by norm_num at hl ⊢; exact hl)
  rw [this]; norm_num

/-- Offsets within the bound exist. -/
example : (0 : ℝ) ≤ 0.9999999 ∧ (0.9999999 : ℝ) ≤ 1 - 2 ^ (-44 : ℤ) := by norm_num

/-! ## C59 -/

/-- The dictionary built by a history of deposits in machine arithmetic. -/
def applyDeposits64 (p : Points) (h : List Deposit) : Points :=
  h.foldl (fun p d => addCharge64 p d.tb d.pad d.e d.label) p

/-- C59: for every history of deposits of non-negative charges whose total is below `2^63`, on time
buckets and pads below `2^31`, the int64 dictionary is the exact one: every counter holds the exact
integer sum. -/
theorem C59_exact (h : List Deposit) (hpos : ∀ d ∈ h, 0 ≤ d.e) (htot : (h.map (·.e)).sum < 2 ^ 63)
    (hrange : ∀ d ∈ h, d.tb < 2 ^ 31 ∧ d.pad < 2 ^ 31) :
    applyDeposits64 [] h = applyDeposits [] h := by
  induction h using List.reverseRecOn with
  | nil => rfl
  | append_singleton h a ih =>
    have hs : ∀ l : List Deposit, (∀ d ∈ l, 0 ≤ d.e) → 0 ≤ (l.map (·.e)).sum := by
      intro l hl
      apply List.sum_nonneg
      intro x hx
      obtain ⟨d, hd, rfl⟩ := List.mem_map.1 hx
      exact hl d hd
    have ha := hpos a (by simp)
    rw [List.map_append, List.sum_append] at htot
    simp only [List.map_cons, List.map_nil, List.sum_cons, List.sum_nil, add_zero] at htot
    have hpos' : ∀ d ∈ h, 0 ≤ d.e := fun d hd => hpos d (by simp [hd])
    have ih' := ih hpos' (by linarith) (fun d hd => hrange d (by simp [hd]))
    have e1 : applyDeposits64 [] (h ++ [a])
        = addCharge64 (applyDeposits64 [] h) a.tb a.pad a.e a.label := by
      simp [applyDeposits64]
    rw [e1, ih', applyDeposits_concat]
    unfold addCharge64 applyDeposit addCharge
    rw [pair64_eq (hrange a (by simp)).1 (hrange a (by simp)).2]
    have hc := applyDeposits_get_key [] h (pair a.tb a.pad)
    have hz : (Points.get [] (pair a.tb a.pad) (0, 0)).1 = 0 := rfl
    rw [hz, zero_add] at hc
    have c0 : 0 ≤ ((applyDeposits [] h).get (pair a.tb a.pad) (0, 0)).1 := by
      rw [hc]; exact hs _ (fun d hd => hpos' d (List.mem_filter.1 hd).1)
    have c1 : ((applyDeposits [] h).get (pair a.tb a.pad) (0, 0)).1 ≤ (h.map (·.e)).sum := by
      rw [hc]
      have hsub : ((h.filter fun d => decide (depKey d = pair a.tb a.pad)).map (·.e)).Sublist
          (h.map (·.e)) := (List.filter_sublist).map _
      apply List.Sublist.sum_le_sum hsub
      intro x hx
      obtain ⟨d, hd, rfl⟩ := List.mem_map.1 hx
      exact hpos' d hd
    simp only
    rw [wrap64_eq] <;> linarith

/-- C59: hence reading the counter of a valid cell gives the exact charge of that cell. -/
theorem C59_charge (h : List Deposit) (hpos : ∀ d ∈ h, 0 ≤ d.e)
    (htot : (h.map (·.e)).sum < 2 ^ 63) (hrange : ∀ d ∈ h, d.tb < 2 ^ 31 ∧ d.pad < 2 ^ 31)
    (tb pad : ℤ) (h1 : 0 ≤ tb) (h2 : tb < 2 ^ 31) (h3 : 0 ≤ pad) (h4 : pad < 2 ^ 31) :
    ((applyDeposits64 [] h).get (pair64 tb pad) (0, 0)).1 = chargeAt h tb pad := by
  rw [C59_exact h hpos htot hrange, pair64_eq h2 h4, applyDeposits_get_key]
  have hz : (Points.get [] (pair tb pad) (0, 0)).1 = 0 := rfl
  rw [hz, zero_add, filter_depKey h tb pad h1 h3]
  rfl

/-- C59: the float64 point array shows a charge below `2^53` exactly (`dict_to_points`,
detector/simulator.py:19-49, stores it as a double). -/
theorem C59_stored (rn : ℝ → ℝ) (hr : Rounding rn) (c : ℤ) (h0 : 0 ≤ c) (h1 : c < 2 ^ 53) :
    rn (c : ℝ) = c := hr.int (by rw [abs_lt]; constructor <;> omega)

/-- The bound is needed: one electron more than `2^63 - 1` makes the counter negative. -/
theorem C59_bound_needed :
    ((applyDeposits64 [] [⟨3, 5, 2 ^ 63 - 1, 0⟩, ⟨3, 5, 1, 0⟩]).get (pair64 3 5) (0, 0)).1 < 0 := by
  decide

/-- A history with the hypotheses of C59 that hits one cell twice. -/
example : ((applyDeposits64 [] [⟨3, 5, 100, 2⟩, ⟨3, 6, 7, 2⟩, ⟨3, 5, 11, 3⟩]).get (pair64 3 5) (0, 0)).1
    = 111 := by decide

end Verif.Machine
