import Verif.Detector.Pairing
import Verif.Tactics

/-! # C01: `pair` and `unpair` are mutually inverse -/

namespace Verif.Detector

/-- C01: unpairing the id of a valid pair gives the pair back, in the order (tb, pad). -/
theorem C01_unpair_pair (tb pad : ℤ) (htb : 0 ≤ tb) (hpad : 0 ≤ pad) :
    unpair (pair tb pad) = (tb, pad) := by
  obtain ⟨a, rfl⟩ := Int.eq_ofNat_of_zero_le htb
  obtain ⟨b, rfl⟩ := Int.eq_ofNat_of_zero_le hpad
  unfold pair
  rw [if_neg (by omega)]
  by_cases h : b ≤ a
  · have hs : Nat.sqrt (a * a + a + b) = a := by
      rw [Nat.add_assoc, Nat.sqrt_add_eq]; omega
    rw [if_pos (by omega)]
    unfold unpair
    have e : ((a : ℤ) * a + a + b).toNat = a * a + a + b := by
      have : ((a : ℤ) * a + a + b) = ((a * a + a + b : ℕ) : ℤ) := by push_cast; ring
      rw [this]; rfl
    have hn : ¬ ((a : ℤ) * a + a + b) < 0 := not_lt.2 (by positivity)
    rw [if_neg hn]
    simp only [e, hs]
    rw [if_neg (by nlinarith)]
    refine Prod.ext rfl ?_
    push_cast; ring
  · have hs : Nat.sqrt (b * b + a) = b := by
      rw [Nat.sqrt_add_eq]; omega
    rw [if_neg (by omega)]
    unfold unpair
    have e : ((b : ℤ) * b + a).toNat = b * b + a := by
      have : ((b : ℤ) * b + a) = ((b * b + a : ℕ) : ℤ) := by push_cast; ring
      rw [this]; rfl
    have hn : ¬ ((b : ℤ) * b + a) < 0 := not_lt.2 (by positivity)
    rw [if_neg hn]
    simp only [e, hs]
    rw [if_pos (by nlinarith)]
    refine Prod.ext ?_ rfl
    push_cast; ring

/-- C01: pairing the result of unpairing a non-negative id gives the id back. -/
theorem C01_pair_unpair (id : ℤ) (h : 0 ≤ id) :
    pair (unpair id).1 (unpair id).2 = id := by
  obtain ⟨n, rfl⟩ := Int.eq_ofNat_of_zero_le h
  have h1 := Nat.sqrt_le' n
  have h2 := Nat.lt_succ_sqrt' n
  unfold unpair
  rw [if_neg (by omega)]
  have e : ((n : ℤ)).toNat = n := rfl
  simp only [e]
  set r := Nat.sqrt n with hr
  have h1' : (r : ℤ) ^ 2 ≤ n := by exact_mod_cast h1
  have h2' : (n : ℤ) < ((r : ℤ) + 1) ^ 2 := by exact_mod_cast h2
  split_ifs with hc
  · unfold pair
    rw [if_neg (by push Not; constructor <;> simp <;> nlinarith),
      if_neg (by omega)]
    simp only; ring
  · unfold pair
    rw [if_neg (by push Not; constructor <;> simp <;> nlinarith),
      if_pos (max_eq_left (by nlinarith)).symm]
    simp only; ring

/-- C01: ids of valid pairs are non-negative, and an invalid pair gets the id -1. -/
theorem C01_pair_range (tb pad : ℤ) :
    (0 ≤ tb ∧ 0 ≤ pad → 0 ≤ pair tb pad) ∧ (tb < 0 ∨ pad < 0 → pair tb pad = -1) := by
  constructor
  · rintro ⟨h1, h2⟩
    unfold pair
    rw [if_neg (by omega)]
    split_ifs <;> positivity
  · intro h
    unfold pair
    rw [if_pos h]

/-- C01: a negative id unpairs to (-1, -1). -/
theorem C01_unpair_neg (id : ℤ) (h : id < 0) : unpair id = (-1, -1) := by
  unfold unpair; rw [if_pos h]

/-- C01: two different valid pairs never share an id. -/
theorem C01_pair_injective (tb pad tb' pad' : ℤ) (h1 : 0 ≤ tb) (h2 : 0 ≤ pad) (h3 : 0 ≤ tb')
    (h4 : 0 ≤ pad') (h : pair tb pad = pair tb' pad') : tb = tb' ∧ pad = pad' := by
  have a := C01_unpair_pair tb pad h1 h2
  have b := C01_unpair_pair tb' pad' h3 h4
  rw [h, b] at a
  exact ⟨congrArg Prod.fst a.symm, congrArg Prod.snd a.symm⟩

/-- C01: unpairing a non-negative id gives non-negative components. -/
theorem C01_unpair_nonneg (id : ℤ) (h : 0 ≤ id) : 0 ≤ (unpair id).1 ∧ 0 ≤ (unpair id).2 := by
  by_contra hc
  have := (C01_pair_range (unpair id).1 (unpair id).2).2 (by omega)
  rw [C01_pair_unpair id h] at this
  omega

/-- The hypotheses are met by a typical pad and time bucket (both branches of `pair`). -/
example : unpair (pair 511 10239) = (511, 10239) ∧ unpair (pair 400 37) = (400, 37) :=
  ⟨C01_unpair_pair _ _ (by decide) (by decide), C01_unpair_pair _ _ (by decide) (by decide)⟩

end Verif.Detector
