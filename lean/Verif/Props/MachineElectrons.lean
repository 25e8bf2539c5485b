import Verif.Proofs.Electrons64

/-! # C110: kinetic energies and primary electrons in machine arithmetic -/

namespace Verif.Machine

open Verif.Detector

/-- The relativistic factor for `γβ = g`. -/
noncomputable def lorentz (g : ℝ) : ℝ := Real.sqrt (1 + g ^ 2)

theorem lorentz_ge (g : ℝ) : 1 ≤ lorentz g := by
  unfold lorentz
  rw [Real.one_le_sqrt]
  nlinarith [sq_nonneg g]

theorem lorentz_le {g : ℝ} (h0 : 0 ≤ g) : lorentz g ≤ 1 + g := by
  unfold lorentz
  rw [Real.sqrt_le_left (by linarith)]
  nlinarith

theorem gamma_eq {g : ℝ} (hg : 0 < g) : g / betaOf g = lorentz g := by
  unfold betaOf lorentz
  have h1 : (0 : ℝ) < 1 + g ^ 2 := by positivity
  rw [Real.sqrt_div (by positivity), Real.sqrt_sq hg.le]
  have := Real.sqrt_pos.2 h1
  field_simp

/-- The computed norm of the momentum has a relative error of a few roundings. -/
theorem gv64_near {rn : ℝ → ℝ} (h : Rounding rn) {s : Row} (h1 : 1e-12 ≤ s.gv) (h2 : s.gv ≤ 1e6) :
    Wn 3 (gv64 rn s) s.gv := by
  have hu := uro_pos
  have hu1 := uro_lt
  obtain ⟨η, hη⟩ : ∃ η : ℝ, η = 2 ^ (-1075 : ℤ) := ⟨_, rfl⟩
  have hη0 : 0 < η := by rw [hη]; positivity
  have hη1 : η ≤ 1e-50 := by
    rw [hη]
    refine (zpow_le_zpow_right₀ (n := -200) (by norm_num) (by norm_num)).trans ?_
    norm_num
  have hu2 : 1e-17 ≤ uro := by unfold uro; norm_num
  unfold Row.gv at h1 h2 ⊢
  unfold gv64
  have a0 := sq_nonneg s.gvx
  have b0 := sq_nonneg s.gvy
  have c0 := sq_nonneg s.gvz
  generalize s.gvx ^ 2 = a at *
  generalize s.gvy ^ 2 = b at *
  generalize s.gvz ^ 2 = c at *
  have hS1 : (1e-24 : ℝ) ≤ a + b + c := by
    have := Real.le_sqrt' (x := 1e-12) (y := a + b + c) (by norm_num) |>.1 h1
    refine le_trans ?_ this
    norm_num
  have hS2 : a + b + c ≤ 1e12 := by
    have := (Real.sqrt_le_left (by norm_num)).1 h2
    refine this.trans ?_
    norm_num
  have step : ∀ x : ℝ, 0 ≤ x → x ≤ 1e20 → x * (1 - uro) - η ≤ rn x ∧ rn x ≤ x * (1 + uro) + η := by
    intro x hx0 hx1
    have := h.err (x := x) (big_ge (by rw [abs_of_nonneg hx0]; linarith))
    rw [abs_of_nonneg hx0, ← hη] at this
    change |rn x - x| ≤ uro * x + η at this
    obtain ⟨p, q⟩ := abs_le.1 this
    constructor <;> linarith
  obtain ⟨A1, A2⟩ := step a a0 (by linarith)
  obtain ⟨B1, B2⟩ := step b b0 (by linarith)
  obtain ⟨C1, C2⟩ := step c c0 (by linarith)
  have A0 := h.nonneg a0
  have B0 := h.nonneg b0
  have C0 := h.nonneg c0
  have ua : a * uro ≤ a := mul_le_of_le_one_right a0 (by linarith)
  have ub : b * uro ≤ b := mul_le_of_le_one_right b0 (by linarith)
  have uc : c * uro ≤ c := mul_le_of_le_one_right c0 (by linarith)
  generalize rn a = A at *
  generalize rn b = B at *
  generalize rn c = D at *
  obtain ⟨E1, E2⟩ := step (A + B) (by linarith) (by linarith)
  have E0 := h.nonneg (x := A + B) (by linarith)
  have E3 : rn (A + B) ≤ 2 * (A + B) + η := by
    have : (A + B) * uro ≤ A + B := mul_le_of_le_one_right (by linarith) (by linarith)
    linarith
  generalize rn (A + B) = E at *
  obtain ⟨F1, F2⟩ := step (E + D) (by linarith) (by linarith)
  have hw : Wn 4 (rn (E + D)) (a + b + c) := by
    generalize rn (E + D) = F at *
    have hS : (a + b + c) * uro ≥ 1e-41 := by nlinarith
    have o1 := omu_pos
    have o2 := omu_le
    constructor
    · -- lower bound
      have l1 : (a + b) * (1 - uro) - 2 * η ≤ A + B := by linarith
      have l2 : ((a + b) * (1 - uro) - 2 * η) * (1 - uro) - η ≤ E := by
        refine le_trans ?_ E1
        have := mul_le_mul_of_nonneg_right l1 o1.le
        linarith
      have l2' : (a + b) * (1 - uro) ^ 2 - 3 * η ≤ E := by nlinarith
      have l3' : (a + b + c) * (1 - uro) ^ 2 - 4 * η ≤ E + D := by
        have : c * (1 - uro) ^ 2 ≤ c * (1 - uro) := by
          rw [pow_two, ← mul_assoc]
          exact mul_le_of_le_one_right (mul_nonneg c0 o1.le) o2
        linarith
      have l4 : (a + b + c) * (1 - uro) ^ 3 - 5 * η ≤ F := by
        refine le_trans ?_ F1
        have := mul_le_mul_of_nonneg_right l3' o1.le
        have h4 : 4 * η * (1 - uro) ≤ 4 * η := mul_le_of_le_one_right (by linarith) o2
        nlinarith
      refine le_trans ?_ l4
      have e4 : (a + b + c) * (1 - uro) ^ 4 = (a + b + c) * (1 - uro) ^ 3 - (a + b + c) * uro * (1 - uro) ^ 3 := by
        ring
      have e5 : 1 / 2 ≤ (1 - uro) ^ 3 := by
        have : (1 - 1e-15 : ℝ) ^ 3 ≤ (1 - uro) ^ 3 := by gcongr
        refine le_trans ?_ this
        norm_num
      have e6 : (1e-41 : ℝ) * (1 / 2) ≤ (a + b + c) * uro * (1 - uro) ^ 3 :=
        mul_le_mul hS e5 (by norm_num) (by positivity)
      linarith
    · -- upper bound
      have q1 : (1 + uro) * (1 - uro) ≤ 1 := by nlinarith
      have l1 : A + B ≤ (a + b) * (1 + uro) + 2 * η := by linarith
      have l2 : E * (1 - uro) ≤ (a + b) * (1 + uro) + 3 * η := by
        calc E * (1 - uro) ≤ ((A + B) * (1 + uro) + η) * (1 - uro) := by gcongr
          _ = (A + B) * ((1 + uro) * (1 - uro)) + η * (1 - uro) := by ring
          _ ≤ (A + B) * 1 + η * 1 := by gcongr
          _ ≤ _ := by linarith
      have l3 : E * (1 - uro) ^ 2 ≤ (a + b) + 3 * η := by
        calc E * (1 - uro) ^ 2 = E * (1 - uro) * (1 - uro) := by ring
          _ ≤ ((a + b) * (1 + uro) + 3 * η) * (1 - uro) := by gcongr
          _ = (a + b) * ((1 + uro) * (1 - uro)) + 3 * η * (1 - uro) := by ring
          _ ≤ (a + b) * 1 + 3 * η * 1 := by gcongr
          _ = _ := by ring
      have l4 : D * (1 - uro) ^ 2 ≤ c + η := by
        calc D * (1 - uro) ^ 2 ≤ D * (1 - uro) := by
              rw [pow_two, ← mul_assoc]
              exact mul_le_of_le_one_right (mul_nonneg C0 o1.le) o2
          _ ≤ (c * (1 + uro) + η) * (1 - uro) := by gcongr
          _ = c * ((1 + uro) * (1 - uro)) + η * (1 - uro) := by ring
          _ ≤ c * 1 + η * 1 := by gcongr
          _ = _ := by ring
      have l5 : F * (1 - uro) ^ 3 ≤ a + b + c + 5 * η := by
        calc F * (1 - uro) ^ 3 ≤ ((E + D) * (1 + uro) + η) * (1 - uro) ^ 3 := by gcongr
          _ = (E * (1 - uro) ^ 2 + D * (1 - uro) ^ 2) * ((1 + uro) * (1 - uro)) + η * (1 - uro) ^ 3 := by ring
          _ ≤ (E * (1 - uro) ^ 2 + D * (1 - uro) ^ 2) * 1 + η * 1 := by
            gcongr
            exact pow_le_one₀ o1.le o2
          _ ≤ _ := by linarith
      have l6 : F * (1 - uro) ^ 4 ≤ (a + b + c + 5 * η) * (1 - uro) := by
        calc F * (1 - uro) ^ 4 = F * (1 - uro) ^ 3 * (1 - uro) := by ring
          _ ≤ _ := by gcongr
      have : 5 * η * (1 - uro) ≤ 5 * η := mul_le_of_le_one_right (by linarith) o2
      linarith
  have hs : Wn 2 (Real.sqrt (rn (E + D))) (Real.sqrt (a + b + c)) := Wn.sqrt (k := 2) hw
  refine Wn.round h hs ?_ ?_
  · have := hs.low
    have e5 : 1 / 2 ≤ (1 - uro) ^ 2 := by
      have : (1 - 1e-15 : ℝ) ^ 2 ≤ (1 - uro) ^ 2 := by gcongr
      refine le_trans ?_ this
      norm_num
    have : (1e-12 : ℝ) * (1 / 2) ≤ Real.sqrt (a + b + c) * (1 - uro) ^ 2 :=
      mul_le_mul h1 e5 (by norm_num) (by positivity)
    linarith
  · have := hs.up
    have e5 : 1 / 2 ≤ (1 - uro) ^ 2 := by
      have : (1 - 1e-15 : ℝ) ^ 2 ≤ (1 - uro) ^ 2 := by gcongr
      refine le_trans ?_ this
      norm_num
    have h0 := Real.sqrt_nonneg (rn (E + D))
    have : Real.sqrt (rn (E + D)) * (1 / 2) ≤ Real.sqrt (rn (E + D)) * (1 - uro) ^ 2 := by gcongr
    linarith

/-- The computed velocity for a given norm. -/
theorem beta64_near {rn : ℝ → ℝ} (h : Rounding rn) {g : ℝ} (h1 : 1e-13 ≤ g) (h2 : g ≤ 1e7) :
    Wn 3 (beta64 rn g) (betaOf g) := by
  have hg : 0 < g := by linarith
  have q1 : (1e-26 : ℝ) ≤ g ^ 2 := by
    calc (1e-26 : ℝ) = 1e-13 ^ 2 := by norm_num
      _ ≤ g ^ 2 := by gcongr
  have q2 : g ^ 2 ≤ 1e14 := by
    calc g ^ 2 ≤ 1e7 ^ 2 := by gcongr
      _ = 1e14 := by norm_num
  have half : ∀ k : ℕ, k ≤ 10 → 1 / 2 ≤ (1 - uro) ^ k := by
    intro k hk
    have := one_add_mul_le_pow (a := -uro) (by linarith [uro_lt]) k
    have hk' : (k : ℝ) ≤ 10 := by exact_mod_cast hk
    have : 1 + (k : ℝ) * -uro ≥ 1 / 2 := by nlinarith [uro_pos, uro_lt]
    rw [show 1 - uro = 1 + -uro by ring]
    linarith
  have size : ∀ {k : ℕ} {a x : ℝ}, k ≤ 10 → Wn k a x → 0 ≤ x → 0 ≤ a → x / 2 ≤ a ∧ a ≤ 2 * x := by
    intro k a x hk hw hx ha
    have e := half k hk
    refine ⟨?_, ?_⟩
    · have := mul_le_mul_of_nonneg_left e hx
      linarith [hw.low]
    · have := mul_le_mul_of_nonneg_left e ha
      linarith [hw.up]
  have w1 : Wn 1 (rn (g ^ 2)) (g ^ 2) := Wn.round h Wn.refl (by linarith) (by linarith)
  have p1 := w1.pos (by positivity)
  obtain ⟨s1, s1'⟩ := size (by norm_num) w1 (by positivity) p1.le
  have w2 : Wn 2 (rn (1 + rn (g ^ 2))) (1 + g ^ 2) := Wn.round h w1.one_add (by linarith) (by linarith)
  have p2 := w2.pos (by positivity)
  have w3 : Wn 3 (rn (g ^ 2) / rn (1 + rn (g ^ 2))) (g ^ 2 / (1 + g ^ 2)) :=
    w1.div w2 p1.le p2 (by positivity) (by positivity)
  have q3 : (1e-41 : ℝ) ≤ g ^ 2 / (1 + g ^ 2) := by
    rw [le_div_iff₀ (by positivity)]
    nlinarith
  have q4 : g ^ 2 / (1 + g ^ 2) ≤ 1 := by
    rw [div_le_one (by positivity)]
    linarith
  obtain ⟨s3, s3'⟩ := size (by norm_num) w3 (by positivity) (div_pos p1 p2).le
  have w4 : Wn 4 (rn (rn (g ^ 2) / rn (1 + rn (g ^ 2)))) (g ^ 2 / (1 + g ^ 2)) :=
    Wn.round h w3 (by linarith) (by linarith)
  have p4 := w4.pos (by positivity)
  have w5 := Wn.sqrt (k := 2) w4
  obtain ⟨s4, s4'⟩ := size (by norm_num) w4 (by positivity) p4.le
  unfold beta64 betaOf
  refine Wn.round h w5 ?_ ?_
  · refine Real.le_sqrt_of_sq_le ?_
    refine le_trans ?_ s4
    linarith
  · rw [Real.sqrt_le_left (by norm_num)]
    refine s4'.trans ?_
    linarith

theorem betaOf_pos {g : ℝ} (hg : 0 < g) : 0 < betaOf g := Real.sqrt_pos.2 (by positivity)

/-- The computed relativistic factor for a given norm. -/
theorem gamma64_near {rn : ℝ → ℝ} (h : Rounding rn) {g : ℝ} (h1 : 1e-13 ≤ g) (h2 : g ≤ 1e7) :
    Wn 4 (gamma64 rn g) (lorentz g) := by
  have hg : 0 < g := by linarith
  have w := beta64_near h h1 h2
  have bp := betaOf_pos hg
  have b64p := w.pos bp
  have w1 : Wn 3 (g / beta64 rn g) (lorentz g) := by
    rw [← gamma_eq hg]
    have := (Wn.refl (x := g)).div w hg.le b64p hg.le bp
    rwa [zero_add] at this
  have l1 := lorentz_ge g
  have l2 := lorentz_le hg.le
  have e5 : 1 / 2 ≤ (1 - uro) ^ 3 := by
    have : (1 - 1e-15 : ℝ) ^ 3 ≤ (1 - uro) ^ 3 := by gcongr; exact uro_lt.le
    refine le_trans ?_ this
    norm_num
  have p1 := w1.pos (by linarith)
  unfold gamma64
  refine Wn.round h w1 ?_ ?_
  · have := mul_le_mul l1 e5 (by norm_num) (by linarith)
    linarith [w1.low]
  · have := mul_le_mul_of_nonneg_left e5 p1.le
    linarith [w1.up]

/-- The computed relativistic factor is never smaller than 1. -/
theorem gamma64_ge {rn : ℝ → ℝ} (h : Rounding rn) {g : ℝ} (hg : g ∈ Binary64) (h1 : 1e-13 ≤ g) (h2 : g ≤ 1e7) :
    1 ≤ gamma64 rn g := by
  have one_mem : (1 : ℝ) ∈ Binary64 := by simpa using int_mem (n := 1) (by norm_num)
  have g0 : 0 < g := by linarith
  have bp := (beta64_near h h1 h2).pos (betaOf_pos g0)
  have hle : beta64 rn g ≤ g := by
    unfold beta64
    have hb := sqrt_square h hg (by linarith) (by linarith)
    conv_rhs => rw [← hb]
    apply h.mono
    apply Real.sqrt_le_sqrt
    have s0 := h.nonneg (x := g ^ 2) (by positivity)
    have d1 : 1 ≤ rn (1 + rn (g ^ 2)) := h.ge_of_ge one_mem (by linarith)
    exact h.le_of_le (h (g ^ 2)).1 (div_le_self s0 d1)
  unfold gamma64
  refine h.ge_of_ge one_mem ?_
  rw [one_le_div bp]
  exact hle

/-- The norm of the momentum of the states considered: between `1e-12` and `1e6`. Above the stopping energy of 1 eV
every nucleus up to 1e6 GeV has at least `4e-8`. -/
structure Moving (s : Row) : Prop where
  low : 1e-12 ≤ s.gv
  up : s.gv ≤ 1e6

theorem Moving.norm {rn : ℝ → ℝ} (h : Rounding rn) {s : Row} (hs : Moving s) :
    1e-13 ≤ gv64 rn s ∧ gv64 rn s ≤ 1e7 := by
  have w := gv64_near h hs.low hs.up
  have e5 : 1 / 2 ≤ (1 - uro) ^ 3 := by
    have : (1 - 1e-15 : ℝ) ^ 3 ≤ (1 - uro) ^ 3 := by gcongr; exact uro_lt.le
    refine le_trans ?_ this
    norm_num
  have p := w.pos (by linarith [hs.low])
  constructor
  · have := mul_le_mul hs.low e5 (by norm_num) (by linarith [hs.low])
    linarith [w.low]
  · have := mul_le_mul_of_nonneg_left e5 p.le
    linarith [w.up, hs.up]

/-- The error of the relativistic factor of a state. -/
theorem gamma64_state {rn : ℝ → ℝ} (h : Rounding rn) {s : Row} (hs : Moving s) :
    |gamma64 rn (gv64 rn s) - lorentz s.gv| ≤ 8 * uro * lorentz s.gv := by
  obtain ⟨n1, n2⟩ := hs.norm h
  have w1 := gamma64_near h n1 n2
  have w2 := gv64_near h hs.low hs.up
  have p := w2.pos (by linarith [hs.low])
  have g0 : 0 < s.gv := by linarith [hs.low]
  have w3 : Wn 3 (lorentz (gv64 rn s)) (lorentz s.gv) := by
    unfold lorentz
    refine Wn.sqrt (k := 3) (Wn.one_add ?_)
    have := w2.mul w2 p.le p.le g0.le g0.le
    rw [pow_two, pow_two]
    exact this
  have := (w1.trans w3).error (by norm_num) (by linarith [lorentz_ge s.gv])
  refine this.trans_eq ?_
  norm_num

/-- The kinetic energy of a state: the mass times `γ - 1`. -/
noncomputable def kinetic (M : ℝ) (s : Row) : ℝ := M * (lorentz s.gv - 1)

theorem track_energy_eq {n : Nucleus} {s : Row} (hs : Moving s) :
    track_energy n s = some (kinetic n.mass s) := by
  have g0 : 0 < s.gv := by linarith [hs.low]
  unfold track_energy kinetic
  rw [if_neg g0.ne', gamma_eq g0]

/-- **C110.** The kinetic energy computed in float64 is a number, is not negative, and differs from the exact one by at
most 11 units of `2^-53` of the total energy `γ m`. -/
theorem C110_energy {rn : ℝ → ℝ} (h : Rounding rn) {n : Nucleus} (hm0 : 0 < n.mass) (hm1 : n.mass ≤ 1e9)
    (hm : n.mass ≥ 1) {s : Row} (hs : Moving s) :
    ∃ e64 e, track_energy64 rn n s = some e64 ∧ track_energy n s = some e ∧ 0 ≤ e64 ∧ 0 ≤ e ∧
      e ≤ n.mass * lorentz s.gv ∧ |e64 - e| ≤ 11 * 2 ^ (-53 : ℤ) * (n.mass * lorentz s.gv) := by
  have hu := uro_pos
  have hu1 := uro_lt
  obtain ⟨n1, n2⟩ := hs.norm h
  have g0 : 0 < s.gv := by linarith [hs.low]
  have gp : 0 < gv64 rn s := by linarith
  have bp := (beta64_near h n1 n2).pos (betaOf_pos gp)
  have hmem : gv64 rn s ∈ Binary64 := (h _).1
  have ge := gamma64_ge h hmem n1 n2
  have er := gamma64_state h hs
  have l1 := lorentz_ge s.gv
  have l2 : lorentz s.gv ≤ 2e6 := by
    have := lorentz_le g0.le
    linarith [hs.up]
  refine ⟨kinetic64 rn n.mass (gv64 rn s), kinetic n.mass s, ?_, track_energy_eq hs, ?_, ?_, ?_, ?_⟩
  · unfold track_energy64
    simp only
    rw [if_neg bp.ne']
  · unfold kinetic64
    exact h.nonneg (mul_nonneg hm0.le (h.nonneg (by linarith)))
  · unfold kinetic
    exact mul_nonneg hm0.le (by linarith)
  · unfold kinetic
    exact mul_le_mul_of_nonneg_left (by linarith) hm0.le
  unfold kinetic64 kinetic
  change _ ≤ 11 * uro * (n.mass * lorentz s.gv)
  generalize lorentz s.gv = L at *
  generalize gamma64 rn (gv64 rn s) = G at *
  generalize n.mass = M at *
  have hη : (2 : ℝ) ^ (-1075 : ℤ) ≤ 1e-3 * uro := by
    refine (zpow_le_zpow_right₀ (n := -100) (by norm_num) (by norm_num)).trans ?_
    unfold uro
    norm_num
  have hG : G ≤ L + 8 * uro * L := by linarith [(abs_le.1 er).2]
  have uL : uro * L ≤ 1e-8 := by nlinarith
  have hG2 : G - 1 ≤ L := by linarith
  have e1 := h.err (x := G - 1) (big_ge (by rw [abs_of_nonneg (by linarith)]; linarith))
  rw [abs_of_nonneg (by linarith : 0 ≤ G - 1)] at e1
  change |rn (G - 1) - (G - 1)| ≤ uro * (G - 1) + _ at e1
  have e1' : |rn (G - 1) - (L - 1)| ≤ 9.001 * uro * L := by
    have : rn (G - 1) - (L - 1) = (rn (G - 1) - (G - 1)) + (G - L) := by ring
    rw [this]
    refine (abs_add_le _ _).trans ?_
    have : uro * (G - 1) ≤ uro * L := by gcongr
    nlinarith
  have K0 : 0 ≤ rn (G - 1) := h.nonneg (by linarith)
  generalize rn (G - 1) = K at *
  have K1 : K ≤ L := by
    have := (abs_le.1 e1').2
    have : 9.001 * uro * L ≤ 1 := by linarith
    linarith
  have MK : M * K ≤ M * L := by gcongr
  have ML : M * L ≤ 1e9 * 2e6 := by gcongr
  have e2 := h.err (x := M * K) (big_ge (by rw [abs_of_nonneg (by positivity)]; linarith))
  rw [abs_of_nonneg (by positivity : 0 ≤ M * K)] at e2
  change |rn (M * K) - M * K| ≤ uro * (M * K) + _ at e2
  have e3 : |M * K - M * (L - 1)| ≤ M * (9.001 * uro * L) := by
    rw [← mul_sub, abs_mul, abs_of_pos hm0]
    gcongr
  have : rn (M * K) - M * (L - 1) = (rn (M * K) - M * K) + (M * K - M * (L - 1)) := by ring
  rw [this]
  refine (abs_add_le _ _).trans ?_
  have u1 : uro * (M * K) ≤ uro * (M * L) := by gcongr
  have u2 : 1 ≤ M * L := by nlinarith
  have u3 : uro ≤ uro * (M * L) := le_mul_of_one_le_right hu.le u2
  have : M * (9.001 * uro * L) = 9.001 * (uro * (M * L)) := by ring
  have : 11 * uro * (M * L) = 11 * (uro * (M * L)) := by ring
  linarith

/-- **C110.** The stopping condition in float64 differs from the exact one by at most 13 units of `2^-53` of the total
energy: for a nucleus below 100 GeV the track ends between 1 eV minus and 1 eV plus 0.2 meV. -/
theorem C110_stop {rn : ℝ → ℝ} (h : Rounding rn) {n : Nucleus} (hm1 : n.mass ≤ 1e9) (hm : n.mass ≥ 1) {s : Row}
    (hs : Moving s) : ∃ v64 v, stop_condition64 rn s n = .ok v64 ∧ stop_condition s n = .ok v ∧
      |v64 - v| ≤ 13 * 2 ^ (-53 : ℤ) * (n.mass * lorentz s.gv) := by
  have hu := uro_pos
  have hu1 := uro_lt
  have hm0 : 0 < n.mass := by linarith
  obtain ⟨n1, n2⟩ := hs.norm h
  have g0 : 0 < s.gv := by linarith [hs.low]
  have gp : 0 < gv64 rn s := by linarith
  have bp := (beta64_near h n1 n2).pos (betaOf_pos gp)
  have bp' := betaOf_pos g0
  obtain ⟨e64, e, he64, he, h0, h0', hle, hd⟩ := C110_energy h hm0 hm1 hm hs
  have l1 := lorentz_ge s.gv
  have l2 : lorentz s.gv ≤ 2e6 := by
    have := lorentz_le g0.le
    linarith [hs.up]
  have c64 : e64 = kinetic64 rn n.mass (gv64 rn s) := by
    unfold track_energy64 at he64
    simp only at he64
    rw [if_neg bp.ne'] at he64
    exact (Option.some.inj he64).symm
  have c : e = n.mass * (s.gv / betaOf s.gv - 1) := by
    rw [track_energy_eq hs] at he
    rw [gamma_eq g0]
    exact (Option.some.inj he).symm
  refine ⟨rn (e64 - rn 1e-6), e - 1e-6, ?_, ?_, ?_⟩
  · unfold stop_condition64
    simp only
    rw [if_neg bp.ne', c64]
  · unfold stop_condition
    simp only
    rw [if_neg bp'.ne', c, KE_LIMIT]
  change |e64 - e| ≤ 11 * uro * (n.mass * lorentz s.gv) at hd
  change _ ≤ 13 * uro * (n.mass * lorentz s.gv)
  have T1 : 1 ≤ n.mass * lorentz s.gv := by nlinarith
  have T2 : n.mass * lorentz s.gv ≤ 1e9 * 2e6 := by gcongr
  generalize n.mass * lorentz s.gv = T at *
  have hη : (2 : ℝ) ^ (-1075 : ℤ) ≤ 1e-6 * uro := by
    refine (zpow_le_zpow_right₀ (n := -100) (by norm_num) (by norm_num)).trans ?_
    unfold uro
    norm_num
  have k1 := h.err (x := 1e-6) (big_ge (by norm_num [abs_of_pos]))
  rw [abs_of_pos (by norm_num : (0 : ℝ) < 1e-6)] at k1
  change |rn 1e-6 - 1e-6| ≤ uro * 1e-6 + _ at k1
  generalize rn (1e-6 : ℝ) = K at *
  have hd' := abs_le.1 hd
  have k1' := abs_le.1 k1
  have uT : uro * T ≤ 2 := by nlinarith
  have x1 : |e64 - K| ≤ T + 11 * uro * T + 1 := by
    rw [abs_le]
    constructor <;> nlinarith
  have x2 : |e64 - K| ≤ 1.0001 * T + 1 := by nlinarith
  have e2 := h.err (x := e64 - K) (big_ge (by linarith))
  change |rn (e64 - K) - (e64 - K)| ≤ uro * |e64 - K| + _ at e2
  have x3 : |e64 - K| ≤ e + 11 * uro * T + 1.1e-6 := by
    rw [abs_le]
    constructor <;> nlinarith
  have u1 : uro * |e64 - K| ≤ uro * (T + 11 * uro * T + 1.1e-6) := by
    gcongr
    linarith
  have u2 : uro * (11 * uro * T) ≤ uro * (1e-3 * T) := by
    gcongr
    linarith
  have : rn (e64 - K) - (e - 1e-6) = (rn (e64 - K) - (e64 - K)) + ((e64 - e) - (K - 1e-6)) := by ring
  rw [this]
  refine (abs_add_le _ _).trans ?_
  have := abs_sub (e64 - e) (K - 1e-6)
  nlinarith

/-- The mean number of electrons of a step: `before` and `after` are energies below `T` known up to 11 units of
`2^-53` of `T`. -/
theorem mean64_near {rn : ℝ → ℝ} (h : Rounding rn) {W T a a64 b b64 : ℝ} (hW1 : 1 ≤ W) (hW2 : W ≤ 1e6)
    (hT1 : 1 ≤ T) (hT2 : T ≤ 1e16) (a0 : 0 ≤ a) (aT : a ≤ T) (b0 : 0 ≤ b) (bT : b ≤ T)
    (ha : |a64 - a| ≤ 11 * uro * T) (hb : |b64 - b| ≤ 11 * uro * T) :
    0 ≤ rn (|rn (b64 - a64)| * rn (1.0e6 / W)) ∧
    |rn (|rn (b64 - a64)| * rn (1.0e6 / W)) - |b - a| * (1.0e6 / W)| ≤ 30 * uro * (T * (1.0e6 / W)) := by
  have hu := uro_pos
  have hu1 := uro_lt
  have hη : (2 : ℝ) ^ (-1075 : ℤ) ≤ 1e-3 * uro := by
    refine (zpow_le_zpow_right₀ (n := -100) (by norm_num) (by norm_num)).trans ?_
    unfold uro
    norm_num
  have hW0 : 0 < W := by linarith
  have k1 : 1 ≤ 1.0e6 / W := by
    rw [le_div_iff₀ hW0]
    linarith
  have k2 : 1.0e6 / W ≤ 1e6 := by
    rw [div_le_iff₀ hW0]
    nlinarith
  have ek := h.rel (x := 1.0e6 / W) (tiny_le (by rw [abs_of_pos (by linarith)]; linarith))
    (big_ge (by rw [abs_of_pos (by linarith)]; linarith))
  rw [abs_of_pos (a := 1.0e6 / W) (by linarith)] at ek
  change |rn (1.0e6 / W) - 1.0e6 / W| ≤ uro * (1.0e6 / W) at ek
  have k0 : 0 ≤ rn (1.0e6 / W) := h.nonneg (by linarith)
  generalize (1.0e6 / W : ℝ) = k at *
  generalize rn k = k64 at *
  obtain ⟨ha1, ha2⟩ := abs_le.1 ha
  obtain ⟨hb1, hb2⟩ := abs_le.1 hb
  have uT : 11 * uro * T ≤ 1e-2 * T := by
    have : 11 * uro ≤ 1e-2 := by linarith
    gcongr
  have x1 : |b64 - a64| ≤ T + 22 * uro * T := by
    rw [abs_le]
    constructor <;> linarith
  have x2 : |b64 - a64| ≤ 1.02 * T := by linarith
  have e1 := h.err (x := b64 - a64) (big_ge (by linarith))
  change |rn (b64 - a64) - (b64 - a64)| ≤ uro * |b64 - a64| + _ at e1
  have ux : uro * |b64 - a64| ≤ uro * (1.02 * T) := by gcongr
  have uT1 : uro ≤ uro * T := le_mul_of_one_le_right hu.le hT1
  have d1 : |rn (b64 - a64) - (b - a)| ≤ 23.1 * (uro * T) := by
    have : rn (b64 - a64) - (b - a) = (rn (b64 - a64) - (b64 - a64)) + ((b64 - b) - (a64 - a)) := by ring
    rw [this]
    refine (abs_add_le _ _).trans ?_
    have := abs_sub (b64 - b) (a64 - a)
    linarith
  have d2 : |(|rn (b64 - a64)| - |b - a|)| ≤ 23.1 * (uro * T) := (abs_abs_sub_abs_le _ _).trans d1
  have D0 := abs_nonneg (rn (b64 - a64))
  have dT : |b - a| ≤ T := by
    rw [abs_le]
    constructor <;> linarith
  have d0 := abs_nonneg (b - a)
  generalize |rn (b64 - a64)| = D at *
  generalize |b - a| = d at *
  obtain ⟨d3, d4⟩ := abs_le.1 d2
  obtain ⟨k3, k4⟩ := abs_le.1 ek
  have uTs : uro * T ≤ 1e-3 * T := by
    have : uro ≤ 1e-3 := by linarith
    gcongr
  have DT : D ≤ 1.1 * T := by linarith
  have uks : uro * k ≤ 1e-3 * k := by
    have : uro ≤ 1e-3 := by linarith
    gcongr
  have kk : k64 ≤ 1.1 * k := by linarith
  have P0 : 0 ≤ D * k64 := mul_nonneg D0 k0
  refine ⟨h.nonneg P0, ?_⟩
  have Pk : D * k64 ≤ 1.1 * T * (1.1 * k) := mul_le_mul DT kk k0 (by linarith)
  have Tk : T * k ≤ 1e16 * 1e6 := mul_le_mul hT2 k2 (by linarith) (by norm_num)
  have e2 := h.err (x := D * k64) (big_ge (by rw [abs_of_nonneg P0]; linarith))
  rw [abs_of_nonneg P0] at e2
  change |rn (D * k64) - D * k64| ≤ uro * (D * k64) + _ at e2
  have v1 : uro * (D * k64) ≤ uro * (1.1 * T * (1.1 * k)) := by gcongr
  have v2 : |D * k64 - d * k| ≤ 25.5 * (uro * (T * k)) := by
    have e3 : D * k64 - d * k = (D - d) * k64 + d * (k64 - k) := by ring
    rw [e3]
    refine (abs_add_le _ _).trans ?_
    rw [abs_mul, abs_mul, abs_of_nonneg k0, abs_of_nonneg d0]
    have w1 : |D - d| * k64 ≤ 23.1 * (uro * T) * (k + uro * k) := by
      refine mul_le_mul d2 (by linarith) k0 (by positivity)
    have w2 : d * |k64 - k| ≤ T * (uro * k) := mul_le_mul dT ek (abs_nonneg _) (by linarith)
    have w3 : (uro * T) * (uro * k) ≤ (uro * T) * (1e-3 * k) := by gcongr
    have : 0 ≤ uro * T * k := by positivity
    nlinarith
  have Tk1 : 1 ≤ T * k := by nlinarith
  have u4 : uro ≤ uro * (T * k) := le_mul_of_one_le_right hu.le Tk1
  have : rn (D * k64) - d * k = (rn (D * k64) - D * k64) + (D * k64 - d * k) := by ring
  rw [this]
  refine (abs_add_le _ _).trans ?_
  have : uro * (1.1 * T * (1.1 * k)) = 1.21 * (uro * (T * k)) := by ring
  have : 30 * uro * (T * k) = 30 * (uro * (T * k)) := by ring
  linarith

theorem sqrt_diff {a b : ℝ} (ha : 0 ≤ a) (hb : 0 ≤ b) : |Real.sqrt a - Real.sqrt b| ≤ Real.sqrt |a - b| := by
  have key : ∀ x y : ℝ, 0 ≤ x → x ≤ y → Real.sqrt y - Real.sqrt x ≤ Real.sqrt (y - x) := by
    intro x y hx hxy
    have : Real.sqrt y ≤ Real.sqrt x + Real.sqrt (y - x) := by
      rw [Real.sqrt_le_left (by positivity)]
      have h1 := Real.sq_sqrt hx
      have h2 := Real.sq_sqrt (sub_nonneg.2 hxy)
      have h3 := mul_nonneg (Real.sqrt_nonneg x) (Real.sqrt_nonneg (y - x))
      nlinarith
    linarith
  rcases le_total a b with hab | hab
  · rw [abs_sub_comm, abs_of_nonneg (sub_nonneg.2 (Real.sqrt_le_sqrt hab)), abs_sub_comm,
      abs_of_nonneg (sub_nonneg.2 hab)]
    exact key a b ha hab
  · rw [abs_of_nonneg (sub_nonneg.2 (Real.sqrt_le_sqrt hab)), abs_of_nonneg (sub_nonneg.2 hab)]
    exact key b a hb hab

/-- The value drawn for a step, before the conversion to an integer. -/
theorem draw64_near {rn : ℝ → ℝ} (h : Rounding rn) {F m m64 g : ℝ} (F0 : 0 ≤ F) (F1 : F ≤ 1) (m0 : 0 ≤ m)
    (m1 : m ≤ 1e9) (m640 : 0 ≤ m64) (hm : |m64 - m| ≤ 4e-6) (hg : |g| ≤ 40) :
    |rn (m64 + rn (rn (Real.sqrt (rn (F * m64))) * g)) - (m + Real.sqrt (F * m) * g)| ≤ 1 / 10 := by
  have hu := uro_pos
  have hu1 := uro_lt
  have hη : (2 : ℝ) ^ (-1075 : ℤ) ≤ uro := tiny_lt_uro
  obtain ⟨hm1, hm2⟩ := abs_le.1 hm
  have m642 : m64 ≤ 1.1e9 := by linarith
  have f0 : 0 ≤ F * m := mul_nonneg F0 m0
  have f640 : 0 ≤ F * m64 := mul_nonneg F0 m640
  have f641 : F * m64 ≤ 1.1e9 := (mul_le_of_le_one_left m640 F1).trans m642
  have e1 := h.err (x := F * m64) (big_ge (by rw [abs_of_nonneg f640]; linarith))
  rw [abs_of_nonneg f640] at e1
  change |rn (F * m64) - F * m64| ≤ uro * (F * m64) + _ at e1
  have v1 : uro * (F * m64) ≤ 1e-15 * 1.1e9 := mul_le_mul hu1.le f641 f640 (by norm_num)
  have r0 : 0 ≤ rn (F * m64) := h.nonneg f640
  have d1 : |rn (F * m64) - F * m| ≤ 5.3e-6 := by
    have e2 : rn (F * m64) - F * m = (rn (F * m64) - F * m64) + F * (m64 - m) := by ring
    rw [e2]
    refine (abs_add_le _ _).trans ?_
    rw [abs_mul, abs_of_nonneg F0]
    have : F * |m64 - m| ≤ 1 * 4e-6 := mul_le_mul F1 hm (abs_nonneg _) (by norm_num)
    linarith
  have f1 : F * m ≤ 1e9 := (mul_le_of_le_one_left m0 F1).trans m1
  generalize rn (F * m64) = r at *
  generalize F * m = f at *
  have s1 : |Real.sqrt r - Real.sqrt f| ≤ 2.31e-3 := by
    refine (sqrt_diff r0 f0).trans ?_
    rw [Real.sqrt_le_left (by norm_num)]
    refine d1.trans ?_
    norm_num
  have S0 := Real.sqrt_nonneg r
  have S1 : Real.sqrt f ≤ 4e4 := by
    rw [Real.sqrt_le_left (by norm_num)]
    refine f1.trans ?_
    norm_num
  generalize Real.sqrt r = S at *
  generalize Real.sqrt f = Q at *
  obtain ⟨s2, s3⟩ := abs_le.1 s1
  have e3 := h.err (x := S) (big_ge (by rw [abs_of_nonneg S0]; linarith))
  rw [abs_of_nonneg S0] at e3
  change |rn S - S| ≤ uro * S + _ at e3
  have v2 : uro * S ≤ 1e-15 * 5e4 := mul_le_mul hu1.le (by linarith) S0 (by norm_num)
  have t1 : |rn S - Q| ≤ 2.32e-3 := by
    have : rn S - Q = (rn S - S) + (S - Q) := by ring
    rw [this]
    refine (abs_add_le _ _).trans ?_
    linarith
  generalize rn S = R at *
  obtain ⟨t2, t3⟩ := abs_le.1 t1
  have Q0 : -1 ≤ Q := by linarith
  have R1 : |R| ≤ 5e4 := by
    rw [abs_le]
    constructor <;> linarith
  have Rg : |R * g| ≤ 5e4 * 40 := by
    rw [abs_mul]
    exact mul_le_mul R1 hg (abs_nonneg _) (by norm_num)
  have e4 := h.err (x := R * g) (big_ge (by linarith))
  change |rn (R * g) - R * g| ≤ uro * |R * g| + _ at e4
  have v3 : uro * |R * g| ≤ 1e-15 * (5e4 * 40) := mul_le_mul hu1.le Rg (abs_nonneg _) (by norm_num)
  have w1 : |rn (R * g) - Q * g| ≤ 0.093 := by
    have e5 : rn (R * g) - Q * g = (rn (R * g) - R * g) + (R - Q) * g := by ring
    rw [e5]
    refine (abs_add_le _ _).trans ?_
    rw [abs_mul]
    have : |R - Q| * |g| ≤ 2.32e-3 * 40 := mul_le_mul t1 hg (abs_nonneg _) (by norm_num)
    linarith
  have Ng : |rn (R * g)| ≤ 2.1e6 := by
    have : rn (R * g) = (rn (R * g) - R * g) + R * g := by ring
    rw [this]
    refine (abs_add_le _ _).trans ?_
    linarith
  generalize rn (R * g) = N at *
  have x1 : |m64 + N| ≤ 1.2e9 := by
    refine (abs_add_le _ _).trans ?_
    rw [abs_of_nonneg m640]
    linarith
  have e6 := h.err (x := m64 + N) (big_ge (by linarith))
  change |rn (m64 + N) - (m64 + N)| ≤ uro * |m64 + N| + _ at e6
  have v4 : uro * |m64 + N| ≤ 1e-15 * 1.2e9 := mul_le_mul hu1.le x1 (abs_nonneg _) (by norm_num)
  have e7 : rn (m64 + N) - (m + Q * g) = (rn (m64 + N) - (m64 + N)) + ((m64 - m) + (N - Q * g)) := by ring
  rw [e7]
  refine (abs_add_le _ _).trans ?_
  have := abs_add_le (m64 - m) (N - Q * g)
  linarith

/-- Truncations of numbers at most 1 apart are at most 1 apart. -/
theorem pyInt_near {x y : ℝ} (h : |x - y| < 1) : |pyInt x - pyInt y| ≤ 1 := by
  obtain ⟨h1, h2⟩ := abs_lt.1 h
  unfold pyInt
  rw [abs_le]
  split_ifs with hx hy hy
  · have a := Int.floor_le x
    have b := Int.lt_floor_add_one x
    have c := Int.floor_le y
    have d := Int.lt_floor_add_one y
    constructor
    · have : ((⌊y⌋ : ℤ) : ℝ) < ((⌊x⌋ + 2 : ℤ) : ℝ) := by push_cast; linarith
      have := Int.cast_lt.1 this
      omega
    · have : ((⌊x⌋ : ℤ) : ℝ) < ((⌊y⌋ + 2 : ℤ) : ℝ) := by push_cast; linarith
      have := Int.cast_lt.1 this
      omega
  · push Not at hy
    have a : ⌊x⌋ < 1 := Int.floor_lt.2 (by push_cast; linarith)
    have a' : 0 ≤ ⌊x⌋ := Int.floor_nonneg.2 hx
    have c : -1 < ⌈y⌉ := Int.lt_ceil.2 (by push_cast; linarith)
    have c' : ⌈y⌉ ≤ 0 := Int.ceil_le.2 (by push_cast; linarith)
    constructor <;> omega
  · push Not at hx
    have a : ⌊y⌋ < 1 := Int.floor_lt.2 (by push_cast; linarith)
    have a' : 0 ≤ ⌊y⌋ := Int.floor_nonneg.2 hy
    have c : -1 < ⌈x⌉ := Int.lt_ceil.2 (by push_cast; linarith)
    have c' : ⌈x⌉ ≤ 0 := Int.ceil_le.2 (by push_cast; linarith)
    constructor <;> omega
  · have a := Int.le_ceil x
    have b := Int.ceil_lt_add_one x
    have c := Int.le_ceil y
    have d := Int.ceil_lt_add_one y
    constructor
    · have : ((⌈y⌉ : ℤ) : ℝ) < ((⌈x⌉ + 2 : ℤ) : ℝ) := by push_cast; linarith
      have := Int.cast_lt.1 this
      omega
    · have : ((⌈x⌉ : ℤ) : ℝ) < ((⌈y⌉ + 2 : ℤ) : ℝ) := by push_cast; linarith
      have := Int.cast_lt.1 this
      omega

/-- The range of settings and tracks for which the bounds are stated: the total energy of the nucleus divided by the
W-value is at most 1e9 (30 GeV for 30 eV), the Fano factor is at most 1. -/
structure Recordable (n : Nucleus) (P : DetectorParams) (track : List Row) : Prop where
  mass : 1 ≤ n.mass
  mass_le : n.mass ≤ 1e9
  w : 1 ≤ P.w_value
  w_le : P.w_value ≤ 1e6
  fano : 0 ≤ P.fano_factor
  fano_le : P.fano_factor ≤ 1
  moving : ∀ s ∈ track, Moving s
  total : ∀ s ∈ track, n.mass * lorentz s.gv * (1.0e6 / P.w_value) ≤ 1e9

/-- `rng.normal` computes `loc + scale * g` from the standard normal numbers of `std`. -/
def ShiftScale {σ : Type} (rng : Gen σ) (std : σ → ℝ × σ) : Prop :=
  ∀ loc scale s, rng.normal loc scale s = (loc + scale * (std s).1, (std s).2)

/-- Means in float64 beside the exact ones. -/
def MeanNear (a b : Option ℝ) : Prop := ∃ x y, a = some x ∧ b = some y ∧ 0 ≤ x ∧ 0 ≤ y ∧ y ≤ 1e9 ∧ |x - y| ≤ 4e-6

theorem fano_draws_near {σ : Type} {rn : ℝ → ℝ} (h : Rounding rn) {rng : Gen σ} {std : σ → ℝ × σ}
    (hstd : ShiftScale rng std) (hg : ∀ s, |(std s).1| ≤ 40) {F : ℝ} (F0 : 0 ≤ F) (F1 : F ≤ 1)
    {l l' : List (Option ℝ)} (hl : List.Forall₂ MeanNear l l') : ∀ s : σ, ∃ ns64 ns s',
      fano_draws64 rn std F l s = .ok (ns64, s') ∧ fano_draws rng F l' s = .ok (ns, s') ∧
      List.Forall₂ (fun a b => |a - b| ≤ 1) ns64 ns := by
  induction hl with
  | nil => intro s; exact ⟨[], [], s, rfl, rfl, .nil⟩
  | cons hab _ ih =>
    intro s
    obtain ⟨x, y, rfl, rfl, x0, y0, y1, hxy⟩ := hab
    obtain ⟨ns64, ns, s', h1, h2, h3⟩ := ih (std s).2
    have near := draw64_near h F0 F1 y0 y1 x0 hxy (hg s)
    refine ⟨_ :: ns64, _ :: ns, s', ?_, ?_, .cons (pyInt_near (near.trans_lt (by norm_num))) h3⟩
    · unfold fano_draws64
      have : fano_draw64 rn std F (some x) s
          = .ok (pyInt (rn (x + rn (rn (Real.sqrt (rn (F * x))) * (std s).1))), (std s).2) := by
        unfold fano_draw64 npSqrt
        simp only
        rw [if_neg (not_lt.2 (h.nonneg (mul_nonneg F0 x0)))]
      rw [this]
      simp only [bind, Except.bind]
      rw [h1]
      rfl
    · unfold fano_draws
      have : fano_draw rng F (some y) s = .ok (pyInt (y + Real.sqrt (F * y) * (std s).1), (std s).2) := by
        unfold fano_draw npSqrt
        simp only
        rw [if_neg (not_lt.2 (mul_nonneg F0 y0))]
        change Except.ok (pyInt (rng.normal y (Real.sqrt (F * y)) s).1, (rng.normal y (Real.sqrt (F * y)) s).2) = _
        rw [hstd]
      rw [this]
      simp only [bind, Except.bind]
      rw [h2]
      rfl

theorem means_near {rn : ℝ → ℝ} (h : Rounding rn) {n : Nucleus} {P : DetectorParams} {track : List Row}
    (hr : Recordable n P track) :
    List.Forall₂ MeanNear
      ((energy_lost64 rn (track.map (track_energy64 rn n))).map
        (Option.map fun x => rn (x * rn (1.0e6 / P.w_value))))
      ((energy_lost (track.map (track_energy n))).map (Option.map (· * (1.0e6 / P.w_value)))) := by
  have hu := uro_pos
  have k0 : 0 < 1.0e6 / P.w_value := div_pos (by norm_num) (by linarith [hr.w])
  have hu30 : 30 * uro * 1e9 ≤ 4e-6 := by unfold uro; norm_num
  have pair : ∀ a b : Row, a ∈ track → b ∈ track → MeanNear
      ((do let x ← track_energy64 rn n a; let y ← track_energy64 rn n b; pure |rn (y - x)| : Option ℝ).map
        fun x => rn (x * rn (1.0e6 / P.w_value)))
      ((do let x ← track_energy n a; let y ← track_energy n b; pure |y - x| : Option ℝ).map
        (· * (1.0e6 / P.w_value))) := by
    intro a b ha hb
    have hm0 : 0 < n.mass := by linarith [hr.mass]
    obtain ⟨x64, x, e1, e2, p1, p2, p3, p4⟩ := C110_energy h hm0 hr.mass_le hr.mass (hr.moving a ha)
    obtain ⟨y64, y, f1, f2, q1, q2, q3, q4⟩ := C110_energy h hm0 hr.mass_le hr.mass (hr.moving b hb)
    rw [e1, e2, f1, f2]
    have ta := hr.total a ha
    have tb := hr.total b hb
    have la := lorentz_ge a.gv
    have lb := lorentz_ge b.gv
    have la' : lorentz a.gv ≤ 2e6 := by
      have := lorentz_le (g := a.gv) (by linarith [(hr.moving a ha).low])
      linarith [(hr.moving a ha).up]
    have lb' : lorentz b.gv ≤ 2e6 := by
      have := lorentz_le (g := b.gv) (by linarith [(hr.moving b hb).low])
      linarith [(hr.moving b hb).up]
    change |x64 - x| ≤ 11 * uro * (n.mass * lorentz a.gv) at p4
    change |y64 - y| ≤ 11 * uro * (n.mass * lorentz b.gv) at q4
    have Ta1 : 1 ≤ n.mass * lorentz a.gv := by nlinarith [hr.mass]
    have Ta2 : n.mass * lorentz a.gv ≤ 1e9 * 2e6 := mul_le_mul hr.mass_le la' (by linarith) (by norm_num)
    have Tb2 : n.mass * lorentz b.gv ≤ 1e9 * 2e6 := mul_le_mul hr.mass_le lb' (by linarith) (by norm_num)
    generalize n.mass * lorentz a.gv = Ta at *
    generalize n.mass * lorentz b.gv = Tb at *
    have mono : ∀ T : ℝ, T ≤ max Ta Tb → 11 * uro * T ≤ 11 * uro * max Ta Tb := fun T hT => by gcongr
    obtain ⟨r0, r1⟩ := mean64_near h (T := max Ta Tb) hr.w hr.w_le (le_max_of_le_left Ta1)
      (max_le (by linarith) (by linarith)) p2 (p3.trans (le_max_left _ _)) q2 (q3.trans (le_max_right _ _))
      (p4.trans (mono _ (le_max_left _ _))) (q4.trans (mono _ (le_max_right _ _)))
    have tm : max Ta Tb * (1.0e6 / P.w_value) ≤ 1e9 := by
      rcases max_choice Ta Tb with hc | hc <;> rw [hc]
      · exact ta
      · exact tb
    refine ⟨_, _, rfl, rfl, r0, by positivity, ?_, ?_⟩
    · refine le_trans (mul_le_mul_of_nonneg_right ?_ k0.le) tm
      rw [abs_le]
      have := le_max_left Ta Tb
      have := le_max_right Ta Tb
      constructor <;> linarith
    · refine r1.trans ?_
      have : 30 * uro * (max Ta Tb * (1.0e6 / P.w_value)) ≤ 30 * uro * 1e9 := by gcongr
      linarith
  have go : ∀ (l : List Row) (a : Row), a ∈ track → (∀ b ∈ l, b ∈ track) → List.Forall₂ MeanNear
      ((energy_lost64.go rn (track_energy64 rn n a) (l.map (track_energy64 rn n))).map
        (Option.map fun x => rn (x * rn (1.0e6 / P.w_value))))
      ((energy_lost.go (track_energy n a) (l.map (track_energy n))).map (Option.map (· * (1.0e6 / P.w_value)))) := by
    intro l
    induction l with
    | nil => intro a _ _; exact .nil
    | cons b l ih =>
      intro a ha hl
      have hb := hl b (by simp)
      simp only [List.map_cons, energy_lost64.go, energy_lost.go]
      exact .cons (pair a b ha hb) (ih b hb fun c hc => hl c (List.mem_cons_of_mem _ hc))
  cases track with
  | nil => exact .nil
  | cons a l =>
    simp only [List.map_cons, energy_lost64, energy_lost]
    refine .cons ⟨rn (0 * rn (1.0e6 / P.w_value)), 0 * (1.0e6 / P.w_value), rfl, rfl, ?_, ?_, ?_, ?_⟩
      (go l a (by simp) fun b hb => List.mem_cons_of_mem _ hb)
    · rw [zero_mul]
      exact h.nonneg le_rfl
    · rw [zero_mul]
    · rw [zero_mul]
      norm_num
    · rw [zero_mul, zero_mul, h.exact zero_mem]
      norm_num

/-- **C110.** With the same standard normal numbers (none beyond 40 standard deviations) the electrons in float64 and
with exact numbers are drawn at the same points, without exceptions, and differ by at most one electron at each. -/
theorem C110_electrons {σ : Type} {rn : ℝ → ℝ} (h : Rounding rn) {rng : Gen σ} {std : σ → ℝ × σ}
    (hstd : ShiftScale rng std) (hg : ∀ s, |(std s).1| ≤ 40) {n : Nucleus} {P : DetectorParams} {track : List Row}
    (hr : Recordable n P track) (s : σ) : ∃ ns64 ns s',
      generate_electrons64 rn std track n P s = .ok (ns64, s') ∧
      generate_electrons track n P rng s = .ok (ns, s') ∧
      List.Forall₂ (fun a b => |a - b| ≤ 1) ns64 ns := by
  have hw : P.w_value ≠ 0 := by linarith [hr.w]
  obtain ⟨ns64, ns, s', h1, h2, h3⟩ := fano_draws_near h hstd hg hr.fano hr.fano_le (means_near h hr) s
  refine ⟨ns64, ns, s', ?_, ?_, h3⟩
  · unfold generate_electrons64
    simp only
    rw [if_neg hw]
    exact h1
  · unfold generate_electrons
    simp only
    rw [if_neg hw]
    exact h2

theorem fano_draws64_length {σ : Type} {rn : ℝ → ℝ} {std : σ → ℝ × σ} {F : ℝ} :
    ∀ {l : List (Option ℝ)} {s : σ} {ns : List ℤ} {s' : σ}, fano_draws64 rn std F l s = .ok (ns, s') →
      ns.length = l.length
  | [], s, ns, s', h => by
    unfold fano_draws64 at h
    simp only [Except.ok.injEq, Prod.mk.injEq] at h
    rw [← h.1]
    rfl
  | m :: ms, s, ns, s', h => by
    unfold fano_draws64 at h
    cases h1 : fano_draw64 rn std F m s with
    | error e => rw [h1] at h; cases h
    | ok v =>
      rw [h1] at h
      simp only [bind, Except.bind] at h
      cases h2 : fano_draws64 rn std F ms v.2 with
      | error e => rw [h2] at h; cases h
      | ok vs =>
        rw [h2] at h
        simp only [pure, Except.pure, Except.ok.injEq, Prod.mk.injEq] at h
        rw [← h.1, List.length_cons, List.length_cons, fano_draws64_length (h2 : _ = Except.ok (vs.1, vs.2))]

/-- Draws for means without an exact loss stay below one electron. -/
theorem quiet_draws {σ : Type} {rn : ℝ → ℝ} (h : Rounding rn) {std : σ → ℝ × σ} (hg : ∀ s, |(std s).1| ≤ 40)
    {F : ℝ} (F0 : 0 ≤ F) (F1 : F ≤ 1) {l l' : List (Option ℝ)} (hl : List.Forall₂ MeanNear l l') :
    (∀ b ∈ l', b = some 0) → ∀ s : σ, ∃ ns64 s', fano_draws64 rn std F l s = .ok (ns64, s') ∧
      ∀ k ∈ ns64, ¬ (1 ≤ k) := by
  induction hl with
  | nil => intro _ s; exact ⟨[], s, rfl, by simp⟩
  | cons hab _ ih =>
    intro hz s
    obtain ⟨x, y, rfl, rfl, x0, y0, y1, hxy⟩ := hab
    have hy : y = 0 := Option.some.inj (hz (some y) (by simp))
    subst hy
    obtain ⟨ns64, s', h1, h2⟩ := ih (fun b hb => hz b (List.mem_cons_of_mem _ hb)) (std s).2
    have near := draw64_near h F0 F1 y0 y1 x0 hxy (hg s)
    refine ⟨pyInt (rn (x + rn (rn (Real.sqrt (rn (F * x))) * (std s).1))) :: ns64, s', ?_, ?_⟩
    · unfold fano_draws64
      have : fano_draw64 rn std F (some x) s
          = .ok (pyInt (rn (x + rn (rn (Real.sqrt (rn (F * x))) * (std s).1))), (std s).2) := by
        unfold fano_draw64 npSqrt
        simp only
        rw [if_neg (not_lt.2 (h.nonneg (mul_nonneg F0 x0)))]
      rw [this]
      simp only [bind, Except.bind]
      rw [h1]
      rfl
    · intro k hk
      rcases List.mem_cons.1 hk with rfl | hk
      · rw [mul_zero, Real.sqrt_zero, zero_mul, add_zero, sub_zero] at near
        have := (abs_le.1 near).2
        generalize rn (x + rn (rn (Real.sqrt (rn (F * x))) * (std s).1)) = v at *
        unfold pyInt
        split_ifs with hv
        · intro hc
          have := Int.le_floor.1 hc
          push_cast at this
          linarith
        · intro hc
          push Not at hv
          have : ⌈v⌉ ≤ 0 := Int.ceil_le.2 (by push_cast; linarith)
          omega
      · exact h2 k hk

/-- **C110.** Rounding alone makes no electrons: on a track along which the kinetic energy does not change, no point
passes the selection `electrons >= 1`. -/
theorem C110_quiet {σ : Type} {rn : ℝ → ℝ} (h : Rounding rn) {std : σ → ℝ × σ} (hg : ∀ s, |(std s).1| ≤ 40)
    {n : Nucleus} {P : DetectorParams} {track : List Row} (hr : Recordable n P track) {v : ℝ}
    (hc : ∀ r ∈ track, r.gv = v) (s : σ) : ∃ ns64 s',
      generate_electrons64 rn std track n P s = .ok (ns64, s') ∧ ∀ k ∈ ns64, ¬ (1 ≤ k) := by
  have hw : P.w_value ≠ 0 := by linarith [hr.w]
  have hzero : ∀ b ∈ (energy_lost (track.map (track_energy n))).map (Option.map (· * (1.0e6 / P.w_value))),
      b = some 0 := by
    have go : ∀ (l : List Row) (a : Row), a ∈ track → (∀ b ∈ l, b ∈ track) →
        ∀ b ∈ (energy_lost.go (track_energy n a) (l.map (track_energy n))).map
          (Option.map (· * (1.0e6 / P.w_value))), b = some 0 := by
      intro l
      induction l with
      | nil => intro a _ _ b hb; simp [energy_lost.go] at hb
      | cons c l ih =>
        intro a ha hl b hb
        have hcm := hl c (by simp)
        simp only [List.map_cons, energy_lost.go] at hb
        rcases List.mem_cons.1 hb with rfl | hb
        · rw [track_energy_eq (hr.moving a ha), track_energy_eq (hr.moving c hcm)]
          simp [kinetic, hc a ha, hc c hcm]
        · exact ih c hcm (fun d hd => hl d (List.mem_cons_of_mem _ hd)) b hb
    cases track with
    | nil => intro b hb; simp [energy_lost] at hb
    | cons a l =>
      intro b hb
      simp only [List.map_cons, energy_lost] at hb
      rcases List.mem_cons.1 hb with rfl | hb
      · simp
      · exact go l a (by simp) (fun d hd => List.mem_cons_of_mem _ hd) b hb
  obtain ⟨ns64, s', h1, h2⟩ := quiet_draws h hg hr.fano hr.fano_le (means_near h hr) hzero s
  refine ⟨ns64, s', ?_, h2⟩
  unfold generate_electrons64
  simp only
  rw [if_neg hw]
  exact h1

/-- A proton at `γβ = 0.1` turning by 53 degrees and then slowing down to `γβ = 0.09` satisfies the hypotheses, with
normal draws alternating between one standard deviation up and down. -/
example {rn : ℝ → ℝ} (h : Rounding rn) (gas : GasTarget) :
    let n : Nucleus := ⟨1, 1, 938, "1H"⟩
    let P : DetectorParams := ⟨1, 10000, 2, 100000, gas, 0.3, 0.2, 30⟩
    let std : ℤ → ℝ × ℤ := fun s => ((-1) ^ s.natAbs, s + 1)
    (∃ ns64 s', generate_electrons64 rn std [⟨0, 0, 0, 0.06, 0.08, 0⟩, ⟨0, 0.01, 0, 0.1, 0, 0⟩] n P 0
      = .ok (ns64, s') ∧ ∀ k ∈ ns64, ¬ (1 ≤ k)) ∧
    ∃ ns64 s', generate_electrons64 rn std [⟨0, 0, 0, 0.06, 0.08, 0⟩, ⟨0, 0.01, 0, 0.1, 0, 0⟩,
      ⟨0, 0.02, 0, 0, 0.09, 0⟩] n P 0 = .ok (ns64, s') ∧ ns64.length = 3 := by
  intro n P std
  have hg : ∀ s, |(std s).1| ≤ 40 := by
    intro s
    change |(-1 : ℝ) ^ s.natAbs| ≤ 40
    rw [abs_neg_one_pow]
    norm_num
  have v1 : Row.gv ⟨0, 0, 0, 0.06, 0.08, 0⟩ = 0.1 := by
    unfold Row.gv
    simp only
    rw [show (0.06 : ℝ) ^ 2 + 0.08 ^ 2 + 0 ^ 2 = 0.1 ^ 2 by norm_num, Real.sqrt_sq (by norm_num)]
  have v2 : Row.gv ⟨0, 0.01, 0, 0.1, 0, 0⟩ = 0.1 := by
    unfold Row.gv
    simp only
    rw [show (0.1 : ℝ) ^ 2 + 0 ^ 2 + 0 ^ 2 = 0.1 ^ 2 by norm_num, Real.sqrt_sq (by norm_num)]
  have v3 : Row.gv ⟨0, 0.02, 0, 0, 0.09, 0⟩ = 0.09 := by
    unfold Row.gv
    simp only
    rw [show (0 : ℝ) ^ 2 + 0.09 ^ 2 + 0 ^ 2 = 0.09 ^ 2 by norm_num, Real.sqrt_sq (by norm_num)]
  have total : ∀ v : ℝ, 0 ≤ v → v ≤ 1 → n.mass * lorentz v * (1.0e6 / P.w_value) ≤ 1e9 := by
    intro v h0 h1
    have := lorentz_le h0
    change 938 * lorentz v * (1.0e6 / 30) ≤ 1e9
    nlinarith
  have hr : Recordable n P [⟨0, 0, 0, 0.06, 0.08, 0⟩, ⟨0, 0.01, 0, 0.1, 0, 0⟩, ⟨0, 0.02, 0, 0, 0.09, 0⟩] := by
    refine ⟨?_, ?_, ?_, ?_, ?_, ?_, ?_, ?_⟩
    · change (1 : ℝ) ≤ 938; norm_num
    · change (938 : ℝ) ≤ 1e9; norm_num
    · change (1 : ℝ) ≤ 30; norm_num
    · change (30 : ℝ) ≤ 1e6; norm_num
    · change (0 : ℝ) ≤ 0.2; norm_num
    · change (0.2 : ℝ) ≤ 1; norm_num
    · intro s hs
      simp only [List.mem_cons, List.not_mem_nil, or_false] at hs
      rcases hs with rfl | rfl | rfl
      · exact ⟨by rw [v1]; norm_num, by rw [v1]; norm_num⟩
      · exact ⟨by rw [v2]; norm_num, by rw [v2]; norm_num⟩
      · exact ⟨by rw [v3]; norm_num, by rw [v3]; norm_num⟩
    · intro s hs
      simp only [List.mem_cons, List.not_mem_nil, or_false] at hs
      rcases hs with rfl | rfl | rfl
      · exact total _ (by rw [v1]; norm_num) (by rw [v1]; norm_num)
      · exact total _ (by rw [v2]; norm_num) (by rw [v2]; norm_num)
      · exact total _ (by rw [v3]; norm_num) (by rw [v3]; norm_num)
  have hr2 : Recordable n P [⟨0, 0, 0, 0.06, 0.08, 0⟩, ⟨0, 0.01, 0, 0.1, 0, 0⟩] :=
    ⟨hr.mass, hr.mass_le, hr.w, hr.w_le, hr.fano, hr.fano_le,
      fun s hs => hr.moving s (by simp only [List.mem_cons, List.not_mem_nil, or_false] at hs ⊢; tauto),
      fun s hs => hr.total s (by simp only [List.mem_cons, List.not_mem_nil, or_false] at hs ⊢; tauto)⟩
  constructor
  · refine C110_quiet h hg hr2 (v := 0.1) ?_ 0
    intro r hr
    simp only [List.mem_cons, List.not_mem_nil, or_false] at hr
    rcases hr with rfl | rfl
    · exact v1
    · exact v2
  · let rng : Gen ℤ := ⟨fun m sc s => (m + sc * (std s).1, (std s).2), fun a _ s => (a, s)⟩
    obtain ⟨ns64, ns, s', h1, h2, h3⟩ := C110_electrons h (rng := rng) (fun _ _ _ => rfl) hg hr 0
    refine ⟨ns64, s', h1, ?_⟩
    unfold generate_electrons64 at h1
    simp only at h1
    have hw : P.w_value ≠ 0 := by change (30 : ℝ) ≠ 0; norm_num
    rw [if_neg hw] at h1
    rw [fano_draws64_length h1]
    simp [energy_lost64, energy_lost64.go]

end Verif.Machine
