import Verif.Machine.Motion
import Verif.Proofs.Motion64
import Verif.Proofs.Threshold64
import Verif.Props.MachineElectrons

/-! # C139: the equation of motion in machine arithmetic -/

namespace Verif.Machine

open Verif.Detector

/-- The nuclei considered: charged, with at least 500 MeV per charge (real ones have more than 900), below 1e9 MeV. -/
structure Charged (n : Nucleus) : Prop where
  charge : 1 ≤ (n.Z : ℝ)
  mass : 500 * (n.Z : ℝ) ≤ n.mass
  light : n.mass ≤ 1e9

/-- Charge over mass in C/kg. -/
noncomputable def chargeMass (n : Nucleus) : ℝ := n.Z * E_CHARGE / (n.mass * MEV_2_KG)

/-- The deceleration in m/s² for the stopping power `D` in MeV/(g/cm²). -/
noncomputable def drag (target : GasTarget) (n : Nucleus) (D : ℝ) : ℝ :=
  D * MEV_2_JOULE * target.density * 100 / (n.mass * MEV_2_KG)

theorem unit_near {rn : ℝ → ℝ} (h : Rounding rn) {x g g' : ℝ} (hx : |x| ≤ g) (hg : 0 < g)
    (hg' : |g' - g| ≤ 4.5e-16 * g) : Nr 6e-16 1 1e-60 (rn (x / g')) (x / g) := by
  have n0 : Nr 0 g 0 x x := ⟨hx, by simp⟩
  have n1 := n0.div (b := 4.5e-16) hg.ne' (by rw [abs_of_pos hg]; exact hg') le_rfl (by norm_num) (by norm_num)
    (by norm_num) le_rfl
  rw [abs_of_pos hg, div_self hg.ne', mul_zero, zero_div] at n1
  exact (n1.round h (by norm_num) (by norm_num) (by norm_num) (by norm_num) le_rfl).mono (by norm_num) (by norm_num)

theorem velocity_near {rn : ℝ → ℝ} (h : Rounding rn) {u' u b' b : ℝ} (hu : Nr 6e-16 1 1e-60 u' u) (hb : 0 < b)
    (hb1 : b ≤ 1) (hb' : |b' - b| ≤ 1.2e-15 * b) : Nr 2.1e-15 (b * C) 1e-50 (rn (rn (u' * b') * C)) (u * b * C) := by
  have hC : |C| = C := abs_of_pos (by norm_num [C])
  have n1 := hu.mul (b := 1.2e-15) (by rw [abs_of_pos hb]; exact hb') (by norm_num) (by norm_num) (by norm_num)
    (by norm_num) (by norm_num)
  rw [abs_of_pos hb, one_mul] at n1
  have n2 := ((n1.mono (a' := 1.81e-15) (t' := 2e-60) (by norm_num) (by linarith)).round h
    (hb1.trans (by norm_num)) (by norm_num) (by norm_num) (by norm_num) (by norm_num)).mono (a' := 1.93e-15) (t' := 6e-60)
    (by norm_num) (by norm_num)
  have n3 := n2.mul (y := C) (Y := C) (b := 0) (by simp) (by norm_num) (by norm_num) le_rfl (by norm_num) (by norm_num)
  rw [hC] at n3
  refine ((n3.mono (a' := 1.93e-15) (t' := 4e-51) (by norm_num) (by norm_num [C])).round h ?_ (by norm_num)
    (by norm_num) (by norm_num) (by norm_num)).mono (by norm_num) (by norm_num)
  calc b * C ≤ 1 * C := mul_le_mul_of_nonneg_right hb1 (by norm_num [C])
    _ ≤ 1e40 := by norm_num [C]

theorem mass_kg_near {rn : ℝ → ℝ} (h : Rounding rn) {m : ℝ} (h1 : 1 ≤ m) (h2 : m ≤ 1e9) :
    |rn (m * MEV_2_KG64 rn) - m * MEV_2_KG| ≤ 3.4e-16 * (m * MEV_2_KG) := by
  have hk : MEV_2_KG = 1.782661921e-36 * 1.0e6 := rfl
  have k0 : 0 < MEV_2_KG := by norm_num [hk]
  have z : ∀ x : ℝ, |x - x| ≤ 0 * |x| := by intro x; simp
  have a1 := h.relative (z 1.782661921e-36) (by norm_num) (by norm_num) (by norm_num)
  have a2 := mul_relative a1 (z 1.0e6)
  have a3 := h.relative (a := 1.121e-16) (a2.trans (mul_le_mul_of_nonneg_right (by norm_num) (abs_nonneg _)))
    (by norm_num) (by norm_num) (by norm_num)
  change |MEV_2_KG64 rn - MEV_2_KG| ≤ _ * |MEV_2_KG| at a3
  have a4 := mul_relative (z m) a3
  have b1 : 0 < m * MEV_2_KG := by positivity
  have b2 : 1 * MEV_2_KG ≤ m * MEV_2_KG := by gcongr
  have b3 : m * MEV_2_KG ≤ 1e9 * MEV_2_KG := by gcongr
  have a5 := h.relative (a := 2.242e-16) (a4.trans (mul_le_mul_of_nonneg_right (by norm_num) (abs_nonneg _)))
    (by norm_num) (by rw [abs_of_pos b1]; norm_num [hk] at b2 ⊢; linarith)
    (by rw [abs_of_pos b1]; norm_num [hk] at b3 ⊢; linarith)
  rw [abs_of_pos b1] at a5
  exact a5.trans (mul_le_mul_of_nonneg_right (by norm_num) b1.le)

theorem chargeMass_bounds {n : Nucleus} (hn : Charged n) : 1 ≤ chargeMass n ∧ chargeMass n ≤ 2e8 := by
  obtain ⟨hZ, hm, hl⟩ := hn
  unfold chargeMass
  have hk : MEV_2_KG = 1.782661921e-36 * 1.0e6 := rfl
  have he : E_CHARGE = 1.602176634e-19 := rfl
  have m0 : 0 < n.mass := by linarith
  have b1 : 0 < n.mass * MEV_2_KG := by rw [hk]; positivity
  rw [le_div_iff₀ b1, div_le_iff₀ b1, hk, he]
  constructor
  · norm_num at hl ⊢
    linarith
  · norm_num at hl ⊢
    linarith

theorem charge_mass_near {rn : ℝ → ℝ} (h : Rounding rn) {n : Nucleus} (hn : Charged n) :
    |rn (rn ((n.Z : ℝ) * rn E_CHARGE) / rn (n.mass * MEV_2_KG64 rn)) - chargeMass n| ≤ 8e-16 * chargeMass n := by
  have hb := chargeMass_bounds hn
  obtain ⟨hZ, hm, hl⟩ := hn
  have he : E_CHARGE = 1.602176634e-19 := rfl
  have e0 : 0 < E_CHARGE := by norm_num [he]
  have z : ∀ x : ℝ, |x - x| ≤ 0 * |x| := by intro x; simp
  have a1 := h.relative (z E_CHARGE) (by norm_num) (by norm_num [he]) (by norm_num [he])
  have a2 := mul_relative (z (n.Z : ℝ)) a1
  have b1 : 0 < (n.Z : ℝ) * E_CHARGE := by positivity
  have b2 : 1 * E_CHARGE ≤ n.Z * E_CHARGE := by gcongr
  have b3 : n.Z * E_CHARGE ≤ 1e9 * E_CHARGE := by gcongr; linarith
  have a3 := h.relative (a := 1.12e-16) (a2.trans (mul_le_mul_of_nonneg_right (by norm_num) (abs_nonneg _)))
    (by norm_num) (by rw [abs_of_pos b1]; norm_num [he] at b2 ⊢; linarith)
    (by rw [abs_of_pos b1]; norm_num [he] at b3 ⊢; linarith)
  have k0 : 0 < n.mass * MEV_2_KG := by
    have : 0 < MEV_2_KG := by norm_num [MEV_2_KG]
    have : 0 < n.mass := by linarith
    positivity
  have a4 := mass_kg_near h (by linarith : 1 ≤ n.mass) hl
  have a5 := div_relative k0.ne' a3 (a4.trans_eq (by rw [abs_of_pos k0])) (by norm_num) (by norm_num) (by norm_num)
  change |_ - chargeMass n| ≤ _ * |chargeMass n| at a5
  have q0 : 0 < chargeMass n := by linarith [hb.1]
  have a6 := h.relative (a := 5.7e-16) (a5.trans (mul_le_mul_of_nonneg_right (by norm_num) (abs_nonneg _)))
    (by norm_num) (by rw [abs_of_pos q0]; linarith [hb.1]) (by rw [abs_of_pos q0]; linarith [hb.2])
  rw [abs_of_pos q0] at a6
  exact a6.trans (mul_le_mul_of_nonneg_right (by norm_num) q0.le)

/-- The stopping powers considered: zero, or from `1e-9` to `1e9` MeV/(g/cm²). -/
def Stopping (D : ℝ) : Prop := D = 0 ∨ 1e-9 ≤ |D| ∧ |D| ≤ 1e9

theorem drag_near {rn : ℝ → ℝ} (h : Rounding rn) {n : Nucleus} (hn : Charged n) {target : GasTarget}
    (hd : 1e-12 ≤ target.density ∧ target.density ≤ 1e3) {D : ℝ} (hD : Stopping D) :
    |drag target n D| ≤ 1e30 ∧
    |rn (rn (rn (rn (D * MEV_2_JOULE64 rn) * target.density) * 100) / rn (n.mass * MEV_2_KG64 rn)) - drag target n D|
      ≤ 1.3e-15 * |drag target n D| := by
  obtain ⟨hZ, hm, hl⟩ := hn
  have m1 : 500 ≤ n.mass := by linarith
  rcases hD with rfl | ⟨D1, D2⟩
  · have r0 : rn 0 = 0 := h.exact zero_mem
    simp only [drag, zero_mul, zero_div, r0, sub_zero, abs_zero, mul_zero]
    norm_num
  have hj : MEV_2_JOULE = 1.602176634e-19 * 1.0e6 := rfl
  have hk : MEV_2_KG = 1.782661921e-36 * 1.0e6 := rfl
  have j0 : 0 < MEV_2_JOULE := by norm_num [hj]
  have k0 : 0 < MEV_2_KG := by norm_num [hk]
  have z : ∀ x : ℝ, |x - x| ≤ 0 * |x| := by intro x; simp
  have a1 := h.relative (z 1.602176634e-19) (by norm_num) (by norm_num) (by norm_num)
  have a2 := mul_relative a1 (z 1.0e6)
  have a3 := h.relative (a := 1.121e-16) (a2.trans (mul_le_mul_of_nonneg_right (by norm_num) (abs_nonneg _)))
    (by norm_num) (by norm_num) (by norm_num)
  change |MEV_2_JOULE64 rn - MEV_2_JOULE| ≤ _ * |MEV_2_JOULE| at a3
  have a4 := mul_relative (z D) a3
  obtain ⟨d1, d2⟩ := hd
  have d0 : 0 < target.density := lt_of_lt_of_le (by norm_num) d1
  have s1 : 1e-23 ≤ |D * MEV_2_JOULE| ∧ |D * MEV_2_JOULE| ≤ 1e-3 := by
    rw [abs_mul, abs_of_pos j0, hj]
    constructor
    · norm_num at D1 ⊢
      linarith
    · norm_num at D2 ⊢
      linarith
  have a5 := h.relative (a := 2.25e-16) (a4.trans (mul_le_mul_of_nonneg_right (by norm_num) (abs_nonneg _)))
    (by norm_num) (s1.1.trans' (by norm_num)) (s1.2.trans (by norm_num))
  have a6 := mul_relative a5 (z target.density)
  have s2 : 1e-35 ≤ |D * MEV_2_JOULE * target.density| ∧ |D * MEV_2_JOULE * target.density| ≤ 1 := by
    rw [abs_mul _ target.density, abs_of_pos d0]
    generalize |D * MEV_2_JOULE| = A at *
    constructor
    · calc (1e-35 : ℝ) = 1e-23 * 1e-12 := by norm_num
        _ ≤ A * target.density := mul_le_mul s1.1 d1 (by norm_num) (by linarith [s1.1])
    · calc A * target.density ≤ 1e-3 * 1e3 := mul_le_mul s1.2 d2 d0.le (by norm_num)
        _ = 1 := by norm_num
  have a7 := h.relative (a := 3.38e-16) (a6.trans (mul_le_mul_of_nonneg_right (by norm_num) (abs_nonneg _)))
    (by norm_num) (s2.1.trans' (by norm_num)) (s2.2.trans (by norm_num))
  have a8 := mul_relative a7 (z 100)
  have s3 : 1e-33 ≤ |D * MEV_2_JOULE * target.density * 100| ∧ |D * MEV_2_JOULE * target.density * 100| ≤ 100 := by
    rw [abs_mul _ 100, abs_of_pos (by norm_num : (0 : ℝ) < 100)]
    generalize |D * MEV_2_JOULE * target.density| = A at *
    obtain ⟨t1, t2⟩ := s2
    constructor
    · norm_num at t1 ⊢
      linarith
    · linarith
  have a9 := h.relative (a := 4.51e-16) (a8.trans (mul_le_mul_of_nonneg_right (by norm_num) (abs_nonneg _)))
    (by norm_num) (s3.1.trans' (by norm_num)) (s3.2.trans (by norm_num))
  have km : 0 < n.mass * MEV_2_KG := by positivity
  have a10 := mass_kg_near h (by linarith : 1 ≤ n.mass) hl
  have a11 := div_relative km.ne' a9 (a10.trans_eq (by rw [abs_of_pos km])) (by norm_num) (by norm_num) (by norm_num)
  change |_ - drag target n D| ≤ _ * |drag target n D| at a11
  have s4 : 1e-20 ≤ |drag target n D| ∧ |drag target n D| ≤ 1e30 := by
    unfold drag
    rw [abs_div _ (n.mass * MEV_2_KG), abs_of_pos km, le_div_iff₀ km, div_le_iff₀ km, hk]
    generalize |D * MEV_2_JOULE * target.density * 100| = A at *
    obtain ⟨t1, t2⟩ := s3
    constructor
    · norm_num at t1 hl ⊢
      linarith
    · norm_num at t2 m1 ⊢
      linarith
  refine ⟨s4.2, ?_⟩
  have a12 := h.relative (a := 9.1e-16) (a11.trans (mul_le_mul_of_nonneg_right (by norm_num) (abs_nonneg _)))
    (by norm_num) (s4.1.trans' (by norm_num)) (s4.2.trans (by norm_num))
  exact a12.trans (mul_le_mul_of_nonneg_right (by norm_num) (abs_nonneg _))

/-- Force minus drag, over the speed of light. -/
theorem force_drag_near {rn : ℝ → ℝ} (h : Rounding rn) {F F' S A A' u u' : ℝ} (hF : Nr 3.2e-15 S 1e-30 F' F)
    (hS : S ≤ 1e35) (hA : |A| ≤ 1e30) (hA' : |A' - A| ≤ 1.3e-15 * |A|) (hu : Nr 6e-16 1 1e-60 u' u) :
    |rn (rn (F' - rn (A' * u')) / C) - (F - A * u) / C| ≤ 4e-15 * ((S + |A|) / C) + 1e-30 := by
  have hC : |C| = C := abs_of_pos (by norm_num [C])
  have C0 : 0 < C := by norm_num [C]
  have n1 := hu.mul hA' (by norm_num) (by norm_num) (by norm_num) (by norm_num) (by norm_num)
  rw [one_mul] at n1
  have n2 := ((n1.mono (a' := 2e-15) (t' := 2e-30) (by norm_num) (by norm_num at hA ⊢; linarith)).round h
    (hA.trans (by norm_num)) (by norm_num) (by norm_num) (by norm_num) (by norm_num)).mono (a' := 3.2e-15)
    (t' := 5e-30) (by norm_num) (by norm_num)
  rw [mul_comm u' A', mul_comm u A] at n2
  have n3 := (hF.mono le_rfl (by norm_num : (1e-30 : ℝ) ≤ 5e-30)).sub n2
  have S0 := hF.S_nonneg
  have n4 := n3.round h (by norm_num at hS hA ⊢; linarith) (by norm_num) (by norm_num) (by norm_num) (by norm_num)
  have n5 := n4.div (y := C) (b := 0) C0.ne' (by simp) (by norm_num) (by norm_num) le_rfl (by norm_num) (by norm_num)
  rw [hC] at n5
  have n6 := n5.round h (by rw [div_le_iff₀ C0]; norm_num [C] at hS hA ⊢; linarith) (by norm_num) (by norm_num)
    (by rw [div_le_iff₀ C0]; norm_num [C]) (by positivity)
  refine n6.near.trans (add_le_add (mul_le_mul_of_nonneg_right (by norm_num) (by positivity)) ?_)
  norm_num [C]

theorem comp_le_gv (s : Row) : |s.gvx| ≤ s.gv ∧ |s.gvy| ≤ s.gv ∧ |s.gvz| ≤ s.gv := by
  unfold Row.gv
  refine ⟨?_, ?_, ?_⟩ <;> refine Real.le_sqrt_of_sq_le ?_ <;> rw [sq_abs] <;>
    nlinarith [sq_nonneg s.gvx, sq_nonneg s.gvy, sq_nonneg s.gvz]

theorem betaOf_lt {g : ℝ} : betaOf g ≤ 1 := by
  unfold betaOf
  refine Real.sqrt_le_one.2 ?_
  rw [div_le_one (by positivity)]
  linarith

theorem beta_state {rn : ℝ → ℝ} (h : Rounding rn) {s : Row} (hs : Moving s) :
    |beta64 rn (gv64 rn s) - betaOf s.gv| ≤ 1.2e-15 * betaOf s.gv := by
  obtain ⟨n1, n2⟩ := hs.norm h
  have w1 := beta64_near h n1 n2
  have w2 := gv64_near h hs.low hs.up
  have g0 : 0 < s.gv := by linarith [hs.low]
  have p := w2.pos g0
  have w3 : Wn 6 (betaOf (gv64 rn s)) (betaOf s.gv) := by
    unfold betaOf
    refine Wn.sqrt (k := 6) ?_
    have q := w2.mul w2 p.le p.le g0.le g0.le
    rw [← pow_two, ← pow_two] at q
    exact q.div q.one_add (by positivity) (by positivity) (by positivity) (by positivity)
  have b0 := betaOf_pos g0
  refine ((w1.trans w3).error (by norm_num) b0.le).trans (mul_le_mul_of_nonneg_right ?_ b0.le)
  have := uro_le
  norm_num at this ⊢
  linarith

/-- The magnetic force along `x`. -/
theorem force_x {rn : ℝ → ℝ} (h : Rounding rn) {v v' S q q' B : ℝ} (hv : Nr 2.1e-15 S 1e-50 v' v) (hS : S ≤ C)
    (q0 : 0 < q) (q2 : q ≤ 2e8) (hq : |q' - q| ≤ 8e-16 * q) (hB : |B| ≤ 100) :
    Nr 3.2e-15 (S * q * |B|) 1e-30 (rn (rn (q' * v') * B)) (q * v * B) := by
  have S0 := hv.S_nonneg
  have n1 := hv.mul (b := 8e-16) (by rw [abs_of_pos q0]; exact hq) (by norm_num) (by norm_num) (by norm_num)
    (by norm_num) (by norm_num)
  rw [abs_of_pos q0, mul_comm v' q', mul_comm v q] at n1
  have s1 : S * q ≤ C * 2e8 := mul_le_mul hS q2 q0.le (by norm_num [C])
  have s2 : S * q * |B| ≤ C * 2e8 * 100 := mul_le_mul s1 hB (abs_nonneg _) (by norm_num [C])
  have n2 := ((n1.mono (a' := 2.901e-15) (t' := 1e-41) (by norm_num) (by norm_num at q2 ⊢; linarith)).round h
    (s1.trans (by norm_num [C])) (by norm_num) (by norm_num) (by norm_num) (by norm_num)).mono (a' := 3.02e-15)
    (t' := 3e-41) (by norm_num) (by norm_num)
  have n3 := n2.mul (y := B) (Y := B) (b := 0) (by simp) (by norm_num) (by norm_num) le_rfl (by norm_num) (by norm_num)
  exact ((n3.mono (a' := 3.02e-15) (t' := 1e-38) (by norm_num) (by norm_num at hB ⊢; linarith)).round h
    (s2.trans (by norm_num [C])) (by norm_num) (by norm_num) (by norm_num) (by norm_num)).mono
    (by norm_num) (by norm_num)

/-- The magnetic force along `y`. -/
theorem force_y {rn : ℝ → ℝ} (h : Rounding rn) {v v' S q q' B : ℝ} (hv : Nr 2.1e-15 S 1e-50 v' v) (hS : S ≤ C)
    (q0 : 0 < q) (q2 : q ≤ 2e8) (hq : |q' - q| ≤ 8e-16 * q) (hB : |B| ≤ 100) :
    Nr 3.2e-15 (S * q * |B|) 1e-30 (rn (q' * rn (-1 * v' * B))) (q * (-1 * v * B)) := by
  have S0 := hv.S_nonneg
  have n0 : Nr 2.1e-15 S 1e-50 (-1 * v') (-1 * v) := by
    refine ⟨?_, ?_⟩
    · rw [neg_one_mul, abs_neg]
      exact hv.size
    · rw [neg_one_mul, neg_one_mul, ← neg_sub', abs_neg]
      exact hv.near
  have n1 := n0.mul (y := B) (Y := B) (b := 0) (by simp) (by norm_num) (by norm_num) le_rfl (by norm_num) (by norm_num)
  have s1 : S * |B| ≤ C * 100 := mul_le_mul hS hB (abs_nonneg _) (by norm_num [C])
  have s2 : S * |B| * q ≤ C * 100 * 2e8 := mul_le_mul s1 q2 q0.le (by norm_num [C])
  have n2 := ((n1.mono (a' := 2.1e-15) (t' := 2e-48) (by norm_num) (by norm_num at hB ⊢; linarith)).round h
    (s1.trans (by norm_num [C])) (by norm_num) (by norm_num) (by norm_num) (by norm_num)).mono (a' := 2.22e-15)
    (t' := 5e-48) (by norm_num) (by norm_num)
  have n3 := n2.mul (b := 8e-16) (by rw [abs_of_pos q0]; exact hq) (by norm_num) (by norm_num) (by norm_num)
    (by norm_num) (by norm_num)
  rw [abs_of_pos q0, mul_comm (rn _) q', mul_comm (-1 * v * B) q] at n3
  have n4 := ((n3.mono (a' := 3.03e-15) (t' := 1e-38) (by norm_num) (by norm_num at q2 ⊢; linarith)).round h
    (s2.trans (by norm_num [C])) (by norm_num) (by norm_num) (by norm_num) (by norm_num)).mono (a' := 3.2e-15)
    (t' := 1e-30) (by norm_num) (by norm_num)
  rwa [mul_right_comm] at n4

/-- The electric force. -/
theorem force_z {rn : ℝ → ℝ} (h : Rounding rn) {q q' E : ℝ} (q0 : 0 < q) (q2 : q ≤ 2e8)
    (hq : |q' - q| ≤ 8e-16 * q) (hE : |E| ≤ 1e9) : Nr 3.2e-15 (q * |E|) 1e-30 (rn (q' * E)) (q * E) := by
  have n0 : Nr 8e-16 q 0 q' q := ⟨(abs_of_pos q0).le, by rw [add_zero]; exact hq⟩
  have n1 := n0.mul (y := E) (Y := E) (b := 0) (by simp) (by norm_num) (by norm_num) le_rfl (by norm_num) le_rfl
  have s1 : q * |E| ≤ 2e8 * 1e9 := mul_le_mul q2 hE (abs_nonneg _) (by norm_num)
  exact ((n1.mono (a' := 8e-16) (t' := 0) (by norm_num) (by simp)).round h
    (s1.trans (by norm_num)) (by norm_num) (by norm_num) (by norm_num) le_rfl).mono (by norm_num) (by norm_num)

/-- **C139.** In float64 the equation of motion raises no exception for a moving charged nucleus, the stopping power is
evaluated at the kinetic energy up to 11 units of `2^-53` of the total energy, the velocity is right up to `2.1e-15` of
the speed, and the derivatives of the momentum are right up to `4e-15` of force and drag. -/
theorem C139_motion {rn : ℝ → ℝ} (h : Rounding rn) {s : Row} (hs : Moving s) {n : Nucleus} (hn : Charged n)
    {target : GasTarget} (hd : 1e-12 ≤ target.density ∧ target.density ≤ 1e3) {bfield efield : ℝ}
    (hB : |bfield| ≤ 100) (hE : |efield| ≤ 1e9) (t : ℝ)
    (hD : ∀ e, 0 ≤ e → Stopping (target.get_dedx n e)) :
    ∃ r' r e', equation_of_motion64 rn t s bfield efield target n = .ok r' ∧
      equation_of_motion t s bfield efield target n = .ok r ∧
      |e' - kinetic n.mass s| ≤ 11 * 2 ^ (-53 : ℤ) * (n.mass * lorentz s.gv) ∧
      (|r'.x - r.x| ≤ 2.1e-15 * (betaOf s.gv * C) + 1e-50 ∧ |r'.y - r.y| ≤ 2.1e-15 * (betaOf s.gv * C) + 1e-50 ∧
        |r'.z - r.z| ≤ 2.1e-15 * (betaOf s.gv * C) + 1e-50) ∧
      let change := |drag target n (target.get_dedx n e') - drag target n (target.get_dedx n (kinetic n.mass s))| / C
      let a := |drag target n (target.get_dedx n e')|
      let magnetic := betaOf s.gv * C * chargeMass n * |bfield|
      |r'.gvx - r.gvx| ≤ 4e-15 * ((magnetic + a) / C) + change + 1e-30 ∧
      |r'.gvy - r.gvy| ≤ 4e-15 * ((magnetic + a) / C) + change + 1e-30 ∧
      |r'.gvz - r.gvz| ≤ 4e-15 * ((chargeMass n * |efield| + a) / C) + change + 1e-30 := by
  obtain ⟨n1, n2⟩ := hs.norm h
  have g0 : 0 < s.gv := by linarith [hs.low]
  have gp : 0 < gv64 rn s := by linarith
  have bp := (beta64_near h n1 n2).pos (betaOf_pos gp)
  have b0 := betaOf_pos g0
  have b1 : betaOf s.gv ≤ 1 := betaOf_lt
  have hb := beta_state h hs
  have hg : |gv64 rn s - s.gv| ≤ 4.5e-16 * s.gv := by
    refine ((gv64_near h hs.low hs.up).error (by norm_num) g0.le).trans (mul_le_mul_of_nonneg_right ?_ g0.le)
    have := uro_le
    norm_num at this ⊢
    linarith
  obtain ⟨cx, cy, cz⟩ := comp_le_gv s
  have ux := unit_near h cx g0 hg
  have uy := unit_near h cy g0 hg
  have uz := unit_near h cz g0 hg
  have vx := velocity_near h ux b0 b1 hb
  have vy := velocity_near h uy b0 b1 hb
  have vz := velocity_near h uz b0 b1 hb
  have hm : 1 ≤ n.mass := by linarith [hn.charge, hn.mass]
  obtain ⟨e64, e, he64, he, h0, -, -, hke⟩ := C110_energy h (by linarith) hn.light hm hs
  rw [track_energy_eq hs] at he
  cases he
  have c64 : e64 = kinetic64 rn n.mass (gv64 rn s) := by
    unfold track_energy64 at he64
    simp only at he64
    rw [if_neg bp.ne'] at he64
    exact (Option.some.inj he64).symm
  have hq := charge_mass_near h hn
  obtain ⟨q1, q2⟩ := chargeMass_bounds hn
  have q0 : 0 < chargeMass n := by linarith
  have hqa : |chargeMass n| = chargeMass n := abs_of_pos q0
  obtain ⟨A1, A2⟩ := drag_near h hn hd (hD e64 h0)
  have hC : |C| = C := abs_of_pos (by norm_num [C])
  have C0 : 0 < C := by norm_num [C]
  have kin : n.mass * (s.gv / betaOf s.gv - 1) = kinetic n.mass s := by
    unfold kinetic
    rw [gamma_eq g0]
  rw [c64] at A1 A2 hke
  unfold equation_of_motion64 equation_of_motion
  simp only
  rw [if_neg bp.ne', if_neg b0.ne', kin]
  refine ⟨_, _, kinetic64 rn n.mass (gv64 rn s), rfl, rfl, hke, ⟨vx.near, vy.near, vz.near⟩, ?_⟩
  simp only
  have s0 : betaOf s.gv * C ≤ C := mul_le_of_le_one_left C0.le b1
  have s1 : betaOf s.gv * C * chargeMass n * |bfield| ≤ C * 2e8 * 100 :=
    mul_le_mul (mul_le_mul s0 q2 q0.le C0.le) hB (abs_nonneg _) (by positivity)
  have s2 : chargeMass n * |efield| ≤ 2e8 * 1e9 := mul_le_mul q2 hE (abs_nonneg _) (by norm_num)
  have fx := force_x h vy s0 q0 q2 hq hB
  have fy := force_y h vx s0 q0 q2 hq hB
  have fz := force_z h q0 q2 hq hE
  have mx := force_drag_near h fx (s1.trans (by norm_num [C])) A1 A2 ux
  have my := force_drag_near h fy (s1.trans (by norm_num [C])) A1 A2 uy
  have mz := force_drag_near h fz (s2.trans (by norm_num)) A1 A2 uz
  have shift : ∀ {R F A D u S : ℝ}, |R - (F - A * u) / C| ≤ S + 1e-30 → |u| ≤ 1 →
      |R - (F - D * u) / C| ≤ S + |A - D| / C + 1e-30 := by
    intro R F A D u S hR hu
    have e1 : R - (F - D * u) / C = (R - (F - A * u) / C) - (A - D) * u / C := by ring
    rw [e1]
    refine (abs_sub _ _).trans ?_
    have : |(A - D) * u / C| ≤ |A - D| / C := by
      rw [abs_div _ C, hC, abs_mul _ u]
      refine div_le_div_of_nonneg_right ?_ C0.le
      exact mul_le_of_le_one_right (abs_nonneg _) hu
    linarith
  exact ⟨shift mx ux.size, shift my uy.size, shift mz uz.size⟩

/-- Different doubles are at least `2^-1074` apart. -/
theorem doubles_apart {a b : ℝ} (ha : a ∈ Binary64) (hb : b ∈ Binary64) (hab : a ≠ b) : (2 : ℝ) ^ (-1074 : ℤ) ≤ |a - b| := by
  have multiple : ∀ x ∈ Binary64, ∃ N : ℤ, x = N * (2 : ℝ) ^ (-1074 : ℤ) := by
    rintro x ⟨m, e, -, he, -, rfl⟩
    obtain ⟨k, hk⟩ := Int.eq_ofNat_of_zero_le (by linarith : 0 ≤ e + 1074)
    refine ⟨m * 2 ^ k, ?_⟩
    have : e = (k : ℤ) + (-1074) := by linarith
    rw [this, zpow_add₀ (by norm_num), zpow_natCast]
    push_cast
    ring
  obtain ⟨M, rfl⟩ := multiple a ha
  obtain ⟨N, rfl⟩ := multiple b hb
  have hp : (0 : ℝ) < (2 : ℝ) ^ (-1074 : ℤ) := by positivity
  generalize (2 : ℝ) ^ (-1074 : ℤ) = p at *
  have hMN : M ≠ N := fun h => hab (by rw [h])
  have h1 : (1 : ℝ) ≤ |((M - N : ℤ) : ℝ)| := by
    rw [← Int.cast_abs]
    exact_mod_cast Int.one_le_abs (sub_ne_zero.2 hMN)
  rw [← sub_mul, abs_mul _ p, abs_of_pos hp]
  push_cast at h1
  exact le_mul_of_one_le_left hp.le h1

theorem sign_sub {rn : ℝ → ℝ} (h : Rounding rn) {a b : ℝ} (ha : a ∈ Binary64) (hb : b ∈ Binary64) :
    (0 < rn (a - b) ↔ 0 < a - b) ∧ (rn (a - b) < 0 ↔ a - b < 0) := by
  have hmem : (2 : ℝ) ^ (-1074 : ℤ) ∈ Binary64 := ⟨1, -1074, by norm_num, le_rfl, by norm_num, by rw [Int.cast_one, one_mul]⟩
  have hp : (0 : ℝ) < (2 : ℝ) ^ (-1074 : ℤ) := by positivity
  have g := doubles_apart ha hb
  generalize (2 : ℝ) ^ (-1074 : ℤ) = p at *
  have up : 0 < a - b → 0 < rn (a - b) := fun h1 => by
    have := g (by rintro rfl; simp at h1)
    rw [abs_of_pos h1] at this
    exact hp.trans_le (h.ge_of_ge hmem this)
  have down : a - b < 0 → rn (a - b) < 0 := fun h1 => by
    have := g (by rintro rfl; simp at h1)
    rw [abs_of_neg h1] at this
    have := h.le_of_le (neg_mem hmem) (by linarith : a - b ≤ -p)
    linarith
  refine ⟨⟨fun h1 => ?_, up⟩, ⟨fun h1 => ?_, down⟩⟩
  · by_contra hc
    exact absurd h1 (not_lt.2 (h.nonpos (not_lt.1 hc)))
  · by_contra hc
    exact absurd h1 (not_lt.2 (h.nonneg (not_lt.1 hc)))

/-- **C139.** The bounds in `z` are found exactly: for a double the sign of the forward condition is the sign of
`z - 1`. -/
theorem C139_forward {rn : ℝ → ℝ} (h : Rounding rn) {s : Row} (hz : s.z ∈ Binary64) :
    (0 < forward_z_bound_condition64 rn s ↔ 0 < forward_z_bound_condition s) ∧
    (forward_z_bound_condition64 rn s < 0 ↔ forward_z_bound_condition s < 0) :=
  sign_sub h hz (by simpa using int_mem (n := 1) (by norm_num))

/-- **C139.** The radius is compared with 0.292 m up to `6e-16` m. -/
theorem C139_rho {rn : ℝ → ℝ} (h : Rounding rn) {s : Row} (hr : s.x ^ 2 + s.y ^ 2 ≤ 1) :
    |rho_bound_condition64 rn s - rho_bound_condition s| ≤ 6e-16 := by
  unfold rho_bound_condition64 rho_bound_condition
  have x0 := sq_nonneg s.x
  have y0 := sq_nonneg s.y
  generalize s.x ^ 2 = X at *
  generalize s.y ^ 2 = Y at *
  have z : ∀ x : ℝ, |x - x| ≤ 0 := by intro x; simp
  have a1 := h.absolute (z X) (by rw [abs_of_nonneg x0]; norm_num; linarith) (by norm_num)
  have a2 := h.absolute (z Y) (by rw [abs_of_nonneg y0]; norm_num; linarith) (by norm_num)
  rw [abs_of_nonneg x0] at a1
  rw [abs_of_nonneg y0] at a2
  have a3 : |rn X + rn Y - (X + Y)| ≤ 1.12e-16 * (X + Y) + 2e-60 := by
    have b1 := abs_le.1 a1
    have b2 := abs_le.1 a2
    rw [abs_le]
    constructor <;> norm_num at b1 b2 ⊢ <;> linarith
  have s0 : 0 ≤ X + Y := by linarith
  have a4 := h.absolute a3 (by rw [abs_of_nonneg s0]; norm_num; linarith) (by norm_num; linarith)
  rw [abs_of_nonneg s0] at a4
  have n0 : 0 ≤ rn (rn X + rn Y) := h.nonneg (add_nonneg (h.nonneg x0) (h.nonneg y0))
  generalize rn (rn X + rn Y) = R at *
  generalize X + Y = S at *
  have key : |Real.sqrt R - Real.sqrt S| ≤ 2.3e-16 := by
    rcases le_or_gt 1e-40 S with hS | hS
    · have S0 : 0 < S := lt_of_lt_of_le (by norm_num) hS
      have a5 : |R - S| ≤ 2.3e-16 * S := by
        refine a4.trans ?_
        norm_num at hS ⊢
        linarith
      refine (sqrt_relative S0 n0 a5).trans ?_
      have : Real.sqrt S ≤ 1 := Real.sqrt_le_one.2 hr
      have := Real.sqrt_nonneg S
      norm_num
      linarith
    · have hR : R ≤ 4e-40 := by
        have := (abs_le.1 a4).2
        norm_num at this hS ⊢
        linarith
      have r1 : Real.sqrt R ≤ 2e-20 := by
        rw [Real.sqrt_le_left (by norm_num)]
        exact hR.trans (by norm_num)
      have r2 : Real.sqrt S ≤ 2e-20 := by
        rw [Real.sqrt_le_left (by norm_num)]
        exact hS.le.trans (by norm_num)
      have r3 := Real.sqrt_nonneg R
      have r4 := Real.sqrt_nonneg S
      rw [abs_le]
      constructor <;> norm_num at r1 r2 ⊢ <;> linarith
  have q0 := Real.sqrt_nonneg S
  have q1 : Real.sqrt S ≤ 1 := Real.sqrt_le_one.2 hr
  have a6 := h.absolute key (by rw [abs_of_nonneg q0]; norm_num; linarith) (by norm_num)
  have a7 := h.absolute (z 0.292) (by norm_num) (by norm_num)
  rw [abs_of_nonneg q0] at a6
  rw [abs_of_pos (by norm_num : (0 : ℝ) < 0.292)] at a7
  generalize rn (Real.sqrt R) = R1 at *
  generalize Real.sqrt S = S1 at *
  generalize rn 0.292 = c at *
  have a8 : |R1 - c - (S1 - 0.292)| ≤ 4e-16 := by
    have b1 := abs_le.1 a6
    have b2 := abs_le.1 a7
    rw [abs_le]
    constructor <;> norm_num at b1 b2 ⊢ <;> linarith
  have hX : |S1 - 0.292| ≤ 1 := by
    rw [abs_le]
    constructor <;> norm_num <;> linarith
  refine (h.absolute a8 (hX.trans (by norm_num)) (by norm_num)).trans ?_
  norm_num
  linarith

/-- **C139.** The initial momentum is rounded once. -/
theorem C139_start {rn : ℝ → ℝ} (h : Rounding rn) (vertex momentum : ℝ × ℝ × ℝ) {n : Nucleus} (hm : 1 ≤ n.mass)
    (params : DetectorParams) (hp : |momentum.1| ≤ 1e12 ∧ |momentum.2.1| ≤ 1e12 ∧ |momentum.2.2| ≤ 1e12) :
    let y := (trajectory_problem64 rn vertex momentum n params).y0
    let y0 := (trajectory_problem vertex momentum n params).y0
    y.x = y0.x ∧ y.y = y0.y ∧ y.z = y0.z ∧ |y.gvx - y0.gvx| ≤ 1.12e-16 * |y0.gvx| + 1e-60 ∧
      |y.gvy - y0.gvy| ≤ 1.12e-16 * |y0.gvy| + 1e-60 ∧ |y.gvz - y0.gvz| ≤ 1.12e-16 * |y0.gvz| + 1e-60 := by
  have key : ∀ p : ℝ, |p| ≤ 1e12 → |rn (p / n.mass) - p / n.mass| ≤ 1.12e-16 * |p / n.mass| + 1e-60 := by
    intro p hp
    have h1 : |p / n.mass| ≤ 1e12 := by
      have m0 : 0 < n.mass := by linarith
      rw [abs_div p n.mass, abs_of_pos m0, div_le_iff₀ m0]
      norm_num at hp ⊢
      linarith
    have := h.absolute (x := p / n.mass) (X := p / n.mass) (d := 0) (by simp) (h1.trans (by norm_num)) (by norm_num)
    simpa using this
  exact ⟨rfl, rfl, rfl, key _ hp.1, key _ hp.2.1, key _ hp.2.2⟩

theorem step_near {rn : ℝ → ℝ} (h : Rounding rn) {k : ℕ} (hk : k ≤ 10000) :
    |rn ((k : ℝ) * rn (rn 10e-7 / 10000)) - (k : ℝ) * 1e-10| ≤ 4e-22 ∧ |rn 10e-7 - 10000 * 1e-10| ≤ 4e-22 := by
  have z : ∀ x : ℝ, |x - x| ≤ 0 * |x| := by intro x; simp
  have a1 := h.relative (z 10e-7) (by norm_num) (by norm_num) (by norm_num)
  have a2 := mul_relative a1 (z 10000⁻¹)
  have e1 : (10e-7 : ℝ) * 10000⁻¹ = 1e-10 := by norm_num
  rw [e1, ← div_eq_mul_inv] at a2
  have a3 := h.relative (a := 1.12e-16) (a2.trans (mul_le_mul_of_nonneg_right (by norm_num) (abs_nonneg _)))
    (by norm_num) (by norm_num) (by norm_num)
  have a4 := mul_relative (z (k : ℝ)) a3
  have hk1 : (k : ℝ) ≤ 10000 := by exact_mod_cast hk
  have k0 : (0 : ℝ) ≤ k := Nat.cast_nonneg k
  have p0 : (0 : ℝ) ≤ (k : ℝ) * 1e-10 := by positivity
  have p1 : (k : ℝ) * 1e-10 ≤ 1e-6 := by
    norm_num
    linarith
  rw [abs_of_nonneg p0] at a4
  generalize rn (rn 10e-7 / 10000) = d at *
  have a5 : |(k : ℝ) * d - (k : ℝ) * 1e-10| ≤ 2.25e-22 := by
    refine a4.trans ?_
    norm_num at p1 ⊢
    linarith
  constructor
  · refine (h.absolute a5 (by rw [abs_of_nonneg p0]; exact p1.trans (by norm_num)) (by norm_num)).trans ?_
    rw [abs_of_nonneg p0]
    norm_num at p1 ⊢
    linarith
  · rw [show (10000 : ℝ) * 1e-10 = 10e-7 by norm_num]
    exact a1.trans (by norm_num)

theorem range_append_last (g : ℕ → ℝ) (c : ℝ) (n : ℕ) :
    (List.range n).map g ++ [c] = (List.range (n + 1)).map fun k => if k < n then g k else c := by
  rw [List.range_succ, List.map_append]
  congr 1
  · refine List.map_congr_left fun k hk => ?_
    rw [if_pos (List.mem_range.1 hk)]
  · simp

/-- **C139.** The times of evaluation are 10001 multiples of 0.1 ns up to `4e-22` s, increase strictly and lie in the
time span, so that `solve_ivp` accepts them. -/
theorem C139_times {rn : ℝ → ℝ} (h : Rounding rn) :
    (TIME_STEPS64 rn).length = 10001 ∧ (TIME_STEPS64 rn).Pairwise (· < ·) ∧
    (∀ x ∈ TIME_STEPS64 rn, 0 ≤ x ∧ x ≤ 1) ∧
    ∀ k : ℕ, k ≤ 10000 → ∃ x, (TIME_STEPS64 rn)[k]? = some x ∧ |x - (k : ℝ) * 1e-10| ≤ 4e-22 := by
  obtain ⟨f, hf⟩ : ∃ f : ℕ → ℝ, ∀ k, f k = if k < 10000 then rn ((k : ℝ) * rn (rn 10e-7 / 10000)) else rn 10e-7 :=
    ⟨_, fun _ => rfl⟩
  have hl : TIME_STEPS64 rn = (List.range (10000 + 1)).map f := by
    unfold TIME_STEPS64
    rw [range_append_last]
    exact List.map_congr_left fun k _ => (hf k).symm
  have hn : ∀ k, k ≤ 10000 → |f k - (k : ℝ) * 1e-10| ≤ 4e-22 := by
    intro k hk
    obtain ⟨n1, n2⟩ := step_near h hk
    rw [hf]
    split_ifs with hc
    · exact n1
    · have : k = 10000 := by omega
      rw [this]
      exact_mod_cast n2
  have h0 : f 0 = 0 := by
    rw [hf, if_pos (by norm_num), Nat.cast_zero, zero_mul]
    exact h.exact zero_mem
  rw [hl]
  refine ⟨by simp, ?_, ?_, ?_⟩
  · rw [List.pairwise_map]
    refine List.Pairwise.imp_of_mem ?_ List.pairwise_lt_range
    intro a b ha hb hab
    have a1 := (abs_le.1 (hn a (by have := List.mem_range.1 ha; omega))).2
    have b1 := (abs_le.1 (hn b (by have := List.mem_range.1 hb; omega))).1
    have : (a : ℝ) + 1 ≤ b := by exact_mod_cast hab
    norm_num at a1 b1
    linarith
  · intro x hx
    obtain ⟨k, hk, rfl⟩ := List.mem_map.1 hx
    have hk' : k ≤ 10000 := by have := List.mem_range.1 hk; omega
    have a1 := abs_le.1 (hn k hk')
    have k1 : (k : ℝ) ≤ 10000 := by exact_mod_cast hk'
    rcases Nat.eq_zero_or_pos k with rfl | hp
    · rw [h0]
      norm_num
    · have : (1 : ℝ) ≤ k := by exact_mod_cast hp
      constructor <;> norm_num at a1 <;> linarith
  · intro k hk
    refine ⟨f k, ?_, hn k hk⟩
    rw [List.getElem?_map, List.getElem?_range (by omega)]
    rfl

/-- **C139.** The whole problem handed to `solve_ivp`: the method and the time span are the same, the right-hand side is
near the exact one, and so are the four terminal events, with the same directions. -/
theorem C139_problem {rn : ℝ → ℝ} (h : Rounding rn) (vertex momentum : ℝ × ℝ × ℝ) {n : Nucleus} (hn : Charged n)
    {params : DetectorParams} (hd : 1e-12 ≤ params.gas_target.density ∧ params.gas_target.density ≤ 1e3)
    (hB : |params.bfield| ≤ 100) (hE : |params.efield| ≤ 1e9)
    (hD : ∀ e, 0 ≤ e → Stopping (params.gas_target.get_dedx n e)) :
    let p' := trajectory_problem64 rn vertex momentum n params
    let p := trajectory_problem vertex momentum n params
    p'.method = p.method ∧ p'.t_span = p.t_span ∧
    p'.events.map (fun e => (e.terminal, e.direction)) = p.events.map (fun e => (e.terminal, e.direction)) ∧
    (∀ t s, Moving s → ∃ r' r e', p'.rhs t s = .ok r' ∧ p.rhs t s = .ok r ∧
      |e' - kinetic n.mass s| ≤ 11 * 2 ^ (-53 : ℤ) * (n.mass * lorentz s.gv) ∧
      (|r'.x - r.x| ≤ 2.1e-15 * (betaOf s.gv * C) + 1e-50 ∧ |r'.y - r.y| ≤ 2.1e-15 * (betaOf s.gv * C) + 1e-50 ∧
        |r'.z - r.z| ≤ 2.1e-15 * (betaOf s.gv * C) + 1e-50) ∧
      let change := |drag params.gas_target n (params.gas_target.get_dedx n e')
        - drag params.gas_target n (params.gas_target.get_dedx n (kinetic n.mass s))| / C
      let a := |drag params.gas_target n (params.gas_target.get_dedx n e')|
      let magnetic := betaOf s.gv * C * chargeMass n * |params.bfield|
      |r'.gvx - r.gvx| ≤ 4e-15 * ((magnetic + a) / C) + change + 1e-30 ∧
      |r'.gvy - r.gvy| ≤ 4e-15 * ((magnetic + a) / C) + change + 1e-30 ∧
      |r'.gvz - r.gvz| ≤ 4e-15 * ((chargeMass n * |params.efield| + a) / C) + change + 1e-30) ∧
    (∀ t s, Moving s → |s.z| ≤ 10 → s.x ^ 2 + s.y ^ 2 ≤ 1 → ∀ i, i < 4 → ∃ e' e v' v, p'.events[i]? = some e' ∧
      p.events[i]? = some e ∧ e'.fn t s = .ok v' ∧ e.fn t s = .ok v ∧
      |v' - v| ≤ 13 * 2 ^ (-53 : ℤ) * (n.mass * lorentz s.gv)) := by
  have hm : 500 ≤ n.mass := by linarith [hn.charge, hn.mass]
  refine ⟨rfl, rfl, rfl, ?_, ?_⟩
  · intro t s hs
    have := C139_motion h hs hn hd (bfield := params.bfield * -1) (efield := params.efield * -1)
      (by rwa [mul_neg_one, abs_neg]) (by rwa [mul_neg_one, abs_neg]) t hD
    simp only [mul_neg_one, abs_neg] at this
    simp only [trajectory_problem64, trajectory_problem, mul_neg_one]
    exact this
  · intro t s hs hz hr i hi
    have l1 := lorentz_ge s.gv
    have big : (6e-13 : ℝ) ≤ 13 * 2 ^ (-53 : ℤ) * (n.mass * lorentz s.gv) := by
      have : 500 * 1 ≤ n.mass * lorentz s.gv := mul_le_mul hm l1 (by norm_num) (by linarith)
      norm_num at this ⊢
      linarith
    interval_cases i
    · obtain ⟨v', v, h1, h2, h3⟩ := C110_stop h hn.light (by linarith) hs
      exact ⟨_, _, v', v, rfl, rfl, h1, h2, h3⟩
    · refine ⟨_, _, _, _, rfl, rfl, rfl, rfl, le_trans ?_ big⟩
      unfold forward_z_bound_condition64 forward_z_bound_condition
      have hb : |s.z - 1| ≤ 11 := by
        have := abs_le.1 hz
        rw [abs_le]
        constructor <;> linarith
      have := h.absolute (x := s.z - 1) (X := s.z - 1) (d := 0) (by simp) (hb.trans (by norm_num)) (by norm_num)
      refine this.trans ?_
      norm_num
      linarith
    · exact ⟨_, _, _, _, rfl, rfl, rfl, rfl, by rw [sub_self, abs_zero]; exact big.trans' (by norm_num)⟩
    · exact ⟨_, _, _, _, rfl, rfl, rfl, rfl, (C139_rho h hr).trans (big.trans' (by norm_num))⟩

/-- A gas with a constant stopping power. -/
noncomputable def exGas : GasTarget := ⟨1e-4, fun _ _ => 50, fun _ _ _ => 0⟩

/-- A proton. -/
noncomputable def exProton : Nucleus := ⟨1, 1, 938, "1H"⟩

/-- A proton with `γβ = 3/4` along `x` in the usual fields: the computed velocity is 0.6 c up to a micrometre per second. -/
example : ∃ (rn : ℝ → ℝ) (r' : Row), Rounding rn ∧
    equation_of_motion64 rn 0 ⟨0, 0, 1 / 2, 3 / 4, 0, 0⟩ (-2.85) (-60000) exGas exProton = .ok r' ∧
    |r'.x - 179875474.8| ≤ 1e-6 := by
  obtain ⟨rn, h⟩ := exists_rounding
  have hgv : Row.gv ⟨0, 0, 1 / 2, 3 / 4, 0, 0⟩ = 3 / 4 := by
    unfold Row.gv
    rw [show ((3 / 4 : ℝ) ^ 2 + 0 ^ 2 + 0 ^ 2) = (3 / 4) ^ 2 by norm_num]
    exact Real.sqrt_sq (by norm_num)
  have hb : betaOf (3 / 4) = 3 / 5 := by
    unfold betaOf
    rw [show ((3 / 4 : ℝ) ^ 2 / (1 + (3 / 4) ^ 2)) = (3 / 5) ^ 2 by norm_num]
    exact Real.sqrt_sq (by norm_num)
  have hs : Moving ⟨0, 0, 1 / 2, 3 / 4, 0, 0⟩ := ⟨by rw [hgv]; norm_num, by rw [hgv]; norm_num⟩
  have hn : Charged exProton := ⟨by norm_num [exProton], by norm_num [exProton], by norm_num [exProton]⟩
  obtain ⟨r', r, e', h1, h2, -, ⟨hx, -, -⟩, -⟩ := C139_motion h hs hn (target := exGas)
    (by constructor <;> norm_num [exGas]) (bfield := -2.85) (efield := -60000) (by rw [abs_neg]; norm_num)
    (by rw [abs_neg]; norm_num) 0 (fun e _ => Or.inr (by constructor <;> norm_num [exGas]))
  refine ⟨rn, r', h, h1, ?_⟩
  have hr : r.x = 179875474.8 := by
    unfold equation_of_motion at h2
    simp only [hgv, hb] at h2
    rw [if_neg (by norm_num)] at h2
    cases h2
    norm_num [C]
  rw [hr, hgv, hb] at hx
  refine hx.trans ?_
  norm_num [C]

/-- Past the end of the chamber by one unit in the last place. -/
example : ∃ (rn : ℝ → ℝ) (s : Row), Rounding rn ∧ s.z ∈ Binary64 ∧ 1 < s.z ∧ s.z < 1 + 1e-15 ∧
    0 < forward_z_bound_condition64 rn s := by
  obtain ⟨rn, h⟩ := exists_rounding
  have hz : (1 + 2 ^ (-52 : ℤ) : ℝ) ∈ Binary64 :=
    mem_of_eq (m := 2 ^ 52 + 1) (e := -52) (by norm_num) (by norm_num) (by norm_num) (by norm_num)
  refine ⟨rn, ⟨0, 0, 1 + 2 ^ (-52 : ℤ), 0, 0, 0⟩, h, hz, by norm_num, by norm_num, ?_⟩
  rw [(C139_forward h hz).1]
  unfold forward_z_bound_condition
  norm_num

/-- A point on the wall, at `x = 0.292` m: the computed condition is zero up to `6e-16`. -/
example : ∃ rn : ℝ → ℝ, Rounding rn ∧ |rho_bound_condition64 rn ⟨0.292, 0, 0, 0, 0, 0⟩| ≤ 6e-16 := by
  obtain ⟨rn, h⟩ := exists_rounding
  have := C139_rho h (s := ⟨0.292, 0, 0, 0, 0, 0⟩) (by norm_num)
  have h0 : rho_bound_condition ⟨0.292, 0, 0, 0, 0, 0⟩ = 0 := by
    unfold rho_bound_condition
    rw [show ((0.292 : ℝ) ^ 2 + 0 ^ 2) = 0.292 ^ 2 by norm_num, Real.sqrt_sq (by norm_num)]
    norm_num
  rw [h0, sub_zero] at this
  exact ⟨rn, h, this⟩

/-- The problem for a proton of 703.5 MeV/c along `z` in the usual fields meets the conditions, and it starts with a
computed momentum of 3/4. -/
example : ∃ (rn : ℝ → ℝ) (params : DetectorParams), Rounding rn ∧ Charged exProton ∧
    (1e-12 ≤ params.gas_target.density ∧ params.gas_target.density ≤ 1e3) ∧ |params.bfield| ≤ 100 ∧
    |params.efield| ≤ 1e9 ∧ (∀ e, 0 ≤ e → Stopping (params.gas_target.get_dedx exProton e)) ∧
    |(trajectory_problem64 rn (0, 0, 0.5) (0, 0, 703.5) exProton params).y0.gvz - 3 / 4| ≤ 1e-16 := by
  obtain ⟨rn, h⟩ := exists_rounding
  refine ⟨rn, ⟨1, 60000, 2.85, 175000, exGas, 0.277, 0.2, 34⟩, h,
    ⟨by norm_num [exProton], by norm_num [exProton], by norm_num [exProton]⟩, by constructor <;> norm_num [exGas],
    by norm_num, by norm_num, fun e _ => Or.inr (by constructor <;> norm_num [exGas]), ?_⟩
  have := (C139_start h (0, 0, 0.5) (0, 0, 703.5) (n := exProton) (by norm_num [exProton])
    ⟨1, 60000, 2.85, 175000, exGas, 0.277, 0.2, 34⟩ (by norm_num)).2.2.2.2.2
  have e0 : (trajectory_problem (0, 0, 0.5) (0, 0, 703.5) exProton
      ⟨1, 60000, 2.85, 175000, exGas, 0.277, 0.2, 34⟩).y0.gvz = 3 / 4 := by
    norm_num [trajectory_problem, exProton]
  rw [e0] at this
  refine this.trans ?_
  norm_num

end Verif.Machine
