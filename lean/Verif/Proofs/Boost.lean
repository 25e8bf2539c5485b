import Verif.Kinematics.Reaction
import Mathlib.Tactic.FieldSimp
import Mathlib.Tactic.Ring
import Mathlib.Tactic.Linarith
import Mathlib.Tactic.LinearCombination
import Mathlib.Tactic.Positivity

/-! # Lorentz boosts -/

namespace Verif.Kinematics

namespace Vec4

@[simp] theorem add_px (a b : Vec4) : (a + b).px = a.px + b.px := rfl
@[simp] theorem add_py (a b : Vec4) : (a + b).py = a.py + b.py := rfl
@[simp] theorem add_pz (a b : Vec4) : (a + b).pz = a.pz + b.pz := rfl
@[simp] theorem add_E (a b : Vec4) : (a + b).E = a.E + b.E := rfl
@[simp] theorem sub_px (a b : Vec4) : (a - b).px = a.px - b.px := rfl
@[simp] theorem sub_py (a b : Vec4) : (a - b).py = a.py - b.py := rfl
@[simp] theorem sub_pz (a b : Vec4) : (a - b).pz = a.pz - b.pz := rfl
@[simp] theorem sub_E (a b : Vec4) : (a - b).E = a.E - b.E := rfl

/-- Euclidean product of the momenta. -/
noncomputable def dot (a b : Vec4) : ℝ := a.px * b.px + a.py * b.py + a.pz * b.pz

/-- A massive four-momentum of positive energy. -/
structure Massive (q : Vec4) : Prop where
  boostable : q.Boostable
  pos : 0 < q.E

theorem Massive.M2_pos {q : Vec4} (h : q.Massive) : 0 < q.M2 := by
  have := h.1
  unfold Boostable at this
  unfold M2; linarith

theorem Massive.M_eq {q : Vec4} (h : q.Massive) : q.M = Real.sqrt q.M2 := by
  unfold M; rw [if_neg (not_lt.2 h.M2_pos.le)]

theorem Massive.M_pos {q : Vec4} (h : q.Massive) : 0 < q.M := by
  rw [h.M_eq]; exact Real.sqrt_pos.2 h.M2_pos

theorem Massive.M_sq {q : Vec4} (h : q.Massive) : q.M ^ 2 = q.E ^ 2 - q.dot q := by
  rw [h.M_eq, Real.sq_sqrt h.M2_pos.le]
  unfold M2 dot; ring

theorem M_of_M2 {q : Vec4} {m : ℝ} (hm : 0 ≤ m) (h : q.M2 = m ^ 2) : q.M = m := by
  unfold M
  rw [h, if_neg (not_lt.2 (sq_nonneg m)), Real.sqrt_sq hm]

theorem gamma_eq {q : Vec4} (h : q.Massive) (s : ℝ) (hs : s ^ 2 = 1) :
    1 / Real.sqrt (1 - ((s * (q.px / q.E)) ^ 2 + (s * (q.py / q.E)) ^ 2 + (s * (q.pz / q.E)) ^ 2))
      = q.E / q.M := by
  have hE := h.pos
  have hM := h.M_pos
  have e : 1 - ((s * (q.px / q.E)) ^ 2 + (s * (q.py / q.E)) ^ 2 + (s * (q.pz / q.E)) ^ 2)
      = (q.M / q.E) ^ 2 := by
    rw [div_pow, h.M_sq]
    unfold dot
    simp only [mul_pow, hs, div_pow]
    field_simp
  rw [e, Real.sqrt_sq (by positivity)]
  field_simp

theorem boostBeta_eq {q : Vec4} (h : q.Massive) (v : Vec4) (s : ℝ) (hs : s ^ 2 = 1) :
    v.boostBeta (s * (q.px / q.E)) (s * (q.py / q.E)) (s * (q.pz / q.E))
      = { px := v.px + (q.dot v / (q.M * (q.M + q.E)) + s * (v.E / q.M)) * q.px
          py := v.py + (q.dot v / (q.M * (q.M + q.E)) + s * (v.E / q.M)) * q.py
          pz := v.pz + (q.dot v / (q.M * (q.M + q.E)) + s * (v.E / q.M)) * q.pz
          E := (q.E * v.E + s * q.dot v) / q.M } := by
  have hE := h.pos
  have hM := h.M_pos
  have hME : 0 < q.M + q.E := by linarith
  unfold boostBeta
  simp only [gamma_eq h s hs]
  have hb : (q.E / q.M) ^ 2 / (1 + q.E / q.M) = q.E ^ 2 / (q.M * (q.M + q.E)) := by
    field_simp
  rw [hb]
  have hd : s * (q.px / q.E) * v.px + s * (q.py / q.E) * v.py + s * (q.pz / q.E) * v.pz
      = s * (q.dot v / q.E) := by
    unfold dot; field_simp
  rw [hd]
  have hk : ∀ x : ℝ, (q.E ^ 2 / (q.M * (q.M + q.E)) * (s * (q.dot v / q.E)) + q.E / q.M * v.E)
      * (s * (x / q.E)) = (q.dot v / (q.M * (q.M + q.E)) + s * (v.E / q.M)) * x := by
    intro x
    have : (q.E ^ 2 / (q.M * (q.M + q.E)) * (s * (q.dot v / q.E)) + q.E / q.M * v.E)
      * (s * (x / q.E)) = (s ^ 2 * (q.dot v / (q.M * (q.M + q.E))) + s * (v.E / q.M)) * x := by
      field_simp
    rw [this, hs, one_mul]
  rw [hk, hk, hk]
  congr 1
  field_simp

/-- Closed form of the boost by the velocity of `q`. -/
theorem boost_eq {q : Vec4} (h : q.Massive) (v : Vec4) :
    v.boost q = { px := v.px + (q.dot v / (q.M * (q.M + q.E)) + v.E / q.M) * q.px
                  py := v.py + (q.dot v / (q.M * (q.M + q.E)) + v.E / q.M) * q.py
                  pz := v.pz + (q.dot v / (q.M * (q.M + q.E)) + v.E / q.M) * q.pz
                  E := (q.E * v.E + q.dot v) / q.M } := by
  have := boostBeta_eq h v 1 (by norm_num)
  simpa [boost] using this

/-- Closed form of the boost into the rest frame of `q`. -/
theorem boostCM_eq {q : Vec4} (h : q.Massive) (v : Vec4) :
    v.boostCM_of q = { px := v.px + (q.dot v / (q.M * (q.M + q.E)) - v.E / q.M) * q.px
                       py := v.py + (q.dot v / (q.M * (q.M + q.E)) - v.E / q.M) * q.py
                       pz := v.pz + (q.dot v / (q.M * (q.M + q.E)) - v.E / q.M) * q.pz
                       E := (q.E * v.E - q.dot v) / q.M } := by
  have := boostBeta_eq h v (-1) (by norm_num)
  simpa [boostCM_of, sub_eq_add_neg] using this

/-- Boosting back and forth. -/
theorem boost_boostCM {q : Vec4} (h : q.Massive) (v : Vec4) : (v.boost q).boostCM_of q = v := by
  have hM := h.M_pos
  have hE := h.pos
  have hME : q.M + q.E ≠ 0 := by positivity
  have hM' := hM.ne'
  have hs := h.M_sq
  rw [boostCM_eq h, boost_eq h]
  have hp : q.dot q = q.E ^ 2 - q.M ^ 2 := by linarith
  set k := q.dot v / (q.M * (q.M + q.E)) + v.E / q.M with hk
  have hdot : q.dot (⟨v.px + k * q.px, v.py + k * q.py, v.pz + k * q.pz, (q.E * v.E + q.dot v) / q.M⟩ : Vec4) = q.dot v + k * (q.E ^ 2 - q.M ^ 2) := by
    rw [← hp]; unfold dot; ring
  rw [hdot]
  have hk2 : (q.dot v + k * (q.E ^ 2 - q.M ^ 2)) / (q.M * (q.M + q.E))
      - (q.E * v.E + q.dot v) / q.M / q.M = -k := by
    rw [hk]; field_simp; ring
  simp only [hk2]
  ext
  · simp
  · simp
  · simp
  · simp only
    rw [hk]; field_simp; ring

theorem boostCM_sub {q : Vec4} (h : q.Massive) (a b : Vec4) :
    (a - b).boostCM_of q = a.boostCM_of q - b.boostCM_of q := by
  rw [boostCM_eq h, boostCM_eq h, boostCM_eq h]
  have hM := h.M_pos
  have hME : 0 < q.M + q.E := by linarith [h.pos]
  ext <;> simp [dot] <;> field_simp <;> ring

theorem boostCM_M2 {q : Vec4} (h : q.Massive) (v : Vec4) : (v.boostCM_of q).M2 = v.M2 := by
  have hM := h.M_pos
  have hE := h.pos
  have hME : q.M + q.E ≠ 0 := by positivity
  have hM' := hM.ne'
  have hp : q.dot q = q.E ^ 2 - q.M ^ 2 := by linarith [h.M_sq]
  rw [boostCM_eq h]
  set k := q.dot v / (q.M * (q.M + q.E)) - v.E / q.M with hk
  have e : M2 (⟨v.px + k * q.px, v.py + k * q.py, v.pz + k * q.pz, (q.E * v.E - q.dot v) / q.M⟩ : Vec4)
      = ((q.E * v.E - q.dot v) / q.M) ^ 2 - (v.dot v + 2 * k * q.dot v + k ^ 2 * q.dot q) := by
    unfold M2 dot; ring
  rw [e, hp]
  have e2 : v.M2 = v.E ^ 2 - v.dot v := by unfold M2 dot; ring
  rw [e2, hk]
  field_simp
  ring

theorem boost_M2 {q : Vec4} (h : q.Massive) (v : Vec4) : (v.boost q).M2 = v.M2 := by
  rw [← boostCM_M2 h (v.boost q), boost_boostCM h]

/-- In its own rest frame a four-momentum is at rest. -/
theorem boostCM_self {q : Vec4} (h : q.Massive) : q.boostCM_of q = ⟨0, 0, 0, q.M⟩ := by
  have hM := h.M_pos
  have hE := h.pos
  have hME : q.M + q.E ≠ 0 := by positivity
  have hM' := hM.ne'
  have hp : q.dot q = q.E ^ 2 - q.M ^ 2 := by linarith [h.M_sq]
  rw [boostCM_eq h]
  have : q.dot q / (q.M * (q.M + q.E)) - q.E / q.M = -1 := by
    rw [hp]; field_simp; ring
  rw [this]
  ext
  · simp
  · simp
  · simp
  · simp only; rw [hp]; field_simp; ring

/-- The energy of a boosted time-like vector of positive energy is positive. -/
theorem boost_E_pos {q : Vec4} (h : q.Massive) {v : Vec4} (hv : 0 < v.E) (hM2 : 0 ≤ v.M2) :
    0 < (v.boost q).E := by
  rw [boost_eq h]
  simp only
  apply div_pos _ h.M_pos
  have hcs : (q.dot v) ^ 2 ≤ q.dot q * v.dot v := by
    unfold dot
    nlinarith [sq_nonneg (q.px * v.py - q.py * v.px), sq_nonneg (q.px * v.pz - q.pz * v.px),
      sq_nonneg (q.py * v.pz - q.pz * v.py)]
  have hq : q.dot q < q.E ^ 2 := by
    have := h.M_sq; nlinarith [h.M_pos]
  have hq0 : 0 ≤ q.dot q := by
    unfold dot
    nlinarith [sq_nonneg q.px, sq_nonneg q.py, sq_nonneg q.pz]
  have hv2 : v.dot v ≤ v.E ^ 2 := by
    have : v.M2 = v.E ^ 2 - v.dot v := by unfold M2 dot; ring
    linarith
  have hlt : (q.dot v) ^ 2 < (q.E * v.E) ^ 2 := by
    have h1 : q.dot q * v.dot v ≤ q.dot q * v.E ^ 2 := mul_le_mul_of_nonneg_left hv2 hq0
    have h2 : q.dot q * v.E ^ 2 < q.E ^ 2 * v.E ^ 2 := mul_lt_mul_of_pos_right hq (by positivity)
    rw [mul_pow]; linarith
  have := abs_lt_of_sq_lt_sq hlt (mul_pos h.pos hv).le
  rw [abs_lt] at this
  linarith [this.1]

theorem boostCM_E_pos {q : Vec4} (h : q.Massive) {v : Vec4} (hv : 0 < (v.boostCM_of q).E)
    (hM2 : 0 ≤ v.M2) : 0 < v.E := by
  have hpos := h.M_pos
  -- boost the rest-frame vector by the velocity of `q`
  have key : (v.boostCM_of q).boost q = v := by
    have hM := h.M_pos
    have hE := h.pos
    have hME : q.M + q.E ≠ 0 := by positivity
    have hM' := hM.ne'
    have hp : q.dot q = q.E ^ 2 - q.M ^ 2 := by linarith [h.M_sq]
    rw [boostCM_eq h, boost_eq h]
    set k := q.dot v / (q.M * (q.M + q.E)) - v.E / q.M with hk
    have hdot : q.dot (⟨v.px + k * q.px, v.py + k * q.py, v.pz + k * q.pz, (q.E * v.E - q.dot v) / q.M⟩ : Vec4) = q.dot v + k * (q.E ^ 2 - q.M ^ 2) := by
      rw [← hp]; unfold dot; ring
    rw [hdot]
    have hk2 : (q.dot v + k * (q.E ^ 2 - q.M ^ 2)) / (q.M * (q.M + q.E))
        + (q.E * v.E - q.dot v) / q.M / q.M = -k := by
      rw [hk]; field_simp; ring
    simp only [hk2]
    ext
    · simp
    · simp
    · simp
    · simp only
      rw [hk]; field_simp; ring
  rw [← key]
  exact boost_E_pos h hv (by rw [boostCM_M2 h]; exact hM2)

end Vec4

/-! ## Two-body break-up -/

/-- The centre-of-mass vector exists when the masses fit into the available energy. -/
theorem cmVector_some {m1 m2 W : ℝ} (polar azimuthal : ℝ) (h1 : 0 ≤ m1) (h2 : 0 ≤ m2) (hW : 0 < W)
    (hle : m1 + m2 ≤ W) :
    ∃ p, 0 ≤ p ∧ p ^ 2 = ((m1 ^ 2 - m2 ^ 2 + W ^ 2) / (2 * W)) ^ 2 - m1 ^ 2 ∧
      cmVector m1 m2 W polar azimuthal = some
        { px := p * Real.sin polar * Real.cos azimuthal
          py := p * Real.sin polar * Real.sin azimuthal
          pz := p * Real.cos polar
          E := (m1 ^ 2 - m2 ^ 2 + W ^ 2) / (2 * W) } := by
  have hrad : 0 ≤ ((m1 ^ 2 - m2 ^ 2 + W ^ 2) / (2 * W)) ^ 2 - m1 ^ 2 := by
    have e : ((m1 ^ 2 - m2 ^ 2 + W ^ 2) / (2 * W)) ^ 2 - m1 ^ 2
        = ((W ^ 2 - (m1 + m2) ^ 2) * (W ^ 2 - (m1 - m2) ^ 2)) / (4 * W ^ 2) := by
      field_simp; ring
    rw [e]
    apply div_nonneg _ (by positivity)
    apply mul_nonneg
    · nlinarith
    · nlinarith
  refine ⟨_, Real.sqrt_nonneg _, Real.sq_sqrt hrad, ?_⟩
  unfold cmVector
  simp [npSqrt, not_lt.2 hrad]

theorem sphere (p polar azimuthal : ℝ) :
    (p * Real.sin polar * Real.cos azimuthal) ^ 2 + (p * Real.sin polar * Real.sin azimuthal) ^ 2
      + (p * Real.cos polar) ^ 2 = p ^ 2 := by
  have h1 := Real.sin_sq_add_cos_sq polar
  have h2 := Real.sin_sq_add_cos_sq azimuthal
  calc _ = p ^ 2 * (Real.sin polar ^ 2 * (Real.sin azimuthal ^ 2 + Real.cos azimuthal ^ 2)
        + Real.cos polar ^ 2) := by ring
    _ = p ^ 2 := by rw [h2, mul_one, h1, mul_one]

/-- The break-up of a massive four-momentum `q` into masses `m1` and `m2`. -/
theorem breakup {q : Vec4} (hq : q.Massive) {m1 m2 : ℝ} (polar azimuthal : ℝ) (h1 : 0 ≤ m1)
    (h2 : 0 ≤ m2) (hle : m1 + m2 ≤ q.M) :
    ∃ (v : Vec4) (p : ℝ), cmVector m1 m2 q.M polar azimuthal = some v ∧
      0 ≤ p ∧ v.px = p * Real.sin polar * Real.cos azimuthal ∧
      v.py = p * Real.sin polar * Real.sin azimuthal ∧ v.pz = p * Real.cos polar ∧
      (m1 + m2 < q.M → 0 < p) ∧
      v.boost q + (q - v.boost q) = q ∧
      (v.boost q).M2 = m1 ^ 2 ∧ (q - v.boost q).M2 = m2 ^ 2 ∧
      (v.boost q).boostCM_of q = v ∧
      (q - v.boost q).boostCM_of q = ⟨-v.px, -v.py, -v.pz, q.M - v.E⟩ ∧
      (0 < m1 ∨ m1 + m2 < q.M → 0 < (v.boost q).E) ∧
      (0 < m2 ∨ m1 + m2 < q.M → 0 < (q - v.boost q).E) := by
  have hM := hq.M_pos
  obtain ⟨p, hp, hp2, hv⟩ := cmVector_some polar azimuthal h1 h2 hM hle
  set v : Vec4 := { px := p * Real.sin polar * Real.cos azimuthal
                    py := p * Real.sin polar * Real.sin azimuthal
                    pz := p * Real.cos polar
                    E := (m1 ^ 2 - m2 ^ 2 + q.M ^ 2) / (2 * q.M) } with hvdef
  have hvM : v.M2 = m1 ^ 2 := by
    have := sphere p polar azimuthal
    simp only [Vec4.M2, hvdef]
    rw [this, hp2]; ring
  have hcm : (q - v.boost q).boostCM_of q = ⟨-v.px, -v.py, -v.pz, q.M - v.E⟩ := by
    rw [Vec4.boostCM_sub hq, Vec4.boost_boostCM hq, Vec4.boostCM_self hq]
    ext <;> simp
  have hrM : (q - v.boost q).M2 = m2 ^ 2 := by
    rw [← Vec4.boostCM_M2 hq, hcm]
    have e : Vec4.M2 ⟨-v.px, -v.py, -v.pz, q.M - v.E⟩ = q.M ^ 2 - 2 * q.M * v.E + v.M2 := by
      simp only [Vec4.M2]; ring
    rw [e, hvM]
    simp only [hvdef]
    field_simp
    ring
  refine ⟨v, p, hv, hp, rfl, rfl, rfl, ?_, ?_, ?_, hrM, Vec4.boost_boostCM hq v, hcm, ?_, ?_⟩
  · intro hlt
    rcases hp.lt_or_eq with h | h
    · exact h
    · exfalso
      have e : ((m1 ^ 2 - m2 ^ 2 + q.M ^ 2) / (2 * q.M)) ^ 2 - m1 ^ 2
        = ((q.M ^ 2 - (m1 + m2) ^ 2) * (q.M ^ 2 - (m1 - m2) ^ 2)) / (4 * q.M ^ 2) := by
        field_simp; ring
      rw [← h, e] at hp2
      have a1 : 0 < q.M ^ 2 - (m1 + m2) ^ 2 := by nlinarith
      have a2 : 0 < q.M ^ 2 - (m1 - m2) ^ 2 := by nlinarith
      have : 0 < ((q.M ^ 2 - (m1 + m2) ^ 2) * (q.M ^ 2 - (m1 - m2) ^ 2)) / (4 * q.M ^ 2) := by
        positivity
      rw [← hp2] at this
      norm_num at this
  · ext <;> simp
  · rw [Vec4.boost_M2 hq, hvM]
  · intro h
    refine Vec4.boost_E_pos hq ?_ (by rw [hvM]; positivity)
    simp only [hvdef]
    apply div_pos _ (by positivity)
    rcases h with h | h
    · nlinarith
    · nlinarith
  · intro h
    refine Vec4.boostCM_E_pos hq ?_ (by rw [hrM]; positivity)
    rw [hcm]
    simp only [hvdef]
    have e : q.M - (m1 ^ 2 - m2 ^ 2 + q.M ^ 2) / (2 * q.M)
        = (m2 ^ 2 - m1 ^ 2 + q.M ^ 2) / (2 * q.M) := by field_simp; ring
    rw [e]
    apply div_pos _ (by positivity)
    rcases h with h | h
    · nlinarith
    · nlinarith

end Verif.Kinematics
