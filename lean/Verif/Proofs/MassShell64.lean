import Verif.Proofs.Threshold64
import Verif.Proofs.Boost
import Verif.Props.MachineKinematics

/-! # Invariant masses under small changes of the components -/

namespace Verif.Machine

open Verif.Kinematics

/-- The squares of close numbers. -/
theorem sq_close {a b B δ : ℝ} (h : |a - b| ≤ δ) (hb : |b| ≤ B) : |a ^ 2 - b ^ 2| ≤ δ * (2 * B + δ) := by
  have hd : 0 ≤ δ := (abs_nonneg _).trans h
  have e : a ^ 2 - b ^ 2 = (a - b) * (2 * b + (a - b)) := by ring
  rw [e, abs_mul (a - b) _]
  refine mul_le_mul h ?_ (abs_nonneg _) hd
  have := abs_add_le (2 * b) (a - b)
  rw [abs_mul 2 b, abs_of_pos (by norm_num : (0 : ℝ) < 2)] at this
  linarith

/-- Close components give close invariant masses. -/
theorem M2_close {a b : Vec4} {B δ : ℝ} (h : ∀ i : Component, |i.of a - i.of b| ≤ δ) (hb : ∀ i : Component, |i.of b| ≤ B) :
    |a.M2 - b.M2| ≤ 4 * (δ * (2 * B + δ)) := by
  have h1 := abs_le.1 (sq_close (h .px) (hb .px))
  have h2 := abs_le.1 (sq_close (h .py) (hb .py))
  have h3 := abs_le.1 (sq_close (h .pz) (hb .pz))
  have h4 := abs_le.1 (sq_close (h .E) (hb .E))
  simp only [Component.of] at h1 h2 h3 h4
  unfold Vec4.M2
  rw [abs_le]
  constructor <;> linarith

/-- The size of a four-momentum. -/
def size4 (c : Vec4) : ℝ := |c.E| + |c.px| + |c.py| + |c.pz|

/-- A boost with `γ ≤ √5` makes the components at most six times as large. -/
theorem boost_bound {q : Vec4} (hq : q.Massive) (hγ : q.E ^ 2 ≤ 5 * q.M ^ 2) (c : Vec4) (i : Component) :
    |i.of (c.boost q)| ≤ 6 * size4 c := by
  have hM := hq.M_pos
  have hE := hq.pos
  have hs := hq.M_sq
  have hE1 : q.E ≤ 2.24 * q.M := by
    by_contra hc
    push Not at hc
    have := pow_lt_pow_left₀ hc (by positivity) (n := 2) (by norm_num)
    rw [mul_pow] at this
    norm_num at this
    have : 0 < q.M ^ 2 := by positivity
    linarith
  have hME : q.M ≤ q.E := by
    have h0 : 0 ≤ q.dot q := by
      unfold Vec4.dot
      nlinarith [mul_self_nonneg q.px, mul_self_nonneg q.py, mul_self_nonneg q.pz]
    exact le_of_sq_le_sq (by linarith) hE.le
  have comp : ∀ x y z : ℝ, x ^ 2 + y ^ 2 + z ^ 2 ≤ q.E ^ 2 → |x| ≤ 2.24 * q.M := by
    intro x y z hx
    refine le_trans (abs_le_of_sq_le_sq (by nlinarith [sq_nonneg y, sq_nonneg z]) hE.le) hE1
  have hdq : q.px ^ 2 + q.py ^ 2 + q.pz ^ 2 ≤ q.E ^ 2 := by
    have : 0 < q.M ^ 2 := by positivity
    unfold Vec4.dot at hs
    nlinarith
  have bx := comp q.px q.py q.pz hdq
  have by' := comp q.py q.px q.pz (by linarith)
  have bz := comp q.pz q.px q.py (by linarith)
  have hdot : |q.dot c| ≤ 2.24 * q.M * (|c.px| + |c.py| + |c.pz|) := by
    unfold Vec4.dot
    have h1 : |q.px * c.px| ≤ 2.24 * q.M * |c.px| := by
      rw [abs_mul q.px c.px]; exact mul_le_mul_of_nonneg_right bx (abs_nonneg _)
    have h2 : |q.py * c.py| ≤ 2.24 * q.M * |c.py| := by
      rw [abs_mul q.py c.py]; exact mul_le_mul_of_nonneg_right by' (abs_nonneg _)
    have h3 : |q.pz * c.pz| ≤ 2.24 * q.M * |c.pz| := by
      rw [abs_mul q.pz c.pz]; exact mul_le_mul_of_nonneg_right bz (abs_nonneg _)
    have h4 := abs_add_le (q.px * c.px + q.py * c.py) (q.pz * c.pz)
    have h5 := abs_add_le (q.px * c.px) (q.py * c.py)
    linarith
  have hP : 0 ≤ |c.px| + |c.py| + |c.pz| := by positivity
  have hc0 := abs_nonneg c.E
  have p1 := abs_nonneg c.px
  have p2 := abs_nonneg c.py
  have p3 := abs_nonneg c.pz
  have hk : |q.dot c / (q.M * (q.M + q.E)) + c.E / q.M| * (2.24 * q.M)
      ≤ 2.51 * (|c.px| + |c.py| + |c.pz|) + 2.24 * |c.E| := by
    have h1 : |q.dot c / (q.M * (q.M + q.E))| ≤ 1.12 * (|c.px| + |c.py| + |c.pz|) / q.M := by
      rw [abs_div (q.dot c) _, abs_of_pos (by positivity : 0 < q.M * (q.M + q.E)), div_le_div_iff₀ (by positivity) hM]
      calc |q.dot c| * q.M ≤ 2.24 * q.M * (|c.px| + |c.py| + |c.pz|) * q.M := mul_le_mul_of_nonneg_right hdot hM.le
        _ = 1.12 * (|c.px| + |c.py| + |c.pz|) * (q.M * (q.M + q.M)) := by ring
        _ ≤ 1.12 * (|c.px| + |c.py| + |c.pz|) * (q.M * (q.M + q.E)) := by gcongr
    have h2 : |c.E / q.M| = |c.E| / q.M := by rw [abs_div c.E q.M, abs_of_pos hM]
    have h3 := abs_add_le (q.dot c / (q.M * (q.M + q.E))) (c.E / q.M)
    rw [h2] at h3
    calc _ ≤ (1.12 * (|c.px| + |c.py| + |c.pz|) / q.M + |c.E| / q.M) * (2.24 * q.M) :=
          mul_le_mul_of_nonneg_right (by linarith) (by positivity)
      _ = 2.5088 * (|c.px| + |c.py| + |c.pz|) + 2.24 * |c.E| := by field_simp; norm_num; ring
      _ ≤ _ := by
        have : 2.5088 * (|c.px| + |c.py| + |c.pz|) ≤ 2.51 * (|c.px| + |c.py| + |c.pz|) :=
          mul_le_mul_of_nonneg_right (by norm_num) hP
        linarith
  have mom : ∀ x y : ℝ, |y| ≤ 2.24 * q.M → |x| ≤ |c.px| + |c.py| + |c.pz| →
      |x + (q.dot c / (q.M * (q.M + q.E)) + c.E / q.M) * y| ≤ 6 * size4 c := by
    intro x y hy hx
    have h1 := abs_add_le x ((q.dot c / (q.M * (q.M + q.E)) + c.E / q.M) * y)
    rw [abs_mul (q.dot c / (q.M * (q.M + q.E)) + c.E / q.M) y] at h1
    have h2 := mul_le_mul_of_nonneg_left hy (abs_nonneg (q.dot c / (q.M * (q.M + q.E)) + c.E / q.M))
    unfold size4
    norm_num at hk h2 ⊢
    linarith
  rw [Vec4.boost_eq hq]
  cases i
  · exact mom c.px q.px bx (by linarith)
  · exact mom c.py q.py by' (by linarith)
  · exact mom c.pz q.pz bz (by linarith)
  · simp only [Component.of]
    rw [abs_div _ q.M, abs_of_pos hM, div_le_iff₀ hM]
    have h1 := abs_add_le (q.E * c.E) (q.dot c)
    rw [abs_mul q.E c.E, abs_of_pos hE] at h1
    have h2 : q.E * |c.E| ≤ 2.24 * q.M * |c.E| := mul_le_mul_of_nonneg_right hE1 hc0
    have h3 : 0 ≤ q.M * |c.E| := by positivity
    have h4 : 0 ≤ q.M * (|c.px| + |c.py| + |c.pz|) := by positivity
    unfold size4
    norm_num at h1 h2 hdot ⊢
    nlinarith

/-- The mass of what is left of a parent after a product is taken away. -/
theorem rest_M2 {q : Vec4} (hq : q.Massive) (c : Vec4) :
    (q - c.boost q).M2 = q.M ^ 2 - 2 * q.M * c.E + c.M2 := by
  rw [← Vec4.boostCM_M2 hq, Vec4.boostCM_sub hq, Vec4.boost_boostCM hq, Vec4.boostCM_self hq]
  simp only [Vec4.M2, Vec4.sub_px, Vec4.sub_py, Vec4.sub_pz, Vec4.sub_E]
  ring

/-- A component of the momentum in the centre-of-mass frame. -/
theorem component_near {rn : ℝ → ℝ} (h : Rounding rn) {p s S c C L : ℝ} (hp : 0 ≤ p) (hpL : p ≤ 1.01 * L) (hL : 1 ≤ L)
    (hL8 : L ≤ 1e8) (hs : |s| ≤ 1) (hS : |S - s| ≤ 1e-15) (hc : |c| ≤ 1) (hC : |C - c| ≤ 1e-15) :
    |rn (p * S) - p * s| ≤ 1.2e-15 * L ∧ |rn (rn (p * S) * C) - p * s * c| ≤ 3e-15 * L := by
  have m1 : |p * s| ≤ p := by
    rw [abs_mul p s, abs_of_nonneg hp]
    exact mul_le_of_le_one_right hp hs
  have d1 : |p * S - p * s| ≤ 1e-15 * p := by
    rw [← mul_sub, abs_mul p _, abs_of_nonneg hp, mul_comm]
    exact mul_le_mul_of_nonneg_right hS hp
  have r1 := h.absolute d1 (m1.trans (by norm_num at hL8 hpL ⊢; linarith)) (by norm_num at hL8 hpL ⊢; linarith)
  have r1' : |rn (p * S) - p * s| ≤ 1.2e-15 * L := by
    refine r1.trans ?_
    norm_num at m1 hpL ⊢
    linarith
  refine ⟨r1', ?_⟩
  generalize rn (p * S) = a at *
  have hC1 : |C| ≤ 1 + 1e-15 := by
    have := abs_add_le (C - c) c
    rw [sub_add_cancel] at this
    linarith
  have d2 : |a * C - p * s * c| ≤ 2.3e-15 * L := by
    have e : a * C - p * s * c = (a - p * s) * C + p * s * (C - c) := by ring
    rw [e]
    refine (abs_add_le _ _).trans ?_
    rw [abs_mul (a - p * s) C, abs_mul (p * s) (C - c)]
    have h1 : |a - p * s| * |C| ≤ 1.2e-15 * L * (1 + 1e-15) := mul_le_mul r1' hC1 (abs_nonneg _) (by positivity)
    have h2 : |p * s| * |C - c| ≤ 1.01 * L * 1e-15 := mul_le_mul (m1.trans hpL) hC (abs_nonneg _) (by positivity)
    norm_num at h1 h2 ⊢
    linarith
  have m2 : |p * s * c| ≤ p := by
    rw [abs_mul (p * s) c]
    exact (mul_le_of_le_one_right (abs_nonneg _) hc).trans m1
  have r2 := h.absolute d2 (m2.trans (by norm_num at hL8 hpL ⊢; linarith)) (by norm_num at hL8 hpL ⊢; linarith)
  refine r2.trans ?_
  norm_num at m2 hpL ⊢
  linarith

/-- The vector of the first product lies on the mass shell. -/
theorem shell_near {rn : ℝ → ℝ} (h : Rounding rn) {e1 m1 p x y z θ φ S C S' C' L : ℝ} (hL : 1 ≤ L) (hL8 : L ≤ 1e8)
    (h1 : |e1| ≤ 1.001 * L) (hm : 0 ≤ m1) (hm1 : m1 ≤ L)
    (hp : npSqrt64 rn (rn (rn (e1 ^ 2) - rn (m1 ^ 2))) = some p)
    (hS : |S - Real.sin θ| ≤ 1e-15) (hC : |C - Real.cos θ| ≤ 1e-15) (hS' : |S' - Real.sin φ| ≤ 1e-15)
    (hC' : |C' - Real.cos φ| ≤ 1e-15) (hx : x = rn (rn (p * S) * C')) (hy : y = rn (rn (p * S) * S'))
    (hz : z = rn (p * C)) :
    |x| ≤ 1.02 * L ∧ |y| ≤ 1.02 * L ∧ |z| ≤ 1.02 * L ∧
    |e1 ^ 2 - (x ^ 2 + y ^ 2 + z ^ 2) - m1 ^ 2| ≤ 2.5e-14 * L ^ 2 := by
  have hq : 1 ≤ L ^ 2 := by nlinarith
  have hq16 : L ^ 2 ≤ 1e16 := by
    have := pow_le_pow_left₀ (by linarith) hL8 2
    exact this.trans (by norm_num)
  have g1 : |e1 ^ 2| ≤ 1.003 * L ^ 2 := by
    rw [abs_pow]
    have := pow_le_pow_left₀ (abs_nonneg _) h1 2
    rw [mul_pow] at this
    norm_num at this ⊢
    linarith
  have g2 : |m1 ^ 2| ≤ L ^ 2 := by
    rw [abs_pow, abs_of_nonneg hm]
    exact pow_le_pow_left₀ hm hm1 2
  have e0 : |e1 ^ 2 - e1 ^ 2| ≤ 0 := by simp
  have f0 : |m1 ^ 2 - m1 ^ 2| ≤ 0 := by simp
  have a1 := h.absolute e0 (by norm_num at g1 hq16 ⊢; linarith) (by norm_num)
  have a2 := h.absolute f0 (by norm_num at g2 hq16 ⊢; linarith) (by norm_num)
  have m0 := sq_nonneg m1
  have e10 := sq_nonneg e1
  have up1 := le_of_abs_le g1
  generalize hQ : L ^ 2 = Q at *
  generalize hA : e1 ^ 2 = A at *
  generalize hB : m1 ^ 2 = B at *
  have d : |(rn A - rn B) - (A - B)| ≤ 2.26e-16 * Q := by
    have b1 := abs_le.1 a1
    have b2 := abs_le.1 a2
    rw [abs_le]
    constructor <;> norm_num at b1 b2 g1 g2 ⊢ <;> linarith
  have mAB : |A - B| ≤ 1.003 * Q := by
    have := le_of_abs_le g2
    rw [abs_le]
    constructor <;> norm_num at up1 ⊢ <;> linarith
  have a3 := h.absolute d (by norm_num at mAB hq16 ⊢; linarith) (by norm_num at hq16 ⊢; linarith)
  have a3' : |rn (rn A - rn B) - (A - B)| ≤ 3.5e-16 * Q := by
    refine a3.trans ?_
    norm_num at mAB ⊢
    linarith
  generalize rn (rn A - rn B) = X at *
  unfold npSqrt64 at hp
  split_ifs at hp with hX
  push Not at hX
  have hp' := Option.some.inj hp
  have hX2 : X ≤ 1.004 * Q := by
    have b := abs_le.1 a3'
    have b2 := abs_le.1 mAB
    norm_num at b b2 ⊢
    linarith
  have hs : Real.sqrt X ≤ 1.003 * L := by
    refine Real.sqrt_le_iff.2 ⟨by positivity, ?_⟩
    rw [mul_pow, hQ]
    norm_num at hX2 ⊢
    linarith
  have hs0 := Real.sqrt_nonneg X
  have k0 : |Real.sqrt X - Real.sqrt X| ≤ 0 := by simp
  have a4 := h.absolute k0 (by rw [abs_of_nonneg hs0]; norm_num at hs hL8 ⊢; linarith) (by norm_num)
  rw [hp', abs_of_nonneg hs0] at a4
  have a4' : |p - Real.sqrt X| ≤ 1.2e-16 * L := by
    refine a4.trans ?_
    norm_num at hs ⊢
    linarith
  have hp0 : 0 ≤ p := by rw [← hp']; exact h.nonneg hs0
  have hpL : p ≤ 1.01 * L := by
    have := (abs_le.1 a4').2
    norm_num at this hs ⊢
    linarith
  have s1 := sq_close (B := 1.003 * L) a4' ((abs_of_nonneg hs0).trans_le hs)
  rw [Real.sq_sqrt hX] at s1
  obtain ⟨-, cx⟩ := component_near h hp0 hpL hL hL8 (Real.abs_sin_le_one θ) hS (Real.abs_cos_le_one φ) hC'
  obtain ⟨-, cy⟩ := component_near h hp0 hpL hL hL8 (Real.abs_sin_le_one θ) hS (Real.abs_sin_le_one φ) hS'
  obtain ⟨cz, -⟩ := component_near h hp0 hpL hL hL8 (Real.abs_cos_le_one θ) hC (Real.abs_cos_le_one φ) hC'
  rw [← hx] at cx
  rw [← hy] at cy
  rw [← hz] at cz
  have cz' : |z - p * Real.cos θ| ≤ 3e-15 * L := cz.trans (mul_le_mul_of_nonneg_right (by norm_num) (by linarith))
  have unit : ∀ a b : ℝ, |a| ≤ 1 → |b| ≤ 1 → |p * a * b| ≤ 1.01 * L := by
    intro a b ha hb
    rw [abs_mul (p * a) b, abs_mul p a, abs_of_nonneg hp0]
    exact ((mul_le_of_le_one_right (by positivity) hb).trans (mul_le_of_le_one_right hp0 ha)).trans hpL
  have ux := unit _ _ (Real.abs_sin_le_one θ) (Real.abs_cos_le_one φ)
  have uy := unit _ _ (Real.abs_sin_le_one θ) (Real.abs_sin_le_one φ)
  have uz := unit _ _ (Real.abs_cos_le_one θ) (by simp : |(1 : ℝ)| ≤ 1)
  rw [mul_one] at uz
  have bound : ∀ a b : ℝ, |a - b| ≤ 3e-15 * L → |b| ≤ 1.01 * L → |a| ≤ 1.02 * L := by
    intro a b h1 h2
    have := abs_add_le (a - b) b
    rw [sub_add_cancel] at this
    norm_num at h1 h2 ⊢
    linarith
  refine ⟨bound _ _ cx ux, bound _ _ cy uy, bound _ _ cz' uz, ?_⟩
  have qx := sq_close cx ux
  have qy := sq_close cy uy
  have qz := sq_close cz' uz
  have e : (p * Real.sin θ * Real.cos φ) ^ 2 + (p * Real.sin θ * Real.sin φ) ^ 2 + (p * Real.cos θ) ^ 2 = p ^ 2 := by
    have h1 := Real.sin_sq_add_cos_sq θ
    have h2 := Real.sin_sq_add_cos_sq φ
    calc _ = p ^ 2 * (Real.sin θ ^ 2 * (Real.sin φ ^ 2 + Real.cos φ ^ 2) + Real.cos θ ^ 2) := by ring
      _ = p ^ 2 := by rw [h2, mul_one, h1, mul_one]
  generalize (p * Real.sin θ * Real.cos φ) ^ 2 = X1 at *
  generalize (p * Real.sin θ * Real.sin φ) ^ 2 = X2 at *
  generalize (p * Real.cos θ) ^ 2 = X3 at *
  have t1 : 3e-15 * L * (2 * (1.01 * L) + 3e-15 * L) ≤ 6.1e-15 * Q := by
    rw [← hQ, show 3e-15 * L * (2 * (1.01 * L) + 3e-15 * L) = 3e-15 * (2.02 + 3e-15) * L ^ 2 by ring]
    exact mul_le_mul_of_nonneg_right (by norm_num) (sq_nonneg L)
  have t2 : 1.2e-16 * L * (2 * (1.003 * L) + 1.2e-16 * L) ≤ 2.5e-16 * Q := by
    rw [← hQ, show 1.2e-16 * L * (2 * (1.003 * L) + 1.2e-16 * L) = 1.2e-16 * (2.006 + 1.2e-16) * L ^ 2 by ring]
    exact mul_le_mul_of_nonneg_right (by norm_num) (sq_nonneg L)
  have b1 := abs_le.1 (qx.trans t1)
  have b2 := abs_le.1 (qy.trans t1)
  have b3 := abs_le.1 (qz.trans t1)
  have b4 := abs_le.1 (s1.trans t2)
  have b5 := abs_le.1 a3'
  generalize p ^ 2 = P at *
  generalize x ^ 2 = x2 at *
  generalize y ^ 2 = y2 at *
  generalize z ^ 2 = z2 at *
  clear * - b1 b2 b3 b4 b5 e hq
  rw [abs_le]
  constructor <;> norm_num at b1 b2 b3 b4 b5 ⊢ <;> linarith

end Verif.Machine
