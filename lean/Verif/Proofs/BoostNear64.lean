import Verif.Proofs.MassShell64

/-! # Boosts with nearly equal parents -/

namespace Verif.Machine

open Verif.Kinematics

theorem boost_sub {q : Vec4} (hq : q.Massive) (a b : Vec4) : (a - b).boost q = a.boost q - b.boost q := by
  rw [Vec4.boost_eq hq, Vec4.boost_eq hq, Vec4.boost_eq hq]
  have hM := hq.M_pos
  have hME : 0 < q.M + q.E := by linarith [hq.pos]
  ext <;> simp [Vec4.dot] <;> field_simp <;> ring

/-- The boost in terms of the four-velocity. -/
theorem boost_velocity {q : Vec4} (hq : q.Massive) (c : Vec4) {ux uy uz ue : ℝ} (hx : q.px = ux * q.M)
    (hy : q.py = uy * q.M) (hz : q.pz = uz * q.M) (he : q.E = ue * q.M) :
    c.boost q =
      { px := c.px + ((ux * c.px + uy * c.py + uz * c.pz) / (1 + ue) + c.E) * ux
        py := c.py + ((ux * c.px + uy * c.py + uz * c.pz) / (1 + ue) + c.E) * uy
        pz := c.pz + ((ux * c.px + uy * c.py + uz * c.pz) / (1 + ue) + c.E) * uz
        E := ue * c.E + (ux * c.px + uy * c.py + uz * c.pz) } := by
  have hM := hq.M_pos
  have hue : 0 < ue := by
    have := hq.pos
    rw [he] at this
    exact (pos_iff_pos_of_mul_pos this).2 hM
  rw [Vec4.boost_eq hq]
  unfold Vec4.dot
  rw [hx, hy, hz, he]
  have h1 : (1 + ue) ≠ 0 := by positivity
  ext <;> simp only <;> field_simp <;> ring

/-- One component of the momentum for two four-velocities. -/
theorem bracket_near {d d' a a' ux ux' P E ζ : ℝ} (ha : 2 ≤ a) (ha' : 2 ≤ a') (hd : |d| ≤ 2.25 * P) (hdd : |d' - d| ≤ ζ * P)
    (haa : |a' - a| ≤ ζ) (hu : |ux' - ux| ≤ ζ) (hux : |ux'| ≤ 2.25) (hP : 0 ≤ P) (hζ : 0 ≤ ζ) :
    |(d' / a' + E) * ux' - (d / a + E) * ux| ≤ 4 * ζ * P + ζ * |E| := by
  have h1 : |d' / a' - d / a| ≤ 1.0625 * (ζ * P) := by
    have e : d' / a' - d / a = (d' - d) / a' - d * (a' - a) / (a * a') := by
      field_simp
      ring
    rw [e]
    refine (abs_sub _ _).trans ?_
    have t1 : |(d' - d) / a'| ≤ ζ * P / 2 := by
      rw [abs_div _ a', abs_of_pos (by linarith : 0 < a')]
      exact div_le_div₀ (by positivity) hdd (by norm_num) ha'
    have t2 : |d * (a' - a) / (a * a')| ≤ 2.25 * P * ζ / 4 := by
      rw [abs_div _ (a * a'), abs_mul d _, abs_of_pos (by positivity : 0 < a * a')]
      exact div_le_div₀ (by positivity) (mul_le_mul hd haa (abs_nonneg _) (by positivity)) (by norm_num) (by nlinarith)
    norm_num at t1 t2 ⊢
    linarith
  have h2 : |d / a| ≤ 1.125 * P := by
    rw [abs_div d a, abs_of_pos (by linarith : 0 < a), div_le_iff₀ (by linarith)]
    refine hd.trans ?_
    norm_num
    nlinarith
  have e : (d' / a' + E) * ux' - (d / a + E) * ux = (d' / a' - d / a) * ux' + (d / a + E) * (ux' - ux) := by ring
  rw [e]
  refine (abs_add_le _ _).trans ?_
  rw [abs_mul _ ux', abs_mul _ (ux' - ux)]
  have h3 : |d / a + E| ≤ 1.125 * P + |E| := (abs_add_le _ _).trans (by linarith)
  have h4 := mul_le_mul h1 hux (abs_nonneg _) (by positivity)
  have h5 := mul_le_mul h3 hu (abs_nonneg _) (by positivity)
  refine (add_le_add h4 h5).trans ?_
  have : 0 ≤ ζ * P := by positivity
  norm_num
  nlinarith

/-- Nearly equal four-velocities give nearly equal boosts. -/
theorem boost_near {q q' : Vec4} (hq : q.Massive) (hq' : q'.Massive) {ζ : ℝ}
    (hu : ∀ i : Component, |i.of q' / q'.M - i.of q / q.M| ≤ ζ) (hb : ∀ i : Component, |i.of q / q.M| ≤ 2.25)
    (hb' : ∀ i : Component, |i.of q' / q'.M| ≤ 2.25) (c : Vec4) (i : Component) :
    |i.of (c.boost q') - i.of (c.boost q)| ≤ 4 * ζ * size4 c := by
  have hM := hq.M_pos
  have hM' := hq'.M_pos
  have hζ : 0 ≤ ζ := (abs_nonneg _).trans (hu .E)
  have one : ∀ v : Vec4, v.Massive → 1 ≤ v.E / v.M := by
    intro v hv
    rw [le_div_iff₀ hv.M_pos, one_mul]
    have h0 : 0 ≤ v.dot v := by
      unfold Vec4.dot
      nlinarith [mul_self_nonneg v.px, mul_self_nonneg v.py, mul_self_nonneg v.pz]
    exact le_of_sq_le_sq (by linarith [hv.M_sq]) hv.pos.le
  have o := one q hq
  have o' := one q' hq'
  have r := boost_velocity hq c (ux := q.px / q.M) (uy := q.py / q.M) (uz := q.pz / q.M) (ue := q.E / q.M)
    (by field_simp) (by field_simp) (by field_simp) (by field_simp)
  have r' := boost_velocity hq' c (ux := q'.px / q'.M) (uy := q'.py / q'.M) (uz := q'.pz / q'.M) (ue := q'.E / q'.M)
    (by field_simp) (by field_simp) (by field_simp) (by field_simp)
  rw [r, r']
  have u1 := hu .px
  have u2 := hu .py
  have u3 := hu .pz
  have u4 := hu .E
  have v1 := hb .px
  have v2 := hb .py
  have v3 := hb .pz
  have w1 := hb' .px
  have w2 := hb' .py
  have w3 := hb' .pz
  simp only [Component.of] at u1 u2 u3 u4 v1 v2 v3 w1 w2 w3
  clear r r' hu hb hb' one
  generalize q.px / q.M = ux at *
  generalize q.py / q.M = uy at *
  generalize q.pz / q.M = uz at *
  generalize q.E / q.M = ue at *
  generalize q'.px / q'.M = ux' at *
  generalize q'.py / q'.M = uy' at *
  generalize q'.pz / q'.M = uz' at *
  generalize q'.E / q'.M = ue' at *
  have three : ∀ a b d K : ℝ, |a| ≤ K → |b| ≤ K → |d| ≤ K →
      |a * c.px + b * c.py + d * c.pz| ≤ K * (|c.px| + |c.py| + |c.pz|) := by
    intro a b d K ha hb hd
    have h1 : |a * c.px| ≤ K * |c.px| := by rw [abs_mul a c.px]; exact mul_le_mul_of_nonneg_right ha (abs_nonneg _)
    have h2 : |b * c.py| ≤ K * |c.py| := by rw [abs_mul b c.py]; exact mul_le_mul_of_nonneg_right hb (abs_nonneg _)
    have h3 : |d * c.pz| ≤ K * |c.pz| := by rw [abs_mul d c.pz]; exact mul_le_mul_of_nonneg_right hd (abs_nonneg _)
    have h4 := abs_add_le (a * c.px + b * c.py) (d * c.pz)
    have h5 := abs_add_le (a * c.px) (b * c.py)
    linarith
  have hd := three ux uy uz 2.25 v1 v2 v3
  have hdd := three (ux' - ux) (uy' - uy) (uz' - uz) ζ u1 u2 u3
  rw [show (ux' - ux) * c.px + (uy' - uy) * c.py + (uz' - uz) * c.pz
    = (ux' * c.px + uy' * c.py + uz' * c.pz) - (ux * c.px + uy * c.py + uz * c.pz) by ring] at hdd
  have hP : 0 ≤ |c.px| + |c.py| + |c.pz| := by positivity
  have hE := abs_nonneg c.E
  have hs : size4 c = |c.E| + (|c.px| + |c.py| + |c.pz|) := by
    unfold size4
    ring
  rw [hs]
  have haa : |(1 + ue') - (1 + ue)| ≤ ζ := by
    rw [show (1 + ue') - (1 + ue) = ue' - ue by ring]
    exact u4
  generalize |c.px| + |c.py| + |c.pz| = P at *
  generalize ux' * c.px + uy' * c.py + uz' * c.pz = d' at *
  generalize ux * c.px + uy * c.py + uz * c.pz = d at *
  have hzE : 0 ≤ ζ * |c.E| := by positivity
  have hzP : 0 ≤ ζ * P := by positivity
  have mom : ∀ x y y' : ℝ, |y' - y| ≤ ζ → |y'| ≤ 2.25 →
      |(x + (d' / (1 + ue') + c.E) * y') - (x + (d / (1 + ue) + c.E) * y)| ≤ 4 * ζ * (|c.E| + P) := by
    intro x y y' h1 h2
    rw [add_sub_add_left_eq_sub]
    refine (bracket_near (by linarith) (by linarith) hd hdd haa h1 h2 hP hζ).trans ?_
    linarith
  cases i
  · exact mom _ _ _ u1 w1
  · exact mom _ _ _ u2 w2
  · exact mom _ _ _ u3 w3
  · simp only [Component.of]
    rw [show ue' * c.E + d' - (ue * c.E + d) = (ue' - ue) * c.E + (d' - d) by ring]
    refine (abs_add_le _ _).trans ?_
    rw [abs_mul _ c.E]
    have := mul_le_mul_of_nonneg_right u4 hE
    linarith

end Verif.Machine
