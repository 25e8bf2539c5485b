import Verif.Props.MachineForward

/-! # How the products of a decay depend on the parent -/

namespace Verif.Machine

open Verif.Kinematics

theorem abs3 {a b c r : ℝ} (hr : 0 ≤ r) (h : a ^ 2 + b ^ 2 + c ^ 2 ≤ r ^ 2) : |a| + |b| + |c| ≤ 1.7321 * r := by
  refine abs_le_of_sq_le_sq' ?_ (by positivity) |>.2
  have ha := sq_abs a
  have hb := sq_abs b
  have hc := sq_abs c
  generalize |a| = x at *
  generalize |b| = y at *
  generalize |c| = z at *
  have : (x + y + z) ^ 2 ≤ 3 * (x ^ 2 + y ^ 2 + z ^ 2) := by
    nlinarith [sq_nonneg (x - y), sq_nonneg (y - z), sq_nonneg (x - z)]
  rw [mul_pow]
  norm_num
  nlinarith

theorem cauchy3 {a b c x y z r s : ℝ} (hr : 0 ≤ r) (hs : 0 ≤ s) (h : a ^ 2 + b ^ 2 + c ^ 2 ≤ r ^ 2)
    (h' : x ^ 2 + y ^ 2 + z ^ 2 ≤ s ^ 2) : |a * x + b * y + c * z| ≤ r * s := by
  refine abs_le_of_sq_le_sq ?_ (by positivity)
  have : (a * x + b * y + c * z) ^ 2 ≤ (a ^ 2 + b ^ 2 + c ^ 2) * (x ^ 2 + y ^ 2 + z ^ 2) := by
    nlinarith [sq_nonneg (a * y - b * x), sq_nonneg (a * z - c * x), sq_nonneg (b * z - c * y)]
  rw [mul_pow]
  exact this.trans (mul_le_mul h h' (by positivity) (by positivity))

/-- Sizes of the components of a parent that is not faster than `γ = √5`. -/
theorem slow_bounds {q : Vec4} (hq : q.Massive) (hγ : q.E ^ 2 ≤ 5 * q.M ^ 2) :
    q.E ≤ 2.2361 * q.M ∧ |q.px| + |q.py| + |q.pz| ≤ 3.4642 * q.M ∧ ∀ i : Component, |i.of q| ≤ 2.2361 * q.M := by
  have hM := hq.M_pos
  have hs := hq.M_sq
  unfold Vec4.dot at hs
  have qx := sq_nonneg q.px
  have qy := sq_nonneg q.py
  have qz := sq_nonneg q.pz
  have hu : ∀ x : ℝ, x ^ 2 ≤ q.E ^ 2 → |x| ≤ 2.2361 * q.M := by
    intro x hx
    refine abs_le_of_sq_le_sq ?_ (by positivity)
    rw [mul_pow]
    have : 0 < q.M ^ 2 := by positivity
    norm_num
    linarith
  refine ⟨le_trans (le_abs_self _) (hu _ le_rfl), ?_, ?_⟩
  · have h3 := abs3 (a := q.px) (b := q.py) (c := q.pz) (r := 2 * q.M) (by positivity) (by nlinarith)
    norm_num at h3 ⊢
    linarith
  · intro i
    cases i
    · exact hu q.px (by nlinarith)
    · exact hu q.py (by nlinarith)
    · exact hu q.pz (by nlinarith)
    · exact hu _ le_rfl

/-- Mass and four-velocity of a parent that is nearly `q`. -/
theorem parents_near {q v : Vec4} (hq : q.Massive) (hγ : q.E ^ 2 ≤ 5 * q.M ^ 2) {δ : ℝ} (hδ : δ ≤ 1e-3 * q.M)
    (h : ∀ i : Component, |i.of v - i.of q| ≤ δ) :
    v.Massive ∧ |v.M - q.M| ≤ 5.8 * δ ∧ 0.99 * q.M ≤ v.M ∧ ∀ i : Component, |i.of v / v.M - i.of q / q.M| ≤ 15 * (δ / q.M) := by
  have hM := hq.M_pos
  have hδ0 : 0 ≤ δ := (abs_nonneg _).trans (h .E)
  obtain ⟨b1, b2, b3⟩ := slow_bounds hq hγ
  have hs := hq.M_sq
  unfold Vec4.dot at hs
  have d1 := h .px
  have d2 := h .py
  have d3 := h .pz
  have d4 := h .E
  simp only [Component.of] at d1 d2 d3 d4
  have hdiff : |v.M2 - q.M ^ 2| ≤ 11.43 * (q.M * δ) := by
    unfold Vec4.M2
    rw [hs]
    obtain ⟨x, hx⟩ : ∃ x, v.px = q.px + x := ⟨v.px - q.px, by ring⟩
    obtain ⟨y, hy⟩ : ∃ y, v.py = q.py + y := ⟨v.py - q.py, by ring⟩
    obtain ⟨z, hz⟩ : ∃ z, v.pz = q.pz + z := ⟨v.pz - q.pz, by ring⟩
    obtain ⟨w, hw⟩ : ∃ w, v.E = q.E + w := ⟨v.E - q.E, by ring⟩
    rw [hx, hy, hz, hw]
    rw [hx, add_sub_cancel_left] at d1
    rw [hy, add_sub_cancel_left] at d2
    rw [hz, add_sub_cancel_left] at d3
    rw [hw, add_sub_cancel_left] at d4
    have e : (q.E + w) ^ 2 - ((q.px + x) ^ 2 + (q.py + y) ^ 2 + (q.pz + z) ^ 2)
        - (q.E ^ 2 - (q.px * q.px + q.py * q.py + q.pz * q.pz))
        = 2 * (q.E * w) - 2 * (q.px * x) - 2 * (q.py * y) - 2 * (q.pz * z) + (w ^ 2 - (x ^ 2 + y ^ 2 + z ^ 2)) := by ring
    rw [e]
    have m : ∀ a b : ℝ, |b| ≤ δ → |a * b| ≤ |a| * δ := fun a b hb => by
      rw [abs_mul a b]
      exact mul_le_mul_of_nonneg_left hb (abs_nonneg _)
    have t1 := abs_le.1 (m q.px x d1)
    have t2 := abs_le.1 (m q.py y d2)
    have t3 := abs_le.1 (m q.pz z d3)
    have t4 := abs_le.1 (m q.E w d4)
    rw [abs_of_pos hq.pos] at t4
    have sqr : ∀ b : ℝ, |b| ≤ δ → b ^ 2 ≤ δ ^ 2 := fun b hb => sq_le_sq' (by linarith [(abs_le.1 hb).1]) (abs_le.1 hb).2
    have s1 := sqr x d1
    have s2 := sqr y d2
    have s3 := sqr z d3
    have s4 := sqr w d4
    have p1 := sq_nonneg x
    have p2 := sq_nonneg y
    have p3 := sq_nonneg z
    have p4 := sq_nonneg w
    have hd2 : δ ^ 2 ≤ 1e-3 * (q.M * δ) := by nlinarith
    have hsum : (|q.px| + |q.py| + |q.pz|) * δ ≤ 3.4642 * q.M * δ := mul_le_mul_of_nonneg_right b2 hδ0
    have hE : q.E * δ ≤ 2.2361 * q.M * δ := mul_le_mul_of_nonneg_right b1 hδ0
    have hMd : 0 ≤ q.M * δ := by positivity
    have hexp : (|q.px| + |q.py| + |q.pz|) * δ = |q.px| * δ + |q.py| * δ + |q.pz| * δ := by ring
    rw [hexp] at hsum
    rw [show 3.4642 * q.M * δ = 3.4642 * (q.M * δ) by ring] at hsum
    rw [show 2.2361 * q.M * δ = 2.2361 * (q.M * δ) by ring] at hE
    generalize q.M * δ = Z at *
    generalize |q.px| * δ = A1 at *
    generalize |q.py| * δ = A2 at *
    generalize |q.pz| * δ = A3 at *
    generalize q.E * δ = A4 at *
    generalize q.px * x = B1 at *
    generalize q.py * y = B2 at *
    generalize q.pz * z = B3 at *
    generalize q.E * w = B4 at *
    obtain ⟨t11, t12⟩ := t1
    obtain ⟨t21, t22⟩ := t2
    obtain ⟨t31, t32⟩ := t3
    obtain ⟨t41, t42⟩ := t4
    clear hs b1 b2 b3 hγ h e hexp
    rw [abs_le]
    constructor <;> norm_num at hsum hE hd2 ⊢ <;> linarith
  have hpos : 0 < v.M2 := by
    have := (abs_le.1 hdiff).1
    have : q.M * δ ≤ 1e-3 * q.M ^ 2 := by nlinarith
    have : 0 < q.M ^ 2 := by positivity
    norm_num at *
    nlinarith
  have hvE : 0 < v.E := by
    have := (abs_le.1 d4).1
    have hqE : q.M ≤ q.E := by
      refine abs_le_of_sq_le_sq' ?_ hq.pos.le |>.2
      nlinarith [sq_nonneg q.px, sq_nonneg q.py, sq_nonneg q.pz]
    norm_num at hδ
    linarith
  have hv : v.Massive := by
    refine ⟨?_, hvE⟩
    unfold Vec4.Boostable
    unfold Vec4.M2 at hpos
    linarith
  have hvM := hv.M_pos
  have hvs : v.M ^ 2 = v.M2 := by rw [hv.M_eq, Real.sq_sqrt hpos.le]
  have hlow : 0.99 * q.M ≤ v.M := by
    refine abs_le_of_sq_le_sq' ?_ hvM.le |>.2
    rw [hvs, mul_pow]
    have := (abs_le.1 hdiff).1
    have : q.M * δ ≤ 1e-3 * q.M ^ 2 := by nlinarith
    norm_num at *
    nlinarith
  have hnear : |v.M - q.M| ≤ 5.8 * δ := by
    have e : v.M2 - q.M ^ 2 = (v.M - q.M) * (v.M + q.M) := by
      rw [← hvs]
      ring
    rw [e, abs_mul (v.M - q.M) _, abs_of_pos (by linarith : 0 < v.M + q.M)] at hdiff
    have h2 : |v.M - q.M| * (1.99 * q.M) ≤ 11.43 * (q.M * δ) := by
      refine le_trans (mul_le_mul_of_nonneg_left ?_ (abs_nonneg _)) hdiff
      norm_num at hlow ⊢
      linarith
    have h3 : q.M * (1.99 * |v.M - q.M|) ≤ q.M * (11.43 * δ) := by linarith
    have h4 := le_of_mul_le_mul_left h3 hM
    norm_num at h4 ⊢
    linarith
  refine ⟨hv, hnear, hlow, fun i => ?_⟩
  have e : i.of v / v.M - i.of q / q.M = (i.of v - i.of q) / v.M - i.of q * (v.M - q.M) / (v.M * q.M) := by
    field_simp
    ring
  rw [e]
  refine (abs_sub _ _).trans ?_
  have t1 : |(i.of v - i.of q) / v.M| ≤ 1.02 * (δ / q.M) := by
    rw [abs_div _ v.M, abs_of_pos hvM, div_le_iff₀ hvM]
    refine (h i).trans ?_
    have : δ = δ / q.M * q.M := by field_simp
    have h0 : 0 ≤ δ / q.M := by positivity
    calc δ = δ / q.M * q.M := this
      _ ≤ δ / q.M * (1.02 * v.M) := mul_le_mul_of_nonneg_left (by norm_num at hlow ⊢; linarith) h0
      _ = _ := by ring
  have t2 : |i.of q * (v.M - q.M) / (v.M * q.M)| ≤ 13.3 * (δ / q.M) := by
    rw [abs_div _ (v.M * q.M), abs_mul _ (v.M - q.M), abs_of_pos (by positivity : 0 < v.M * q.M), div_le_iff₀ (by positivity)]
    have h0 : 0 ≤ δ / q.M := by positivity
    calc |i.of q| * |v.M - q.M| ≤ 2.2361 * q.M * (5.8 * δ) := mul_le_mul (b3 i) hnear (abs_nonneg _) (by positivity)
      _ = 2.2361 * 5.8 * q.M * q.M * (δ / q.M) := by field_simp
      _ ≤ 13.3 * v.M * q.M * (δ / q.M) := by
          refine mul_le_mul_of_nonneg_right (mul_le_mul_of_nonneg_right ?_ hM.le) h0
          norm_num at hlow ⊢
          linarith
      _ = _ := by ring
  have h0 : 0 ≤ δ / q.M := by positivity
  norm_num at t1 t2 ⊢
  linarith

/-- Energy and momentum of the products for two nearly equal masses of the parent. -/
theorem cm_stable {m1 m2 e e' D : ℝ} (h1 : 0 < m1) (h2 : 0 < m2) (he : m1 + m2 ≤ e) (he' : m1 + m2 ≤ e') (hD : |e' - e| ≤ D)
    (hD2 : D ≤ 0.006 * e) (hp : 0 < productMomentum m1 m2 e) :
    |productEnergy m1 m2 e' - productEnergy m1 m2 e| ≤ 1.01 * D ∧
    |productMomentum m1 m2 e' - productMomentum m1 m2 e| ≤ 2.04 * D * (e / productMomentum m1 m2 e) := by
  have e0 : 0 < e := by linarith
  have e0' : 0 < e' := by linarith
  have hD0 : 0 ≤ D := (abs_nonneg _).trans hD
  have hl := (abs_le.1 hD).1
  have hr := (abs_le.1 hD).2
  have t1 : |productEnergy m1 m2 e' - productEnergy m1 m2 e| ≤ 1.01 * D := by
    have eq : productEnergy m1 m2 e' - productEnergy m1 m2 e
        = (e' - e) * ((1 - (m1 ^ 2 - m2 ^ 2) / (e * e')) / 2) := by
      unfold productEnergy
      field_simp
      ring
    have hee : 0.994 * e ^ 2 ≤ e * e' := by
      norm_num at hD2 ⊢
      nlinarith
    have hq : |(m1 ^ 2 - m2 ^ 2) / (e * e')| ≤ 1.01 := by
      rw [abs_div _ (e * e'), abs_of_pos (by positivity : 0 < e * e'), div_le_iff₀ (by positivity)]
      have : |m1 ^ 2 - m2 ^ 2| ≤ e ^ 2 := by
        rw [abs_le]
        constructor <;> nlinarith
      refine this.trans ?_
      norm_num at hee ⊢
      nlinarith
    rw [eq, abs_mul (e' - e) _, mul_comm]
    refine mul_le_mul ?_ hD (abs_nonneg _) (by norm_num)
    have b := abs_le.1 hq
    rw [abs_le]
    constructor <;> norm_num at b ⊢ <;> linarith
  refine ⟨t1, ?_⟩
  have bound : ∀ x : ℝ, 0 < x → m1 + m2 ≤ x → 0 ≤ productEnergy m1 m2 x ∧ productEnergy m1 m2 x ≤ x ∧
      0 ≤ productEnergy m1 m2 x ^ 2 - m1 ^ 2 := by
    intro x hx hm
    refine ⟨?_, ?_, ?_⟩
    · unfold productEnergy
      refine div_nonneg ?_ (by positivity)
      nlinarith
    · unfold productEnergy
      rw [div_le_iff₀ (by positivity)]
      nlinarith
    · have hlow := momentum_low h1 h2 hm
      refine le_trans ?_ hlow
      have : 0 ≤ x - (m1 + m2) := by linarith
      positivity
  obtain ⟨a1, a2, a3⟩ := bound e e0 he
  obtain ⟨b1, b2, b3⟩ := bound e' e0' he'
  have s : productMomentum m1 m2 e ^ 2 = productEnergy m1 m2 e ^ 2 - m1 ^ 2 := Real.sq_sqrt a3
  have s' : productMomentum m1 m2 e' ^ 2 = productEnergy m1 m2 e' ^ 2 - m1 ^ 2 := Real.sq_sqrt b3
  have hp' : 0 ≤ productMomentum m1 m2 e' := Real.sqrt_nonneg _
  generalize productMomentum m1 m2 e = P at *
  generalize productMomentum m1 m2 e' = P' at *
  generalize productEnergy m1 m2 e = E1 at *
  generalize productEnergy m1 m2 e' = E1' at *
  rw [← mul_div_assoc, le_div_iff₀ hp]
  have eq : (P' - P) * (P' + P) = (E1' - E1) * (E1' + E1) := by linear_combination s' - s
  have h3 : |P' - P| * (P' + P) = |E1' - E1| * (E1' + E1) := by
    have := congrArg abs eq
    rwa [abs_mul (P' - P) _, abs_mul (E1' - E1) _, abs_of_nonneg (by linarith : 0 ≤ P' + P),
      abs_of_nonneg (by linarith : 0 ≤ E1' + E1)] at this
  calc |P' - P| * P ≤ |P' - P| * (P' + P) := mul_le_mul_of_nonneg_left (by linarith) (abs_nonneg _)
    _ = |E1' - E1| * (E1' + E1) := h3
    _ ≤ 1.01 * D * (2.01 * e) := by
        refine mul_le_mul t1 ?_ (by linarith) (by positivity)
        norm_num at hD2 ⊢
        linarith
    _ ≤ 2.04 * D * e := by
        have : 0 ≤ D * e := by positivity
        norm_num
        nlinarith

/-- Boosts with `γ ≤ √5` in terms of the lengths of momentum and energy. -/
theorem boost_euclid {q : Vec4} (hq : q.Massive) (hγ : q.E ^ 2 ≤ 5 * q.M ^ 2) {c : Vec4} {a b : ℝ} (ha : 0 ≤ a)
    (hc : c.px ^ 2 + c.py ^ 2 + c.pz ^ 2 ≤ a ^ 2) (hb : |c.E| ≤ b) (i : Component) :
    |i.of (c.boost q)| ≤ 2.2361 * (a + b) := by
  have hM := hq.M_pos
  have hs := hq.M_sq
  unfold Vec4.dot at hs
  obtain ⟨b1, -, -⟩ := slow_bounds hq hγ
  have hb0 : 0 ≤ b := (abs_nonneg _).trans hb
  rw [boost_velocity hq c (ux := q.px / q.M) (uy := q.py / q.M) (uz := q.pz / q.M) (ue := q.E / q.M)
    (by field_simp) (by field_simp) (by field_simp) (by field_simp)]
  have hu2 : (q.px / q.M) ^ 2 + (q.py / q.M) ^ 2 + (q.pz / q.M) ^ 2 = (q.E / q.M) ^ 2 - 1 := by
    field_simp
    linarith
  have hg : q.E / q.M ≤ 2.2361 := by
    rw [div_le_iff₀ hM]
    exact b1
  have hg1 : 1 ≤ q.E / q.M := by
    rw [le_div_iff₀ hM, one_mul]
    refine abs_le_of_sq_le_sq' ?_ hq.pos.le |>.2
    nlinarith [sq_nonneg q.px, sq_nonneg q.py, sq_nonneg q.pz]
  have hg2 : (q.E / q.M) ^ 2 ≤ 5 := by
    rw [div_pow, div_le_iff₀ (by positivity)]
    exact hγ
  generalize q.px / q.M = ux at *
  generalize q.py / q.M = uy at *
  generalize q.pz / q.M = uz at *
  generalize q.E / q.M = g at *
  have hw : 0 ≤ g ^ 2 - 1 := by nlinarith
  set U := Real.sqrt (g ^ 2 - 1) with hU
  have hU0 : 0 ≤ U := Real.sqrt_nonneg _
  have hUs : U ^ 2 = g ^ 2 - 1 := Real.sq_sqrt hw
  have hU2 : U ≤ 2 := Real.sqrt_le_iff.2 ⟨by norm_num, by linarith⟩
  have hdot : |ux * c.px + uy * c.py + uz * c.pz| ≤ U * a := cauchy3 hU0 ha (by rw [hUs]; exact hu2.le) hc
  have comp : ∀ x u : ℝ, x ^ 2 ≤ a ^ 2 → u ^ 2 ≤ U ^ 2 →
      |x + ((ux * c.px + uy * c.py + uz * c.pz) / (1 + g) + c.E) * u| ≤ 2.2361 * (a + b) := by
    intro x u hx hu
    have x1 : |x| ≤ a := abs_le_of_sq_le_sq hx ha
    have u1 : |u| ≤ U := abs_le_of_sq_le_sq hu hU0
    have t1 : |(ux * c.px + uy * c.py + uz * c.pz) / (1 + g) * u| ≤ (g - 1) * a := by
      rw [abs_mul _ u, abs_div _ (1 + g), abs_of_pos (by linarith : 0 < 1 + g), div_mul_eq_mul_div, div_le_iff₀ (by linarith)]
      calc |ux * c.px + uy * c.py + uz * c.pz| * |u| ≤ U * a * U := mul_le_mul hdot u1 (abs_nonneg _) (by positivity)
        _ = a * U ^ 2 := by ring
        _ = (g - 1) * a * (1 + g) := by rw [hUs]; ring
    have t2 : |c.E * u| ≤ b * 2 := by
      rw [abs_mul c.E u]
      exact mul_le_mul hb (u1.trans hU2) (abs_nonneg _) hb0
    have e : x + ((ux * c.px + uy * c.py + uz * c.pz) / (1 + g) + c.E) * u
        = x + ((ux * c.px + uy * c.py + uz * c.pz) / (1 + g) * u + c.E * u) := by ring
    rw [e]
    refine (abs_add_le _ _).trans ?_
    have t3 := abs_add_le ((ux * c.px + uy * c.py + uz * c.pz) / (1 + g) * u) (c.E * u)
    have t4 : g * a ≤ 2.2361 * a := mul_le_mul_of_nonneg_right hg ha
    norm_num at t4 ⊢
    linarith
  cases i
  · exact comp _ _ (by nlinarith [sq_nonneg c.py, sq_nonneg c.pz]) (by nlinarith [sq_nonneg uy, sq_nonneg uz])
  · exact comp _ _ (by nlinarith [sq_nonneg c.px, sq_nonneg c.pz]) (by nlinarith [sq_nonneg ux, sq_nonneg uz])
  · exact comp _ _ (by nlinarith [sq_nonneg c.px, sq_nonneg c.py]) (by nlinarith [sq_nonneg ux, sq_nonneg uy])
  · simp only [Component.of]
    refine (abs_add_le _ _).trans ?_
    rw [abs_mul g _, abs_of_pos (by linarith : 0 < g)]
    have t1 : g * |c.E| ≤ 2.2361 * b := mul_le_mul hg hb (abs_nonneg _) (by norm_num)
    have t2 : U * a ≤ 2 * a := mul_le_mul_of_nonneg_right hU2 ha
    norm_num at t1 ⊢
    linarith

/-- The vector of the first product in the centre-of-mass frame. -/
noncomputable def cmProduct (m1 m2 e polar azimuthal : ℝ) : Vec4 :=
  { px := productMomentum m1 m2 e * Real.sin polar * Real.cos azimuthal
    py := productMomentum m1 m2 e * Real.sin polar * Real.sin azimuthal
    pz := productMomentum m1 m2 e * Real.cos polar
    E := productEnergy m1 m2 e }

theorem energy_bounds {m1 m2 e : ℝ} (h1 : 0 < m1) (h2 : 0 < m2) (he : m1 + m2 ≤ e) :
    0 ≤ productEnergy m1 m2 e ∧ productEnergy m1 m2 e ≤ e ∧ 0 ≤ productEnergy m1 m2 e ^ 2 - m1 ^ 2 ∧
    productMomentum m1 m2 e ≤ e := by
  have e0 : 0 < e := by linarith
  have a1 : 0 ≤ productEnergy m1 m2 e := by
    unfold productEnergy
    refine div_nonneg ?_ (by positivity)
    nlinarith
  have a2 : productEnergy m1 m2 e ≤ e := by
    unfold productEnergy
    rw [div_le_iff₀ (by positivity)]
    nlinarith
  refine ⟨a1, a2, ?_, ?_⟩
  · have hlow := momentum_low h1 h2 he
    refine le_trans ?_ hlow
    have : 0 ≤ e - (m1 + m2) := by linarith
    positivity
  · unfold productMomentum
    refine Real.sqrt_le_iff.2 ⟨e0.le, ?_⟩
    have := pow_le_pow_left₀ a1 a2 2
    have := sq_nonneg m1
    linarith

/-- A decay above the threshold in closed form. -/
theorem decay_closed {d : Decay} {ex polar azimuthal : ℝ} {q : Vec4} (hq : q.Massive) (h1 : 0 < d.residual_1.mass)
    (h2 : 0 < d.residual_2.mass + ex) (he : d.residual_1.mass + (d.residual_2.mass + ex) ≤ q.M) :
    d.calculate q polar azimuthal ex = .ok (q,
      some ((cmProduct d.residual_1.mass (d.residual_2.mass + ex) q.M polar azimuthal).boost q),
      some (q - (cmProduct d.residual_1.mass (d.residual_2.mass + ex) q.M polar azimuthal).boost q)) := by
  obtain ⟨-, -, a3, -⟩ := energy_bounds h1 h2 he
  unfold Decay.calculate
  simp only
  rw [if_neg (by linarith), if_pos hq.boostable, Vec4.boostCM_self hq]
  have hc : cmVector d.residual_1.mass (d.residual_2.mass + ex) q.M polar azimuthal
      = some (cmProduct d.residual_1.mass (d.residual_2.mass + ex) q.M polar azimuthal) := by
    unfold cmVector
    simp only
    have : npSqrt (((d.residual_1.mass ^ 2 - (d.residual_2.mass + ex) ^ 2 + q.M ^ 2) / (2 * q.M)) ^ 2 - d.residual_1.mass ^ 2)
        = some (productMomentum d.residual_1.mass (d.residual_2.mass + ex) q.M) := if_neg (not_lt.2 a3)
    rw [this]
    rfl
  simp only [hc]

theorem of_sub (i : Component) (a b : Vec4) : i.of (a - b) = i.of a - i.of b := by cases i <;> rfl

/-- Exact decays of two nearly equal parents. -/
theorem decay_stable {m1 m2 δ polar azimuthal : ℝ} (h1 : 0 < m1) (h2 : 0 < m2) {q v : Vec4} (hq : q.Massive)
    (hγ : q.E ^ 2 ≤ 4.9 * q.M ^ 2) (hδ : δ ≤ 1e-3 * q.M) (h : ∀ i : Component, |i.of v - i.of q| ≤ δ)
    (he : m1 + m2 ≤ q.M) (he' : m1 + m2 ≤ v.M) (hp : 0 < productMomentum m1 m2 q.M) (i : Component) :
    |i.of ((cmProduct m1 m2 v.M polar azimuthal).boost v) - i.of ((cmProduct m1 m2 q.M polar azimuthal).boost q)|
      ≤ (27 * (q.M / productMomentum m1 m2 q.M) + 180) * δ := by
  have hM := hq.M_pos
  have hδ0 : 0 ≤ δ := (abs_nonneg _).trans (h .E)
  have hγ5 : q.E ^ 2 ≤ 5 * q.M ^ 2 := by
    have : 0 < q.M ^ 2 := by positivity
    norm_num at hγ
    linarith
  obtain ⟨hv, n1, n2, n3⟩ := parents_near hq hγ5 hδ h
  have hvM := hv.M_pos
  have hδe : δ / q.M ≤ 1e-3 := by
    rw [div_le_iff₀ hM]
    exact hδ
  have hbq : ∀ i : Component, |i.of q / q.M| ≤ 2.2136 := by
    have hs := hq.M_sq
    unfold Vec4.dot at hs
    have hu : ∀ x : ℝ, x ^ 2 ≤ q.E ^ 2 → |x / q.M| ≤ 2.2136 := by
      intro x hx
      rw [abs_div x _, abs_of_pos hM, div_le_iff₀ hM]
      refine abs_le_of_sq_le_sq ?_ (by positivity)
      rw [mul_pow]
      have : 0 < q.M ^ 2 := by positivity
      norm_num at hγ ⊢
      linarith
    have qx := sq_nonneg q.px
    have qy := sq_nonneg q.py
    have qz := sq_nonneg q.pz
    intro i
    cases i
    · exact hu q.px (by nlinarith)
    · exact hu q.py (by nlinarith)
    · exact hu q.pz (by nlinarith)
    · exact hu _ le_rfl
  have hbv : ∀ i : Component, |i.of v / v.M| ≤ 2.2286 := by
    intro i
    have a := abs_le.1 (n3 i)
    have b := abs_le.1 (hbq i)
    rw [abs_le]
    constructor <;> norm_num at a b hδe ⊢ <;> linarith
  have hγv : v.E ^ 2 ≤ 5 * v.M ^ 2 := by
    have a := (abs_le.1 (hbv .E)).2
    simp only [Component.of] at a
    rw [div_le_iff₀ hvM] at a
    have := pow_le_pow_left₀ hv.pos.le a 2
    rw [mul_pow] at this
    have : 0 < v.M ^ 2 := by positivity
    norm_num at *
    linarith
  obtain ⟨s1, s2⟩ := cm_stable h1 h2 he he' n1 (by norm_num at hδ ⊢; linarith) hp
  obtain ⟨b1, b2, -, b4⟩ := energy_bounds h1 h2 he
  have e : i.of ((cmProduct m1 m2 v.M polar azimuthal).boost v) - i.of ((cmProduct m1 m2 q.M polar azimuthal).boost q)
      = i.of ((cmProduct m1 m2 v.M polar azimuthal - cmProduct m1 m2 q.M polar azimuthal).boost v)
        + (i.of ((cmProduct m1 m2 q.M polar azimuthal).boost v) - i.of ((cmProduct m1 m2 q.M polar azimuthal).boost q)) := by
    rw [boost_sub hv, of_sub]
    ring
  rw [e]
  refine (abs_add_le _ _).trans ?_
  have trig : ∀ x : ℝ, (x * Real.sin polar * Real.cos azimuthal) ^ 2 + (x * Real.sin polar * Real.sin azimuthal) ^ 2
      + (x * Real.cos polar) ^ 2 = x ^ 2 := by
    intro x
    have a := Real.sin_sq_add_cos_sq polar
    have b := Real.sin_sq_add_cos_sq azimuthal
    linear_combination x ^ 2 * Real.sin polar ^ 2 * b + x ^ 2 * a
  have t1 := boost_euclid hv hγv (c := cmProduct m1 m2 v.M polar azimuthal - cmProduct m1 m2 q.M polar azimuthal)
    (a := 2.04 * (5.8 * δ) * (q.M / productMomentum m1 m2 q.M)) (b := 1.01 * (5.8 * δ)) (by positivity) (by
      have := trig (productMomentum m1 m2 v.M - productMomentum m1 m2 q.M)
      have e2 : (cmProduct m1 m2 v.M polar azimuthal - cmProduct m1 m2 q.M polar azimuthal).px ^ 2
          + (cmProduct m1 m2 v.M polar azimuthal - cmProduct m1 m2 q.M polar azimuthal).py ^ 2
          + (cmProduct m1 m2 v.M polar azimuthal - cmProduct m1 m2 q.M polar azimuthal).pz ^ 2
          = (productMomentum m1 m2 v.M - productMomentum m1 m2 q.M) ^ 2 := by
        rw [← this]
        simp only [cmProduct, Vec4.sub_px, Vec4.sub_py, Vec4.sub_pz]
        ring
      rw [e2]
      exact sq_le_sq.2 (by rw [abs_of_nonneg (by positivity : (0:ℝ) ≤ 2.04 * (5.8 * δ) * (q.M / productMomentum m1 m2 q.M))]; exact s2))
    s1 i
  have t2 := boost_near hq hv n3 (fun i => (hbq i).trans (by norm_num)) (fun i => (hbv i).trans (by norm_num))
    (cmProduct m1 m2 q.M polar azimuthal) i
  have hsize : size4 (cmProduct m1 m2 q.M polar azimuthal) ≤ 2.7321 * q.M := by
    have h3 := abs3 (a := (cmProduct m1 m2 q.M polar azimuthal).px) (b := (cmProduct m1 m2 q.M polar azimuthal).py)
      (c := (cmProduct m1 m2 q.M polar azimuthal).pz) (r := productMomentum m1 m2 q.M) hp.le (trig _).le
    unfold size4
    have h4 : |(cmProduct m1 m2 q.M polar azimuthal).E| ≤ q.M := by
      change |productEnergy m1 m2 q.M| ≤ q.M
      rw [abs_of_nonneg b1]
      exact b2
    norm_num at h3 h4 ⊢
    linarith
  have t3 : 4 * (15 * (δ / q.M)) * size4 (cmProduct m1 m2 q.M polar azimuthal) ≤ 163.926 * δ := by
    have h0 : 0 ≤ δ / q.M := by positivity
    calc 4 * (15 * (δ / q.M)) * size4 (cmProduct m1 m2 q.M polar azimuthal) ≤ 4 * (15 * (δ / q.M)) * (2.7321 * q.M) :=
          mul_le_mul_of_nonneg_left hsize (by positivity)
      _ = 163.926 * (δ / q.M * q.M) := by ring
      _ = 163.926 * δ := by rw [div_mul_cancel₀ _ hM.ne']
  have h5 : 0 ≤ q.M / productMomentum m1 m2 q.M * δ := by positivity
  have e3 : 2.04 * (5.8 * δ) * (q.M / productMomentum m1 m2 q.M) = 11.832 * (q.M / productMomentum m1 m2 q.M * δ) := by ring
  rw [e3] at t1
  rw [show (27 * (q.M / productMomentum m1 m2 q.M) + 180) * δ = 27 * (q.M / productMomentum m1 m2 q.M * δ) + 180 * δ by ring]
  generalize q.M / productMomentum m1 m2 q.M * δ = X at *
  norm_num at t1 t3 ⊢
  linarith

end Verif.Machine
