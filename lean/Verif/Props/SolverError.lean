import Verif.Spec.ApproxIvp
import Verif.Props.Resolution

/-! # C129: errors of the solver -/

namespace Verif.Props

open MeasureTheory ProbabilityTheory Verif.Spec Verif.Detector Verif.Kinematics Set

/-! ## One track -/

/-- Without errors this is the exact track. -/
theorem isTrackWithin_zero (P : IvpProblem) (sol : List (ℝ × Row)) :
    IsTrackWithin 0 0 0 P sol ↔ IsTrackOf P sol := by
  have hzero : ∀ a b c : ℝ, Real.sqrt (a ^ 2 + b ^ 2 + c ^ 2) ≤ 0 → a = 0 ∧ b = 0 ∧ c = 0 := by
    intro a b c h
    have h1 := (Real.sqrt_eq_zero (by positivity)).1 (le_antisymm h (Real.sqrt_nonneg _))
    refine ⟨?_, ?_, ?_⟩ <;> exact pow_eq_zero_iff (two_ne_zero) |>.1 (by nlinarith [sq_nonneg a, sq_nonneg b, sq_nonneg c])
  constructor
  · rintro ⟨traj, T, T', state, hs, -, hT, hn, rfl⟩
    have hT' : T' = T := by
      have := abs_nonpos_iff.1 hT
      linarith
    subst hT'
    refine ⟨traj, T', hs, List.map_congr_left fun t ht => ?_⟩
    have hm : P.t_span.1 ≤ t ∧ t ≤ T' := by
      have := of_mem_takeWhile ht
      simpa using this
    obtain ⟨h1, h2⟩ := hn t hm
    rw [min_eq_left hm.2] at h1 h2
    obtain ⟨x1, x2, x3⟩ := hzero _ _ _ h1
    obtain ⟨x4, x5, x6⟩ := hzero _ _ _ h2
    have : state t = traj t := by
      cases hst : state t
      cases htr : traj t
      rw [hst, htr] at x1 x2 x3 x4 x5 x6
      simp only [Row.mk.injEq]
      refine ⟨?_, ?_, ?_, ?_, ?_, ?_⟩ <;> linarith
    rw [this]
  · rintro ⟨traj, T, hs, rfl⟩
    refine ⟨traj, T, T, traj, hs, hs.solves.span, by simp, fun t ht => ?_, rfl⟩
    rw [min_eq_left ht.2]
    constructor <;> simp

theorem le_of_sq_le_sq' {a b : ℝ} (h : a ^ 2 ≤ b ^ 2) (hb : 0 ≤ b) : a ≤ b :=
  (le_abs_self a).trans (abs_le_of_sq_le_sq h hb)

theorem norm_triangle (a b c d e f : ℝ) :
    Real.sqrt ((a + d) ^ 2 + (b + e) ^ 2 + (c + f) ^ 2)
      ≤ Real.sqrt (a ^ 2 + b ^ 2 + c ^ 2) + Real.sqrt (d ^ 2 + e ^ 2 + f ^ 2) := by
  have h1 := Real.sq_sqrt (show 0 ≤ a ^ 2 + b ^ 2 + c ^ 2 by positivity)
  have h2 := Real.sq_sqrt (show 0 ≤ d ^ 2 + e ^ 2 + f ^ 2 by positivity)
  have n1 := Real.sqrt_nonneg (a ^ 2 + b ^ 2 + c ^ 2)
  have n2 := Real.sqrt_nonneg (d ^ 2 + e ^ 2 + f ^ 2)
  have hcs : a * d + b * e + c * f ≤ Real.sqrt (a ^ 2 + b ^ 2 + c ^ 2) * Real.sqrt (d ^ 2 + e ^ 2 + f ^ 2) := by
    refine le_of_sq_le_sq' ?_ (mul_nonneg n1 n2)
    rw [mul_pow, h1, h2]
    nlinarith [sq_nonneg (a * e - b * d), sq_nonneg (a * f - c * d), sq_nonneg (b * f - c * e)]
  rw [Real.sqrt_le_left (add_nonneg n1 n2)]
  nlinarith

/-- The momentum per mass as a norm. -/
theorem gv_diff (r r' : Row) :
    |r.gv - r'.gv| ≤ Real.sqrt ((r.gvx - r'.gvx) ^ 2 + (r.gvy - r'.gvy) ^ 2 + (r.gvz - r'.gvz) ^ 2) := by
  have h1 : r.gv ^ 2 = r.gvx ^ 2 + r.gvy ^ 2 + r.gvz ^ 2 := gv_sq r
  have h2 : r'.gv ^ 2 = r'.gvx ^ 2 + r'.gvy ^ 2 + r'.gvz ^ 2 := gv_sq r'
  have hcs : r.gvx * r'.gvx + r.gvy * r'.gvy + r.gvz * r'.gvz ≤ r.gv * r'.gv := by
    refine le_of_sq_le_sq' ?_ (mul_nonneg (gv_nonneg r) (gv_nonneg r'))
    rw [mul_pow, h1, h2]
    nlinarith [sq_nonneg (r.gvx * r'.gvy - r.gvy * r'.gvx), sq_nonneg (r.gvx * r'.gvz - r.gvz * r'.gvx),
      sq_nonneg (r.gvy * r'.gvz - r.gvz * r'.gvy)]
  refine Real.abs_le_sqrt ?_
  nlinarith

theorem kinetic_eq_gv (n : Nucleus) (r : Row) : kinetic n r = n.mass * (Real.sqrt (1 + r.gv ^ 2) - 1) := by
  unfold kinetic lorentz
  rw [gv_sq]

/-- The kinetic energy varies by at most the mass times the change of the momentum per mass. -/
theorem kinetic_diff {n : Nucleus} (hm : 0 < n.mass) (r r' : Row) :
    |kinetic n r - kinetic n r'| ≤ n.mass * |r.gv - r'.gv| := by
  have key : ∀ a b : ℝ, 0 ≤ a → 0 ≤ b → Real.sqrt (1 + a ^ 2) - Real.sqrt (1 + b ^ 2) ≤ |a - b| := by
    intro a b ha hb
    rw [sub_le_iff_le_add, Real.sqrt_le_left (by positivity)]
    have h1 := Real.sq_sqrt (show 0 ≤ 1 + b ^ 2 by positivity)
    have h2 : b ≤ Real.sqrt (1 + b ^ 2) := Real.le_sqrt_of_sq_le (by linarith)
    have h3 := abs_nonneg (a - b)
    have h4 := sq_abs (a - b)
    have h5 := le_abs_self (a - b)
    have h6 : (a - b) * b ≤ |a - b| * Real.sqrt (1 + b ^ 2) := mul_le_mul h5 h2 hb h3
    nlinarith
  rw [kinetic_eq_gv, kinetic_eq_gv]
  have e : n.mass * (Real.sqrt (1 + r.gv ^ 2) - 1) - n.mass * (Real.sqrt (1 + r'.gv ^ 2) - 1)
      = n.mass * (Real.sqrt (1 + r.gv ^ 2) - Real.sqrt (1 + r'.gv ^ 2)) := by ring
  rw [e, abs_mul, abs_of_pos hm]
  refine mul_le_mul_of_nonneg_left (abs_le.2 ⟨?_, key _ _ (gv_nonneg r) (gv_nonneg r')⟩) hm.le
  have := key _ _ (gv_nonneg r') (gv_nonneg r)
  rw [abs_sub_comm] at this
  linarith

theorem near_kinetic {n : Nucleus} (hm : 0 < n.mass) {δ ε : ℝ} {r r' : Row} (h : Near δ ε r r') :
    |kinetic n r - kinetic n r'| ≤ n.mass * ε :=
  (kinetic_diff hm r r').trans (mul_le_mul_of_nonneg_left ((gv_diff r r').trans h.momentum) hm.le)

/-- States whose energies are within `e` of others: the variation grows by at most `2 e` per step. -/
theorem variation_near {n : Nucleus} {e : ℝ} (f f' : ℝ → Row) :
    ∀ times : List ℝ, (∀ t ∈ times, |kinetic n (f t) - kinetic n (f' t)| ≤ e) →
      energyVariation n (times.map f) ≤ energyVariation n (times.map f') + 2 * e * ((times.length - 1 : ℕ) : ℝ)
  | [], _ => by simp [energyVariation]
  | [_], _ => by simp [energyVariation]
  | t :: t' :: rest, h => by
    have ih := variation_near f f' (t' :: rest) fun x hx => h x (List.mem_cons_of_mem _ hx)
    simp only [List.map_cons] at ih ⊢
    rw [energyVariation, energyVariation]
    have h1 := abs_le.1 (h t (by simp))
    have h2 := abs_le.1 (h t' (by simp))
    have h3 : |kinetic n (f t') - kinetic n (f t)| ≤ |kinetic n (f' t') - kinetic n (f' t)| + 2 * e := by
      rw [abs_le]
      have := le_abs_self (kinetic n (f' t') - kinetic n (f' t))
      have := neg_abs_le (kinetic n (f' t') - kinetic n (f' t))
      constructor <;> linarith [h1.1, h1.2, h2.1, h2.2]
    simp only [List.length_cons, Nat.add_sub_cancel] at ih ⊢
    push_cast
    linarith

/-- The variation is at least the difference of the energies of the ends. -/
theorem variation_ge_ends (n : Nucleus) : ∀ (rows : List Row) (a b : Row), rows.head? = some a →
    rows.getLast? = some b → kinetic n a - kinetic n b ≤ energyVariation n rows
  | [], _, _, h, _ => by simp at h
  | [r], a, b, h, h' => by
    simp only [List.head?_cons, Option.some.injEq, List.getLast?_singleton] at h h'
    subst h h'
    simp [energyVariation]
  | r :: r' :: rest, a, b, h, h' => by
    simp only [List.head?_cons, Option.some.injEq] at h
    subst h
    have ih := variation_ge_ends n (r' :: rest) r' b rfl (by simpa using h')
    rw [energyVariation]
    have := neg_abs_le (kinetic n r' - kinetic n r)
    linarith

/-- **C129.** The track of a nucleus that stops in the gas, from a solver with errors of at most `δ` metres in
position, `ε` in the momentum per mass, and `η` seconds in the time of the end: the kinetic energy changes along it
by the initial energy less at most the energy 0.1 ns and `η` before the end and the error of the energy
at both ends, and at most the initial energy and the error of the energy for both ends of each step; and the momentum
is between that at 1 eV and the initial one, up to the error. -/
theorem C129_track {ivp : IvpSolver} {vertex momentum : ℝ × ℝ × ℝ} {n : Nucleus}
    {d : DetectorParams} {K p S S' δ ε η : ℝ} (hst : StopsInGas vertex momentum n d K p S S')
    (hη : p / (S * 299792458) * (1 + 1e-9) + η ≤ 1e-6)
    (hivp : ∀ sol, ivp (trajectory_problem vertex momentum n d) = .ok sol →
      IsTrackWithin δ ε η (trajectory_problem vertex momentum n d) sol) {track : List Row}
    (htrack : generate_trajectory ivp vertex momentum n d = .ok track) :
    K - lateEnergy n ((S' + fieldForce n d.efield) * (1 + 1e10 * η)) - 2 * (n.mass * ε) ≤ energyVariation n track ∧
    energyVariation n track ≤ K - 1e-6 + 2 * (n.mass * ε) * ((track.length - 1 : ℕ) : ℝ) ∧
    ((track.length - 1 : ℕ) : ℝ) ≤ stepBound p S + 1e10 * η ∧
    (∀ r ∈ track, Real.sqrt ((r.x - vertex.1) ^ 2 + (r.y - vertex.2.1) ^ 2 + (r.z - vertex.2.2) ^ 2)
      ≤ rangeBound K S + δ) ∧
    ∀ r ∈ track, Real.sqrt ((n.mass + 1e-6) ^ 2 - n.mass ^ 2) ≤ n.mass * (r.gv + ε) ∧
      n.mass * r.gv ≤ p + n.mass * ε := by
  obtain ⟨hm, hdedx, hrho, hlip, hp, hKp, hK, hS0, hS, hS', hback, hfront, hside, htime⟩ := hst
  obtain ⟨traj, T, hs, hanti, hk0, hkT, hT, hin⟩ := C126_stops hm hdedx hrho hlip hp hKp hK hS0 hS hback hfront
    hside (lt_of_le_of_lt htime (by norm_num))
  have hp2 : p ^ 2 = momentum.1 ^ 2 + momentum.2.1 ^ 2 + momentum.2.2 ^ 2 := by
    rw [hp, Real.sq_sqrt (by positivity)]
  have hKy : KE_LIMIT ≤ kinetic n (trajectory_problem vertex momentum n d).y0 := by
    rw [kinetic_initial hm, ← hp2, ← hKp]
    exact hK
  have hT0 : 0 ≤ T := hs.solves.span
  obtain ⟨T', state, hT'0, hTT, hnear, hev⟩ : ∃ (T' : ℝ) (state : ℝ → Row), 0 ≤ T' ∧ |T' - T| ≤ η ∧
      (∀ t ∈ Icc 0 T', Near δ ε (state t) (traj (min t T))) ∧
      track = (evaluated (trajectory_problem vertex momentum n d) T').map state := by
    unfold generate_trajectory at htrack
    rcases hsol : ivp (trajectory_problem vertex momentum n d) with err | sol
    · rw [hsol] at htrack; cases htrack
    · rw [hsol] at htrack
      have htrack := Except.ok.inj htrack
      obtain ⟨traj₂, T₂, T', state, hs₂, h0, hη', hn, hsol'⟩ := hivp sol hsol
      obtain ⟨traj₀, T₀, hs₀, -, huniq⟩ := C105_well_posed hm hdedx hrho hlip hKy
      have u1 := huniq traj T hs.within hs.solves
      have u2 := huniq traj₂ T₂ hs₂.within hs₂.solves
      have e1 : T = T₀ := le_antisymm u1.1 (hs.last traj₀ T₀ hs₀.within hs₀.solves)
      have e2 : T₂ = T₀ := le_antisymm u2.1 (hs₂.last traj₀ T₀ hs₀.within hs₀.solves)
      subst e2
      subst e1
      refine ⟨T', state, h0, hη', fun t ht => ?_, ?_⟩
      · have hmin : min t T ∈ Icc 0 T := ⟨le_min ht.1 hT0, min_le_right _ _⟩
        have := hn t ht
        rwa [u2.2 _ hmin, ← u1.2 _ hmin] at this
      · rw [track_times (by simp only [trajectory_problem]) (by simp only [trajectory_problem])] at hsol'
        rw [← htrack, hsol', List.map_map]
        rfl
  have hT'1 : T' ≤ T + η := by linarith [(abs_le.1 hTT).2]
  have hlim : KE_LIMIT = 1e-6 := by norm_num [KE_LIMIT]
  obtain ⟨hmem, hinc, hhead, t₁, hlast, htail, hcount⟩ :=
    evaluated_times (vertex := vertex) (momentum := momentum) (nucleus := n) (params := d) hT'0
      (by linarith : T' ≤ 1e-6)
  have hη0 : 0 ≤ η := (abs_nonneg _).trans hTT
  have ht₁ := hmem t₁ (List.mem_of_getLast? hlast)
  obtain ⟨f, hf⟩ : ∃ f : ℝ → Row, f = fun t => traj (min t T) := ⟨_, rfl⟩
  have hnk : ∀ t ∈ Icc 0 T', |kinetic n (state t) - kinetic n (f t)| ≤ n.mass * ε := fun t ht => by
    rw [hf]; exact near_kinetic hm (hnear t ht)
  have hantif : AntitoneOn (fun t => kinetic n (f t)) (Icc 0 T') := by
    intro a ha b hb hab
    rw [hf]
    exact hanti ⟨le_min ha.1 hT0, min_le_right _ _⟩ ⟨le_min hb.1 hT0, min_le_right _ _⟩
      (min_le_min_right T hab)
  have hvar := variation_eq hantif _ hmem hinc 0 t₁ hhead hlast
  have hf0 : kinetic n (f 0) = K := by rw [hf]; simp only [min_eq_left hT0]; exact hk0
  have hmt : min t₁ T ∈ Icc 0 T := ⟨le_min ht₁.1 hT0, min_le_right _ _⟩
  have hend' : 1e-6 ≤ kinetic n (f t₁) := by
    have := (hin _ hmt).1.1
    rw [hlim] at this
    rw [hf]
    exact this
  have hvn := variation_near state f (evaluated (trajectory_problem vertex momentum n d) T') (e := n.mass * ε)
    fun t ht => hnk t (hmem t ht)
  rw [hvar, hf0] at hvn
  rw [hev, List.length_map]
  have hmgv : ∀ r : Row, n.mass * r.gv = Real.sqrt ((n.mass + kinetic n r) ^ 2 - n.mass ^ 2) := by
    intro r
    have e : (n.mass + kinetic n r) ^ 2 - n.mass ^ 2 = (n.mass * r.gv) ^ 2 := by
      have h1 : n.mass + kinetic n r = n.mass * lorentz r := by unfold kinetic; ring
      have h2 : lorentz r ^ 2 = 1 + r.gv ^ 2 := by
        unfold lorentz
        rw [Real.sq_sqrt (by have := gammaBetaSq_nonneg r; linarith), gv_sq]
      rw [h1, mul_pow, h2]
      ring
    rw [e, Real.sqrt_sq (mul_nonneg hm.le (gv_nonneg r))]
  refine ⟨?_, by linarith, hcount.trans ?_, ?_, ?_⟩
  · have hge := variation_ge_ends n ((evaluated (trajectory_problem vertex momentum n d) T').map state)
      (state 0) (state t₁) (by rw [List.head?_map, hhead]; rfl) (by rw [List.getLast?_map, hlast]; rfl)
    have a1 := (abs_le.1 (hnk 0 ⟨le_rfl, hT'0⟩)).1
    have a2 := (abs_le.1 (hnk t₁ ht₁)).2
    rw [hf0] at a1
    have hex : ExactSolution traj 0 T (d.bfield * -1) (d.efield * -1) d.gas_target n := hs.solves.deriv
    have hff : fieldForce n (d.efield * -1) = fieldForce n d.efield := by
      unfold fieldForce
      rw [← mul_assoc, mul_neg_one, abs_neg]
    have hkg : 0 < MEV_2_KG := by norm_num [MEV_2_KG]
    have hJ : 0 < MEV_2_JOULE := by norm_num [MEV_2_JOULE]
    have hF0 : 0 ≤ fieldForce n d.efield := fieldForce_nonneg n d.efield
    have hS'0 : 0 ≤ S' + fieldForce n d.efield := by
      have := (hS K ⟨hK, le_rfl⟩).trans (hS' K ⟨hK, le_rfl⟩)
      linarith
    have hslow := slows_at_most_field hm hex (S := S' + fieldForce n d.efield) (fun t ht => by
      have h1 := (netForce_bounds d.gas_target n (d.efield * -1) (traj t)).2
      have h2 : stopping d.gas_target n (traj t) ≤ S' := hS' _ (hin t ht).1
      rw [hff] at h1
      linarith) hmt
    obtain ⟨F, hF⟩ : ∃ F, F = S' + fieldForce n d.efield := ⟨_, rfl⟩
    rw [← hF] at hslow hS'0 ⊢
    have hend := hmgv (traj T)
    rw [hkT, hlim] at hend
    have hgap : T - min t₁ T ≤ 1e-10 + η := by
      rcases min_cases t₁ T with ⟨h, -⟩ | ⟨h, -⟩ <;> rw [h]
      · linarith [(abs_le.1 hTT).1]
      · linarith [show (0 : ℝ) ≤ 1e-10 by norm_num]
    have hstep : n.mass * (F * MEV_2_JOULE / (n.mass * MEV_2_KG * 299792458) * (T - min t₁ T))
        ≤ F * (1 + 1e10 * η) * 0.03 := by
      have e : n.mass * (F * MEV_2_JOULE / (n.mass * MEV_2_KG * 299792458) * (T - min t₁ T))
          = F * (T - min t₁ T) * (MEV_2_JOULE / (MEV_2_KG * 299792458)) := by field_simp
      rw [e]
      have h1 : MEV_2_JOULE / (MEV_2_KG * 299792458) ≤ 0.03 * 1e10 := by
        norm_num [MEV_2_KG, MEV_2_JOULE]
      have h2 : F * (T - min t₁ T) ≤ F * (1e-10 + η) := mul_le_mul_of_nonneg_left hgap hS'0
      calc F * (T - min t₁ T) * (MEV_2_JOULE / (MEV_2_KG * 299792458))
          ≤ F * (1e-10 + η) * (0.03 * 1e10) := mul_le_mul h2 h1
            (div_pos hJ (mul_pos hkg (by norm_num))).le (mul_nonneg hS'0 (add_nonneg (by norm_num) hη0))
        _ = F * (1 + 1e10 * η) * 0.03 := by ring
    have hp1 : n.mass * (traj (min t₁ T)).gv
        ≤ Real.sqrt ((n.mass + 1e-6) ^ 2 - n.mass ^ 2) + F * (1 + 1e10 * η) * 0.03 := by
      rw [← hend]
      have := mul_le_mul_of_nonneg_left hslow hm.le
      linarith
    have hk1 : kinetic n (f t₁) ≤ lateEnergy n (F * (1 + 1e10 * η)) := by
      have e : kinetic n (f t₁) = Real.sqrt ((n.mass * (traj (min t₁ T)).gv) ^ 2 + n.mass ^ 2) - n.mass := by
        rw [hf]
        have h2 : (n.mass * (traj (min t₁ T)).gv) ^ 2 + n.mass ^ 2 = (n.mass * lorentz (traj (min t₁ T))) ^ 2 := by
          have : lorentz (traj (min t₁ T)) ^ 2 = 1 + (traj (min t₁ T)).gv ^ 2 := by
            unfold lorentz
            rw [Real.sq_sqrt (by have := gammaBetaSq_nonneg (traj (min t₁ T)); linarith), gv_sq]
          rw [mul_pow, mul_pow, this]
          ring
        rw [h2, Real.sqrt_sq (mul_nonneg hm.le (lorentz_pos _).le)]
        unfold kinetic
        ring
      rw [e]
      unfold lateEnergy
      have := pow_le_pow_left₀ (mul_nonneg hm.le (gv_nonneg (traj (min t₁ T)))) hp1 2
      gcongr
    linarith
  · unfold stepBound
    have := mul_le_mul_of_nonneg_right (hT'1.trans (add_le_add_left hT η)) (by norm_num : (0 : ℝ) ≤ 1e10)
    linarith
  · intro r hr
    obtain ⟨t, ht, rfl⟩ := List.mem_map.1 hr
    have ht' := hmem t ht
    have h1 := (hnear t ht').position
    have h2 := (hin _ (⟨le_min ht'.1 hT0, min_le_right _ _⟩ : min t T ∈ Icc 0 T)).2
    refine le_trans ?_ (add_le_add h2 h1)
    have := norm_triangle ((traj (min t T)).x - vertex.1) ((traj (min t T)).y - vertex.2.1)
      ((traj (min t T)).z - vertex.2.2) ((state t).x - (traj (min t T)).x) ((state t).y - (traj (min t T)).y)
      ((state t).z - (traj (min t T)).z)
    have e : ∀ a b c : ℝ, a - b + (c - a) = c - b := by intros; ring
    rwa [e, e, e] at this
  · intro r hr
    obtain ⟨t, ht, rfl⟩ := List.mem_map.1 hr
    have ht' := hmem t ht
    have hg := (gv_diff _ _).trans (hnear t ht').momentum
    have hmt' : min t T ∈ Icc 0 T := ⟨le_min ht'.1 hT0, min_le_right _ _⟩
    obtain ⟨k1, k2⟩ := (hin _ hmt').1
    rw [hlim] at k1
    have g1 := hmgv (traj (min t T))
    have hlo : Real.sqrt ((n.mass + 1e-6) ^ 2 - n.mass ^ 2) ≤ n.mass * (traj (min t T)).gv := by
      rw [g1]
      gcongr
    have hhi : n.mass * (traj (min t T)).gv ≤ p := by
      rw [g1, Real.sqrt_le_left (by rw [hp]; exact Real.sqrt_nonneg _)]
      have e1 : (n.mass + K) ^ 2 = p ^ 2 + n.mass ^ 2 := by
        rw [hKp, add_sub_cancel, Real.sq_sqrt (add_nonneg (sq_nonneg _) (sq_nonneg _))]
      have h0 : 0 ≤ n.mass + kinetic n (traj (min t T)) :=
        add_nonneg hm.le (le_trans (by norm_num only) k1)
      have := pow_le_pow_left₀ h0 (add_le_add_right k2 n.mass) 2
      linarith only [this, e1]
    have h1 := (abs_le.1 hg).1
    have h2 := (abs_le.1 hg).2
    constructor
    · refine hlo.trans (mul_le_mul_of_nonneg_left (by linarith) hm.le)
    · have := mul_le_mul_of_nonneg_left (show (state t).gv ≤ (traj (min t T)).gv + ε by linarith) hm.le
      linarith

/-- **C129.** The electrons of such a nucleus, without Fano fluctuations. -/
theorem C129_electrons {σ : Type} {rng : Gen σ} (hr : LawfulGen rng) {ivp : IvpSolver}
    {vertex momentum : ℝ × ℝ × ℝ} {n : Nucleus} {d : DetectorParams} (hF : d.fano_factor = 0) (hW : 0 < d.w_value)
    {K p S S' δ ε η : ℝ} (hε : 0 ≤ ε) (hst : StopsInGas vertex momentum n d K p S S')
    (hη : p / (S * 299792458) * (1 + 1e-9) + η ≤ 1e-6)
    (hivp : ∀ sol, ivp (trajectory_problem vertex momentum n d) = .ok sol →
      IsTrackWithin δ ε η (trajectory_problem vertex momentum n d) sol) {track : List Row}
    (htrack : generate_trajectory ivp vertex momentum n d = .ok track) {s s' : σ} {primary : List ℤ}
    (h : generate_electrons track n d rng s = .ok (primary, s')) :
    (K - lateEnergy n ((S' + fieldForce n d.efield) * (1 + 1e10 * η)) - 2 * (n.mass * ε)) * 1000000 / d.w_value
      - (stepBound p S + 1e10 * η) ≤ primary.sum ∧
    (primary.sum : ℝ) ≤ (K - 1e-6 + 2 * (n.mass * ε) * (stepBound p S + 1e10 * η)) * 1000000 / d.w_value := by
  obtain ⟨h1, h2, h3, -, -⟩ := C129_track hst hη hivp htrack
  have hup := C95_electrons hr hF hW h
  have hlo := electrons_lower hr hF hW h
  have hmε : 0 ≤ 2 * (n.mass * ε) := by have := hst.mass; positivity
  have h4 := mul_le_mul_of_nonneg_left h3 hmε
  constructor
  · have e1 : (K - lateEnergy n ((S' + fieldForce n d.efield) * (1 + 1e10 * η)) - 2 * (n.mass * ε)) * 1000000
        / d.w_value ≤ energyVariation n track * 1000000 / d.w_value := by gcongr
    linarith
  · refine hup.trans ?_
    have : energyVariation n track ≤ K - 1e-6 + 2 * (n.mass * ε) * (stepBound p S + 1e10 * η) := by linarith
    gcongr

/-! ## Events -/

/-- Bounds for the tracks of the nuclei of an event, whatever the solver: the kinetic energy changes along the track
by at least `lo` and at most `hi` MeV, the track has at most `len` points, and all of them are recorded. -/
def Measured (env : SimEnv) (momenta : List Vec4) (vertex : ℝ × ℝ × ℝ) (Zs As : List ℤ) (config : Config)
    (grid : PadGrid) (g : GridEdges) (indices : List ℤ) (lo hi len : ℤ → ℝ) : Prop :=
  ∀ idx ∈ indices, ∀ n track, trackOf env momenta vertex Zs As config.det_params idx = some (n, track) →
    lo idx ≤ energyVariation n track ∧ energyVariation n track ≤ hi idx ∧ (track.length : ℝ) ≤ len idx ∧
    ∀ r ∈ track, Recorded config grid g r.x r.y r.z

section
variable {env : SimEnv} {momenta : List Vec4} {vertex : ℝ × ℝ × ℝ} {Zs As : List ℤ} {config : Config}
  {grid : PadGrid} {g : GridEdges} {indices : List ℤ} {lo hi len : ℤ → ℝ}

/-- **C129.** Nuclei that stop in the gas, within reach of the recording pads, from a solver with errors. -/
theorem C129_measured {K p S S' : ℤ → ℝ} {mass late δ ε η : ℝ} (hε : 0 ≤ ε)
    (hst : ∀ idx ∈ indices, ∀ z a n q, pyGet Zs idx = .ok z → z ≠ 0 → pyGet As idx = .ok a →
      env.get_data z a = .ok n → pyGet momenta idx = .ok q →
      StopsInGas vertex (q.px, q.py, q.pz) n config.det_params (K idx) (p idx) (S idx) (S' idx) ∧
      p idx / (S idx * 299792458) * (1 + 1e-9) + η ≤ 1e-6 ∧ n.mass ≤ mass ∧
      lateEnergy n ((S' idx + fieldForce n config.det_params.efield) * (1 + 1e10 * η)) ≤ late ∧
      (∀ sol, env.solve_ivp (trajectory_problem vertex (q.px, q.py, q.pz) n config.det_params) = .ok sol →
        IsTrackWithin δ ε η (trajectory_problem vertex (q.px, q.py, q.pz) n config.det_params) sol) ∧
      ∀ x y z, Real.sqrt ((x - vertex.1) ^ 2 + (y - vertex.2.1) ^ 2 + (z - vertex.2.2) ^ 2)
        ≤ rangeBound (K idx) (S idx) + δ → Recorded config grid g x y z) :
    Measured env momenta vertex Zs As config grid g indices
      (fun idx => K idx - late - 2 * (mass * ε))
      (fun idx => K idx - 1e-6 + 2 * (mass * ε) * (stepBound (p idx) (S idx) + 1e10 * η))
      (fun idx => stepBound (p idx) (S idx) + 1e10 * η + 1) := by
  intro idx hidx n track ht
  obtain ⟨zn, a, q, hz, hz0, ha, hn, hq, htr⟩ := trackOf_some ht
  obtain ⟨h1, h2, h3, h4, h5, h6⟩ := hst idx hidx zn a n q hz hz0 ha hn hq
  obtain ⟨t1, t2, t3, t4, -⟩ := C129_track h1 h2 h5 htr
  have hm : n.mass * ε ≤ mass * ε := mul_le_mul_of_nonneg_right h3 hε
  have hlen : (track.length : ℝ) ≤ ((track.length - 1 : ℕ) : ℝ) + 1 := by
    have : track.length ≤ (track.length - 1 : ℕ) + 1 := by omega
    exact_mod_cast this
  have hmε : 0 ≤ mass * ε := (mul_nonneg h1.mass.le hε).trans hm
  have h7 : 2 * (n.mass * ε) * ((track.length - 1 : ℕ) : ℝ)
      ≤ 2 * (mass * ε) * (stepBound (p idx) (S idx) + 1e10 * η) :=
    mul_le_mul (by linarith) t3 (Nat.cast_nonneg _) (by linarith)
  exact ⟨by linarith, by linarith, by linarith, fun r hr => h6 _ _ _ (t4 r hr)⟩

/-- **C129.** The charge of an event whose tracks have these bounds, without Fano fluctuations. -/
theorem C129_charge {σ : Type} {rng : Gen σ} (hb : 0 < g.bin) (hgrid : config.pad_grid = some (grid, g))
    (hr : LawfulGen rng) (hgain : 0 ≤ config.det_params.mpgd_gain) (hF : config.det_params.fano_factor = 0)
    (hW : 0 < config.det_params.w_value)
    (hmeas : Measured env momenta vertex Zs As config grid g indices lo hi len)
    {s s' : σ} {cloud : List CloudPoint} {labels : List ℤ}
    (h : simulate env momenta vertex Zs As config rng indices s = .ok ((cloud, labels), s')) :
    ((indices.filter (isCharged Zs)).map fun idx => pixelShare config * (config.det_params.mpgd_gain *
      (lo idx * 1000000 / config.det_params.w_value - len idx)) - cutLoss config * len idx).sum
        ≤ (cloud.map (·.e)).sum ∧
    (cloud.map (·.e)).sum ≤ ((indices.filter (isCharged Zs)).map fun idx => config.det_params.mpgd_gain *
      (hi idx * 1000000 / config.det_params.w_value)).sum := by
  obtain ⟨tr, s₁, htr, hsum⟩ := C76_balance hb hgrid hr h
  rw [hsum]
  have hg : (0 : ℝ) ≤ config.det_params.mpgd_gain := by exact_mod_cast hgain
  refine event_bounds htr _ _ ?_
  intro idx hidx z a nucleus momentum track primary s₀ s₁ hz hz0 ha hn hm ht he
  obtain ⟨m1, m2, m3, m4⟩ := hmeas idx hidx nucleus track (trackOf_eq hz hz0 ha hn hm ht)
  have hlen := primary_length he
  have hup := C95_electrons hr hF hW he
  have hlo := electrons_lower hr hF hW he
  have hrel := released_eq hr hF hW he
  obtain ⟨r1, r2⟩ := recorded_nucleus hgain hlen m4 idx
  obtain ⟨b1, b2⟩ := nucleusDeposits_bounds (grid := grid) (g := g) hgain track primary hlen.le idx
  have hl : ((track.length - 1 : ℕ) : ℝ) ≤ track.length := by exact_mod_cast Nat.sub_le _ _
  constructor
  · have e1 : lo idx * 1000000 / config.det_params.w_value
        ≤ energyVariation nucleus track * 1000000 / config.det_params.w_value := by gcongr
    have e2 : config.det_params.mpgd_gain * (lo idx * 1000000 / config.det_params.w_value - len idx)
        ≤ config.det_params.mpgd_gain * (released track primary : ℝ) := by
      refine mul_le_mul_of_nonneg_left ?_ hg
      rw [hrel]
      linarith
    unfold pixelShare cutLoss
    split_ifs with hD
    · rw [r1 hD]
      push_cast
      linarith
    · refine le_trans ?_ r2
      linarith
  · have h1 : (windowSum (nucleusDeposits config grid g track primary idx) : ℝ)
        ≤ ((config.det_params.mpgd_gain * released track primary : ℤ) : ℝ) := by
      exact_mod_cast (windowSum_le b1).trans b2
    refine h1.trans ?_
    push_cast
    refine mul_le_mul_of_nonneg_left ?_ hg
    rw [hrel]
    refine hup.trans ?_
    gcongr

/-- The energy and the points of tracks with these bounds. -/
theorem measured_sums (hW : 0 < config.det_params.w_value)
    (hmeas : Measured env momenta vertex Zs As config grid g indices lo hi len)
    (hall : AllDrift env momenta vertex Zs As config indices) :
    ((indices.filter (isCharged Zs)).map lo).sum * 1000000 / config.det_params.w_value
      ≤ ((eventPoints env momenta vertex Zs As config.det_params indices).map (·.2)).sum ∧
    ((eventPoints env momenta vertex Zs As config.det_params indices).map (·.2)).sum
      ≤ ((indices.filter (isCharged Zs)).map hi).sum * 1000000 / config.det_params.w_value ∧
    ((eventPoints env momenta vertex Zs As config.det_params indices).length : ℝ)
      ≤ ((indices.filter (isCharged Zs)).map len).sum ∧
    ∀ q ∈ eventPoints env momenta vertex Zs As config.det_params indices,
      Recorded config grid g q.1.x q.1.y q.1.z := by
  induction indices with
  | nil => simp [eventPoints]
  | cons idx rest ih =>
    obtain ⟨i1, i2, i3, i4⟩ := ih (fun i hi => hmeas i (List.mem_cons_of_mem _ hi))
      (fun i hi => hall i (List.mem_cons_of_mem _ hi))
    rw [eventPoints_cons]
    rcases hall idx (by simp) with h0 | ⟨n, track, ht, -⟩
    · have hc : isCharged Zs idx = false := by unfold isCharged; rw [h0]; simp
      rw [List.filter_cons_of_neg (by simp [hc]), trackOf_neutral h0]
      exact ⟨i1, i2, i3, i4⟩
    · obtain ⟨zn, a, q, hz, hz0, ha, hn, hq, htr⟩ := trackOf_some ht
      have hc : isCharged Zs idx = true := by unfold isCharged; rw [hz]; simpa using hz0
      rw [List.filter_cons_of_pos hc, ht]
      simp only [List.map_cons, List.sum_cons, List.map_append, List.sum_append, List.length_append]
      obtain ⟨m1, m2, m3, m4⟩ := hmeas idx (by simp) n track ht
      have hzip : (track.zip (trackMeans n config.det_params track)).length = track.length := by simp [trackMeans]
      have hsnd : (track.zip (trackMeans n config.det_params track)).map (·.2)
          = trackMeans n config.det_params track := by
        rw [List.map_snd_zip]
        simp [trackMeans]
      rw [hsnd, trackMeans_sum, Nat.cast_add, hzip]
      have e : ∀ a b w : ℝ, (a + b) * 1000000 / w = a * 1000000 / w + b * 1000000 / w := by
        intros; ring
      refine ⟨?_, ?_, by linarith, ?_⟩
      · have : lo idx * 1000000 / config.det_params.w_value
            ≤ energyVariation n track * 1000000 / config.det_params.w_value := by gcongr
        rw [e]
        linarith
      · have : energyVariation n track * 1000000 / config.det_params.w_value
            ≤ hi idx * 1000000 / config.det_params.w_value := by gcongr
        rw [e]
        linarith
      · intro x hx
        rcases List.mem_append.1 hx with hx | hx
        · exact m4 x.1 (List.of_mem_zip hx).1
        · exact i4 x hx

/-- **C129.** Mean and resolution of the charge of an event whose tracks have these bounds, for any Fano factor. -/
theorem C129_resolution {σ : Type} [MeasurableSpace σ] {μ : Measure σ} [IsProbabilityMeasure μ] {rng : Gen σ}
    {u z : σ → ℝ} {next skip : σ → σ} (hr : IdealGen rng μ u z next skip) (hb : 0 < g.bin)
    (hgrid : config.pad_grid = some (grid, g)) (hgain : 0 ≤ config.det_params.mpgd_gain)
    (hW : 0 < config.det_params.w_value) (hF : 0 ≤ config.det_params.fano_factor)
    (hE : config.det_params.efield ≠ 0)
    (hmeas : Measured env momenta vertex Zs As config grid g indices lo hi len)
    (hall : AllDrift env momenta vertex Zs As config indices) {L H N : ℝ}
    (hL : L = ((indices.filter (isCharged Zs)).map lo).sum * 1000000 / config.det_params.w_value)
    (hH : H = ((indices.filter (isCharged Zs)).map hi).sum * 1000000 / config.det_params.w_value)
    (hN : N = ((indices.filter (isCharged Zs)).map len).sum) :
    (∀ s, ∃ r, simulate env momenta vertex Zs As config rng indices s = .ok r) ∧
    config.det_params.mpgd_gain * (pixelShare config * L - N) - cutLoss config * N
      ≤ (∫ s, eventCharge env momenta vertex Zs As config rng indices s ∂μ) ∧
    (∫ s, eventCharge env momenta vertex Zs As config rng indices s ∂μ)
      ≤ config.det_params.mpgd_gain * (H + config.det_params.fano_factor / 4 * N) ∧
    config.det_params.mpgd_gain * (pixelShare config * √(config.det_params.fano_factor * L))
        - (config.det_params.mpgd_gain * (1 / 2 + √3 / 4 * config.det_params.fano_factor) + cutLoss config / 2) * √N
      ≤ √(Var[eventCharge env momenta vertex Zs As config rng indices; μ]) ∧
    √(Var[eventCharge env momenta vertex Zs As config rng indices; μ])
      ≤ config.det_params.mpgd_gain * √(config.det_params.fano_factor * H)
        + (config.det_params.mpgd_gain * (1 / 2 + √3 / 4 * config.det_params.fano_factor) + cutLoss config / 2)
          * √N := by
  obtain ⟨v1, v2, v3, v4⟩ := measured_sums hW hmeas hall
  rw [← hL] at v1
  rw [← hH] at v2
  rw [← hN] at v3
  exact recorded_resolution hr hb hgrid hgain hW hF hE hall v1 v2 v3 v4

end

/-! ## An event -/

/-- A solver with errors: all positions are 0.1 mm off, all momenta a little too large. -/
noncomputable def blur (r : Row) : Row :=
  ⟨r.x + 1e-4, r.y, r.z, r.gvx * (1 + 1e-8 / (1 + r.gv)), r.gvy * (1 + 1e-8 / (1 + r.gv)),
    r.gvz * (1 + 1e-8 / (1 + r.gv))⟩

theorem blur_near (r : Row) : Near 1e-4 1e-8 (blur r) r := by
  have h0 := gv_nonneg r
  have h1 : r.gv ^ 2 = r.gvx ^ 2 + r.gvy ^ 2 + r.gvz ^ 2 := gv_sq r
  constructor
  · unfold blur
    simp only
    have : (r.x + 1e-4 - r.x) ^ 2 + (r.y - r.y) ^ 2 + (r.z - r.z) ^ 2 = (1e-4 : ℝ) ^ 2 := by ring
    rw [this, Real.sqrt_sq (by norm_num)]
  · unfold blur
    simp only
    have : (r.gvx * (1 + 1e-8 / (1 + r.gv)) - r.gvx) ^ 2 + (r.gvy * (1 + 1e-8 / (1 + r.gv)) - r.gvy) ^ 2
        + (r.gvz * (1 + 1e-8 / (1 + r.gv)) - r.gvz) ^ 2 = (1e-8 / (1 + r.gv) * r.gv) ^ 2 := by
      rw [mul_pow, h1]
      ring
    rw [this, Real.sqrt_sq (by positivity), div_mul_eq_mul_div, div_le_iff₀ (by positivity)]
    nlinarith

theorem blur_moving {r : Row} (h : Moving r) : Moving (blur r) := by
  have h0 := gv_nonneg r
  have hf : (1 + 1e-8 / (1 + r.gv)) ≠ 0 := by positivity
  intro hb
  unfold blur at hb
  simp only [mul_eq_zero, hf, or_false] at hb
  exact h hb

theorem blur_within {P : IvpProblem} {sol : List (ℝ × Row)} (h : IsTrackOf P sol) :
    IsTrackWithin 1e-4 1e-8 0 P (sol.map fun q => (q.1, blur q.2)) := by
  obtain ⟨traj, T, hs, rfl⟩ := h
  refine ⟨traj, T, T, fun t => blur (traj t), hs, hs.solves.span, by simp, fun t ht => ?_, by
    rw [List.map_map]; rfl⟩
  rw [min_eq_left ht.2]
  exact blur_near _

theorem time_steps_head : TIME_STEPS.head? = some 0 := by
  unfold TIME_STEPS linspace0
  rw [List.head?_map, List.head?_range]
  norm_num

/-- A track starts with the initial state. -/
theorem isTrackOf_head {P : IvpProblem} (hP : P.t_eval = TIME_STEPS) (h0 : P.t_span.1 = 0) {sol : List (ℝ × Row)}
    (h : IsTrackOf P sol) : sol.head? = some (0, P.y0) := by
  obtain ⟨traj, T, hs, rfl⟩ := h
  have hT := hs.solves.span
  have hy := hs.solves.start
  rw [h0] at hT hy ⊢
  have hh := time_steps_head
  rw [← hP] at hh
  cases hl : P.t_eval with
  | nil => rw [hl] at hh; cases hh
  | cons a l =>
    rw [hl] at hh
    obtain rfl := Option.some.inj hh
    rw [List.takeWhile_cons_of_pos (by simpa using hT)]
    simp [hy]

/-- The detector of `calConfig` with any Fano factor. -/
noncomputable def blurConfig (F : ℝ) : Config :=
  { calConfig with det_params := { calDet with fano_factor := F } }

theorem blur_stops (F : ℝ) :
    StopsInGas (0, 0, 1 / 2) (0, 122, 0) stopNucleus (blurConfig F).det_params 2 122 98 100 := by
  obtain ⟨h1, h2, h3, h4, h5, h6, h7, h8, h9, h10, h11, h12, h13, h14⟩ := stopField_stops
  exact ⟨h1, h2, h3, h4, h5, h6, h7, h8, h9, h10, h11, h12, h13, h14⟩

/-- The event of a charged nucleus of 2 MeV and a neutron, with a solver whose positions are 0.1 mm off and whose
momenta are too large. -/
theorem blur_event (F : ℝ) : ∃ env : SimEnv, ¬ SolvesToTheEnd env.solve_ivp ∧
    (∀ z a, env.get_data z a = .ok stopNucleus) ∧
    (∀ P sol, env.solve_ivp P = .ok sol → IsTrackWithin 1e-4 1e-8 0 P sol) ∧
    Measured env calMomenta (0, 0, 1 / 2) [2, 2, 0] [4, 4, 1] (blurConfig F) wideGrid wideEdges [1, 2]
      (fun _ => 2 - 0.002 - 2 * (3720 * 1e-8))
      (fun _ => 2 - 1e-6 + 2 * (3720 * 1e-8) * (stepBound 122 98 + 1e10 * 0))
      (fun _ => stepBound 122 98 + 1e10 * 0 + 1) ∧
    AllDrift env calMomenta (0, 0, 1 / 2) [2, 2, 0] [4, 4, 1] (blurConfig F) [1, 2] := by
  obtain ⟨ivp, hend, -, hresp, -, -, hok⟩ := C105_solver
  have hst := blur_stops F
  have hKy : KE_LIMIT ≤ kinetic stopNucleus
      (trajectory_problem (0, 0, 1 / 2) (0, 122, 0) stopNucleus (blurConfig F).det_params).y0 := by
    rw [kinetic_initial hst.mass]
    simp only
    have : (0 : ℝ) ^ 2 + 122 ^ 2 + 0 ^ 2 + stopNucleus.mass ^ 2 = 3722 ^ 2 := by norm_num [stopNucleus]
    rw [this, Real.sqrt_sq (by norm_num)]
    norm_num [stopNucleus, KE_LIMIT]
  obtain ⟨sol, hsol⟩ := hok (0, 0, 1 / 2) (0, 122, 0) stopNucleus (blurConfig F).det_params hst.mass hst.dedx
    hst.density hst.smooth hKy
  have htrack0 : generate_trajectory ivp (0, 0, 1 / 2) (0, 122, 0) stopNucleus (blurConfig F).det_params
      = .ok (sol.map Prod.snd) := by
    unfold generate_trajectory
    rw [hsol]
  obtain ⟨ivp', hivp'⟩ : ∃ ivp' : IvpSolver, ivp' = fun P => (ivp P).map (List.map fun q => (q.1, blur q.2)) :=
    ⟨_, rfl⟩
  have hwithin : ∀ P sol, ivp' P = .ok sol → IsTrackWithin 1e-4 1e-8 0 P sol := by
    intro P sol h
    rw [hivp'] at h
    simp only at h
    rcases hi : ivp P with err | sol'
    · rw [hi] at h; cases h
    · rw [hi] at h
      obtain rfl := Except.ok.inj h
      exact blur_within (hend P sol' hi)
  have htrack : generate_trajectory ivp' (0, 0, 1 / 2) (0, 122, 0) stopNucleus (blurConfig F).det_params
      = .ok ((sol.map Prod.snd).map blur) := by
    unfold generate_trajectory
    rw [hivp']
    simp only [hsol, Except.map, List.map_map]
    rfl
  have hR : rangeBound 2 98 ≤ 0.0205 := by norm_num [rangeBound]
  obtain ⟨env, henv⟩ : ∃ env : SimEnv, env = ⟨fun _ _ => .ok stopNucleus, ivp'⟩ := ⟨_, rfl⟩
  have hmeas : Measured env calMomenta (0, 0, 1 / 2) [2, 2, 0] [4, 4, 1] (blurConfig F) wideGrid wideEdges [1, 2]
      (fun _ => 2 - 0.002 - 2 * (3720 * 1e-8))
      (fun _ => 2 - 1e-6 + 2 * (3720 * 1e-8) * (stepBound 122 98 + 1e10 * 0))
      (fun _ => stepBound 122 98 + 1e10 * 0 + 1) := by
    refine C129_measured (K := fun _ => 2) (p := fun _ => 122) (S := fun _ => 98) (S' := fun _ => 100)
      (δ := 1e-4) (by norm_num) ?_
    intro idx hidx z a nucleus momentum hz hz0 ha hn hm
    simp only [List.mem_cons, List.not_mem_nil, or_false] at hidx
    rw [henv] at hn
    obtain rfl := Except.ok.inj hn
    rcases hidx with rfl | rfl
    · have e : pyGet calMomenta 1 = .ok ⟨0, 122, 0, 3722⟩ := rfl
      rw [e] at hm
      obtain rfl := Except.ok.inj hm
      refine ⟨blur_stops F, ?_, le_refl (3720 : ℝ), ?_, fun sol h => hwithin _ _ (by rw [henv] at h; exact h),
        fun x y z h => cal_recorded_near (h.trans (by linarith))⟩
      · rw [add_zero]
        exact (blur_stops F).time
      · rw [mul_zero, add_zero, mul_one]
        exact stopField_late
    · have e : pyGet [(2 : ℤ), 2, 0] 2 = .ok 0 := rfl
      rw [e] at hz
      exact absurd (Except.ok.inj hz).symm hz0
  have hfield : (blurConfig F).det_params.efield = 1000000 := rfl
  have hdif : (blurConfig F).det_params.diffusion = 1 := rfl
  have hall : AllDrift env calMomenta (0, 0, 1 / 2) [2, 2, 0] [4, 4, 1] (blurConfig F) [1, 2] := by
    intro idx hidx
    simp only [List.mem_cons, List.not_mem_nil, or_false] at hidx
    rcases hidx with rfl | rfl
    · refine .inr ⟨stopNucleus, (sol.map Prod.snd).map blur, trackOf_eq (zn := 2) (a := 4) (q := ⟨0, 122, 0, 3722⟩)
        rfl (by norm_num) rfl (by rw [henv]) rfl (by rw [henv]; exact htrack), fun r hr => ?_⟩
      obtain ⟨r₀, hr₀, rfl⟩ := List.mem_map.1 hr
      constructor
      · refine blur_moving fun hmov => (trajectory_energy hresp hKy htrack0 r₀ hr₀).1 ?_
        have h2 : r₀.gv ^ 2 = r₀.gvx ^ 2 + r₀.gvy ^ 2 + r₀.gvz ^ 2 := gv_sq r₀
        rw [hmov.1, hmov.2.1, hmov.2.2] at h2
        simpa using h2
      · obtain ⟨-, -, -, t4⟩ := C126_track hend hst htrack0
        have hz := (Real.sqrt_le_left (by norm_num)).1 ((t4 r₀ hr₀).trans hR)
        have hz2 : r₀.z ≤ 1 := by
          by_contra hcon
          push Not at hcon
          simp only at hz
          nlinarith [sq_nonneg (r₀.x - 0), sq_nonneg (r₀.y - 0)]
        have harr : arrival (blurConfig F) (blur r₀).z = (1 - r₀.z) * 100 := cal_arrival r₀.z
        have hv : (blurConfig F).drift_velocity = 0.01 := rfl
        rw [harr, hfield, hv, hdif]
        apply div_nonneg _ (by norm_num)
        nlinarith
    · exact .inl rfl
  refine ⟨env, ?_, fun _ _ => by rw [henv], fun P sol h => hwithin P sol (by rw [henv] at h; exact h), hmeas, hall⟩
  · intro hcon
    have hsol' : env.solve_ivp (trajectory_problem (0, 0, 1 / 2) (0, 122, 0) stopNucleus (blurConfig F).det_params)
        = .ok (sol.map fun q => (q.1, blur q.2)) := by
      rw [henv, hivp']
      simp only [hsol, Except.map]
    have i1 := isTrackOf_head (by simp only [trajectory_problem]) (by simp only [trajectory_problem]) (hend _ _ hsol)
    have i2 := isTrackOf_head (by simp only [trajectory_problem]) (by simp only [trajectory_problem]) (hcon _ _ hsol')
    rw [List.head?_map, i1] at i2
    have i3 := congrArg Row.x (congrArg Prod.snd (Option.some.inj i2))
    simp only [blur] at i3
    norm_num at i3

/-- Example: the event of a charged nucleus of 2 MeV and a neutron, with a solver whose positions are 0.1 mm off and
whose momenta are too large: the mean of the charge is still 6.67 million electrons within 0.5 %, and its standard
deviation between 0.16 % and 0.19 % of that. -/
example : ∃ env : SimEnv, ¬ SolvesToTheEnd env.solve_ivp ∧
    (∀ s, ∃ r, simulate env calMomenta (0, 0, 1 / 2) [2, 2, 0] [4, 4, 1] (blurConfig 0.2) pairGen [1, 2] s = .ok r) ∧
    |(∫ s, eventCharge env calMomenta (0, 0, 1 / 2) [2, 2, 0] [4, 4, 1] (blurConfig 0.2) pairGen [1, 2] s ∂pairMeasure)
      - 6666667| ≤ 30000 ∧
    10750 ≤ √(Var[eventCharge env calMomenta (0, 0, 1 / 2) [2, 2, 0] [4, 4, 1] (blurConfig 0.2) pairGen [1, 2];
      pairMeasure]) ∧
    √(Var[eventCharge env calMomenta (0, 0, 1 / 2) [2, 2, 0] [4, 4, 1] (blurConfig 0.2) pairGen [1, 2];
      pairMeasure]) ≤ 12300 := by
  obtain ⟨env, hno, -, -, hmeas, hall⟩ := blur_event 0.2
  have hw : (blurConfig 0.2).det_params.w_value = 30 := rfl
  have hgain : (blurConfig 0.2).det_params.mpgd_gain = 100 := rfl
  have hF : (blurConfig 0.2).det_params.fano_factor = 0.2 := rfl
  have hfield : (blurConfig 0.2).det_params.efield = 1000000 := rfl
  have hdif : (blurConfig 0.2).det_params.diffusion = 1 := rfl
  obtain ⟨r1, r2, r2', r3, r4⟩ := C129_resolution pairGen_ideal (by norm_num [wideEdges]) rfl
    (by rw [hgain]; norm_num) (by rw [hw]; norm_num) (by rw [hF]; norm_num) (by rw [hfield]; norm_num) hmeas hall
    rfl rfl rfl
  have hch : [(1 : ℤ), 2].filter (isCharged [2, 2, 0]) = [1] := by decide
  have hcut : cutLoss (blurConfig 0.2) = 100 := by unfold cutLoss; rw [hdif]; norm_num
  have hshare : pixelShare (blurConfig 0.2) = 0.998 := by unfold pixelShare; rw [hdif]; norm_num
  rw [hch] at r2 r2' r3 r4
  simp only [List.map_cons, List.map_nil, List.sum_cons, List.sum_nil, add_zero, mul_zero, hw, hgain, hF, hcut, hshare]
    at r2 r2' r3 r4
  have h4 : stepBound 122 98 ≤ 42 := by norm_num [stepBound]
  have h4' : 0 ≤ stepBound 122 98 := by norm_num [stepBound]
  obtain ⟨B, hB⟩ : ∃ B, B = stepBound 122 98 := ⟨_, rfl⟩
  rw [← hB] at r2 r2' r3 r4 h4 h4'
  have h3 : √3 ≤ 1.8 := by rw [Real.sqrt_le_left (by norm_num)]; norm_num
  have h3' : 0 ≤ √(3 : ℝ) := Real.sqrt_nonneg _
  have hs : √(B + 1) ≤ 6.6 := by
    rw [Real.sqrt_le_left (by norm_num)]
    linarith
  have hs' := Real.sqrt_nonneg (B + 1)
  have hu : √((0.2 : ℝ) * ((2 - 1e-6 + 2 * (3720 * 1e-8) * B) * 1000000 / 30)) ≤ 115.7 := by
    rw [Real.sqrt_le_left (by norm_num)]
    norm_num
    linarith
  have hl : 115.3 ≤ √((0.2 : ℝ) * ((2 - 0.002 - 2 * (3720 * 1e-8)) * 1000000 / 30)) := by
    apply Real.le_sqrt_of_sq_le
    norm_num
  have hprod : (100 * (1 / 2 + √3 / 4 * 0.2) + 100 / 2) * √(B + 1) ≤ 109 * 6.6 :=
    mul_le_mul (by linarith) hs hs' (by norm_num)
  push_cast at r2 r2' r3 r4
  refine ⟨env, hno, r1, ?_, by linarith, by linarith⟩
  rw [abs_le]
  constructor <;> linarith

/-- Example: the same event without Fano fluctuations: the charge of every cloud is between 6.63 and 6.68 million
electrons. -/
example : ∃ env : SimEnv, ¬ SolvesToTheEnd env.solve_ivp ∧ ∀ s, ∃ cloud labels s',
    simulate env calMomenta (0, 0, 1 / 2) [2, 2, 0] [4, 4, 1] (blurConfig 0) pairGen [1, 2] s
      = .ok ((cloud, labels), s') ∧
    6630000 ≤ (cloud.map (·.e)).sum ∧ (cloud.map (·.e)).sum ≤ 6680000 := by
  obtain ⟨env, hno, -, -, hmeas, hall⟩ := blur_event 0
  have hw : (blurConfig 0).det_params.w_value = 30 := rfl
  have hgain : (blurConfig 0).det_params.mpgd_gain = 100 := rfl
  have hF : (blurConfig 0).det_params.fano_factor = 0 := rfl
  have hfield : (blurConfig 0).det_params.efield = 1000000 := rfl
  have hdif : (blurConfig 0).det_params.diffusion = 1 := rfl
  have hcut : cutLoss (blurConfig 0) = 100 := by unfold cutLoss; rw [hdif]; norm_num
  have hshare : pixelShare (blurConfig 0) = 0.998 := by unfold pixelShare; rw [hdif]; norm_num
  refine ⟨env, hno, fun s => ?_⟩
  obtain ⟨⟨⟨cloud, labels⟩, s'⟩, hsim⟩ := (C129_resolution pairGen_ideal (by norm_num [wideEdges]) rfl
    (by rw [hgain]; norm_num) (by rw [hw]; norm_num) (by rw [hF]) (by rw [hfield]; norm_num) hmeas hall
    rfl rfl rfl).1 s
  obtain ⟨b1, b2⟩ := C129_charge (by norm_num [wideEdges]) rfl (lawful_of_ranges pairGen_ideal.fresh.uniform
      pairGen_ideal.fresh.range pairGen_ideal.fresh.normal) (by rw [hgain]; norm_num) hF
    (by rw [hw]; norm_num) hmeas hsim
  have hch : [(1 : ℤ), 2].filter (isCharged [2, 2, 0]) = [1] := by decide
  rw [hch] at b1 b2
  simp only [List.map_cons, List.map_nil, List.sum_cons, List.sum_nil, add_zero, mul_zero, hw, hgain, hcut, hshare]
    at b1 b2
  have h4 : stepBound 122 98 ≤ 42 := by norm_num [stepBound]
  obtain ⟨B, hB⟩ : ∃ B, B = stepBound 122 98 := ⟨_, rfl⟩
  rw [← hB] at b1 b2 h4
  push_cast at b1 b2
  refine ⟨cloud, labels, s', hsim, ?_, ?_⟩
  · have : (6630000 : ℝ) ≤ ((cloud.map (·.e)).sum : ℝ) := by linarith
    exact_mod_cast this
  · have : ((cloud.map (·.e)).sum : ℝ) ≤ (6680000 : ℝ) := by linarith
    exact_mod_cast this

end Verif.Props
