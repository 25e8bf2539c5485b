import Verif.Proofs.Field
import Verif.Spec.ExactIvp

/-! # C105: the trajectory of a nucleus exists and is unique -/

namespace Verif.Detector

open Verif.Spec Set

/-- What the terminal events demand of a state, for a nucleus that starts with at least the limiting
energy. -/
theorem respects_iff {vertex momentum : ℝ × ℝ × ℝ} {n : Nucleus} {d : DetectorParams}
    (hK : KE_LIMIT ≤ kinetic n (trajectory_problem vertex momentum n d).y0) (t : ℝ) (r : Row) :
    SolutionRespects (trajectory_problem vertex momentum n d) [(t, r)] ↔
      KE_LIMIT ≤ kinetic n r ∧ (vertex.2.2 ≤ 1 → r.z ≤ 1) ∧ (0 ≤ vertex.2.2 → 0 ≤ r.z) ∧
        (Real.sqrt (vertex.1 ^ 2 + vertex.2.1 ^ 2) ≤ 0.292 → Real.sqrt (r.x ^ 2 + r.y ^ 2) ≤ 0.292) := by
  have hpos : (0 : ℝ) < KE_LIMIT := by norm_num [KE_LIMIT]
  have h0 := stop_condition_eq _ n (kinetic_pos_moving (hpos.trans_le hK))
  constructor
  · intro h
    refine ⟨?_, ?_, ?_, ?_⟩
    · obtain ⟨v, e, h⟩ := (h ⟨fun _ s => stop_condition s n, true, -1⟩
        (by simp [trajectory_problem]) rfl _ h0 (t, r) (by simp)).2 (by norm_num) (by linarith)
      obtain ⟨h1, h2⟩ := stop_condition_ok e
      linarith
    · intro hz
      obtain ⟨v, e, h⟩ := (h ⟨fun _ s => .ok (forward_z_bound_condition s), true, 1⟩
        (by simp [trajectory_problem]) rfl _ rfl (t, r) (by simp)).1 (by norm_num)
        (by simp only [forward_z_bound_condition, trajectory_problem]; linarith)
      have e := Except.ok.inj e
      simp only [forward_z_bound_condition] at e
      linarith
    · intro hz
      obtain ⟨v, e, h⟩ := (h ⟨fun _ s => .ok (backward_z_bound_condition s), true, -1⟩
        (by simp [trajectory_problem]) rfl _ rfl (t, r) (by simp)).2 (by norm_num)
        (by simp only [backward_z_bound_condition, trajectory_problem]; linarith)
      have e := Except.ok.inj e
      simp only [backward_z_bound_condition] at e
      linarith
    · intro hz
      obtain ⟨v, e, h⟩ := (h ⟨fun _ s => .ok (rho_bound_condition s), true, 1⟩
        (by simp [trajectory_problem]) rfl _ rfl (t, r) (by simp)).1 (by norm_num)
        (by simp only [rho_bound_condition, trajectory_problem]; linarith)
      have e := Except.ok.inj e
      simp only [rho_bound_condition] at e
      linarith
  · rintro ⟨h1, h2, h3, h4⟩ ev hev hterm v₀ hv₀ ty hty
    simp only [List.mem_singleton] at hty
    subst hty
    simp only [trajectory_problem, List.mem_cons, List.not_mem_nil, or_false] at hev
    rcases hev with rfl | rfl | rfl | rfl
    · refine ⟨fun h => absurd h (by norm_num), fun _ _ => ?_⟩
      exact ⟨_, stop_condition_eq _ n (kinetic_pos_moving (hpos.trans_le h1)), by linarith⟩
    · refine ⟨fun _ hv => ⟨_, rfl, ?_⟩, fun h => absurd h (by norm_num)⟩
      have e := Except.ok.inj hv₀
      simp only [forward_z_bound_condition, trajectory_problem] at e ⊢
      linarith [h2 (by linarith)]
    · refine ⟨fun h => absurd h (by norm_num), fun _ hv => ⟨_, rfl, ?_⟩⟩
      have e := Except.ok.inj hv₀
      simp only [backward_z_bound_condition, trajectory_problem] at e ⊢
      exact h3 (by linarith)
    · refine ⟨fun _ hv => ⟨_, rfl, ?_⟩, fun h => absurd h (by norm_num)⟩
      have e := Except.ok.inj hv₀
      simp only [rho_bound_condition, trajectory_problem] at e ⊢
      linarith [h4 (by linarith)]

/-- The squared momentum per mass at the limiting energy. -/
noncomputable def sqLimit (n : Nucleus) : ℝ := (1 + KE_LIMIT / n.mass) ^ 2 - 1

theorem sqLimit_pos {n : Nucleus} (hm : 0 < n.mass) : 0 < sqLimit n := by
  have hpos : (0 : ℝ) < KE_LIMIT := by norm_num [KE_LIMIT]
  have : 0 < KE_LIMIT / n.mass := by positivity
  unfold sqLimit
  nlinarith

theorem sqLimit_le {n : Nucleus} (hm : 0 < n.mass) {r : Row} (h : KE_LIMIT ≤ kinetic n r) :
    sqLimit n ≤ sqOf (toState r).2 := by
  have hpos : (0 : ℝ) < KE_LIMIT := by norm_num [KE_LIMIT]
  have h1 : 1 + KE_LIMIT / n.mass ≤ lorentz r := by
    unfold kinetic at h
    have : KE_LIMIT / n.mass ≤ lorentz r - 1 := by
      rw [div_le_iff₀ hm]; linarith
    linarith
  have h2 : lorentz r ^ 2 = 1 + sqOf (toState r).2 := by
    unfold lorentz
    rw [Real.sq_sqrt (by have := gammaBetaSq_nonneg r; linarith), gammaBetaSq_eq]
  have h3 : 0 ≤ 1 + KE_LIMIT / n.mass := by positivity
  unfold sqLimit
  have := pow_le_pow_left₀ h3 h1 2
  linarith

/-- An exact solution as a solution of the field. -/
theorem solves_state {vertex momentum : ℝ × ℝ × ℝ} {n : Nucleus} {d : DetectorParams} {traj : ℝ → Row}
    {T : ℝ} (h : Solves (trajectory_problem vertex momentum n d) traj T) :
    ∀ t ∈ Icc 0 T, HasDerivAt (fun t => toState (traj t))
      (fieldOf (d.bfield * -1) (d.efield * -1) d.gas_target n (toState (traj t)).2) t := by
  intro t ht
  obtain ⟨w, hw, hx, hy, hz, hgx, hgy, hgz⟩ := h.deriv t ht
  have hg : (traj t).gv ≠ 0 := (eom_ok_iff t _ (d.bfield * -1) (d.efield * -1) d.gas_target n).1 ⟨w, hw⟩
  have hw' : equation_of_motion t (traj t) (d.bfield * -1) (d.efield * -1) d.gas_target n = .ok w := hw
  rw [eom_field hg] at hw'
  have e : fieldOf (d.bfield * -1) (d.efield * -1) d.gas_target n (toState (traj t)).2 = toState w := by
    rw [← Except.ok.inj hw', toState_ofState]
  rw [e]
  exact (hx.prodMk (hy.prodMk hz)).prodMk (hgx.prodMk (hgy.prodMk hgz))

/-- **C105.** In a gas that only slows down, with a stopping power that is locally Lipschitz for positive
energies, every nucleus that starts with at least 1 eV has exactly one trajectory: there is a complete
solution of the initial value problem posed by the program, it ends after one second, at 1 eV or on a
boundary of the volume, and every solution agrees with it for as long as it lasts. -/
theorem C105_well_posed {vertex momentum : ℝ × ℝ × ℝ} {n : Nucleus} {d : DetectorParams} (hm : 0 < n.mass)
    (hdedx : ∀ k, 0 ≤ d.gas_target.get_dedx n k) (hrho : 0 ≤ d.gas_target.density)
    (hlip : LocallyLipschitzOn (Ioi 0) (d.gas_target.get_dedx n))
    (hK : KE_LIMIT ≤ kinetic n (trajectory_problem vertex momentum n d).y0) :
    ∃ (traj : ℝ → Row) (T : ℝ), SolvesCompletely (trajectory_problem vertex momentum n d) traj T ∧
      (T = 1 ∨ kinetic n (traj T) = KE_LIMIT ∨ (traj T).z = 1 ∨ (traj T).z = 0 ∨
        Real.sqrt ((traj T).x ^ 2 + (traj T).y ^ 2) = 0.292) ∧
      ∀ (traj' : ℝ → Row) (T' : ℝ), T' ≤ 1 →
        Solves (trajectory_problem vertex momentum n d) traj' T' →
        T' ≤ T ∧ ∀ t ∈ Icc 0 T', traj' t = traj t := by
  obtain ⟨κ, hκ⟩ : ∃ κ, κ = |(n.Z : ℝ) * E_CHARGE / (n.mass * MEV_2_KG) * (d.efield * -1) / C| := ⟨_, rfl⟩
  have hκ0 : 0 ≤ κ := by rw [hκ]; exact abs_nonneg _
  obtain ⟨y₀, hy₀⟩ : ∃ y₀, y₀ = toState (trajectory_problem vertex momentum n d).y0 := ⟨_, rfl⟩
  obtain ⟨hi, hhi⟩ : ∃ hi, hi = (Real.sqrt (sqOf y₀.2) + κ) ^ 2 := ⟨_, rfl⟩
  have hlo := sqLimit_pos hm
  have hstart : sqLimit n ≤ sqOf y₀.2 := by rw [hy₀]; exact sqLimit_le hm hK
  have hlohi : sqLimit n ≤ hi := by
    refine hstart.trans ?_
    rw [hhi]
    have h1 := Real.sq_sqrt (sqOf_nonneg y₀.2)
    have h2 := Real.sqrt_nonneg (sqOf y₀.2)
    nlinarith
  obtain ⟨F, K, M, hF, hM, hFeq, hFgrow⟩ := exists_regular (B := d.bfield * -1) (E := d.efield * -1) hm hdedx
    hrho hlip hlo hlohi
  -- the regular field on states
  have hF6 : LipschitzWith K fun s : P3 × P3 => F s.2 := by
    have := hF.comp (LipschitzWith.prod_snd (α := P3) (β := P3))
    rwa [mul_one] at this
  obtain ⟨y, hy0, hy⟩ := exists_flow hF6 (fun s => hM s.2) y₀
  have hbound : ∀ (G : P3 → P3 × P3), (∀ q, ∃ c D : ℝ, 0 ≤ c ∧ c ≤ 1 ∧ 0 ≤ D ∧
        (G q).2 = c • (freePart (d.bfield * -1) (d.efield * -1) n q).2 - D • q) →
      ∀ (s : ℝ → P3 × P3) (T : ℝ), T ≤ 1 → s 0 = y₀ →
      (∀ t ∈ Icc 0 T, HasDerivAt s (G (s t).2) t) → (∀ t ∈ Icc 0 T, sqLimit n ≤ sqOf (s t).2) →
      ∀ t ∈ Icc 0 T, sqOf (s t).2 ∈ Icc (sqLimit n) hi := by
    intro G hG s T hT h0 hs hlow t ht
    refine ⟨hlow t ht, ?_⟩
    have := growth hG (p := fun t => (s t).2) (fun t ht => deriv_snd (hs t ht))
      (fun t ht => hlo.trans_le (hlow t ht)) t ht
    rw [← hκ] at this
    simp only [h0] at this
    have h1 : Real.sqrt (sqOf (s t).2) ≤ Real.sqrt (sqOf y₀.2) + κ := by
      have : κ * t ≤ κ * 1 := by
        have := ht.2.trans hT
        gcongr
      linarith
    rw [hhi, ← Real.sq_sqrt (sqOf_nonneg (s t).2)]
    exact pow_le_pow_left₀ (Real.sqrt_nonneg _) h1 2
  -- every solution solves the regular field
  have huniq : ∀ (traj' : ℝ → Row) (T' : ℝ), T' ≤ 1 →
      Solves (trajectory_problem vertex momentum n d) traj' T' →
      ∀ t ∈ Icc 0 T', toState (traj' t) = y t := by
    intro traj' T' hT' hs
    have hgood : ∀ t ∈ Icc 0 T', sqLimit n ≤ sqOf (toState (traj' t)).2 := fun t ht =>
      sqLimit_le hm ((respects_iff hK t _).1 (hs.events t ht)).1
    have h0 : toState (traj' 0) = y₀ := by
      have : traj' 0 = (trajectory_problem vertex momentum n d).y0 := hs.start
      rw [this, hy₀]
    have hst := solves_state hs
    have hin := hbound _ (fieldOf_grows hm hdedx hrho) (fun t => toState (traj' t)) T' hT' h0 hst hgood
    refine flow_unique hF6 (f := fun t => toState (traj' t)) ?_ ?_ (h0.trans hy0.symm)
    · intro t ht
      have := hst t ht
      rwa [← hFeq _ (hin t ht)] at this
    · exact fun t ht => hy t ⟨ht.1, ht.2.trans hT'⟩
  have hycont : ContinuousOn y (Icc 0 1) := fun t ht => (hy t ht).continuousAt.continuousWithinAt
  -- the times at which no terminal event has been passed
  have hc1 : Continuous fun s : P3 × P3 => kinetic n (ofState s) := by
    unfold kinetic lorentz gammaBetaSq ofState
    fun_prop
  have hc2 : Continuous fun s : P3 × P3 => Real.sqrt ((ofState s).x ^ 2 + (ofState s).y ^ 2) := by
    unfold ofState
    fun_prop
  have hc3 : Continuous fun s : P3 × P3 => (ofState s).z := by
    unfold ofState
    fun_prop
  obtain ⟨S, hS⟩ : ∃ S : Set (P3 × P3), S = {s | KE_LIMIT ≤ kinetic n (ofState s) ∧
      (vertex.2.2 ≤ 1 → (ofState s).z ≤ 1) ∧ (0 ≤ vertex.2.2 → 0 ≤ (ofState s).z) ∧
      (Real.sqrt (vertex.1 ^ 2 + vertex.2.1 ^ 2) ≤ 0.292 →
        Real.sqrt ((ofState s).x ^ 2 + (ofState s).y ^ 2) ≤ 0.292)} := ⟨_, rfl⟩
  have hSclosed : IsClosed S := by
    rw [hS]
    refine (isClosed_le continuous_const hc1).inter ?_
    refine IsClosed.inter ?_ (IsClosed.inter ?_ ?_)
    · by_cases h : vertex.2.2 ≤ 1
      · simp only [h, true_imp_iff]; exact isClosed_le hc3 continuous_const
      · simp only [h, false_imp_iff]; exact isClosed_univ
    · by_cases h : 0 ≤ vertex.2.2
      · simp only [h, true_imp_iff]; exact isClosed_le continuous_const hc3
      · simp only [h, false_imp_iff]; exact isClosed_univ
    · by_cases h : Real.sqrt (vertex.1 ^ 2 + vertex.2.1 ^ 2) ≤ 0.292
      · simp only [h, true_imp_iff]; exact isClosed_le hc2 continuous_const
      · simp only [h, false_imp_iff]; exact isClosed_univ
  have hSiff : ∀ t s, SolutionRespects (trajectory_problem vertex momentum n d) [(t, ofState s)] ↔ s ∈ S := by
    intro t s
    rw [respects_iff hK, hS]
    rfl
  have hS0 : y 0 ∈ S := by
    rw [hy0, hy₀, hS]
    exact ⟨hK, fun h => h, fun h => h, fun h => h⟩
  obtain ⟨G, hG⟩ : ∃ G : Set ℝ, G = Icc 0 1 ∩ y ⁻¹' S := ⟨_, rfl⟩
  have hGclosed : IsClosed G := by
    rw [hG]; exact hycont.preimage_isClosed_of_isClosed isClosed_Icc hSclosed
  obtain ⟨A, hA⟩ : ∃ A : Set ℝ, A = {τ | τ ∈ Icc (0 : ℝ) 1 ∧ ∀ t ∈ Icc 0 τ, y t ∈ S} := ⟨_, rfl⟩
  have hA0 : (0 : ℝ) ∈ A := by
    rw [hA]
    refine ⟨⟨le_rfl, zero_le_one⟩, fun t ht => ?_⟩
    have : t = 0 := le_antisymm ht.2 ht.1
    rw [this]
    exact hS0
  have hAG : A ⊆ G := by
    intro τ hτ
    rw [hA] at hτ
    rw [hG]
    exact ⟨hτ.1, hτ.2 τ ⟨hτ.1.1, le_rfl⟩⟩
  have hAb : BddAbove A := ⟨1, fun τ hτ => by rw [hA] at hτ; exact hτ.1.2⟩
  obtain ⟨T, hT⟩ : ∃ T, T = sSup A := ⟨_, rfl⟩
  have hTG : T ∈ G := by
    have := csSup_mem_closure ⟨0, hA0⟩ hAb
    rw [← hT] at this
    exact hGclosed.closure_subset_iff.2 hAG this
  have hT01 : T ∈ Icc (0 : ℝ) 1 := by rw [hG] at hTG; exact hTG.1
  have hgood : ∀ t ∈ Icc 0 T, y t ∈ S := by
    intro t ht
    rcases lt_or_eq_of_le ht.2 with h | h
    · rw [hT] at h
      obtain ⟨τ, hτ, htτ⟩ := exists_lt_of_lt_csSup ⟨0, hA0⟩ h
      rw [hA] at hτ
      exact hτ.2 t ⟨ht.1, htτ.le⟩
    · rw [h]
      rw [hG] at hTG
      exact hTG.2
  have hTle : ∀ (traj' : ℝ → Row) (T' : ℝ), T' ≤ 1 →
      Solves (trajectory_problem vertex momentum n d) traj' T' → T' ≤ T := by
    intro traj' T' hT' hs
    have hspan : 0 ≤ T' := hs.span
    rw [hT]
    refine le_csSup hAb ?_
    rw [hA]
    refine ⟨⟨hspan, hT'⟩, fun t ht => ?_⟩
    rw [← huniq traj' T' hT' hs t ht, ← hSiff t, ofState_toState]
    exact hs.events t ht
  have hin : ∀ t ∈ Icc 0 T, sqOf (y t).2 ∈ Icc (sqLimit n) hi := by
    refine hbound F hFgrow y T hT01.2 hy0 (fun t ht => hy t ⟨ht.1, ht.2.trans hT01.2⟩) fun t ht => ?_
    have := hgood t ht
    rw [hS] at this
    exact sqLimit_le hm this.1
  refine ⟨fun t => ofState (y t), T, ⟨hT01.2, ⟨?_, hT01.1, ?_, ?_⟩, hTle⟩, ?_, ?_⟩
  · change ofState (y 0) = _
    rw [hy0, hy₀, ofState_toState]
  · intro t ht
    have hd := hy t ⟨ht.1, ht.2.trans hT01.2⟩
    have hg : (ofState (y t)).gv ≠ 0 := by
      rw [gv_eq_sqrt, toState_ofState]
      exact (Real.sqrt_pos.2 (hlo.trans_le (hin t ht).1)).ne'
    refine ⟨_, eom_field (t := t) hg, ?_⟩
    rw [toState_ofState, ← hFeq _ (hin t ht)]
    exact ⟨deriv_fst (deriv_fst hd), deriv_fst (deriv_snd (deriv_fst hd)),
      deriv_snd (deriv_snd (deriv_fst hd)), deriv_fst (deriv_snd hd), deriv_fst (deriv_snd (deriv_snd hd)),
      deriv_snd (deriv_snd (deriv_snd hd))⟩
  · exact fun t ht => (hSiff t _).2 (hgood t ht)
  · by_contra hno
    push Not at hno
    obtain ⟨hne, hk, hz1, hz0, hr⟩ := hno
    have hTlt : T < 1 := lt_of_le_of_ne hT01.2 hne
    have hyT := hgood T ⟨hT01.1, le_rfl⟩
    rw [hS] at hyT
    obtain ⟨a1, a2, a3, a4⟩ := hyT
    have hcT : ContinuousAt y T := (hy T hT01).continuousAt
    have k1 : ContinuousAt (fun t => kinetic n (ofState (y t))) T := hc1.continuousAt.comp hcT
    have k2 : ContinuousAt (fun t => Real.sqrt ((ofState (y t)).x ^ 2 + (ofState (y t)).y ^ 2)) T :=
      ContinuousAt.comp (f := y) (x := T) hc2.continuousAt hcT
    have k3 : ContinuousAt (fun t => (ofState (y t)).z) T :=
      ContinuousAt.comp (f := y) (x := T) hc3.continuousAt hcT
    have e1 : ∀ᶠ t in nhds T, KE_LIMIT ≤ kinetic n (ofState (y t)) :=
      (continuousAt_const.eventually_lt k1 (lt_of_le_of_ne a1 (Ne.symm hk))).mono fun t ht => ht.le
    have e2 : ∀ᶠ t in nhds T, vertex.2.2 ≤ 1 → (ofState (y t)).z ≤ 1 := by
      by_cases h : vertex.2.2 ≤ 1
      · exact (k3.eventually_lt continuousAt_const (lt_of_le_of_ne (a2 h) hz1)).mono fun t ht _ => ht.le
      · exact Filter.Eventually.of_forall fun t h' => absurd h' h
    have e3 : ∀ᶠ t in nhds T, 0 ≤ vertex.2.2 → 0 ≤ (ofState (y t)).z := by
      by_cases h : 0 ≤ vertex.2.2
      · exact (continuousAt_const.eventually_lt k3 (lt_of_le_of_ne (a3 h) (Ne.symm hz0))).mono
          fun t ht _ => ht.le
      · exact Filter.Eventually.of_forall fun t h' => absurd h' h
    have e4 : ∀ᶠ t in nhds T, Real.sqrt (vertex.1 ^ 2 + vertex.2.1 ^ 2) ≤ 0.292 →
        Real.sqrt ((ofState (y t)).x ^ 2 + (ofState (y t)).y ^ 2) ≤ 0.292 := by
      by_cases h : Real.sqrt (vertex.1 ^ 2 + vertex.2.1 ^ 2) ≤ 0.292
      · exact (k2.eventually_lt continuousAt_const (lt_of_le_of_ne (a4 h) hr)).mono fun t ht _ => ht.le
      · exact Filter.Eventually.of_forall fun t h' => absurd h' h
    obtain ⟨δ, hδ, hball⟩ := Metric.eventually_nhds_iff.1 (e1.and (e2.and (e3.and e4)))
    obtain ⟨τ, hτ⟩ : ∃ τ, τ = min 1 (T + δ / 2) := ⟨_, rfl⟩
    have hτT : T < τ := by rw [hτ]; exact lt_min hTlt (by linarith)
    have hτ1 : τ ≤ 1 := by rw [hτ]; exact min_le_left _ _
    have hτ2 : τ ≤ T + δ / 2 := by rw [hτ]; exact min_le_right _ _
    have hτA : τ ∈ A := by
      rw [hA]
      refine ⟨⟨hT01.1.trans hτT.le, hτ1⟩, fun t ht => ?_⟩
      rcases le_total t T with h | h
      · exact hgood t ⟨ht.1, h⟩
      · rw [hS]
        refine hball ?_
        rw [Real.dist_eq, abs_of_nonneg (by linarith)]
        linarith [ht.2]
    have := le_csSup hAb hτA
    rw [← hT] at this
    linarith
  · intro traj' T' hT' hs
    refine ⟨hTle traj' T' hT' hs, fun t ht => ?_⟩
    change traj' t = ofState (y t)
    rw [← huniq traj' T' hT' hs t ht, ofState_toState]

theorem of_mem_takeWhile {α : Type} {f : α → Bool} {a : α} : ∀ {l : List α}, a ∈ l.takeWhile f → f a = true
  | [], h => by simp at h
  | b :: l, h => by
    rw [List.takeWhile_cons] at h
    split_ifs at h with hb
    · rcases List.mem_cons.1 h with rfl | h
      · exact hb
      · exact of_mem_takeWhile h
    · simp at h

/-- A problem with one complete solution has one track. -/
theorem track_unique {P : IvpProblem} {traj : ℝ → Row} {T : ℝ} (hs : SolvesCompletely P traj T)
    (huniq : ∀ (traj' : ℝ → Row) (T' : ℝ), T' ≤ P.t_span.2 → Solves P traj' T' →
      T' ≤ T ∧ ∀ t ∈ Icc P.t_span.1 T', traj' t = traj t) : ∃! sol, IsTrackOf P sol := by
  refine ⟨_, ⟨traj, T, hs, rfl⟩, ?_⟩
  rintro sol ⟨traj', T', hs', rfl⟩
  obtain ⟨hle, heq⟩ := huniq traj' T' hs'.within hs'.solves
  have hT : T' = T := le_antisymm hle (hs'.last traj T hs.within hs.solves)
  subst hT
  refine List.map_congr_left fun t ht => ?_
  have := of_mem_takeWhile ht
  rw [decide_eq_true_eq] at this
  rw [heq t this]

/-- C105: the track is determined by the vertex and the momentum. -/
theorem C105_track {vertex momentum : ℝ × ℝ × ℝ} {n : Nucleus} {d : DetectorParams} (hm : 0 < n.mass)
    (hdedx : ∀ k, 0 ≤ d.gas_target.get_dedx n k) (hrho : 0 ≤ d.gas_target.density)
    (hlip : LocallyLipschitzOn (Ioi 0) (d.gas_target.get_dedx n))
    (hK : KE_LIMIT ≤ kinetic n (trajectory_problem vertex momentum n d).y0) :
    ∃! sol, IsTrackOf (trajectory_problem vertex momentum n d) sol := by
  obtain ⟨traj, T, hs, -, huniq⟩ := C105_well_posed hm hdedx hrho hlip hK
  exact track_unique hs huniq

/-- C105: two solvers that integrate without error until a terminal event give the same track, hence the
same point cloud, for every nucleus that they both handle. -/
theorem C105_same_cloud {σ : Type} {ivp ivp' : IvpSolver} (h : SolvesToTheEnd ivp) (h' : SolvesToTheEnd ivp')
    {vertex momentum : ℝ × ℝ × ℝ} {n : Nucleus} {config : Config} (hm : 0 < n.mass)
    (hdedx : ∀ k, 0 ≤ config.det_params.gas_target.get_dedx n k)
    (hrho : 0 ≤ config.det_params.gas_target.density)
    (hlip : LocallyLipschitzOn (Ioi 0) (config.det_params.gas_target.get_dedx n))
    (hK : KE_LIMIT ≤ kinetic n (trajectory_problem vertex momentum n config.det_params).y0)
    {sol sol' : List (ℝ × Row)}
    (hok : ivp (trajectory_problem vertex momentum n config.det_params) = .ok sol)
    (hok' : ivp' (trajectory_problem vertex momentum n config.det_params) = .ok sol')
    (rng : Gen σ) (points : Points) (label : ℤ) (s : σ) :
    sol = sol' ∧ generate_point_cloud ivp momentum vertex n config rng points label s
      = generate_point_cloud ivp' momentum vertex n config rng points label s := by
  have he : sol = sol' := (C105_track hm hdedx hrho hlip hK).unique (h _ _ hok) (h' _ _ hok')
  refine ⟨he, ?_⟩
  have ht : generate_trajectory ivp vertex momentum n config.det_params
      = generate_trajectory ivp' vertex momentum n config.det_params := by
    unfold generate_trajectory
    rw [hok, hok', he]
  unfold generate_point_cloud
  rw [ht]

/-- A solver that returns the exact track wherever there is one. -/
noncomputable def idealIvp : IvpSolver := fun P => by
  classical
  exact match P.rhs P.t_span.1 P.y0 with
    | .error e => .error e
    | .ok _ => if h : P.t_eval.Pairwise (· ≤ ·) ∧ ∃ sol, IsTrackOf P sol then .ok h.2.choose
      else .error .valueError

theorem idealIvp_ok {P : IvpProblem} {sol : List (ℝ × Row)} (h : idealIvp P = .ok sol) :
    P.t_eval.Pairwise (· ≤ ·) ∧ IsTrackOf P sol := by
  unfold idealIvp at h
  split at h
  · cases h
  · split_ifs at h with hc
    obtain rfl := Except.ok.inj h
    exact ⟨hc.1, hc.2.choose_spec⟩

theorem idealIvp_succeeds {P : IvpProblem} {w : Row} (hw : P.rhs P.t_span.1 P.y0 = .ok w)
    (hsort : P.t_eval.Pairwise (· ≤ ·)) (hex : ∃ sol, IsTrackOf P sol) : ∃ sol, idealIvp P = .ok sol := by
  unfold idealIvp
  rw [hw]
  simp only
  rw [dif_pos ⟨hsort, hex⟩]
  exact ⟨_, rfl⟩

theorem timeSteps_sorted : TIME_STEPS.Pairwise (· ≤ ·) := by
  unfold TIME_STEPS linspace0
  rw [List.pairwise_map]
  refine List.pairwise_lt_range.imp fun {a b} hab => ?_
  have : (a : ℝ) ≤ b := by exact_mod_cast hab.le
  gcongr

/-- C105: the conditions imposed on solvers in the other properties can be met all at once, by a solver that
handles every nucleus of at least 1 eV. -/
theorem C105_solver : ∃ ivp : IvpSolver, SolvesToTheEnd ivp ∧ SolvesExactly ivp ∧ RespectsEvents ivp ∧
    EvaluatesAt ivp ∧ EvaluatesInitial ivp ∧
    ∀ (vertex momentum : ℝ × ℝ × ℝ) (n : Nucleus) (d : DetectorParams), 0 < n.mass →
      (∀ k, 0 ≤ d.gas_target.get_dedx n k) → 0 ≤ d.gas_target.density →
      LocallyLipschitzOn (Ioi 0) (d.gas_target.get_dedx n) →
      KE_LIMIT ≤ kinetic n (trajectory_problem vertex momentum n d).y0 →
      ∃ sol, ivp (trajectory_problem vertex momentum n d) = .ok sol := by
  refine ⟨idealIvp, ?_, ?_, ?_, ?_, ?_, ?_⟩
  · exact fun P sol h => (idealIvp_ok h).2
  · intro P sol h
    obtain ⟨hsort, traj, T, hs, rfl⟩ := idealIvp_ok h
    refine ⟨traj, T, _, hs.solves, fun t ht => ?_, hsort.sublist (List.takeWhile_sublist _), rfl⟩
    have := of_mem_takeWhile ht
    rwa [decide_eq_true_eq] at this
  · intro P sol h
    obtain ⟨-, traj, T, hs, rfl⟩ := idealIvp_ok h
    intro ev hev hterm v₀ hv₀ ty hty
    obtain ⟨t, ht, rfl⟩ := List.mem_map.1 hty
    have := of_mem_takeWhile ht
    rw [decide_eq_true_eq] at this
    exact hs.solves.events t this ev hev hterm v₀ hv₀ _ (by simp)
  · intro P sol h
    obtain ⟨-, traj, T, hs, rfl⟩ := idealIvp_ok h
    rw [List.map_map]
    have : (Prod.fst ∘ fun t => (t, traj t)) = (id : ℝ → ℝ) := rfl
    rw [this, List.map_id]
    exact List.takeWhile_prefix _
  · intro P err h
    unfold idealIvp
    rw [h]
  · intro vertex momentum n d hm hdedx hrho hlip hK
    have hpos : (0 : ℝ) < KE_LIMIT := by norm_num [KE_LIMIT]
    obtain ⟨w, hw⟩ := (eom_ok_iff 0 (trajectory_problem vertex momentum n d).y0 (d.bfield * -1)
      (d.efield * -1) d.gas_target n).2 (kinetic_pos_moving (hpos.trans_le hK))
    have hsort : (trajectory_problem vertex momentum n d).t_eval.Pairwise (· ≤ ·) := by
      have e : (trajectory_problem vertex momentum n d).t_eval = TIME_STEPS := by
        simp only [trajectory_problem]
      rw [e]
      exact timeSteps_sorted
    exact idealIvp_succeeds hw hsort (C105_track hm hdedx hrho hlip hK).exists

/-- A gas whose stopping power falls with the energy. -/
noncomputable def exSlowing : GasTarget := ⟨1, fun _ k => 1 / (1 + k ^ 2), fun _ _ _ => 0⟩

theorem exSlowing_lipschitz (n : Nucleus) : LocallyLipschitzOn (Ioi 0) (exSlowing.get_dedx n) := by
  refine LocallyLipschitz.locallyLipschitzOn (ContDiff.locallyLipschitz (𝕂 := ℝ) ?_)
  unfold exSlowing
  refine contDiff_const.div (by fun_prop) fun k => ?_
  positivity

/-- Example: an alpha particle of a few MeV in crossed fields and a slowing gas. -/
example : ∃ traj T, SolvesCompletely (trajectory_problem (0, 0, 1 / 2) (0, 100, 100)
    ⟨2, 4, 3727, "4He"⟩ ⟨1, 10000, 2, 1, exSlowing, 1, 1, 1⟩) traj T := by
  have hK : KE_LIMIT ≤ kinetic ⟨2, 4, 3727, "4He"⟩ (trajectory_problem (0, 0, 1 / 2) (0, 100, 100)
      ⟨2, 4, 3727, "4He"⟩ ⟨1, 10000, 2, 1, exSlowing, 1, 1, 1⟩).y0 := by
    rw [kinetic_initial (by norm_num), le_sub_iff_add_le]
    apply Real.le_sqrt_of_sq_le
    norm_num [KE_LIMIT]
  obtain ⟨traj, T, h, -⟩ := C105_well_posed (by norm_num)
    (fun k => by simp only [exSlowing]; positivity) (by norm_num [exSlowing])
    (exSlowing_lipschitz _) hK
  exact ⟨traj, T, h⟩

end Verif.Detector
