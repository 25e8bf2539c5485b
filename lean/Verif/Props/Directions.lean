import Verif.Props.PipelineRuns

/-! # C121: the directions in a chain, and what a stored event says about its sample -/

namespace Verif.Props

open Verif.Kinematics Verif.Spec

variable {σ : Type}

/-! ## Specification -/

/-- In every decay of the chain starting with a nucleus of four-momentum `q`, the first product has
the given direction in the rest frame of the decaying nucleus, and the second one is back to back. -/
inductive DecayDirections : Vec4 → List ℝ → List ℝ → List Vec4 → Prop where
  | nil (q thetas phis) : DecayDirections q thetas phis []
  | cons {q theta thetas phi phis a b rows} :
      BackToBack (a.boostCM_of q) (b.boostCM_of q) theta phi → DecayDirections b thetas phis rows →
      DecayDirections q (theta :: thetas) (phi :: phis) (a :: b :: rows)

/-- All sampled directions are found in the event: that of the ejectile in the rest frame of beam and
target, those of the decays in the rest frames of the decaying nuclei. -/
structure EventDirections (x : Sample) (t b e r : Vec4) (rows : List Vec4) : Prop where
  reaction : BackToBack (e.boostCM_of (t + b)) (r.boostCM_of (t + b)) x.reaction_theta x.reaction_phi
  decays : DecayDirections r x.decay_thetas x.decay_phis rows

/-! ## The directions of the code -/

theorem decayRows_directions (x : Sample) (ds : List Decay) : ∀ (idx : ℕ) (parent : Vec4),
    parent.Massive → (∀ d ∈ ds, 0 ≤ d.residual_1.mass) →
    (∀ de ∈ ds.zip (x.decay_excitations.drop idx), 0 < de.1.residual_2.mass + de.2) →
    ∀ rs : List Vec4, decayRows x idx ds (some parent) = .ok (some (rs.map some)) →
      DecayDirections parent (x.decay_thetas.drop idx) (x.decay_phis.drop idx) rs := by
  induction ds with
  | nil =>
    intro idx parent _ _ _ rs h
    simp only [decayRows, Except.ok.injEq, Option.some.injEq] at h
    obtain rfl : rs = [] := by simpa using h.symm
    exact .nil _ _ _
  | cons d ds ih =>
    intro idx parent hp h1 h2 rs h
    cases hx : x.decay_excitations[idx]? with
    | none => simp [decayRows, listGet, hx] at h
    | some ex =>
      obtain ⟨hlt, hxe⟩ := List.getElem?_eq_some_iff.1 hx
      have hdrop : x.decay_excitations.drop idx = ex :: x.decay_excitations.drop (idx + 1) := by
        rw [← hxe]; exact List.drop_eq_getElem_cons hlt
      rw [hdrop] at h2
      have hm2 : 0 < d.residual_2.mass + ex := h2 (d, ex) (by simp)
      have hm1 : 0 ≤ d.residual_1.mass := h1 d (by simp)
      have hg : listGet x.decay_excitations idx = .ok ex := listGet_some hx
      unfold decayRows at h
      by_cases ha : d.is_excitation_allowed parent ex = true
      swap
      · simp [hg, ha] at h
      simp only [hg, ha, Bool.not_true, Bool.false_eq_true, if_false] at h
      cases ht : listGet x.decay_thetas idx with
      | error e => rw [ht] at h; simp [bind, Except.bind] at h
      | ok theta =>
      cases hph : listGet x.decay_phis idx with
      | error e => rw [ht, hph] at h; simp [bind, Except.bind] at h
      | ok phi =>
      obtain ⟨a, b, hcalc, hab, haM, hbM, haE, hbE, hbM2⟩ := C45_decay hp hm1 hm2.le ha theta phi
      rw [ht, hph] at h
      simp only [bind, Except.bind, hcalc] at h
      have hbm : b.Massive := massive_of_M2 hm2 hbM2 hbE
      have hdt : x.decay_thetas.drop idx = theta :: x.decay_thetas.drop (idx + 1) := by
        obtain ⟨hl, he⟩ := List.getElem?_eq_some_iff.1 (listGet_ok ht)
        rw [← he]; exact List.drop_eq_getElem_cons hl
      have hdp : x.decay_phis.drop idx = phi :: x.decay_phis.drop (idx + 1) := by
        obtain ⟨hl, he⟩ := List.getElem?_eq_some_iff.1 (listGet_ok hph)
        rw [← he]; exact List.drop_eq_getElem_cons hl
      cases hr : decayRows x (idx + 1) ds (some b) with
      | error e => rw [hr] at h; simp at h
      | ok o =>
        cases o with
        | none => rw [hr] at h; simp at h
        | some rows' =>
          rw [hr] at h
          simp only [Except.ok.injEq, Option.some.injEq] at h
          match rs, h with
          | [], h => simp at h
          | [_], h => simp at h
          | a' :: b' :: rs', h =>
            simp only [List.map_cons, List.cons.injEq, Option.some.injEq] at h
            obtain ⟨rfl, rfl, rfl⟩ := h
            rw [hdt, hdp]
            refine .cons (C41_decay hp hm1 hm2.le ha theta phi hcalc) ?_
            exact ih (idx + 1) b hbm (fun d' hd' => h1 d' (by simp [hd']))
              (fun de hde => h2 de (by simp [hde])) rs' hr

theorem eventRows_directions {p : Pipeline σ} (hc : ChainOk p) {x : Sample} (hx : SampleOk p x)
    {t b e r : Vec4} {rs : List Vec4}
    (h : eventRows p x = .ok (some ((t :: b :: e :: r :: rs : List Vec4).map some))) :
    EventDirections x t b e r rs := by
  have hr : ReactionOk p.reaction := ⟨hc.target, hc.projectile, hc.ejectile⟩
  unfold eventRows at h
  by_cases ha : p.reaction.is_excitation_allowed x.beam_energy x.reaction_excitation = true
  swap
  · simp [ha] at h
  simp only [ha, Bool.not_true, Bool.false_eq_true, if_false] at h
  have ha' := (reaction_allowed_iff hc hx).1 ha
  cases hcalc : p.reaction.calculate x.beam_energy x.reaction_theta x.reaction_phi
      x.reaction_excitation with
  | error e => rw [hcalc] at h; simp at h
  | ok res =>
    obtain ⟨t', b', e', r', rfl, h1, h2, h3, h4, h5, h6, h7, h8, h9, h10, h11⟩ :=
      C40_reaction hr ha'.1 hx.residual.le ha _ _ hcalc
    rw [hcalc] at h
    simp only at h
    have hm : r'.Massive := massive_of_M2 hx.residual (M2_of_M hx.residual h9) h11
    cases hd : decayRows x 0 p.decays (some r') with
    | error e => rw [hd] at h; simp at h
    | ok o =>
      cases o with
      | none => rw [hd] at h; simp at h
      | some rows' =>
        rw [hd] at h
        simp only [Except.ok.injEq, Option.some.injEq, List.map_cons, List.cons.injEq] at h
        obtain ⟨rfl, rfl, rfl, rfl, rfl⟩ := h
        have := decayRows_directions x p.decays 0 r' hm hc.decays (by simpa using hx.decays) rs hd
        simp only [List.drop_zero] at this
        exact ⟨C41_reaction hr ha'.1 hx.residual.le ha _ _ hcalc, this⟩

/-- **C121.** The event returned by `run` has all sampled directions, next to the energies, momenta and
masses of C46: the i-th angles of the sample are those of the i-th decay. -/
theorem C121_directions {p : Pipeline σ} (hc : ChainOk p) (hs : SamplesOk p) {st st' : PipeState σ}
    (hlen : st.result.length = 4 + 2 * p.decays.length) {v : ℝ × ℝ × ℝ}
    (h : p.run st = (.ok v, st')) :
    ∃ s x, p.sample s = .ok (x, st'.gen) ∧ v = x.vertex ∧
    ∃ t b e r rows, st'.result = (t :: b :: e :: r :: rows : List Vec4).map some ∧
      EventOk p x t b e r rows ∧ EventDirections x t b e r rows := by
  obtain ⟨-, h2⟩ := runLoop_spec p p.event_sample_limit.toNat st hlen
  unfold Pipeline.run at h
  rw [h] at h2
  obtain ⟨k, hk, s, x, g1, g2, g3, g4⟩ := h2
  obtain ⟨-, t, b, e, r, rows, i1, i2⟩ := eventRows_some hc (hs _ _ _ g2) g3
  rw [i1] at g3
  exact ⟨s, x, g2, g4, t, b, e, r, rows, i1, i2, eventRows_directions hc (hs _ _ _ g2) g3⟩

/-! ## Nothing else is left open -/

theorem boostCM_boost {q : Vec4} (h : q.Massive) (v : Vec4) : (v.boostCM_of q).boost q = v := by
  have hM := h.M_pos
  have hE := h.pos
  have hME : q.M + q.E ≠ 0 := by positivity
  have hM' := hM.ne'
  have hp : q.dot q = q.E ^ 2 - q.M ^ 2 := by linarith [h.M_sq]
  rw [Vec4.boostCM_eq h, Vec4.boost_eq h]
  set k := q.dot v / (q.M * (q.M + q.E)) - v.E / q.M with hk
  have hdot : q.dot (⟨v.px + k * q.px, v.py + k * q.py, v.pz + k * q.pz,
      (q.E * v.E - q.dot v) / q.M⟩ : Vec4) = q.dot v + k * (q.E ^ 2 - q.M ^ 2) := by
    rw [← hp]; unfold Vec4.dot; ring
  rw [hdot]
  have hk2 : (q.dot v + k * (q.E ^ 2 - q.M ^ 2)) / (q.M * (q.M + q.E))
      + (q.E * v.E - q.dot v) / q.M / q.M = -k := by
    rw [hk]; field_simp; ring
  simp only [hk2]
  ext
  · simp
  · simp
  · simp
  · simp only
    rw [hk]; field_simp; ring

theorem M2_of_M_nonneg {v : Vec4} {m : ℝ} (hm : 0 ≤ m) (h : v.M = m) : v.M2 = m ^ 2 := by
  unfold Vec4.M at h
  split_ifs at h with h0
  · have : 0 < Real.sqrt (-v.M2) := Real.sqrt_pos.2 (by linarith)
    linarith
  · rw [← h, Real.sq_sqrt (not_lt.1 h0)]

theorem BackToBack.norm {e : Vec4} {theta phi k : ℝ}
    (h1 : e.px = k * (Real.sin theta * Real.cos phi))
    (h2 : e.py = k * (Real.sin theta * Real.sin phi)) (h3 : e.pz = k * Real.cos theta) :
    e.px ^ 2 + e.py ^ 2 + e.pz ^ 2 = k ^ 2 := by
  rw [h1, h2, h3]
  have := Real.sin_sq_add_cos_sq theta
  have := Real.sin_sq_add_cos_sq phi
  have h : Real.sin theta ^ 2 * (Real.sin phi ^ 2 + Real.cos phi ^ 2) + Real.cos theta ^ 2 = 1 := by
    rw [this]; linarith
  linear_combination k ^ 2 * h

/-- The products of a break-up are determined by their masses and the direction of the first one. -/
theorem breakup_unique {q a b a' b' : Vec4} (hq : q.Massive) {m1 m2 theta phi : ℝ} (h1 : 0 ≤ m1)
    (h2 : 0 ≤ m2) (hab : a + b = q) (hab' : a' + b' = q) (ha : a.M = m1) (ha' : a'.M = m1)
    (hb : b.M = m2) (hb' : b'.M = m2)
    (hd : BackToBack (a.boostCM_of q) (b.boostCM_of q) theta phi)
    (hd' : BackToBack (a'.boostCM_of q) (b'.boostCM_of q) theta phi) : a = a' ∧ b = b' := by
  have hW := hq.M_pos
  have key : ∀ {c d : Vec4}, c + d = q → c.M = m1 → d.M = m2 →
      ∀ {k : ℝ}, 0 < k → (c.boostCM_of q).px = k * (Real.sin theta * Real.cos phi) →
      (c.boostCM_of q).py = k * (Real.sin theta * Real.sin phi) →
      (c.boostCM_of q).pz = k * Real.cos theta →
      (c.boostCM_of q).E = (q.M ^ 2 + m1 ^ 2 - m2 ^ 2) / (2 * q.M) ∧
      k = Real.sqrt (((q.M ^ 2 + m1 ^ 2 - m2 ^ 2) / (2 * q.M)) ^ 2 - m1 ^ 2) := by
    intro c d hcd hc hd k hk g1 g2 g3
    have e1 := Vec4.boostCM_M2 hq c
    have e2 := Vec4.boostCM_M2 hq d
    rw [M2_of_M_nonneg h1 hc] at e1
    rw [M2_of_M_nonneg h2 hd] at e2
    have hdd : d = q - c := by
      rw [← hcd]; apply Vec4.ext <;> simp
    rw [hdd, Vec4.boostCM_sub hq, Vec4.boostCM_self hq] at e2
    have hn := BackToBack.norm g1 g2 g3
    unfold Vec4.M2 at e1 e2
    simp only [Vec4.sub_px, Vec4.sub_py, Vec4.sub_pz, Vec4.sub_E, zero_sub, neg_sq] at e2
    rw [hn] at e1 e2
    have hE : (c.boostCM_of q).E = (q.M ^ 2 + m1 ^ 2 - m2 ^ 2) / (2 * q.M) := by
      rw [eq_div_iff (by positivity)]
      linear_combination e1 - e2
    refine ⟨hE, ?_⟩
    rw [← hE, ← Real.sqrt_sq hk.le]
    congr 1
    linarith
  obtain ⟨k, hk, g1, g2, g3, -⟩ := hd
  obtain ⟨k', hk', g1', g2', g3', -⟩ := hd'
  obtain ⟨i1, i2⟩ := key hab ha hb hk g1 g2 g3
  obtain ⟨j1, j2⟩ := key hab' ha' hb' hk' g1' g2' g3'
  have hkk : k = k' := by rw [i2, j2]
  have hcm : a.boostCM_of q = a'.boostCM_of q := by
    apply Vec4.ext
    · rw [g1, g1', hkk]
    · rw [g2, g2', hkk]
    · rw [g3, g3', hkk]
    · rw [i1, j1]
  have haa : a = a' := by
    rw [← boostCM_boost hq a, hcm, boostCM_boost hq]
  refine ⟨haa, ?_⟩
  subst haa
  rw [← hab'] at hab
  have e1 := congrArg Vec4.px hab
  have e2 := congrArg Vec4.py hab
  have e3 := congrArg Vec4.pz hab
  have e4 := congrArg Vec4.E hab
  simp only [Vec4.add_px, Vec4.add_py, Vec4.add_pz, Vec4.add_E] at e1 e2 e3 e4
  apply Vec4.ext <;> linarith

theorem decays_unique {q : Vec4} {ds : List Decay} {exs : List ℝ} {rows : List Vec4}
    (h : DecaysOk q ds exs rows) : ∀ {thetas phis : List ℝ} {rows' : List Vec4}, q.Massive →
    (∀ d ∈ ds, 0 ≤ d.residual_1.mass) →
    (∀ de ∈ ds.zip exs, 0 < de.1.residual_2.mass + de.2) →
    DecaysOk q ds exs rows' → DecayDirections q thetas phis rows →
    DecayDirections q thetas phis rows' → rows = rows' := by
  induction h with
  | nil q exs =>
    intro thetas phis rows' _ _ _ h' _ _
    cases h'
    rfl
  | @cons q d ds ex exs a b rows hab ha hb haE hbE _ ih =>
    intro thetas phis rows' hq h1 h2 h' hd hd'
    cases h' with
    | @cons _ _ _ _ _ a' b' rows' hab' ha' hb' haE' hbE' h' =>
      cases hd with
      | cons hd hds =>
        cases hd' with
        | cons hd' hds' =>
          have hm1 : 0 ≤ d.residual_1.mass := h1 d (by simp)
          have hm2 : 0 < d.residual_2.mass + ex := h2 (d, ex) (by simp)
          obtain ⟨rfl, rfl⟩ := breakup_unique hq hm1 hm2.le hab hab' ha ha' hb hb' hd hd'
          have hbm : b.Massive := massive_of_M2 hm2 (M2_of_M hm2 hb) hbE
          rw [ih hbm (fun d' hd' => h1 d' (by simp [hd'])) (fun de hde => h2 de (by simp [hde]))
            h' hds hds']

/-- **C121.** Energy and momentum conservation, the masses and the directions leave no freedom: there is
only one event that belongs to a sample. -/
theorem C121_complete {p : Pipeline σ} (hc : ChainOk p) {x : Sample} (hx : SampleOk p x)
    (hE : 0 ≤ x.beam_energy) {t b e r t' b' e' r' : Vec4} {rows rows' : List Vec4}
    (h : EventOk p x t b e r rows) (hd : EventDirections x t b e r rows)
    (h' : EventOk p x t' b' e' r' rows') (hd' : EventDirections x t' b' e' r' rows') :
    t = t' ∧ b = b' ∧ e = e' ∧ r = r' ∧ rows = rows' := by
  have ht : t = t' := h.target.trans h'.target.symm
  have hb : b = b' := by
    have e1 := M2_of_M_nonneg hc.projectile h.beam_M
    have e2 := M2_of_M_nonneg hc.projectile h'.beam_M
    unfold Vec4.M2 at e1 e2
    rw [h.beam_px, h.beam_py, h.beam_E] at e1
    rw [h'.beam_px, h'.beam_py, h'.beam_E] at e2
    have hz : b.pz ^ 2 = b'.pz ^ 2 := by linarith
    apply Vec4.ext
    · rw [h.beam_px, h'.beam_px]
    · rw [h.beam_py, h'.beam_py]
    · exact (pow_left_inj₀ h.beam_pz h'.beam_pz two_ne_zero).1 hz
    · rw [h.beam_E, h'.beam_E]
  subst ht hb
  have hq : (t + b).Massive := by
    have e1 := M2_of_M_nonneg hc.projectile h.beam_M
    have g1 := hc.target
    have g2 := hc.projectile
    have hbE : 0 ≤ b.E := by rw [h.beam_E]; linarith
    unfold Vec4.M2 at e1
    rw [h.beam_px, h.beam_py] at e1
    refine ⟨?_, ?_⟩
    · unfold Vec4.Boostable
      rw [h.target]
      simp only [Vec4.add_px, Vec4.add_py, Vec4.add_pz, Vec4.add_E, h.beam_px, h.beam_py]
      nlinarith [mul_nonneg g1.le hbE, sq_nonneg p.reaction.projectile.mass]
    · rw [h.target]
      simp only [Vec4.add_E]
      linarith
  obtain ⟨rfl, rfl⟩ := breakup_unique hq hc.ejectile hx.residual.le h.conserved h'.conserved
    h.ejectile_M h'.ejectile_M h.residual_M h'.residual_M hd.reaction hd'.reaction
  refine ⟨rfl, rfl, rfl, rfl, ?_⟩
  exact decays_unique h.decays
    (massive_of_M2 hx.residual (M2_of_M hx.residual h.residual_M) h.residual_E) hc.decays hx.decays
    h'.decays hd.decays hd'.decays

/-! ## What the stored event says about the sample -/

/-- A direction determines its polar angle, and its azimuth unless it is along the axis. -/
theorem direction_unique {e q q' : Vec4} {theta phi theta' phi' : ℝ} (h : BackToBack e q theta phi)
    (h' : BackToBack e q' theta' phi') (ht : theta ∈ Set.Icc 0 Real.pi)
    (ht' : theta' ∈ Set.Icc 0 Real.pi) :
    theta = theta' ∧ (Real.sin theta ≠ 0 → phi ∈ Set.Ico 0 (2 * Real.pi) →
      phi' ∈ Set.Ico 0 (2 * Real.pi) → phi = phi') := by
  obtain ⟨k, hk, g1, g2, g3, -⟩ := h
  obtain ⟨k', hk', g1', g2', g3', -⟩ := h'
  have n1 := BackToBack.norm g1 g2 g3
  have n2 := BackToBack.norm g1' g2' g3'
  have hkk : k = k' := (pow_left_inj₀ hk.le hk'.le two_ne_zero).1 (n1.symm.trans n2)
  subst hkk
  have hcos : Real.cos theta = Real.cos theta' :=
    mul_left_cancel₀ hk.ne' (g3.symm.trans g3')
  have hth : theta = theta' := Real.injOn_cos ht ht' hcos
  subst hth
  refine ⟨rfl, fun hs hp hp' => ?_⟩
  have c1 : Real.cos phi = Real.cos phi' :=
    mul_left_cancel₀ hs (mul_left_cancel₀ hk.ne' (g1.symm.trans g1'))
  have c2 : Real.sin phi = Real.sin phi' :=
    mul_left_cancel₀ hs (mul_left_cancel₀ hk.ne' (g2.symm.trans g2'))
  have hang : ((phi : ℝ) : Real.Angle) = phi' := Real.Angle.cos_sin_inj c1 c2
  obtain ⟨n, hn⟩ := Real.Angle.angle_eq_iff_two_pi_dvd_sub.1 hang
  have hpi := Real.pi_pos
  have h1 : (n : ℝ) < 1 := by
    by_contra hc
    have : 2 * Real.pi * 1 ≤ 2 * Real.pi * n := by
      apply mul_le_mul_of_nonneg_left (not_lt.1 hc) (by positivity)
    linarith [hp.2, hp'.1]
  have h2 : (-1 : ℝ) < n := by
    by_contra hc
    have : 2 * Real.pi * n ≤ 2 * Real.pi * (-1) := by
      apply mul_le_mul_of_nonneg_left (not_lt.1 hc) (by positivity)
    linarith [hp'.2, hp.1]
  have hn0 : n = 0 := by
    have a1 : n < 1 := by exact_mod_cast h1
    have a2 : -1 < n := by exact_mod_cast h2
    omega
  rw [hn0] at hn
  simp only [Int.cast_zero, mul_zero] at hn
  linarith

/-- The angles of a sample are in the usual ranges: polar angles in `(0, π)`, azimuths in `[0, 2π)`. -/
structure AnglesIn (x : Sample) : Prop where
  theta : x.reaction_theta ∈ Set.Ioo 0 Real.pi
  phi : x.reaction_phi ∈ Set.Ico 0 (2 * Real.pi)
  thetas : ∀ theta ∈ x.decay_thetas, theta ∈ Set.Ioo 0 Real.pi
  phis : ∀ phi ∈ x.decay_phis, phi ∈ Set.Ico 0 (2 * Real.pi)

theorem decay_angles_recovered {q : Vec4} {thetas phis : List ℝ} {rows : List Vec4}
    (h : DecayDirections q thetas phis rows) : ∀ {thetas' phis' : List ℝ},
    DecayDirections q thetas' phis' rows →
    rows.length = 2 * thetas.length → rows.length = 2 * phis.length →
    rows.length = 2 * thetas'.length → rows.length = 2 * phis'.length →
    (∀ t ∈ thetas, t ∈ Set.Ioo 0 Real.pi) → (∀ t ∈ thetas', t ∈ Set.Ioo 0 Real.pi) →
    (∀ t ∈ phis, t ∈ Set.Ico 0 (2 * Real.pi)) → (∀ t ∈ phis', t ∈ Set.Ico 0 (2 * Real.pi)) →
    thetas = thetas' ∧ phis = phis' := by
  induction h with
  | nil q thetas phis =>
    intro thetas' phis' _ l1 l2 l3 l4 _ _ _ _
    simp only [List.length_nil] at l1 l2 l3 l4
    have e1 : thetas = [] := List.length_eq_zero_iff.1 (by omega)
    have e2 : phis = [] := List.length_eq_zero_iff.1 (by omega)
    have e3 : thetas' = [] := List.length_eq_zero_iff.1 (by omega)
    have e4 : phis' = [] := List.length_eq_zero_iff.1 (by omega)
    rw [e1, e2, e3, e4]; exact ⟨rfl, rfl⟩
  | @cons q theta thetas phi phis a b rows hd _ ih =>
    intro thetas' phis' h' l1 l2 l3 l4 m1 m2 m3 m4
    cases h' with
    | @cons _ theta' thetas' phi' phis' _ _ _ hd' h' =>
      simp only [List.length_cons] at l1 l2 l3 l4
      have t1 := m1 theta (by simp)
      have t2 := m2 theta' (by simp)
      obtain ⟨rfl, hphi⟩ := direction_unique hd hd' ⟨t1.1.le, t1.2.le⟩ ⟨t2.1.le, t2.2.le⟩
      have hp := hphi (Real.sin_pos_of_pos_of_lt_pi t1.1 t1.2).ne' (m3 phi (by simp))
        (m4 phi' (by simp))
      subst hp
      obtain ⟨rfl, rfl⟩ := ih h' (by omega) (by omega) (by omega) (by omega)
        (fun t ht => m1 t (by simp [ht])) (fun t ht => m2 t (by simp [ht]))
        (fun t ht => m3 t (by simp [ht])) (fun t ht => m4 t (by simp [ht]))
      exact ⟨rfl, rfl⟩

theorem decay_excitations_recovered {q : Vec4} {ds : List Decay} {exs : List ℝ} {rows : List Vec4}
    (h : DecaysOk q ds exs rows) : ∀ {exs' : List ℝ}, DecaysOk q ds exs' rows →
    exs.length = ds.length → exs'.length = ds.length → exs = exs' := by
  induction h with
  | nil q exs =>
    intro exs' _ l1 l2
    rw [List.length_eq_zero_iff.1 l1, List.length_eq_zero_iff.1 l2]
  | @cons q d ds ex exs a b rows _ _ hb _ _ _ ih =>
    intro exs' h' l1 l2
    cases h' with
    | @cons _ _ _ ex' exs' _ _ _ _ _ hb' _ _ h' =>
      simp only [List.length_cons] at l1 l2
      have : ex = ex' := by linarith
      rw [this, ih h' (by omega) (by omega)]

/-- **C121.** The sample can be read off the stored event: the beam energy is the kinetic energy of the
beam row, the excitation of the residual is the missing mass of target, beam and ejectile, the
excitation of the first decay is the missing mass of the residual and its first product. -/
theorem C121_missing_mass {p : Pipeline σ} {x : Sample} {t b e r : Vec4} {rows : List Vec4}
    (h : EventOk p x t b e r rows) :
    x.beam_energy = b.E - p.reaction.projectile.mass ∧
    x.reaction_excitation = (t + b - e).M - p.reaction.residual.mass ∧
    ∀ (d : Decay) (ds : List Decay) (a b' : Vec4) (rows' : List Vec4), p.decays = d :: ds →
      rows = a :: b' :: rows' →
      x.decay_excitations.head? = some ((t + b - e - a).M - d.residual_2.mass) := by
  have hr : t + b - e = r := by
    rw [← h.conserved]; apply Vec4.ext <;> simp
  refine ⟨by rw [h.beam_E]; ring, by rw [hr, h.residual_M]; ring, ?_⟩
  intro d ds a b' rows' hds hrows
  rw [hr]
  have := h.decays
  rw [hds, hrows] at this
  cases hx : x.decay_excitations with
  | nil => rw [hx] at this; cases this
  | cons ex exs =>
    rw [hx] at this
    cases this with
    | cons hab _ hb _ _ _ =>
      have e1 : r - a = b' := by rw [← hab]; apply Vec4.ext <;> simp
      rw [e1, hb]
      simp

/-- **C121.** No two samples belong to the same stored event: if two calls of `run` return the same
vertex and the same rows, then all sampled energies and angles of the two are the same. -/
theorem C121_recover {p : Pipeline σ} (hb : Built p) (hg : LawfulGen p.rng) (hc : ChainOk p)
    (hs : SamplesOk p) (ha : ∀ s x s', p.sample s = .ok (x, s') → AnglesIn x)
    {st₁ st₁' st₂ st₂' : PipeState σ}
    (hlen₁ : st₁.result.length = 4 + 2 * p.decays.length)
    (hlen₂ : st₂.result.length = 4 + 2 * p.decays.length) {v : ℝ × ℝ × ℝ}
    (h₁ : p.run st₁ = (.ok v, st₁')) (h₂ : p.run st₂ = (.ok v, st₂'))
    (heq : st₁'.result = st₂'.result) :
    ∃ s₁ s₂ x, p.sample s₁ = .ok (x, st₁'.gen) ∧ p.sample s₂ = .ok (x, st₂'.gen) ∧ v = x.vertex := by
  obtain ⟨s₁, x, hx, hv, t, b, e, r, rows, hr, ho, hd⟩ := C121_directions hc hs hlen₁ h₁
  obtain ⟨s₂, y, hy, hv', t', b', e', r', rows', hr', ho', hd'⟩ := C121_directions hc hs hlen₂ h₂
  have hrows : (t :: b :: e :: r :: rows : List Vec4) = t' :: b' :: e' :: r' :: rows' := by
    have : (t :: b :: e :: r :: rows : List Vec4).map some
        = (t' :: b' :: e' :: r' :: rows' : List Vec4).map some := by rw [← hr, ← hr', heq]
    exact List.map_injective_iff.2 (Option.some_injective _) this
  simp only [List.cons.injEq] at hrows
  obtain ⟨rfl, rfl, rfl, rfl, rfl⟩ := hrows
  obtain ⟨l1, l2, l3, -⟩ := C52_sample hb hg hx
  obtain ⟨m1, m2, m3, -⟩ := C52_sample hb hg hy
  have ax := ha _ _ _ hx
  have ay := ha _ _ _ hy
  have hl := DecaysOk_length ho.decays
  obtain ⟨e1, e2'⟩ := direction_unique hd.reaction hd'.reaction ⟨ax.theta.1.le, ax.theta.2.le⟩
    ⟨ay.theta.1.le, ay.theta.2.le⟩
  have e2 := e2' (Real.sin_pos_of_pos_of_lt_pi ax.theta.1 ax.theta.2).ne' ax.phi ay.phi
  obtain ⟨e3, e4⟩ := decay_angles_recovered hd.decays hd'.decays (by rw [hl, l2]) (by rw [hl, l3])
    (by rw [hl, m2]) (by rw [hl, m3]) ax.thetas ay.thetas ax.phis ay.phis
  have e5 := decay_excitations_recovered ho.decays ho'.decays l1 m1
  have e6 : x.beam_energy = y.beam_energy := by linarith [ho.beam_E, ho'.beam_E]
  have e7 : x.reaction_excitation = y.reaction_excitation := by
    linarith [ho.residual_M, ho'.residual_M]
  have e8 : x.vertex = y.vertex := hv.symm.trans hv'
  have hxy : x = y := by
    clear e2'
    cases x; cases y
    simp only at e1 e2 e3 e4 e5 e6 e7 e8
    subst e1 e2 e3 e4 e5 e6 e7 e8
    rfl
  subst hxy
  exact ⟨s₁, s₂, x, hx, hy, hv⟩

/-- C121 applies to the example pipeline: its samples have angles in the usual ranges, and `run` returns
an event. -/
example : (∀ s x s', exPipe.sample s = .ok (x, s') → AnglesIn x) ∧
    ∃ st', exPipe.run ⟨0, List.replicate 6 none⟩ = (.ok (0, 0, 0), st') := by
  refine ⟨?_, ?_⟩
  · intro s x s' h
    rw [exPipe_sample] at h
    simp only [Except.ok.injEq, Prod.mk.injEq] at h
    obtain ⟨rfl, -⟩ := h
    have := Real.pi_gt_three
    refine ⟨⟨?_, ?_⟩, ⟨?_, ?_⟩, ?_, ?_⟩
    · norm_num [exSample]
    · simp only [exSample]; linarith
    · simp [exSample]
    · simp only [exSample]; linarith
    · intro theta ht
      simp only [exSample, List.mem_singleton] at ht
      subst ht
      constructor <;> norm_num
      linarith
    · intro phi hp
      simp only [exSample, List.mem_singleton] at hp
      subst hp
      exact ⟨le_rfl, by linarith⟩
  · obtain ⟨st', h, -⟩ := exPipe_first (List.replicate 6 none) (by simp)
    exact ⟨st', h⟩

end Verif.Props
