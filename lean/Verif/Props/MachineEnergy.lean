import Verif.Props.MachineKept

/-! # C130: the charge of an event measures its energy, in machine arithmetic -/

namespace Verif.Machine

open Verif.Detector Verif.Spec Verif.Kinematics Verif.Props

/-! ## The rows -/

/-- If all time buckets are at most 510, all rows are in the window and the charges are those of the dictionary. -/
theorem rows_all {rn : ℝ → ℝ} (h : Rounding rn) {grid : PadGrid}
    (hpads : ∀ i j, -1 ≤ grid.cell i j ∧ grid.cell i j < 2 ^ 26) {lo : ℤ} (hlo : 0 ≤ lo) :
    ∀ (q : Points) (w : List ℝ), w.length = q.length → (∀ u ∈ w, 0 ≤ u ∧ u < 1) →
    (∀ entry ∈ q, 0 ≤ entry.2.1) → storedCharge q < 2 ^ 53 →
    (∀ entry ∈ q, ∃ tb pad i j : ℤ, entry.1 = pair64 tb pad ∧ lo ≤ tb ∧ tb ≤ 510 ∧ pad = grid.cell i j ∧
      pad ≠ -1 ∧ pad ∉ BEAM_PADS) →
    ((maskSel (windowMask (shifted rn q w)) (shifted rn q w)).map (·.e)).sum = (storedCharge q : ℝ)
  | [], [], _, _, _, _, _ => by simp [shifted, windowMask, dict_to_points64, maskSel, storedCharge]
  | [], _ :: _, hl, _, _, _, _ => by simp at hl
  | _ :: _, [], hl, _, _, _, _ => by simp at hl
  | (k, c, lab) :: q, u :: w, hl, hw, hp, hs, hk => by
    have hs' : storedCharge ((k, c, lab) :: q) = c + storedCharge q := by simp [storedCharge]
    have hq0 : 0 ≤ storedCharge q := by
      apply List.sum_nonneg
      intro x hx
      obtain ⟨y, hy, rfl⟩ := List.mem_map.1 hx
      exact hp y (by simp [hy])
    have hc0 : 0 ≤ c := hp (k, c, lab) (by simp)
    have ih := rows_all h hpads hlo q w (by simpa using hl)
      (fun v hv => hw v (by simp [hv])) (fun e he => hp e (by simp [he])) (by linarith)
      (fun e he => hk e (by simp [he]))
    obtain ⟨tb, pad, i, j, e1, e2, e3, e4, e5, e6⟩ := hk (k, c, lab) (by simp)
    simp only at e1
    obtain ⟨p1, p2⟩ := hpads i j
    rw [← e4] at p1 p2
    have p0 : 0 ≤ pad := by omega
    have hup : unpair64 rn k = ((tb : ℝ), (pad : ℝ)) := by
      rw [e1]
      exact C02_roundtrip rn h tb pad (by omega) (lt_of_le_of_lt e3 (by norm_num)) p0 p2
    have hce : rn (c : ℝ) = c := C59_stored rn h c hc0 (by linarith)
    have hsh : shifted rn ((k, c, lab) :: q) (u :: w)
        = { pad := pad, tb := rn (tb + u), e := c } :: shifted rn q w := by
      unfold shifted dict_to_points64
      simp only [List.map_cons, List.zip_cons_cons, hup, hce]
    obtain ⟨u0, u1⟩ := hw u (by simp)
    rw [hsh]
    have hmask : windowMask ({ pad := (pad : ℝ), tb := rn (tb + u), e := (c : ℝ) } :: shifted rn q w)
        = (decide (0 ≤ rn (tb + u)) && decide (rn (tb + u) < (NUM_TB : ℝ))) :: windowMask (shifted rn q w) := rfl
    rw [hmask]
    obtain ⟨b1, b2⟩ := C19_float_bound_partial rn h tb u (by omega) (by omega) u0 u1
    unfold wiggle64 at b1 b2
    have hN : (NUM_TB : ℝ) = 512 := by norm_num [NUM_TB]
    have ht0 : (0 : ℝ) ≤ tb := by exact_mod_cast (by omega : (0 : ℤ) ≤ tb)
    have ht1 : (tb : ℝ) ≤ 510 := by exact_mod_cast e3
    rw [show (decide (0 ≤ rn (tb + u)) && decide (rn (tb + u) < (NUM_TB : ℝ))) = true by
      rw [hN, Bool.and_eq_true, decide_eq_true_eq, decide_eq_true_eq]
      exact ⟨by linarith, by linarith⟩]
    simp only [maskSel, List.map_cons, List.sum_cons]
    rw [hs', ih]
    push_cast
    ring

/-! ## Events -/

/-- A point of a track inside the detector, at most one metre from the axis, whose electrons arrive before the
last time bucket, and with recording pads all around up to the distance `ρ`. -/
structure Inside64 (rn : ℝ → ℝ) (config : Config) (grid : PadGrid) (g : GridEdges) (ρ x y z : ℝ) : Prop where
  x_le : |x| ≤ 1
  y_le : |y| ≤ 1
  z_nonneg : 0 ≤ z
  z_le : z ≤ config.det_params.length
  early : (config.det_params.length - z) / (config.det_params.length
    / ((config.elec_params.windows_edge - config.elec_params.micromegas_edge : ℤ) : ℝ))
      + config.elec_params.micromegas_edge ≤ 510.9
  pads : Surrounded rn grid g ρ x y

/-- Every nucleus of the event is neutral or has a track, along which the kinetic energy changes by at least `lo` and
at most `hi` MeV, of at most `len` points, all of them inside. -/
def Measured64 (rn : ℝ → ℝ) (env : SimEnv) (momenta : List Vec4) (vertex : ℝ × ℝ × ℝ) (Zs As : List ℤ)
    (config : Config) (grid : PadGrid) (g : GridEdges) (ρ : ℝ) (indices : List ℤ) (lo hi len : ℤ → ℝ) : Prop :=
  ∀ idx ∈ indices, pyGet Zs idx = .ok 0 ∨ ∃ n track,
    trackOf env momenta vertex Zs As config.det_params idx = some (n, track) ∧
    lo idx ≤ energyVariation n track ∧ energyVariation n track ≤ hi idx ∧ (track.length : ℝ) ≤ len idx ∧
    Recordable n config.det_params track ∧ ∀ r ∈ track, Inside64 rn config grid g ρ r.x r.y r.z

theorem drawnAbove_eq (track : List Row) (ns : List ℤ) :
    drawnAbove track ns = released track ns + ns.length := by
  unfold drawnAbove released
  induction ns with
  | nil => simp
  | cons a ns ih =>
    rw [List.map_cons, List.sum_cons, ih, List.filter_cons, List.length_cons]
    split_ifs with h1
    · rw [List.sum_cons]
      rw [decide_eq_true_eq] at h1
      rw [max_eq_left (by omega)]
      push_cast
      ring
    · rw [decide_eq_true_eq] at h1
      rw [max_eq_right (by omega)]
      push_cast
      ring

section
variable {env : SimEnv} {momenta : List Vec4} {vertex : ℝ × ℝ × ℝ} {Zs As : List ℤ} {config : Config}
  {grid : PadGrid} {g : GridEdges} {ρ : ℝ} {indices : List ℤ} {lo hi len : ℤ → ℝ}

theorem measured64_nonneg {rn : ℝ → ℝ} (hW : 0 < config.det_params.w_value)
    (hmeas : Measured64 rn env momenta vertex Zs As config grid g ρ indices lo hi len) :
    0 ≤ ((indices.filter (isCharged Zs)).map fun idx =>
      hi idx * 1000000 / config.det_params.w_value + len idx).sum := by
  apply List.sum_nonneg
  intro x hx
  obtain ⟨idx, hidx, rfl⟩ := List.mem_map.1 hx
  obtain ⟨h1, h2⟩ := List.mem_filter.1 hidx
  rcases hmeas idx h1 with h0 | ⟨n, track, -, -, t3, t4, -, -⟩
  · unfold isCharged at h2
    rw [h0] at h2
    simp at h2
  · have := energyVariation_nonneg n track
    have : 0 ≤ hi idx := by linarith
    have : (0 : ℝ) ≤ len idx := le_trans (Nat.cast_nonneg _) t4
    positivity

theorem event_kept {σ : Type} {m : Math64} (h : m.Ok) (hgrid : config.pad_grid = some (grid, g))
    (hok : DriftOk config.det_params config.elec_params)
    (hsp : SpreadOk config.det_params config.elec_params)
    (hρ : SpreadWithin config.det_params config.elec_params ρ) (hgain : 0 ≤ config.det_params.mpgd_gain)
    {rng : Gen σ} (hr : LawfulGen rng) {std : σ → ℝ × σ} (hstd : ShiftScale rng std)
    (hg : ∀ s, |(std s).1| ≤ 40) (hF : config.det_params.fano_factor = 0) (hW : 0 < config.det_params.w_value)
    (hmeas : Measured64 m.rn env momenta vertex Zs As config grid g ρ indices lo hi len) (s : σ) :
    ∀ p : Points, (∀ entry ∈ p, 0 ≤ entry.2.1) →
    storedCharge p + config.det_params.mpgd_gain * ((indices.filter (isCharged Zs)).map fun idx =>
      hi idx * 1000000 / config.det_params.w_value + len idx).sum < 2 ^ 53 →
    ∃ q s' n, indices.foldlM (simulate_nucleus64 m std env momenta vertex Zs As config) (p, s) = .ok (q, s') ∧
      Grown grid config.elec_params.micromegas_edge 510 p n q ∧
      storedCharge p + ((indices.filter (isCharged Zs)).map fun idx => 0.9977 * (config.det_params.mpgd_gain *
        (lo idx * 1000000 / config.det_params.w_value - 2 * len idx)) - 100 * len idx).sum ≤ (storedCharge q : ℝ) ∧
      (storedCharge q : ℝ) ≤ storedCharge p + config.det_params.mpgd_gain *
        ((indices.filter (isCharged Zs)).map fun idx =>
          hi idx * 1000000 / config.det_params.w_value + len idx).sum := by
  induction indices generalizing s with
  | nil =>
    intro p hp _
    exact ⟨p, s, 0, rfl, Grown.refl hp le_rfl, by simp, by simp⟩
  | cons idx rest ih =>
    intro p hp hroom
    have hmeas' : Measured64 m.rn env momenta vertex Zs As config grid g ρ rest lo hi len :=
      fun i hi => hmeas i (List.mem_cons_of_mem _ hi)
    have hrest := measured64_nonneg hW hmeas'
    have hG : (0 : ℝ) ≤ config.det_params.mpgd_gain := by exact_mod_cast hgain
    rcases hmeas idx (by simp) with h0 | ⟨n, track, ht, m1, m2, m3, hrec, hins⟩
    · have hc : isCharged Zs idx = false := by unfold isCharged; rw [h0]; simp
      rw [List.filter_cons_of_neg (by simp [hc])] at hroom ⊢
      obtain ⟨q, s', k, hq, gq, l1, l2⟩ := ih hmeas' s p hp hroom
      refine ⟨q, s', k, ?_, gq, l1, l2⟩
      rw [List.foldlM_cons]
      have : simulate_nucleus64 m std env momenta vertex Zs As config (p, s) idx = .ok (p, s) := by
        unfold simulate_nucleus64
        rw [h0]
        rfl
      rw [this]
      exact hq
    · obtain ⟨zn, a, mom, hz, hz0, ha, hn, hm, htr⟩ := trackOf_some ht
      have hc : isCharged Zs idx = true := by unfold isCharged; rw [hz]; simpa using hz0
      rw [List.filter_cons_of_pos hc, List.map_cons, List.sum_cons, mul_add] at hroom
      rw [List.filter_cons_of_pos hc, List.map_cons, List.sum_cons, List.map_cons, List.sum_cons, mul_add]
      obtain ⟨ns64, ns, s₁, e1, e2, e3⟩ := C110_electrons h.rounding hstd hg hrec s
      have hlen := primary_length e2
      have hup := C95_electrons hr hF hW e2
      have hlo := electrons_lower hr hF hW e2
      have hrel := released_eq hr hF hW e2
      obtain ⟨D, hD⟩ : ∃ D, D = drawnAbove track ns := ⟨_, rfl⟩
      have hDr : (D : ℝ) ≤ hi idx * 1000000 / config.det_params.w_value + len idx := by
        rw [hD, drawnAbove_eq, hrel, hlen, Int.cast_add, Int.cast_natCast]
        have : energyVariation n track * 1000000 / config.det_params.w_value
            ≤ hi idx * 1000000 / config.det_params.w_value := by gcongr
        linarith
      have hD0 : 0 ≤ D := by rw [hD]; exact drawnAbove_nonneg track ns
      have hp0 : 0 ≤ storedCharge p := by
        apply List.sum_nonneg
        intro x hx
        obtain ⟨y, hy, rfl⟩ := List.mem_map.1 hx
        exact hp y hy
      have hGD := mul_le_mul_of_nonneg_left hDr hG
      have hGR := mul_nonneg hG hrest
      have hroom53 : storedCharge p + config.det_params.mpgd_gain * D < 2 ^ 53 := by
        have : (storedCharge p : ℝ) + config.det_params.mpgd_gain * D < 2 ^ 53 := by linarith
        exact_mod_cast this
      have hrelc := releasedCharge_le hgain track e3
      rw [← hD] at hrelc
      have hin : ∀ r ∈ track, |r.x| ≤ 1 ∧ |r.y| ≤ 1 ∧ 0 ≤ r.z ∧ r.z ≤ config.det_params.length :=
        fun r hr => ⟨(hins r hr).x_le, (hins r hr).y_le, (hins r hr).z_nonneg, (hins r hr).z_le⟩
      have hsmall : ∀ k ∈ ns64, k * config.det_params.mpgd_gain < 2 ^ 53 := by
        intro k hk
        have := drawn_each hgain track e3 k hk
        rw [← hD] at this
        linarith
      have h63 : storedCharge p + releasedCharge track ns64 config.det_params.mpgd_gain < 2 ^ 63 := by
        have : (2 : ℤ) ^ 53 < 2 ^ 63 := by norm_num
        linarith
      have hbucket : ∀ r ∈ track, pyInt (driftTime64 m.rn config.det_params config.elec_params r.z) ≤ 510 := by
        intro r hr
        obtain ⟨i1, i2, i3, i4, i5, i6⟩ := hins r hr
        have hd := drift_near h.rounding hok.length_ge hok.length_le hok.micromegas hok.edges hok.windows i3 i4
        have hlow := (C89_range h.rounding hok i3 i4).1
        have hM : (0 : ℝ) ≤ config.elec_params.micromegas_edge := by exact_mod_cast hok.micromegas
        change |driftTime64 m.rn config.det_params config.elec_params r.z - _| ≤ _ at hd
        have h40 : (2 : ℝ) ^ (-40 : ℤ) ≤ 0.01 := by norm_num
        have hlt : driftTime64 m.rn config.det_params config.elec_params r.z < 511 := by
          have := (abs_le.1 (hd.trans h40)).2
          norm_num at this i5 ⊢
          linarith
        rw [pyInt_of_nonneg (hM.trans hlow)]
        have : ⌊driftTime64 m.rn config.det_params config.elec_params r.z⌋ < 511 := by
          rw [Int.floor_lt]
          exact_mod_cast hlt
        omega
      obtain ⟨q₁, hq₁, gq₁⟩ := grown_track h hok hsp grid g track ns64 hgain hin hsmall hbucket p hp h63 idx
      have hk := kept_track h hok hsp hρ grid g track ns64 hgain hin (fun r hr => (hins r hr).pads) hsmall p hp
        h63 idx hq₁
      have hkd := kept_drawn hG e3 hlen.symm
      have hle₁ : (storedCharge q₁ : ℝ) ≤ storedCharge p + config.det_params.mpgd_gain * D := by
        have := (gq₁.weaken hrelc).le
        exact_mod_cast this
      obtain ⟨q, s', k, hq, gq, l1, l2⟩ := ih hmeas' s₁ q₁ gq₁.nonneg (by linarith)
      refine ⟨q, s', _, ?_, gq₁.trans gq, ?_, by linarith⟩
      · rw [List.foldlM_cons]
        have : simulate_nucleus64 m std env momenta vertex Zs As config (p, s) idx = .ok (q₁, s₁) := by
          unfold simulate_nucleus64
          rw [hz]
          simp only [bind, Except.bind]
          rw [if_neg hz0, ha]
          simp only
          rw [hn]
          simp only
          rw [hm]
          simp only
          rw [htr]
          simp only
          rw [e1]
          simp only
          rw [hgrid]
          simp only
          rw [hq₁]
          rfl
        rw [this]
        exact hq
      · have hk' : (storedCharge p : ℝ) + (((track.zip ns64).filter fun re => decide (1 ≤ re.2)).map fun re =>
            0.9977 * ((re.2 : ℝ) * config.det_params.mpgd_gain) - 100).sum ≤ storedCharge q₁ := by
          refine le_trans (le_of_eq ?_) hk
          congr 2
          apply List.map_congr_left
          intro re _
          push_cast
          ring
        have e4 : lo idx * 1000000 / config.det_params.w_value
            ≤ energyVariation n track * 1000000 / config.det_params.w_value := by gcongr
        have hl1 : ((track.length - 1 : ℕ) : ℝ) ≤ track.length := by exact_mod_cast Nat.sub_le _ _
        have e5 : lo idx * 1000000 / config.det_params.w_value - 2 * len idx ≤ (ns.sum : ℤ) - track.length := by
          linarith
        have e6 := mul_le_mul_of_nonneg_left e5 hG
        linarith

/-- **C130.** An event whose charged nuclei have tracks inside the detector, above recording pads, with electrons that
arrive before the last time bucket: it is simulated in machine arithmetic without exceptions, and the charge of its
cloud is that of the energy lost along the tracks, less at most 0.23 % outside the mesh, two electrons for every track
point, and one charge for every pixel of each. -/
theorem C130_charge {σ : Type} {m : Math64} (h : m.Ok) (hgrid : config.pad_grid = some (grid, g))
    (hpads : ∀ i j, -1 ≤ grid.cell i j ∧ grid.cell i j < 2 ^ 26)
    (hok : DriftOk config.det_params config.elec_params)
    (hsp : SpreadOk config.det_params config.elec_params)
    (hρ : SpreadWithin config.det_params config.elec_params ρ) (hgain : 0 ≤ config.det_params.mpgd_gain)
    {rng : Gen σ} (hr : LawfulGen rng) {std : σ → ℝ × σ} (hstd : ShiftScale rng std)
    (hg : ∀ s, |(std s).1| ≤ 40) (hF : config.det_params.fano_factor = 0) (hW : 0 < config.det_params.w_value)
    (hmeas : Measured64 m.rn env momenta vertex Zs As config grid g ρ indices lo hi len)
    (hroom : config.det_params.mpgd_gain * ((indices.filter (isCharged Zs)).map fun idx =>
      hi idx * 1000000 / config.det_params.w_value + len idx).sum < 2 ^ 53) (s : σ) :
    ∃ cloud labels s',
      simulate64 m std env momenta vertex Zs As config rng indices s = .ok ((cloud, labels), s') ∧
      ((indices.filter (isCharged Zs)).map fun idx => 0.9977 * (config.det_params.mpgd_gain *
        (lo idx * 1000000 / config.det_params.w_value - 2 * len idx)) - 100 * len idx).sum
          ≤ (cloud.map (·.e)).sum ∧
      (cloud.map (·.e)).sum ≤ config.det_params.mpgd_gain * ((indices.filter (isCharged Zs)).map fun idx =>
        hi idx * 1000000 / config.det_params.w_value + len idx).sum := by
  obtain ⟨q, s₁, n, hq, gq, l1, l2⟩ := event_kept h hgrid hok hsp hρ hgain hr hstd hg hF hW hmeas s [] (by simp)
    (by simpa [storedCharge] using hroom)
  have e0 : ((storedCharge ([] : Points) : ℤ) : ℝ) = 0 := by simp [storedCharge]
  rw [e0, zero_add] at l1 l2
  have hall := rows_all h.rounding hpads hok.micromegas q
    (rng.uniformN 0 1 (dict_to_points64 m.rn q).1.length s₁).1
    (by rw [Verif.Detector.uniformN_length]; simp [dict_to_points64])
    (fun u hu => uniformN_mem hr 0 1 (by norm_num) _ _ u hu) gq.nonneg (by
      have := lt_of_le_of_lt l2 hroom
      exact_mod_cast this)
    (fun entry he => by
      rcases gq.keys entry he with ⟨old, ho, -⟩ | h1
      · simp at ho
      · exact h1)
  refine ⟨_, maskSel (windowMask (shifted m.rn q (rng.uniformN 0 1 (dict_to_points64 m.rn q).1.length s₁).1))
    (dict_to_points64 m.rn q).2, (rng.uniformN 0 1 (dict_to_points64 m.rn q).1.length s₁).2, ?_, l1.trans hall.ge,
    hall.le.trans l2⟩
  unfold simulate64
  rw [hq]
  rfl

/-- **C130.** Nuclei that stop in the gas, within reach of the recording pads, from a solver with errors, have such
tracks. -/
theorem C130_measured {rn : ℝ → ℝ} {K p S S' : ℤ → ℝ} {mass late δ ε η : ℝ} (hε : 0 ≤ ε) (hε1 : ε ≤ 1e-6)
    (hw : 1 ≤ config.det_params.w_value) (hw1 : config.det_params.w_value ≤ 1e6)
    (hF : 0 ≤ config.det_params.fano_factor) (hF1 : config.det_params.fano_factor ≤ 1) (hmass : mass ≤ 1e6)
    (htr : ∀ idx ∈ indices, pyGet Zs idx = .ok 0 ∨
      ∃ n track, trackOf env momenta vertex Zs As config.det_params idx = some (n, track))
    (hst : ∀ idx ∈ indices, ∀ z a n q, pyGet Zs idx = .ok z → z ≠ 0 → pyGet As idx = .ok a →
      env.get_data z a = .ok n → pyGet momenta idx = .ok q →
      StopsInGas vertex (q.px, q.py, q.pz) n config.det_params (K idx) (p idx) (S idx) (S' idx) ∧
      p idx / (S idx * 299792458) * (1 + 1e-9) + η ≤ 1e-6 ∧ 1 ≤ n.mass ∧ n.mass ≤ mass ∧ K idx ≤ 1e5 ∧
      (n.mass + K idx + 1) * (1.0e6 / config.det_params.w_value) ≤ 1e9 ∧
      lateEnergy n ((S' idx + fieldForce n config.det_params.efield) * (1 + 1e10 * η)) ≤ late ∧
      (∀ sol, env.solve_ivp (trajectory_problem vertex (q.px, q.py, q.pz) n config.det_params) = .ok sol →
        IsTrackWithin δ ε η (trajectory_problem vertex (q.px, q.py, q.pz) n config.det_params) sol) ∧
      ∀ x y z, Real.sqrt ((x - vertex.1) ^ 2 + (y - vertex.2.1) ^ 2 + (z - vertex.2.2) ^ 2)
        ≤ rangeBound (K idx) (S idx) + δ → Inside64 rn config grid g ρ x y z) :
    Measured64 rn env momenta vertex Zs As config grid g ρ indices
      (fun idx => K idx - late - 2 * (mass * ε))
      (fun idx => K idx - 1e-6 + 2 * (mass * ε) * (stepBound (p idx) (S idx) + 1e10 * η))
      (fun idx => stepBound (p idx) (S idx) + 1e10 * η + 1) := by
  intro idx hidx
  rcases htr idx hidx with h0 | ⟨n, track, ht⟩
  · exact .inl h0
  refine .inr ⟨n, track, ht, ?_⟩
  obtain ⟨zn, a, q, hz, hz0, ha, hn, hq, hgen⟩ := trackOf_some ht
  obtain ⟨h1, h2, h3, h4, h5, h6, h7, h8, h9⟩ := hst idx hidx zn a n q hz hz0 ha hn hq
  obtain ⟨t1, t2, t3, t4, t5⟩ := C129_track h1 h2 h8 hgen
  have hm : n.mass * ε ≤ mass * ε := mul_le_mul_of_nonneg_right h4 hε
  have hlen : (track.length : ℝ) ≤ ((track.length - 1 : ℕ) : ℝ) + 1 := by
    have : track.length ≤ (track.length - 1 : ℕ) + 1 := by omega
    exact_mod_cast this
  have hmε : 0 ≤ mass * ε := (mul_nonneg h1.mass.le hε).trans hm
  have hs : 2 * (n.mass * ε) * ((track.length - 1 : ℕ) : ℝ)
      ≤ 2 * (mass * ε) * (stepBound (p idx) (S idx) + 1e10 * η) :=
    mul_le_mul (by linarith) t3 (Nat.cast_nonneg _) (by linarith)
  have hm0 : 0 < n.mass := h1.mass
  have hp0 : 0 ≤ p idx := by rw [h1.momentum_eq]; exact Real.sqrt_nonneg _
  have hpK : p idx ^ 2 + n.mass ^ 2 = (n.mass + K idx) ^ 2 := by
    rw [h1.energy_eq, add_sub_cancel, Real.sq_sqrt (by positivity)]
  have hK0 : 0 ≤ K idx := le_trans (by norm_num [KE_LIMIT]) h1.energy
  have hpm : p idx ≤ n.mass + K idx := by
    apply le_of_sq_le_sq _ (by linarith)
    nlinarith
  refine ⟨by linarith, by linarith, by linarith, ⟨h3, by linarith, hw, hw1, hF, hF1, fun r hr => ⟨?_, ?_⟩,
    fun r hr => ?_⟩, fun r hr => h9 _ _ _ (t4 r hr)⟩
  · obtain ⟨g1, -⟩ := t5 r hr
    have g0 := gv_nonneg r
    have hle := Real.sqrt_le_left (mul_nonneg hm0.le (add_nonneg g0 hε)) |>.1 g1
    have h10 : 2e-6 * n.mass ≤ n.mass * (n.mass * (r.gv + ε) ^ 2) := by nlinarith
    have h11 : 2e-6 ≤ n.mass * (r.gv + ε) ^ 2 := by
      by_contra hc
      push Not at hc
      have := mul_lt_mul_of_pos_left hc hm0
      linarith
    have h12 : 2e-6 ≤ 1e6 * (r.gv + ε) ^ 2 :=
      h11.trans (mul_le_mul_of_nonneg_right (h4.trans hmass) (sq_nonneg _))
    by_contra hc
    push Not at hc
    have h13 : (r.gv + ε) ^ 2 ≤ (1.1e-6) ^ 2 := by
      apply pow_le_pow_left₀ (add_nonneg g0 hε)
      norm_num at hc hε1 ⊢
      linarith
    norm_num at h12 h13
    linarith
  · obtain ⟨-, g2⟩ := t5 r hr
    have h10 : K idx ≤ n.mass * K idx := le_mul_of_one_le_left hK0 h3
    have h11 : n.mass * r.gv ≤ n.mass * (K idx + 1 + ε) := by
      rw [mul_add, mul_add]
      linarith
    have h12 := le_of_mul_le_mul_left h11 hm0
    norm_num at h5 hε1 ⊢
    linarith
  · obtain ⟨-, g2⟩ := t5 r hr
    have g0 := gv_nonneg r
    have hme : n.mass * ε ≤ 1 := by
      have : n.mass * ε ≤ 1e6 * 1e-6 := mul_le_mul (h4.trans hmass) hε1 hε (by norm_num)
      norm_num at this
      exact this
    have hme0 : 0 ≤ n.mass * ε := mul_nonneg hm0.le hε
    have hlor : n.mass * lorentz r.gv ≤ n.mass + K idx + 1 := by
      have e1 : n.mass * lorentz r.gv = Real.sqrt (n.mass ^ 2 + (n.mass * r.gv) ^ 2) := by
        have : n.mass ^ 2 + (n.mass * r.gv) ^ 2 = n.mass ^ 2 * (1 + r.gv ^ 2) := by ring
        rw [this, Real.sqrt_mul (sq_nonneg _), Real.sqrt_sq hm0.le]
        rfl
      rw [e1, Real.sqrt_le_left (by linarith)]
      have h10 : (n.mass * r.gv) ^ 2 ≤ (p idx + 1) ^ 2 :=
        pow_le_pow_left₀ (mul_nonneg hm0.le g0) (by linarith) 2
      nlinarith
    refine le_trans (mul_le_mul_of_nonneg_right hlor ?_) h6
    exact div_nonneg (by norm_num) (by linarith)

end

/-! ## The packaged pad plane -/

/-- **C130.** A position is surrounded by recording pads if the pads at all whole millimetres of the square around it
record. -/
theorem C130_packaged {rn : ℝ → ℝ} (h : Rounding rn) {grid : PadGrid} {ρ x y : ℝ} (hρ : ρ ≤ 1) (hx : |x| ≤ 1)
    (hy : |y| ≤ 1)
    (hact : ∀ a b : ℤ, (x - ρ) * 1000 - 1.001 ≤ a → a ≤ (x + ρ) * 1000 + 0.001 →
      (y - ρ) * 1000 - 1.001 ≤ b → b ≤ (y + ρ) * 1000 + 0.001 →
      (-280 ≤ a ∧ a < 279) ∧ (-280 ≤ b ∧ b < 279) ∧ grid.cell (10 * (a + 280)) (10 * (b + 280)) ≠ -1 ∧
        grid.cell (10 * (a + 280)) (10 * (b + 280)) ∉ BEAM_PADS) :
    Surrounded rn grid packagedEdges64 ρ x y := by
  have key : ∀ u c : ℝ, |c| ≤ 1 → |u - c| ≤ ρ →
      (c - ρ) * 1000 - 1.001 ≤ ⌊rn (u * 1000)⌋ ∧ ⌊rn (u * 1000)⌋ ≤ (c + ρ) * 1000 + 0.001 := by
    intro u c hc hu
    obtain ⟨c1, c2⟩ := abs_le.1 hc
    obtain ⟨u1, u2⟩ := abs_le.1 hu
    have hb : |u * 1000| ≤ 2000 := by rw [abs_le]; constructor <;> linarith
    have hr := h.abs hb (by norm_num) le_rfl
    have hs : 2 * uro * 2000 ≤ 0.0005 := by unfold uro; norm_num
    obtain ⟨r1, r2⟩ := abs_le.1 (hr.trans hs)
    have f1 := Int.floor_le (rn (u * 1000))
    have f2 := Int.lt_floor_add_one (rn (u * 1000))
    constructor
    · norm_num at r1 ⊢
      linarith
    · norm_num at r2 ⊢
      linarith
  intro u v hu hv
  obtain ⟨a1, a2⟩ := key u x hx hu
  obtain ⟨b1, b2⟩ := key v y hy hv
  obtain ⟨⟨i1, i2⟩, ⟨j1, j2⟩, k1, k2⟩ := hact _ _ a1 a2 b1 b2
  have he := C16_exact rn h (u, v) i1 i2 j1 j2
  unfold Active64
  rw [he]
  exact ⟨by simp only; omega, by simp only; omega, k1, k2⟩

/-! ## An event -/

/-- A detector with the packaged edges, read out between time buckets 10 and 560, where the electrons diffuse by up to
1.4 mm. -/
noncomputable def energyConfig : Config :=
  { blurConfig 0 with
    elec_params := { exElec with micromegas_edge := 10, windows_edge := 560 }
    pad_grid := some (wideGrid, packagedEdges64) }

theorem energy_inside {rn : ℝ → ℝ} (h : Rounding rn) {x y z : ℝ}
    (hd : Real.sqrt ((x - 0) ^ 2 + (y - 0) ^ 2 + (z - 1 / 2) ^ 2) ≤ 0.021) :
    Inside64 rn energyConfig wideGrid packagedEdges64 0.005 x y z := by
  have hd' := (Real.sqrt_le_left (by norm_num)).1 hd
  have hx : |x| ≤ 0.021 := abs_le_of_sq_le_sq (by nlinarith [sq_nonneg (y - 0), sq_nonneg (z - 1 / 2)]) (by norm_num)
  have hy : |y| ≤ 0.021 := abs_le_of_sq_le_sq (by nlinarith [sq_nonneg (x - 0), sq_nonneg (z - 1 / 2)]) (by norm_num)
  have hz : |z - 1 / 2| ≤ 0.021 :=
    abs_le_of_sq_le_sq (by nlinarith [sq_nonneg (x - 0), sq_nonneg (y - 0)]) (by norm_num)
  obtain ⟨z1, z2⟩ := abs_le.1 hz
  have hL : energyConfig.det_params.length = 1 := rfl
  have hM : energyConfig.elec_params.micromegas_edge = 10 := rfl
  have hWi : energyConfig.elec_params.windows_edge = 560 := rfl
  refine ⟨hx.trans (by norm_num), hy.trans (by norm_num), by norm_num at z1; linarith, ?_, ?_, ?_⟩
  · rw [hL]
    norm_num at z2
    linarith
  · rw [hL, hM, hWi]
    norm_num at z1 ⊢
    linarith
  · obtain ⟨x1, x2⟩ := abs_le.1 hx
    obtain ⟨y1, y2⟩ := abs_le.1 hy
    refine C130_packaged h (by norm_num) (hx.trans (by norm_num)) (hy.trans (by norm_num)) ?_
    intro a b a1 a2 b1 b2
    have k1 : (-280 : ℝ) ≤ a := by norm_num at x1 a1 ⊢; linarith
    have k2 : (a : ℝ) < 279 := by norm_num at x2 a2 ⊢; linarith
    have k3 : (-280 : ℝ) ≤ b := by norm_num at y1 b1 ⊢; linarith
    have k4 : (b : ℝ) < 279 := by norm_num at y2 b2 ⊢; linarith
    refine ⟨⟨by exact_mod_cast k1, by exact_mod_cast k2⟩, ⟨by exact_mod_cast k3, by exact_mod_cast k4⟩, ?_, ?_⟩
    · simp [wideGrid]
    · simp only [wideGrid]
      decide

/-- Example: a nucleus of 2 MeV and a neutron, with a solver whose positions are 0.1 mm off and whose momenta are too
large. In machine arithmetic the charge of the cloud is between 6.62 and 6.69 million electrons. -/
example (m : Math64) (h : m.Ok) : ∃ env : SimEnv, ¬ SolvesToTheEnd env.solve_ivp ∧ ∃ cloud labels s',
    simulate64 m (fun s => (0, s)) env calMomenta (0, 0, 1 / 2) [2, 2, 0] [4, 4, 1] energyConfig exGen [1, 2] ()
      = .ok ((cloud, labels), s') ∧
    6620000 ≤ (cloud.map (·.e)).sum ∧ (cloud.map (·.e)).sum ≤ 6690000 := by
  obtain ⟨env, hno, hget, hwithin, -, hall⟩ := blur_event 0
  have hw : energyConfig.det_params.w_value = 30 := rfl
  have hgain : energyConfig.det_params.mpgd_gain = 100 := rfl
  have hF : energyConfig.det_params.fano_factor = 0 := rfl
  have hE : energyConfig.det_params.efield = 1000000 := rfl
  have hD : energyConfig.det_params.diffusion = 1 := rfl
  have hL : energyConfig.det_params.length = 1 := rfl
  have hM : energyConfig.elec_params.micromegas_edge = 10 := rfl
  have hWi : energyConfig.elec_params.windows_edge = 560 := rfl
  have hR : rangeBound 2 98 ≤ 0.0205 := by norm_num [rangeBound]
  have hmeas := C130_measured (rn := m.rn) (grid := wideGrid) (g := packagedEdges64) (ρ := 0.005) (config := energyConfig)
    (env := env) (momenta := calMomenta) (vertex := (0, 0, 1 / 2)) (Zs := [2, 2, 0]) (As := [4, 4, 1])
    (indices := [1, 2]) (K := fun _ => 2) (p := fun _ => 122) (S := fun _ => 98) (S' := fun _ => 100)
    (mass := 3720) (late := 0.002) (δ := 1e-4) (ε := 1e-8) (η := 0) (by norm_num) (by norm_num)
    (by rw [hw]; norm_num) (by rw [hw]; norm_num) (by rw [hF]) (by rw [hF]; norm_num) (by norm_num)
    (fun idx hidx => by
      rcases hall idx hidx with h0 | ⟨n, track, ht, -⟩
      · exact .inl h0
      · exact .inr ⟨n, track, ht⟩) (by
    intro idx hidx z a nucleus momentum hz hz0 ha hn hm
    simp only [List.mem_cons, List.not_mem_nil, or_false] at hidx
    rw [hget] at hn
    obtain rfl := Except.ok.inj hn
    rcases hidx with rfl | rfl
    · have e : pyGet calMomenta 1 = .ok ⟨0, 122, 0, 3722⟩ := rfl
      rw [e] at hm
      obtain rfl := Except.ok.inj hm
      refine ⟨blur_stops 0, ?_, by norm_num [stopNucleus], by norm_num [stopNucleus], by norm_num,
        by rw [hw]; norm_num [stopNucleus], ?_, fun sol h => hwithin _ _ h,
        fun x y z h' => energy_inside h.rounding (h'.trans (by linarith))⟩
      · rw [add_zero]
        exact (blur_stops 0).time
      · rw [mul_zero, add_zero, mul_one]
        exact stopField_late
    · have e : pyGet [(2 : ℤ), 2, 0] 2 = .ok 0 := rfl
      rw [e] at hz
      exact absurd (Except.ok.inj hz).symm hz0)
  have hch : [(1 : ℤ), 2].filter (isCharged [2, 2, 0]) = [1] := by decide
  have h4 : stepBound 122 98 ≤ 42 := by norm_num [stepBound]
  obtain ⟨B, hB⟩ : ∃ B, B = stepBound 122 98 := ⟨_, rfl⟩
  rw [← hB] at hmeas h4
  obtain ⟨cloud, labels, s', h1, h2, h3⟩ := C130_charge h (rng := exGen) (std := fun s => (0, s)) rfl
    (fun i j => by norm_num [wideGrid])
    ⟨by rw [hL]; simpa using int_mem (n := 1) (by norm_num), by rw [hL]; norm_num, by rw [hL]; norm_num,
      by rw [hM]; norm_num, by rw [hM, hWi]; norm_num, by rw [hWi]; norm_num⟩
    ⟨by rw [hM]; norm_num, by rw [hE]; norm_num, .inr ⟨by rw [hD]; norm_num, by rw [hD]; norm_num,
      by rw [hD, hL, hM, hWi, hE]; norm_num, by rw [hD, hL, hM, hWi, hE]; norm_num⟩⟩
    ⟨by norm_num, by rw [hD, hL, hM, hWi, hE]; norm_num⟩ (by rw [hgain]; norm_num) exGen_lawful
    (fun loc scale s => by simp [exGen]) (fun _ => by norm_num) hF (by rw [hw]; norm_num) hmeas (by
      rw [hch, hgain, hw]
      simp only [List.map_cons, List.map_nil, List.sum_cons, List.sum_nil, add_zero, mul_zero]
      norm_num
      linarith) ()
  rw [hch, hgain, hw] at h2 h3
  simp only [List.map_cons, List.map_nil, List.sum_cons, List.sum_nil, add_zero, mul_zero] at h2 h3
  push_cast at h2 h3
  refine ⟨env, hno, cloud, labels, s', h1, ?_, ?_⟩
  · refine le_trans ?_ h2
    norm_num
    linarith
  · refine h3.trans ?_
    norm_num
    linarith

end Verif.Machine
