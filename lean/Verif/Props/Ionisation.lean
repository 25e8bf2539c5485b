import Verif.Props.Electrons

/-! # C70: the number of primary electrons -/

namespace Verif.Detector

open Verif.Spec

/-- The mean number of electrons released between a track point and the one before: the absolute
difference of the kinetic energies in eV, over W. -/
noncomputable def meanElectrons (nucleus : Nucleus) (W : ℝ) (before after : Row) : ℝ :=
  |kinetic nucleus after - kinetic nucleus before| * 1000000 / W

/-- The mean number of electrons at track point `k`; none at the first point. -/
noncomputable def meanAt (nucleus : Nucleus) (W : ℝ) (track : List Row) (k : ℕ) : ℝ :=
  match k with
  | 0 => 0
  | k + 1 => match track[k]?, track[k + 1]? with
    | some a, some b => meanElectrons nucleus W a b
    | _, _ => 0

theorem meanAt_succ {nucleus : Nucleus} {W : ℝ} {track : List Row} {k : ℕ} {a b : Row}
    (ha : track[k]? = some a) (hb : track[k + 1]? = some b) :
    meanAt nucleus W track (k + 1) = meanElectrons nucleus W a b := by
  simp only [meanAt, ha, hb]

/-- The particle moves at this track point. -/
def Moving (r : Row) : Prop := ¬ (r.gvx = 0 ∧ r.gvy = 0 ∧ r.gvz = 0)

theorem fano_draw_ok {σ : Type} {rng : Gen σ} {F : ℝ} {m : Option ℝ} {s : σ} {r : ℤ × σ} :
    fano_draw rng F m s = .ok r ↔ ∃ x, m = some x ∧ 0 ≤ F * x ∧
      r = (pyInt (rng.normal x (Real.sqrt (F * x)) s).1, (rng.normal x (Real.sqrt (F * x)) s).2) := by
  unfold fano_draw
  cases m with
  | none => simp
  | some x =>
    simp only [npSqrt, Option.some.injEq, exists_eq_left']
    by_cases h : F * x < 0
    · simp [h]
    · simp only [h, if_false, Except.ok.injEq, not_lt.1 h, true_and]
      exact eq_comm

theorem fano_draws_states {σ : Type} {rng : Gen σ} {F : ℝ} {ms : List (Option ℝ)} :
    ∀ {s s' : σ} {vs : List ℤ}, fano_draws rng F ms s = .ok (vs, s') →
    vs.length = ms.length ∧ ∃ states : ℕ → σ, states 0 = s ∧ states ms.length = s' ∧
      ∀ k v, vs[k]? = some v → ∃ x, ms[k]? = some (some x) ∧ 0 ≤ F * x ∧
        rng.normal x (Real.sqrt (F * x)) (states k)
          = ((rng.normal x (Real.sqrt (F * x)) (states k)).1, states (k + 1)) ∧
        v = pyInt (rng.normal x (Real.sqrt (F * x)) (states k)).1 := by
  induction ms with
  | nil =>
    intro s s' vs h
    simp only [fano_draws, Except.ok.injEq, Prod.mk.injEq] at h
    obtain ⟨rfl, rfl⟩ := h
    exact ⟨rfl, fun _ => s, rfl, rfl, by simp⟩
  | cons m ms ih =>
    intro s s' vs h
    unfold fano_draws at h
    rw [except_bind_ok] at h
    obtain ⟨⟨v, s1⟩, h1, h⟩ := h
    rw [except_bind_ok] at h
    obtain ⟨⟨vs', s2⟩, h2, h⟩ := h
    simp only [pure, Except.pure, Except.ok.injEq, Prod.mk.injEq] at h
    obtain ⟨rfl, rfl⟩ := h
    obtain ⟨x, rfl, hx, hr⟩ := fano_draw_ok.1 h1
    simp only [Prod.mk.injEq] at hr
    obtain ⟨rfl, rfl⟩ := hr
    obtain ⟨hl, states, g1, g2, g3⟩ := ih h2
    refine ⟨by simp [hl], fun k => match k with | 0 => s | k + 1 => states k, rfl, g2, ?_⟩
    intro k v hv
    cases k with
    | zero =>
      simp only [List.getElem?_cons_zero, Option.some.injEq] at hv
      subst hv
      exact ⟨x, rfl, hx, by simp only [g1], rfl⟩
    | succ k =>
      simp only [List.getElem?_cons_succ] at hv ⊢
      exact g3 k v hv

theorem fano_draws_ok_iff {σ : Type} {rng : Gen σ} {F : ℝ} {ms : List (Option ℝ)} : ∀ {s : σ},
    (∃ r, fano_draws rng F ms s = .ok r) ↔ ∀ m ∈ ms, ∃ x, m = some x ∧ 0 ≤ F * x := by
  induction ms with
  | nil => intro s; simp [fano_draws]
  | cons m ms ih =>
    intro s
    unfold fano_draws
    constructor
    · rintro ⟨r, h⟩
      rw [except_bind_ok] at h
      obtain ⟨⟨v, s1⟩, h1, h⟩ := h
      rw [except_bind_ok] at h
      obtain ⟨⟨vs', s2⟩, h2, h⟩ := h
      obtain ⟨x, rfl, hx, -⟩ := fano_draw_ok.1 h1
      intro m' hm'
      rcases List.mem_cons.1 hm' with rfl | hm'
      · exact ⟨x, rfl, hx⟩
      · exact ih.1 ⟨_, h2⟩ m' hm'
    · intro h
      obtain ⟨x, rfl, hx⟩ := h m (by simp)
      have h1 := fano_draw_ok (rng := rng) (F := F) (m := some x) (s := s).2 ⟨x, rfl, hx, rfl⟩
      obtain ⟨⟨vs, s2⟩, h2⟩ := ih (s := (rng.normal x (Real.sqrt (F * x)) s).2).2
        fun m' hm' => h m' (by simp [hm'])
      refine ⟨(pyInt (rng.normal x (Real.sqrt (F * x)) s).1 :: vs, s2), ?_⟩
      rw [h1]
      simp only [bind, Except.bind]
      rw [h2]
      rfl

theorem go_getElem? (l : List (Option ℝ)) : ∀ (a : Option ℝ) (k : ℕ),
    (energy_lost.go a l)[k]? = (l[k]?).map fun y =>
      (do let u ← ((a :: l)[k]?).join; let v ← y; pure |v - u|) := by
  induction l with
  | nil => intro a k; simp [energy_lost.go]
  | cons b l ih =>
    intro a k
    cases k with
    | zero => simp [energy_lost.go]
    | succ k =>
      simp only [energy_lost.go, List.getElem?_cons_succ]
      rw [ih b k]

theorem track_energy_of {nucleus : Nucleus} {r : Row} :
    track_energy nucleus r = some (kinetic nucleus r) ∧ Moving r ∨
    track_energy nucleus r = none ∧ ¬ Moving r := by
  by_cases h : r.gv = 0
  · refine .inr ⟨by unfold track_energy; rw [if_pos h], ?_⟩
    unfold Moving
    exact not_not.2 ((gv_eq_zero_iff r).1 h)
  · exact .inl ⟨track_energy_eq nucleus r h, fun hm => h ((gv_eq_zero_iff r).2 hm)⟩

/-- The list of means that `generate_electrons` hands to the generator. -/
theorem means_getElem? (nucleus : Nucleus) (W : ℝ) (track : List Row) (k : ℕ) :
    ((energy_lost (track.map (track_energy nucleus))).map (Option.map (· * (1.0e6 / W))))[k]?
      = match k with
        | 0 => (track[0]?).map fun _ => some 0
        | k + 1 => match track[k]?, track[k + 1]? with
          | some a, some b => some (do
              let x ← track_energy nucleus a
              let y ← track_energy nucleus b
              pure (|y - x| * (1.0e6 / W)))
          | _, _ => none := by
  cases track with
  | nil => cases k <;> simp [energy_lost]
  | cons a rest =>
    cases k with
    | zero => simp [energy_lost]
    | succ k =>
      simp only [List.map_cons, energy_lost, List.getElem?_cons_succ, List.getElem?_map]
      rw [go_getElem?]
      simp only [List.getElem?_map]
      by_cases hk : k < rest.length
      · have h1 : rest[k]? = some rest[k] := List.getElem?_eq_getElem hk
        have h2 : ((track_energy nucleus a :: rest.map (track_energy nucleus))[k]?)
            = ((a :: rest)[k]?).map (track_energy nucleus) := by
          rw [← List.map_cons, List.getElem?_map]
        have h3 : (a :: rest)[k]? = some ((a :: rest)[k]'(by simp; omega)) :=
          List.getElem?_eq_getElem _
        rw [h1, h2, h3]
        simp only [Option.map_some, Option.join_some]
        rcases track_energy nucleus ((a :: rest)[k]'(by simp; omega)) with _ | x
        · rfl
        · rcases track_energy nucleus rest[k] with _ | y <;> rfl
      · have h1 : rest[k]? = none := List.getElem?_eq_none (by omega)
        rw [h1]
        cases (a :: rest)[k]? <;> rfl

/-- **C70.** The number of electrons at every track point is one normal draw, truncated to an integer,
with mean `m = |ΔE| / W` and variance `F m`; one draw per track point, in the order of the track. -/
theorem C70_draws {σ : Type} {rng : Gen σ} {track : List Row} {nucleus : Nucleus}
    {params : DetectorParams} {s s' : σ} {primary : List ℤ}
    (h : generate_electrons track nucleus params rng s = .ok (primary, s')) :
    primary.length = track.length ∧ ∃ states : ℕ → σ, states 0 = s ∧ states track.length = s' ∧
      ∀ k v, primary[k]? = some v → ∃ x : ℝ,
        rng.normal (meanAt nucleus params.w_value track k)
          (Real.sqrt (params.fano_factor * meanAt nucleus params.w_value track k)) (states k)
            = (x, states (k + 1)) ∧ v = pyInt x := by
  unfold generate_electrons at h
  simp only at h
  split_ifs at h with hW
  obtain ⟨hl, states, h1, h2, h3⟩ := fano_draws_states h
  simp only [List.length_map, energy_lost_length] at hl h2
  refine ⟨hl, states, h1, h2, fun k v hv => ?_⟩
  obtain ⟨x, hx, -, hn, rfl⟩ := h3 k v hv
  have hmean : x = meanAt nucleus params.w_value track k := by
    rw [means_getElem?] at hx
    cases k with
    | zero =>
      simp only [Option.map_eq_some_iff, Option.some.injEq] at hx
      obtain ⟨-, -, rfl⟩ := hx
      rfl
    | succ k =>
      simp only at hx
      cases ha : track[k]? with
      | none => rw [ha] at hx; simp at hx
      | some a =>
        cases hb : track[k + 1]? with
        | none => rw [ha, hb] at hx; simp at hx
        | some b =>
          rw [ha, hb] at hx
          simp only [Option.some.injEq] at hx
          rcases track_energy_of (nucleus := nucleus) (r := a) with ⟨ea, -⟩ | ⟨ea, -⟩
          · rcases track_energy_of (nucleus := nucleus) (r := b) with ⟨eb, -⟩ | ⟨eb, -⟩
            · rw [ea, eb] at hx
              simp only [Option.bind_eq_bind, Option.bind_some, Option.pure_def,
                Option.some.injEq] at hx
              rw [← hx, meanAt_succ ha hb]
              unfold meanElectrons
              norm_num
              ring
            · rw [ea, eb] at hx; simp at hx
          · rw [ea] at hx; simp at hx
  subst hmean
  exact ⟨_, hn, rfl⟩

/-- **C70.** The electrons can be generated exactly when W is not 0, the particle moves at every track
point (or there is only one), and no variance is negative. -/
theorem C70_succeeds {σ : Type} (rng : Gen σ) (track : List Row) (nucleus : Nucleus)
    (params : DetectorParams) (s : σ) :
    (∃ r, generate_electrons track nucleus params rng s = .ok r) ↔
      params.w_value ≠ 0 ∧ (track.length ≤ 1 ∨ ∀ r ∈ track, Moving r) ∧
      ∀ k, 0 ≤ params.fano_factor * meanAt nucleus params.w_value track k := by
  unfold generate_electrons
  simp only
  by_cases hW : params.w_value = 0
  · simp [hW]
  rw [if_neg hW, fano_draws_ok_iff]
  simp only [ne_eq, hW, not_false_eq_true, true_and]
  set ms := (energy_lost (track.map (track_energy nucleus))).map
    (Option.map (· * (1.0e6 / params.w_value))) with hms
  have hget := means_getElem? nucleus params.w_value track
  rw [← hms] at hget
  have hlen : ms.length = track.length := by rw [hms]; simp [energy_lost_length]
  constructor
  · intro h
    have hall : ∀ k a b, track[k]? = some a → track[k + 1]? = some b → Moving a ∧ Moving b ∧
        0 ≤ params.fano_factor * meanElectrons nucleus params.w_value a b := by
      intro k a b ha hb
      have hk := hget (k + 1)
      simp only [ha, hb] at hk
      obtain ⟨x, hx, hF⟩ := h _ (List.mem_of_getElem? hk)
      rcases track_energy_of (nucleus := nucleus) (r := a) with ⟨ea, ma⟩ | ⟨ea, -⟩
      · rcases track_energy_of (nucleus := nucleus) (r := b) with ⟨eb, mb⟩ | ⟨eb, -⟩
        · rw [ea, eb] at hx
          simp only [Option.bind_eq_bind, Option.bind_some, Option.pure_def,
            Option.some.injEq] at hx
          refine ⟨ma, mb, ?_⟩
          have : meanElectrons nucleus params.w_value a b = x := by
            rw [← hx]
            unfold meanElectrons
            norm_num
            ring
          rw [this]; exact hF
        · rw [ea, eb] at hx; simp at hx
      · rw [ea] at hx; simp at hx
    constructor
    · by_cases hl : track.length ≤ 1
      · exact .inl hl
      · refine .inr fun r hr => ?_
        obtain ⟨i, hi, rfl⟩ := List.mem_iff_getElem.1 hr
        by_cases h0 : i = 0
        · subst h0
          exact (hall 0 _ _ (List.getElem?_eq_getElem hi) (List.getElem?_eq_getElem (by omega))).1
        · obtain ⟨j, rfl⟩ := Nat.exists_eq_succ_of_ne_zero h0
          exact (hall j _ _ (List.getElem?_eq_getElem (by omega)) (List.getElem?_eq_getElem hi)).2.1
    · intro k
      cases k with
      | zero => simp [meanAt]
      | succ k =>
        cases ha : track[k]? with
        | none => simp [meanAt, ha]
        | some a =>
          cases hb : track[k + 1]? with
          | none => simp [meanAt, ha, hb]
          | some b => rw [meanAt_succ ha hb]; exact (hall k a b ha hb).2.2
  · rintro ⟨hmov, hF⟩ m hm
    obtain ⟨i, hi, rfl⟩ := List.mem_iff_getElem.1 hm
    have hk := hget i
    rw [List.getElem?_eq_getElem hi] at hk
    cases i with
    | zero =>
      rw [List.getElem?_eq_getElem (by omega)] at hk
      simp only [Option.map_some, Option.some.injEq] at hk
      exact ⟨0, hk, by simp⟩
    | succ k =>
      have ha : track[k]? = some (track[k]'(by omega)) := List.getElem?_eq_getElem _
      have hb : track[k + 1]? = some (track[k + 1]'(by omega)) := List.getElem?_eq_getElem _
      simp only [ha, hb, Option.some.injEq] at hk
      have hmov : ∀ r ∈ track, Moving r := hmov.resolve_left (by omega)
      have e1 := (track_energy_of (nucleus := nucleus) (r := track[k]'(by omega))).resolve_right
        fun h => h.2 (hmov _ (List.getElem_mem _))
      have e2 := (track_energy_of (nucleus := nucleus) (r := track[k + 1]'(by omega))).resolve_right
        fun h => h.2 (hmov _ (List.getElem_mem _))
      rw [e1.1, e2.1] at hk
      simp only [Option.bind_eq_bind, Option.bind_some, Option.pure_def] at hk
      refine ⟨_, hk, ?_⟩
      have := hF (k + 1)
      rw [meanAt_succ ha hb] at this
      unfold meanElectrons at this
      norm_num at this ⊢
      rw [mul_div_assoc] at this
      exact this

/-- C70 applies to the example track, which has electrons at its second point. -/
example : meanAt exNucleus (exDet 100 0).w_value [exTrack0, exTrack1] 1 ≠ 0 := by
  have h0 := track_energy_eq exNucleus exTrack0 (by rw [exTrack0_gv]; norm_num)
  have h1 := track_energy_eq exNucleus exTrack1 (by rw [exTrack1_gv]; norm_num)
  have h := exTrack_energy
  simp only [List.map_cons, List.map_nil, h0, h1, List.cons.injEq, Option.some.injEq,
    and_true] at h
  simp only [meanAt, meanElectrons, List.getElem?_cons_zero, List.getElem?_cons_succ, h.1, h.2]
  norm_num [exDet]

end Verif.Detector
