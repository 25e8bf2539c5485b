import Verif.Spec.Chain
import Verif.Props.Kinematics

/-! # Lemmas on the decay loop and on `run` -/

namespace Verif.Kinematics

open Verif.Spec Verif.Props

variable {σ : Type}

theorem massive_of_M2 {b : Vec4} {m : ℝ} (hm : 0 < m) (h : b.M2 = m ^ 2) (hE : 0 < b.E) :
    b.Massive := by
  refine ⟨?_, hE⟩
  unfold Vec4.Boostable
  have : 0 < b.M2 := by rw [h]; positivity
  unfold Vec4.M2 at this
  linarith

theorem listGet_ok {α : Type} {l : List α} {i : ℕ} {a : α} (h : listGet l i = .ok a) :
    l[i]? = some a := by
  unfold listGet at h
  cases hl : l[i]? with
  | none => rw [hl] at h; simp at h
  | some b => rw [hl] at h; simp at h; rw [h]

theorem listGet_some {α : Type} {l : List α} {i : ℕ} {a : α} (h : l[i]? = some a) :
    listGet l i = .ok a := by
  unfold listGet; rw [h]

/-! ## Independence of the buffer -/

/-- Writing at or after position `n` keeps the first `n` entries. -/
theorem take_set {α : Type} (l : List α) (n i : ℕ) (a : α) (h : n ≤ i) :
    (l.set i a).take n = l.take n := by
  rw [List.take_set, List.set_eq_of_length_le]
  simp; omega

theorem take_two {α : Type} (l : List α) (n : ℕ) (a b : α) (h : n + 2 ≤ l.length) :
    ((l.set n a).set (n + 1) b).take (n + 2) = l.take n ++ [a, b] := by
  apply List.ext_getElem
  · simp; omega
  · intro i h1 h2
    simp only [List.getElem_take, List.getElem_set]
    by_cases e1 : n + 1 = i
    · subst e1
      rw [List.getElem_append_right (by simp)]
      simp [Nat.min_eq_left (show n ≤ l.length by omega)]
    · by_cases e2 : n = i
      · subst e2
        rw [List.getElem_append_right (by simp)]
        simp [Nat.min_eq_left (show n ≤ l.length by omega)]
      · have : i < n := by
          simp at h1; omega
        rw [List.getElem_append_left (by simp; omega)]
        simp [e1, e2]

/-- The products that a decay loop writes, as a pure function. -/
noncomputable def decayRows (x : Sample) : ℕ → List Decay → ResultRow →
    Except PyErr (Option (List ResultRow))
  | _, [], _ => .ok (some [])
  | idx, d :: ds, prev =>
    match listGet x.decay_excitations idx with
    | .error e => .error e
    | .ok ex =>
      match prev with
      | none => .ok none
      | some parent =>
        if !d.is_excitation_allowed parent ex then .ok none
        else
          match (do
              let theta ← listGet x.decay_thetas idx
              let phi ← listGet x.decay_phis idx
              d.calculate parent theta phi ex) with
          | .error e => .error e
          | .ok (_, r1, r2) =>
            match decayRows x (idx + 1) ds r2 with
            | .error e => .error e
            | .ok none => .ok none
            | .ok (some rows) => .ok (some (r1 :: r2 :: rows))

theorem decayLoop_rows (x : Sample) (ds : List Decay) : ∀ (idx : ℕ) (prev : ResultRow)
    (buf : List ResultRow), buf.length = 4 + 2 * (idx + ds.length) →
    (decayLoop x idx ds prev buf).2.length = buf.length ∧
    match decayRows x idx ds prev with
    | .error e => (decayLoop x idx ds prev buf).1 = .error e
    | .ok none => (decayLoop x idx ds prev buf).1 = .ok false
    | .ok (some rows) => decayLoop x idx ds prev buf = (.ok true, buf.take (4 + 2 * idx) ++ rows) := by
  induction ds with
  | nil =>
    intro idx prev buf hb
    simp only [List.length_nil, Nat.add_zero] at hb
    simp [decayLoop, decayRows, ← hb]
  | cons d ds ih =>
    intro idx prev buf hb
    simp only [List.length_cons] at hb
    unfold decayLoop decayRows
    cases hex : listGet x.decay_excitations idx with
    | error e => simp
    | ok ex =>
      cases prev with
      | none => simp
      | some parent =>
        by_cases ha : d.is_excitation_allowed parent ex = true
        · simp only [ha, Bool.not_true, Bool.false_eq_true, if_false]
          cases hc : (do
              let theta ← listGet x.decay_thetas idx
              let phi ← listGet x.decay_phis idx
              d.calculate parent theta phi ex : Except PyErr (Vec4 × Option Vec4 × Option Vec4)) with
          | error e => simp
          | ok res =>
            obtain ⟨v, r1, r2⟩ := res
            simp only
            have hpos : idx * 2 + 4 = 4 + 2 * idx := by ring
            rw [hpos]
            have hlen : ((buf.set (4 + 2 * idx) r1).set (4 + 2 * idx + 1) r2).length
                = 4 + 2 * (idx + 1 + ds.length) := by simp; omega
            obtain ⟨i1, i2⟩ := ih (idx + 1) r2 _ hlen
            have htake : ((buf.set (4 + 2 * idx) r1).set (4 + 2 * idx + 1) r2).take (4 + 2 * (idx + 1))
                = buf.take (4 + 2 * idx) ++ [r1, r2] := by
              rw [show 4 + 2 * (idx + 1) = 4 + 2 * idx + 2 by ring]
              exact take_two _ _ _ _ (by omega)
            refine ⟨by rw [i1]; simp, ?_⟩
            cases hr : decayRows x (idx + 1) ds r2 with
            | error e => rw [hr] at i2; exact i2
            | ok o =>
              rw [hr] at i2
              cases o with
              | none => exact i2
              | some rows =>
                simp only at i2 ⊢
                rw [i2, htake]
                simp
        · simp [ha]

/-- The event that belongs to a sample, as a pure function. -/
noncomputable def eventRows (p : Pipeline σ) (x : Sample) : Except PyErr (Option (List ResultRow)) :=
  if !p.reaction.is_excitation_allowed x.beam_energy x.reaction_excitation then .ok none
  else
    match p.reaction.calculate x.beam_energy x.reaction_theta x.reaction_phi x.reaction_excitation with
    | .error e => .error e
    | .ok (t, b, e, r) =>
      match decayRows x 0 p.decays r with
      | .error e => .error e
      | .ok none => .ok none
      | .ok (some rows) => .ok (some (some t :: b :: e :: r :: rows))

theorem attempt_rows (p : Pipeline σ) (x : Sample) (buf : List ResultRow)
    (hb : buf.length = 4 + 2 * p.decays.length) :
    (p.attempt x buf).2.length = buf.length ∧
    match eventRows p x with
    | .error e => (p.attempt x buf).1 = .error e
    | .ok none => (p.attempt x buf).1 = .ok false
    | .ok (some rows) => p.attempt x buf = (.ok true, rows) := by
  unfold Pipeline.attempt eventRows
  by_cases ha : p.reaction.is_excitation_allowed x.beam_energy x.reaction_excitation = true
  · simp only [ha, Bool.not_true, Bool.false_eq_true, if_false]
    cases hc : p.reaction.calculate x.beam_energy x.reaction_theta x.reaction_phi
        x.reaction_excitation with
    | error e => simp
    | ok res =>
      obtain ⟨t, b, e, r⟩ := res
      simp only
      obtain ⟨i1, i2⟩ := decayLoop_rows x p.decays 0 r
        ((((buf.set 0 (some t)).set 1 b).set 2 e).set 3 r) (by simp [hb])
      refine ⟨by rw [i1]; simp, ?_⟩
      cases hr : decayRows x 0 p.decays r with
      | error e => rw [hr] at i2; exact i2
      | ok o =>
        rw [hr] at i2
        cases o with
        | none => exact i2
        | some rows =>
          simp only at i2 ⊢
          rw [i2]
          match buf, hb with
          | b0 :: b1 :: b2 :: b3 :: bs, _ => simp
          | [], h => simp at h; omega
          | [_], h => simp at h; omega
          | [_, _], h => simp at h; omega
          | [_, _, _], h => simp at h; omega
  · simp [ha]

/-! ## Physics of the decay loop -/

theorem decayRows_physics (x : Sample) (ds : List Decay) : ∀ (idx : ℕ) (parent : Vec4),
    parent.Massive → (∀ d ∈ ds, 0 ≤ d.residual_1.mass) →
    (∀ de ∈ ds.zip (x.decay_excitations.drop idx), 0 < de.1.residual_2.mass + de.2) →
    (∀ rows, decayRows x idx ds (some parent) = .ok (some rows) →
      DecaysAllowed parent.M ds (x.decay_excitations.drop idx) ∧
      ∃ rs : List Vec4, rows = rs.map some ∧
        DecaysOk parent ds (x.decay_excitations.drop idx) rs) ∧
    (idx + ds.length ≤ x.decay_excitations.length → idx + ds.length ≤ x.decay_thetas.length →
      idx + ds.length ≤ x.decay_phis.length →
      (DecaysAllowed parent.M ds (x.decay_excitations.drop idx) →
        ∃ rows, decayRows x idx ds (some parent) = .ok (some rows)) ∧
      (¬ DecaysAllowed parent.M ds (x.decay_excitations.drop idx) →
        decayRows x idx ds (some parent) = .ok none)) := by
  induction ds with
  | nil =>
    intro idx parent hp h1 h2
    refine ⟨?_, fun _ _ _ => ⟨fun _ => ⟨[], rfl⟩, fun h => absurd trivial h⟩⟩
    intro rows h
    simp only [decayRows, Except.ok.injEq, Option.some.injEq] at h
    subst h
    exact ⟨trivial, [], rfl, .nil _ _⟩
  | cons d ds ih =>
    intro idx parent hp h1 h2
    cases hx : x.decay_excitations[idx]? with
    | none =>
      have hle : x.decay_excitations.length ≤ idx := List.getElem?_eq_none_iff.1 hx
      constructor
      · intro rows h
        simp [decayRows, listGet, hx] at h
      · intro hl
        simp only [List.length_cons] at hl
        omega
    | some ex =>
      obtain ⟨hlt, hxe⟩ := List.getElem?_eq_some_iff.1 hx
      have hdrop : x.decay_excitations.drop idx = ex :: x.decay_excitations.drop (idx + 1) := by
        rw [← hxe]; exact List.drop_eq_getElem_cons hlt
      rw [hdrop] at h2 ⊢
      have hm2 : 0 < d.residual_2.mass + ex := h2 (d, ex) (by simp)
      have hm1 : 0 ≤ d.residual_1.mass := h1 d (by simp)
      have hg : listGet x.decay_excitations idx = .ok ex := listGet_some hx
      by_cases ha : d.is_excitation_allowed parent ex = true
      · have ha' := (C42_decay d parent ex).1 ha
        constructor
        · intro rows h
          unfold decayRows at h
          simp only [hg, ha, Bool.not_true, Bool.false_eq_true, if_false] at h
          cases ht : listGet x.decay_thetas idx with
          | error e => rw [ht] at h; simp [bind, Except.bind] at h
          | ok theta =>
          cases hph : listGet x.decay_phis idx with
          | error e => rw [ht, hph] at h; simp [bind, Except.bind] at h
          | ok phi =>
          obtain ⟨a, b, hcalc, hab, haM, hbM, haE, hbE, hbM2⟩ := C45_decay hp hm1 hm2.le ha theta phi
          rw [ht, hph] at h
          simp only [bind, Except.bind, hcalc] at h
          have hbm : b.Massive := massive_of_M2 hm2 hbM2 hbE
          obtain ⟨i1, -⟩ := ih (idx + 1) b hbm (fun d' hd' => h1 d' (by simp [hd']))
            (fun de hde => h2 de (by simp [hde]))
          cases hr : decayRows x (idx + 1) ds (some b) with
          | error e => rw [hr] at h; simp at h
          | ok o =>
            cases o with
            | none => rw [hr] at h; simp at h
            | some rows' =>
              rw [hr] at h
              simp only [Except.ok.injEq, Option.some.injEq] at h
              subst h
              obtain ⟨j1, rs, rfl, j2⟩ := i1 rows' hr
              refine ⟨⟨ha', by rw [← hbM]; exact j1⟩, a :: b :: rs, rfl, .cons hab haM hbM haE hbE j2⟩
        · intro l1 l2 l3
          simp only [List.length_cons] at l1 l2 l3
          obtain ⟨theta, ht⟩ : ∃ theta, listGet x.decay_thetas idx = .ok theta :=
            ⟨_, listGet_some (List.getElem?_eq_getElem (by omega))⟩
          obtain ⟨phi, hph⟩ : ∃ phi, listGet x.decay_phis idx = .ok phi :=
            ⟨_, listGet_some (List.getElem?_eq_getElem (by omega))⟩
          obtain ⟨a, b, hcalc, hab, haM, hbM, haE, hbE, hbM2⟩ := C45_decay hp hm1 hm2.le ha theta phi
          have hbm : b.Massive := massive_of_M2 hm2 hbM2 hbE
          obtain ⟨-, i2⟩ := ih (idx + 1) b hbm (fun d' hd' => h1 d' (by simp [hd']))
            (fun de hde => h2 de (by simp [hde]))
          obtain ⟨j1, j2⟩ := i2 (by omega) (by omega) (by omega)
          rw [hbM] at j1 j2
          have hstep : decayRows x idx (d :: ds) (some parent)
              = match decayRows x (idx + 1) ds (some b) with
                | .error e => .error e
                | .ok none => .ok none
                | .ok (some rows) => .ok (some (some a :: some b :: rows)) := by
            rw [decayRows]
            simp only [hg, ha, Bool.not_true, Bool.false_eq_true, if_false, ht, hph, bind, Except.bind,
              hcalc]
          rw [hstep]
          constructor
          · rintro ⟨-, hd⟩
            obtain ⟨rows, hr⟩ := j1 hd
            rw [hr]; exact ⟨_, rfl⟩
          · intro hn
            rw [j2 fun hd => hn ⟨ha', hd⟩]
      · have hna : ¬ d.residual_1.mass + d.residual_2.mass + ex < parent.M :=
          fun h => ha ((C42_decay d parent ex).2 h)
        have hstep : decayRows x idx (d :: ds) (some parent) = .ok none := by
          rw [decayRows]
          simp [hg, ha]
        rw [hstep]
        refine ⟨by intro rows h; simp at h, fun _ _ _ => ⟨fun h => absurd h.1 hna, fun _ => rfl⟩⟩

theorem sum_finals {q : Vec4} {ds : List Decay} {exs : List ℝ} {rows : List Vec4}
    (h : DecaysOk q ds exs rows) (a : Vec4) : sumVec (finals (a :: q :: rows)) = a + q := by
  induction h generalizing a with
  | nil q exs =>
    simp only [finals, sumVec]
    apply Vec4.ext <;> simp
  | cons hab _ _ _ _ _ ih =>
    simp only [finals, sumVec]
    rw [ih, hab]

theorem DecaysOk_length {q : Vec4} {ds : List Decay} {exs : List ℝ} {rows : List Vec4}
    (h : DecaysOk q ds exs rows) : rows.length = 2 * ds.length := by
  induction h with
  | nil => rfl
  | cons _ _ _ _ _ _ ih => simp only [List.length_cons, ih]; ring

theorem M2_of_M {v : Vec4} {m : ℝ} (hm : 0 < m) (h : v.M = m) : v.M2 = m ^ 2 := by
  unfold Vec4.M at h
  split_ifs at h with h0
  · have := Real.sqrt_nonneg (-v.M2)
    linarith
  · rw [← h, Real.sq_sqrt (not_lt.1 h0)]

/-- There are samples for all decays. -/
structure Enough (p : Pipeline σ) (x : Sample) : Prop where
  excitations : p.decays.length ≤ x.decay_excitations.length
  thetas : p.decays.length ≤ x.decay_thetas.length
  phis : p.decays.length ≤ x.decay_phis.length

theorem reaction_allowed_iff {p : Pipeline σ} (hc : ChainOk p) {x : Sample} (hx : SampleOk p x) :
    p.reaction.is_excitation_allowed x.beam_energy x.reaction_excitation = true ↔
      0 ≤ x.beam_energy ∧
      p.reaction.ejectile.mass + p.reaction.residual.mass + x.reaction_excitation
        < Real.sqrt ((p.reaction.target.mass + p.reaction.projectile.mass) ^ 2
          + 2 * p.reaction.target.mass * x.beam_energy) := by
  have hr : ReactionOk p.reaction := ⟨hc.target, hc.projectile, hc.ejectile⟩
  by_cases hT : 0 ≤ x.beam_energy
  · rw [C42_reaction hr hT, parent_M hr hT]
    simp [hT, cmEnergy]
  · rw [C42_negative_energy p.reaction (not_le.1 hT) hx.beam]
    simp [hT]

theorem eventRows_some {p : Pipeline σ} (hc : ChainOk p) {x : Sample} (hx : SampleOk p x)
    {rows : List ResultRow} (h : eventRows p x = .ok (some rows)) :
    EnergyAllowed p x ∧ ∃ t b e r rs, rows = (t :: b :: e :: r :: rs : List Vec4).map some ∧
      EventOk p x t b e r rs := by
  have hr : ReactionOk p.reaction := ⟨hc.target, hc.projectile, hc.ejectile⟩
  unfold eventRows at h
  by_cases ha : p.reaction.is_excitation_allowed x.beam_energy x.reaction_excitation = true
  · simp only [ha, Bool.not_true, Bool.false_eq_true, if_false] at h
    have ha' := (reaction_allowed_iff hc hx).1 ha
    cases hcalc : p.reaction.calculate x.beam_energy x.reaction_theta x.reaction_phi
        x.reaction_excitation with
    | error e => rw [hcalc] at h; simp at h
    | ok res =>
      obtain ⟨t, b, e, r, rfl, h1, h2, h3, h4, h5, h6, h7, h8, h9, h10, h11⟩ :=
        C40_reaction hr ha'.1 hx.residual.le ha _ _ hcalc
      rw [hcalc] at h
      simp only at h
      have hm : r.Massive := massive_of_M2 hx.residual (M2_of_M hx.residual h9) h11
      obtain ⟨i1, -⟩ := decayRows_physics x p.decays 0 r hm hc.decays (by simpa using hx.decays)
      cases hd : decayRows x 0 p.decays (some r) with
      | error e => rw [hd] at h; simp at h
      | ok o =>
        cases o with
        | none => rw [hd] at h; simp at h
        | some rows' =>
          rw [hd] at h
          simp only [Except.ok.injEq, Option.some.injEq] at h
          subst h
          obtain ⟨j1, rs, rfl, j2⟩ := i1 rows' hd
          rw [List.drop_zero] at j1 j2
          rw [h9] at j1
          exact ⟨⟨ha'.1, ha'.2, j1⟩, t, b, e, r, rs, rfl,
            ⟨h1, h2, h3, h4, h5, h6, h7, h8, h9, h10, h11, j2⟩⟩
  · simp [ha] at h

theorem eventRows_none {p : Pipeline σ} (hc : ChainOk p) {x : Sample} (hx : SampleOk p x)
    (hn : Enough p x) (h : eventRows p x = .ok none) : ¬ EnergyAllowed p x := by
  have hr : ReactionOk p.reaction := ⟨hc.target, hc.projectile, hc.ejectile⟩
  intro hE
  have ha := (reaction_allowed_iff hc hx).2 ⟨hE.1, hE.2.1⟩
  unfold eventRows at h
  simp only [ha, Bool.not_true, Bool.false_eq_true, if_false] at h
  cases hcalc : p.reaction.calculate x.beam_energy x.reaction_theta x.reaction_phi
      x.reaction_excitation with
  | error e => rw [hcalc] at h; simp at h
  | ok res =>
    obtain ⟨t, b, e, r, rfl, h1, h2, h3, h4, h5, h6, h7, h8, h9, h10, h11⟩ :=
      C40_reaction hr hE.1 hx.residual.le ha _ _ hcalc
    rw [hcalc] at h
    simp only at h
    have hm : r.Massive := massive_of_M2 hx.residual (M2_of_M hx.residual h9) h11
    obtain ⟨-, i2⟩ := decayRows_physics x p.decays 0 r hm hc.decays (by simpa using hx.decays)
    obtain ⟨rows, hrows⟩ := (i2 (by simpa using hn.excitations) (by simpa using hn.thetas)
      (by simpa using hn.phis)).1 (by rw [h9]; simpa using hE.2.2)
    rw [hrows] at h
    simp at h

/-- The sample is energetically possible, or `calculate` does not get called or does not raise. -/
theorem eventRows_cases {p : Pipeline σ} (hc : ChainOk p) {x : Sample} (hx : SampleOk p x)
    (hn : Enough p x) :
    (EnergyAllowed p x →
      (∃ res, p.reaction.calculate x.beam_energy x.reaction_theta x.reaction_phi
        x.reaction_excitation = .ok res) → ∃ rows, eventRows p x = .ok (some rows)) ∧
    (∀ e, eventRows p x = .error e →
      p.reaction.is_excitation_allowed x.beam_energy x.reaction_excitation = true ∧
      p.reaction.calculate x.beam_energy x.reaction_theta x.reaction_phi
        x.reaction_excitation = .error e) := by
  have hr : ReactionOk p.reaction := ⟨hc.target, hc.projectile, hc.ejectile⟩
  have key : ∀ e, eventRows p x = .error e →
      p.reaction.is_excitation_allowed x.beam_energy x.reaction_excitation = true ∧
      p.reaction.calculate x.beam_energy x.reaction_theta x.reaction_phi
        x.reaction_excitation = .error e := by
    intro e h
    unfold eventRows at h
    by_cases ha : p.reaction.is_excitation_allowed x.beam_energy x.reaction_excitation = true
    · refine ⟨ha, ?_⟩
      simp only [ha, Bool.not_true, Bool.false_eq_true, if_false] at h
      have ha' := (reaction_allowed_iff hc hx).1 ha
      cases hcalc : p.reaction.calculate x.beam_energy x.reaction_theta x.reaction_phi
          x.reaction_excitation with
      | error e => rw [hcalc] at h; simpa using h
      | ok res =>
        exfalso
        obtain ⟨t, b, e, r, rfl, h1, h2, h3, h4, h5, h6, h7, h8, h9, h10, h11⟩ :=
          C40_reaction hr ha'.1 hx.residual.le ha _ _ hcalc
        rw [hcalc] at h
        simp only at h
        have hm : r.Massive := massive_of_M2 hx.residual (M2_of_M hx.residual h9) h11
        obtain ⟨-, i2⟩ := decayRows_physics x p.decays 0 r hm hc.decays (by simpa using hx.decays)
        obtain ⟨j1, j2⟩ := i2 (by simpa using hn.excitations) (by simpa using hn.thetas)
          (by simpa using hn.phis)
        by_cases hd : DecaysAllowed r.M p.decays (x.decay_excitations.drop 0)
        · obtain ⟨rows, hrows⟩ := j1 hd
          rw [hrows] at h; simp at h
        · rw [j2 hd] at h; simp at h
    · simp [ha] at h
  refine ⟨?_, key⟩
  rintro hE ⟨res, hres⟩
  cases h : eventRows p x with
  | error e => have := (key e h).2; rw [hres] at this; simp at this
  | ok o =>
    cases o with
    | none => exact absurd hE (eventRows_none hc hx hn h)
    | some rows => exact ⟨rows, rfl⟩

/-! ## The sampling loop -/

/-- What the sampling loop does: the rejected samples leave no trace. -/
theorem runLoop_spec (p : Pipeline σ) (n : ℕ) : ∀ (st : PipeState σ),
    st.result.length = 4 + 2 * p.decays.length →
    (p.runLoop n st).2.result.length = st.result.length ∧
    match p.runLoop n st with
    | (.ok v, st') => ∃ k < n, ∃ s x, SkippedBy (fun x => eventRows p x = .ok none) p k st.gen s ∧
        p.sample s = .ok (x, st'.gen) ∧ eventRows p x = .ok (some st'.result) ∧ v = x.vertex
    | (.error e, st') =>
        (SkippedBy (fun x => eventRows p x = .ok none) p n st.gen st'.gen ∧ e = .pipelineError) ∨
        (∃ k < n, ∃ s, SkippedBy (fun x => eventRows p x = .ok none) p k st.gen s ∧
          p.sample s = .error e) ∨
        (∃ k < n, ∃ s x, SkippedBy (fun x => eventRows p x = .ok none) p k st.gen s ∧
          p.sample s = .ok (x, st'.gen) ∧ eventRows p x = .error e) := by
  induction n with
  | zero => intro st _; exact ⟨rfl, .inl ⟨.zero _, rfl⟩⟩
  | succ n ih =>
    intro st hlen
    unfold Pipeline.runLoop
    cases hs : p.sample st.gen with
    | error e => exact ⟨rfl, .inr (.inl ⟨0, by omega, _, .zero _, hs⟩)⟩
    | ok res =>
      obtain ⟨x, s⟩ := res
      simp only
      obtain ⟨a1, a2⟩ := attempt_rows p x st.result hlen
      cases he : eventRows p x with
      | error e =>
        rw [he] at a2
        simp only at a2
        rcases hat : p.attempt x st.result with ⟨o, buf⟩
        rw [hat] at a1 a2
        simp only at a1 a2
        subst a2
        exact ⟨a1, .inr (.inr ⟨0, by omega, _, x, .zero _, hs, he⟩)⟩
      | ok o =>
        cases o with
        | some rows =>
          rw [he] at a2
          simp only at a2
          rw [a2] at a1 ⊢
          exact ⟨a1, 0, by omega, _, x, .zero _, hs, he, rfl⟩
        | none =>
          rw [he] at a2
          simp only at a2
          rcases hat : p.attempt x st.result with ⟨o, buf⟩
          rw [hat] at a1 a2
          simp only at a1 a2
          subst a2
          simp only
          obtain ⟨i1, i2⟩ := ih { gen := s, result := buf } (by rw [← hlen]; exact a1)
          refine ⟨by rw [i1]; exact a1, ?_⟩
          rcases hrun : p.runLoop n { gen := s, result := buf } with ⟨o, st'⟩
          rw [hrun] at i2
          cases o with
          | ok v =>
            obtain ⟨k, hk, s', x', j1, j2⟩ := i2
            exact ⟨k + 1, by omega, s', x', .succ hs he j1, j2⟩
          | error e =>
            rcases i2 with ⟨j1, j2⟩ | ⟨k, hk, s', j1, j2⟩ | ⟨k, hk, s', x', j1, j2⟩
            · exact .inl ⟨.succ hs he j1, j2⟩
            · exact .inr (.inl ⟨k + 1, by omega, s', .succ hs he j1, j2⟩)
            · exact .inr (.inr ⟨k + 1, by omega, s', x', .succ hs he j1, j2⟩)

end Verif.Kinematics
