import Verif.Proofs.Chain
import Verif.Proofs.DecayStable

/-! # C141: whole reaction chains in machine arithmetic -/

namespace Verif.Machine

open Verif.Kinematics Verif.Spec Verif.Props

/-- All components of two vectors agree up to `D`. -/
def Near (D : ℝ) (a b : Vec4) : Prop := ∀ i : Component, |i.of a - i.of b| ≤ D

/-- How far the products of a decay of a nucleus of mass `e` can be off if its own components are off by at most `δ`:
the momentum of the products depends on the mass of the parent, the more so the nearer the decay is to its threshold. -/
noncomputable def stepError (m1 m2 e δ : ℝ) : ℝ :=
  (27 * (e / productMomentum m1 m2 e) + 182) * δ + 1.6e-11 * (e ^ 2 / productMomentum m1 m2 e)

/-- The mass `m` of a nucleus, known up to errors `δ` of its components, is safely above the threshold of its decay. -/
structure DecayMargin (d : Decay) (ex m δ : ℝ) : Prop where
  first : 1 ≤ d.residual_1.mass ∧ d.residual_1.mass ≤ 1e6
  second : 1 ≤ d.residual_2.mass ∧ d.residual_2.mass ≤ 1e6
  excitation : 0 ≤ ex ∧ ex ≤ 1e6
  heavy : m ≤ 9e6
  small : δ ≤ 1e-3 * m
  margin : 2e-12 * m ^ 3 ≤ (m - (d.residual_1.mass + (d.residual_2.mass + ex)))
    * (d.residual_1.mass * (d.residual_2.mass + ex))
  room : 24 * δ ≤ m - (d.residual_1.mass + (d.residual_2.mass + ex))
  momentum : 120 * (δ * m) ≤ productMomentum d.residual_1.mass (d.residual_2.mass + ex) m ^ 2

/-- The decays of a nucleus of mass `m` with errors `δ` are all safely above their thresholds; the errors grow from
decay to decay. -/
def ChainMargin : ℝ → ℝ → List Decay → List ℝ → Prop
  | _, _, [], _ => True
  | _, _, _ :: _, [] => False
  | m, δ, d :: ds, ex :: exs => DecayMargin d ex m δ ∧
      ChainMargin (d.residual_2.mass + ex) (stepError d.residual_1.mass (d.residual_2.mass + ex) m δ) ds exs

/-- The computed products `rows` of the decays are near the exact ones `rows0`, with the errors growing from decay to
decay. -/
inductive RowsNear : ℝ → ℝ → List Decay → List ℝ → List Vec4 → List Vec4 → Prop where
  | nil (m δ exs) : RowsNear m δ [] exs [] []
  | cons {m δ d ds ex exs a b rows a0 b0 rows0} :
      Near (stepError d.residual_1.mass (d.residual_2.mass + ex) m δ) a a0 →
      Near (stepError d.residual_1.mass (d.residual_2.mass + ex) m δ) b b0 →
      RowsNear (d.residual_2.mass + ex) (stepError d.residual_1.mass (d.residual_2.mass + ex) m δ) ds exs rows rows0 →
      RowsNear m δ (d :: ds) (ex :: exs) (a :: b :: rows) (a0 :: b0 :: rows0)

/-- The nuclei that decay, the first of which is `q`, have `γ² ≤ 4.9`. -/
def SlowParents : Vec4 → List Vec4 → Prop
  | q, _ :: b :: rows => q.E ^ 2 ≤ 4.9 * q.M ^ 2 ∧ SlowParents b rows
  | _, _ => True

theorem Doubles.sub64 {rn : ℝ → ℝ} (h : Rounding rn) (a b : Vec4) : Doubles (sub64 rn a b) := by
  intro i
  rw [of_sub64]
  exact (h _).1

/-- A nucleus that is nearly `q` is slow as well. -/
theorem slow_near {q v : Vec4} {δ : ℝ} (hq : q.Massive) (hγ : q.E ^ 2 ≤ 4.9 * q.M ^ 2) (h1 : 2 ≤ q.M) (h9 : q.M ≤ 9e6)
    (hδ : δ ≤ 1e-3 * q.M) (h : Near δ v q) (hd : Doubles v) : Slow v ∧ invMass v = v.M ∧ |v.M - q.M| ≤ 5.8 * δ := by
  have hM := hq.M_pos
  have hγ5 : q.E ^ 2 ≤ 5 * q.M ^ 2 := by
    have : 0 < q.M ^ 2 := by positivity
    norm_num at hγ
    linarith
  obtain ⟨hv, n1, n2, n3⟩ := parents_near hq hγ5 hδ h
  obtain ⟨b1, -, -⟩ := slow_bounds hq hγ5
  have hvM := hv.M_pos
  have hδe : δ / q.M ≤ 1e-3 := by
    rw [div_le_iff₀ hM]
    exact hδ
  have hinv : invMass v = v.M := by
    rw [hv.M_eq]
    rfl
  have hqE : q.E / q.M ≤ 2.2136 := by
    rw [div_le_iff₀ hM]
    refine abs_le_of_sq_le_sq' ?_ (by positivity) |>.2
    rw [mul_pow]
    have : 0 < q.M ^ 2 := by positivity
    norm_num at hγ ⊢
    linarith
  have hvE : v.E / v.M ≤ 2.2286 := by
    have a := (abs_le.1 (n3 .E)).2
    simp only [Component.of] at a
    norm_num at a hδe hqE ⊢
    linarith
  have hle : v.M ≤ v.E := by
    refine abs_le_of_sq_le_sq' ?_ hv.pos.le |>.2
    have hs := hv.M_sq
    unfold Vec4.dot at hs
    nlinarith [sq_nonneg v.px, sq_nonneg v.py, sq_nonneg v.pz]
  have hE := (abs_le.1 (h .E)).2
  simp only [Component.of] at hE
  refine ⟨⟨hd, ?_, ?_, ?_⟩, hinv, n1⟩
  · norm_num at n2
    linarith
  · norm_num at b1 hE hδ h9 ⊢
    linarith
  · rw [hinv]
    rw [div_le_iff₀ hvM] at hvE
    have := pow_le_pow_left₀ hv.pos.le hvE 2
    rw [mul_pow] at this
    have : 0 < v.M ^ 2 := by positivity
    norm_num at *
    linarith

/-- One decay of a nucleus that is known up to `δ`. -/
theorem C141_step {k : Kin64} (hk : k.Accurate) {d : Decay} {ex polar azimuthal δ : ℝ} {q v : Vec4} (hq : q.Massive)
    (hγ : q.E ^ 2 ≤ 4.9 * q.M ^ 2) (hm : DecayMargin d ex q.M δ) (h : Near δ v q) (hd : Doubles v) :
    decay_allowed64 k d v ex = true ∧
    ∃ a b a0 b0, decay_calculate64 k d v polar azimuthal ex = .ok (some a, some b) ∧
      d.calculate q polar azimuthal ex = .ok (q, some a0, some b0) ∧ Doubles b ∧
      Near (stepError d.residual_1.mass (d.residual_2.mass + ex) q.M δ) a a0 ∧
      Near (stepError d.residual_1.mass (d.residual_2.mass + ex) q.M δ) b b0 := by
  obtain ⟨⟨a1, a2⟩, ⟨b1, b2⟩, ⟨x1, x2⟩, h9, hδ, hmar, hroom, hmom⟩ := hm
  have hM := hq.M_pos
  have hδ0 : 0 ≤ δ := (abs_nonneg _).trans (h .E)
  have hm2 : 1 ≤ d.residual_2.mass + ex := by linarith
  have hM2 : 2 ≤ q.M := by linarith
  have hsum : d.residual_1.mass + d.residual_2.mass + ex = d.residual_1.mass + (d.residual_2.mass + ex) := by ring
  obtain ⟨hv, hinv, n1⟩ := slow_near hq hγ hM2 h9 hδ h hd
  obtain ⟨-, hal, -⟩ := hv.massive
  have hvm := hv.massive.1
  obtain ⟨s1, s2, s3, -, -, -⟩ := momentum_bounds a1 hm2 hM (le_trans (by
    have : 0 < q.M ^ 3 := by positivity
    norm_num
    linarith) hmar)
  have hPpos : 0 < productMomentum d.residual_1.mass (d.residual_2.mass + ex) q.M := lt_of_lt_of_le (by positivity) s2
  have al := abs_le.1 n1
  have hgap : 0.758 * (q.M - (d.residual_1.mass + (d.residual_2.mass + ex)))
      ≤ v.M - (d.residual_1.mass + (d.residual_2.mass + ex)) := by
    obtain ⟨al1, al2⟩ := al
    norm_num at al1 hroom ⊢
    linarith
  have hgap0 : 8e-12 * q.M ≤ q.M - (d.residual_1.mass + (d.residual_2.mass + ex)) := by
    have hp : d.residual_1.mass * (d.residual_2.mass + ex) ≤ q.M ^ 2 / 4 := by
      nlinarith [sq_nonneg (d.residual_1.mass - (d.residual_2.mass + ex))]
    have hg0 : 0 ≤ q.M - (d.residual_1.mass + (d.residual_2.mass + ex)) := by linarith
    have h3 := hmar.trans (mul_le_mul_of_nonneg_left hp hg0)
    have h4 : (q.M ^ 2 / 4) * (8e-12 * q.M) ≤ (q.M ^ 2 / 4) * (q.M - (d.residual_1.mass + (d.residual_2.mass + ex))) := by
      norm_num at h3 ⊢
      linarith
    exact le_of_mul_le_mul_left h4 (by positivity)
  have hup : v.M ≤ 1.0058 * q.M := by
    obtain ⟨al1, al2⟩ := al
    norm_num at al2 hδ ⊢
    linarith
  have he' : d.residual_1.mass + (d.residual_2.mass + ex) ≤ v.M := by
    norm_num at hgap hgap0
    linarith
  have hmar' : 1e-12 * invMass v ^ 3 ≤ (invMass v - (d.residual_1.mass + (d.residual_2.mass + ex)))
      * (d.residual_1.mass * (d.residual_2.mass + ex)) := by
    rw [hinv]
    have hpp : 0 ≤ d.residual_1.mass * (d.residual_2.mass + ex) := by positivity
    have h3 := mul_le_mul_of_nonneg_right hgap hpp
    have h4 := pow_le_pow_left₀ hvm.M_pos.le hup 3
    rw [mul_pow] at h4
    have : 0 < q.M ^ 3 := by positivity
    refine le_trans ?_ h3
    norm_num at h4 hmar ⊢
    linarith
  have hallow : decay_allowed64 k d v ex = true := by
    refine (C136_decay_allowed hk.toBoostOk a1 a2 b1 b2 hv x1 x2).1 ?_
    rw [hinv, hsum]
    norm_num at hgap hgap0 ⊢
    linarith
  refine ⟨hallow, ?_⟩
  have hres : ∃ res, decay_calculate64 k d v polar azimuthal ex = .ok res := by
    unfold decay_allowed64 at hallow
    simp only [gt_iff_lt, decide_eq_true_eq] at hallow
    unfold decay_calculate64
    simp only
    rw [if_neg (not_lt.2 hallow.le)]
    repeat' split
    all_goals exact ⟨_, rfl⟩
  obtain ⟨res, hres⟩ := hres
  have hx0 := decay_closed (d := d) (ex := ex) (polar := polar) (azimuthal := azimuthal) hq (by linarith) (by linarith) s1
  have hxv := decay_closed (d := d) (ex := ex) (polar := polar) (azimuthal := azimuthal) hvm (by linarith) (by linarith) he'
  have hin7 : invMass v ≤ 1e7 := by
    rw [hinv]
    norm_num at hup h9 ⊢
    linarith
  obtain ⟨a', b', c', p', e1, -, e2, -⟩ := C136_decay_finite hk.toBoostOk a1 b1 b2 hv hin7 x1 x2 hmar' hres
  obtain ⟨a, b, av, bv, f1, f2, near⟩ := C138_decay hk a1 b1 b2 hv hin7 x1 x2 hmar' hres hxv
  cases e1
  cases f1
  cases f2
  have hstable := decay_stable (polar := polar) (azimuthal := azimuthal) (by linarith : 0 < d.residual_1.mass)
    (by linarith : 0 < d.residual_2.mass + ex) hq hγ hδ h s1 he' hPpos
  have hd' : Doubles b' := by
    rw [e2]
    exact Doubles.sub64 hk.rounding _ _
  refine ⟨a', b', _, _, hres, hx0, hd', ?_⟩
  rw [hinv] at near
  have hPv : 0.9 * productMomentum d.residual_1.mass (d.residual_2.mass + ex) q.M
      ≤ productMomentum d.residual_1.mass (d.residual_2.mass + ex) v.M := by
    obtain ⟨-, s⟩ := cm_stable (by linarith : 0 < d.residual_1.mass) (by linarith : 0 < d.residual_2.mass + ex) s1 he' n1
      (by norm_num at hδ ⊢; linarith) hPpos
    have h3 : 2.04 * (5.8 * δ) * (q.M / productMomentum d.residual_1.mass (d.residual_2.mass + ex) q.M)
        ≤ 0.1 * productMomentum d.residual_1.mass (d.residual_2.mass + ex) q.M := by
      rw [← mul_div_assoc, div_le_iff₀ hPpos]
      norm_num at hmom ⊢
      nlinarith
    have := (abs_le.1 s).1
    norm_num at h3 ⊢
    linarith
  have hround : 1.4e-11 * (v.M ^ 2 / productMomentum d.residual_1.mass (d.residual_2.mass + ex) v.M)
      ≤ 1.6e-11 * (q.M ^ 2 / productMomentum d.residual_1.mass (d.residual_2.mass + ex) q.M) := by
    have hPv0 : 0 < productMomentum d.residual_1.mass (d.residual_2.mass + ex) v.M := lt_of_lt_of_le (by positivity) hPv
    have h4 := pow_le_pow_left₀ hvm.M_pos.le hup 2
    rw [mul_pow] at h4
    generalize productMomentum d.residual_1.mass (d.residual_2.mass + ex) v.M = P' at *
    generalize productMomentum d.residual_1.mass (d.residual_2.mass + ex) q.M = P at *
    rw [← mul_div_assoc, ← mul_div_assoc, div_le_div_iff₀ hPv0 hPpos]
    have hq2 : 0 < q.M ^ 2 := by positivity
    calc 1.4e-11 * v.M ^ 2 * P ≤ 1.4e-11 * (1.0058 ^ 2 * q.M ^ 2) * P := by
          refine mul_le_mul_of_nonneg_right ?_ hPpos.le
          exact mul_le_mul_of_nonneg_left h4 (by norm_num)
      _ ≤ 1.6e-11 * q.M ^ 2 * (0.9 * P) := by
          have : 0 < q.M ^ 2 * P := by positivity
          norm_num
          nlinarith
      _ ≤ _ := mul_le_mul_of_nonneg_left hPv (by positivity)
  unfold stepError
  constructor
  · intro i
    have n := (near i).1
    have s := hstable i
    generalize 1.6e-11 * (q.M ^ 2 / productMomentum d.residual_1.mass (d.residual_2.mass + ex) q.M) = R at *
    refine (abs_sub_le _ _ _).trans ((add_le_add (n.trans hround) s).trans ?_)
    linarith
  · intro i
    have n := (near i).2
    have s := hstable i
    have s' := h i
    rw [of_sub] at n ⊢
    generalize 1.6e-11 * (q.M ^ 2 / productMomentum d.residual_1.mass (d.residual_2.mass + ex) q.M) = R at *
    have n' := abs_le.1 (n.trans hround)
    have s1 := abs_le.1 s
    have s2 := abs_le.1 s'
    rw [abs_le]
    constructor <;> linarith

/-- **C141.** Decay loops: if exact arithmetic accepts the decays of `q` and they are safely above their thresholds, then
float64 accepts them too for any nucleus `v` that is nearly `q`, and the products are near the exact ones. -/
theorem C141_decays {k : Kin64} (hk : k.Accurate) (x : Sample) (ds : List Decay) : ∀ (idx : ℕ) (q v : Vec4) (δ : ℝ)
    (rows0 : List Vec4), q.Massive → Near δ v q → Doubles v → ChainMargin q.M δ ds (x.decay_excitations.drop idx) →
    decayRows x idx ds (some q) = .ok (some (rows0.map some)) → SlowParents q rows0 →
    ∃ rows, decayLoop64 k x idx ds v = .ok (some rows) ∧ RowsNear q.M δ ds (x.decay_excitations.drop idx) rows rows0 := by
  induction ds with
  | nil =>
    intro idx q v δ rows0 hq h hd hm h0 hs
    simp only [decayRows, Except.ok.injEq, Option.some.injEq] at h0
    have : rows0 = [] := List.map_eq_nil_iff.1 h0.symm
    subst this
    exact ⟨[], rfl, .nil _ _ _⟩
  | cons d ds ih =>
    intro idx q v δ rows0 hq h hd hm h0 hs
    cases hx : x.decay_excitations[idx]? with
    | none => simp [decayRows, listGet, hx] at h0
    | some ex =>
      obtain ⟨hlt, hxe⟩ := List.getElem?_eq_some_iff.1 hx
      have hdrop : x.decay_excitations.drop idx = ex :: x.decay_excitations.drop (idx + 1) := by
        rw [← hxe]; exact List.drop_eq_getElem_cons hlt
      have hg : listGet x.decay_excitations idx = .ok ex := listGet_some hx
      rw [hdrop] at hm ⊢
      obtain ⟨hm1, hm2⟩ := hm
      unfold decayRows at h0
      by_cases ha : d.is_excitation_allowed q ex = true
      · simp only [hg, ha, Bool.not_true, Bool.false_eq_true, if_false] at h0
        cases ht : listGet x.decay_thetas idx with
        | error e => rw [ht] at h0; simp [bind, Except.bind] at h0
        | ok theta =>
        cases hph : listGet x.decay_phis idx with
        | error e => rw [ht, hph] at h0; simp [bind, Except.bind] at h0
        | ok phi =>
        have p2 : 0 < d.residual_2.mass + ex := by linarith [hm1.second.1, hm1.excitation.1]
        obtain ⟨a0, b0, hcalc, -, -, hbM, -, hbE, hbM2⟩ := C45_decay hq (by linarith [hm1.first.1]) p2.le ha theta phi
        have hbm : b0.Massive := massive_of_M2 p2 hbM2 hbE
        rw [ht, hph] at h0
        simp only [bind, Except.bind, hcalc] at h0
        cases hr : decayRows x (idx + 1) ds (some b0) with
        | error e => rw [hr] at h0; simp at h0
        | ok o =>
          cases o with
          | none => rw [hr] at h0; simp at h0
          | some rows' =>
            rw [hr] at h0
            simp only [Except.ok.injEq, Option.some.injEq] at h0
            match rows0, h0, hs with
            | a1 :: b1 :: rest, h0, hs =>
              simp only [List.map_cons, List.cons.injEq, Option.some.injEq] at h0
              obtain ⟨rfl, rfl, rfl⟩ := h0
              obtain ⟨hs1, hs2⟩ := hs
              obtain ⟨hall, a, b, a', b', c1, c2, c3, c4, c5⟩ :=
                C141_step (polar := theta) (azimuthal := phi) hk hq hs1 hm1 h hd
              rw [hcalc] at c2
              cases c2
              obtain ⟨rows, r1, r2⟩ := ih (idx + 1) b0 b _ rest hbm c5 c3 (by rw [hbM]; exact hm2) hr hs2
              refine ⟨a :: b :: rows, ?_, .cons c4 c5 (by rw [hbM] at r2; exact r2)⟩
              rw [decayLoop64]
              simp only [hg, hall, ht, hph, c1, r1, bind, Except.bind, Bool.not_true, Bool.false_eq_true, if_false]
              rfl
      · simp [hg, ha] at h0

/-- The rows of an accepted event, from `attempt`. -/
theorem attempt_event {σ : Type} {p : Pipeline σ} {x : Sample} {buf rows : List ResultRow}
    (hb : buf.length = 4 + 2 * p.decays.length) (h : p.attempt x buf = (.ok true, rows)) :
    eventRows p x = .ok (some rows) := by
  obtain ⟨-, h2⟩ := attempt_rows p x buf hb
  rw [h] at h2
  cases he : eventRows p x with
  | error e => rw [he] at h2; simp at h2
  | ok o =>
    rw [he] at h2
    cases o with
    | none => simp at h2
    | some rows' =>
      simp only [Prod.mk.injEq, true_and] at h2
      rw [h2]

/-- How far the products of the reaction can be off. -/
noncomputable def reactionError (r : Reaction) (T ex : ℝ) : ℝ :=
  1.4e-11 * (cmEnergy r T ^ 2 / productMomentum r.ejectile.mass (r.residual.mass + ex) (cmEnergy r T))

/-- Safely above its threshold the reaction is accepted in float64 and in exact arithmetic. -/
theorem reaction_margin {k : Kin64} (hk : k.Accurate) {r : Reaction} (hm : MassesOk r) {T ex : ℝ} (hT : 1e-6 ≤ T)
    (hT2 : T ≤ r.target.mass + r.projectile.mass) (hx : 0 ≤ ex) (hx2 : ex ≤ 1e6)
    (hmargin : 1e-12 * cmEnergy r T ^ 3
      ≤ (cmEnergy r T - outMass r ex) * (r.ejectile.mass * (r.residual.mass + ex))) :
    reaction_allowed64 k r T ex = true ∧ r.is_excitation_allowed T ex = true := by
  have T0 : 0 ≤ T := le_trans (by norm_num) hT
  have hro : ReactionOk r := ⟨by linarith [hm.target.1], by linarith [hm.projectile.1], by linarith [hm.ejectile.1]⟩
  have e1 := hm.ejectile.1
  have e2 := hm.residual.1
  have e0 : 0 < cmEnergy r T := by
    unfold cmEnergy
    refine Real.sqrt_pos.2 ?_
    have := hm.target.1
    have := hm.projectile.1
    positivity
  have key : outMass r ex * (1 + 1e-14) < cmEnergy r T := by
    have hout : outMass r ex = r.ejectile.mass + (r.residual.mass + ex) := by unfold outMass; ring
    rw [hout] at hmargin ⊢
    have hm2 : 1 ≤ r.residual.mass + ex := by linarith
    obtain ⟨s1, -⟩ := momentum_bounds e1 hm2 e0 hmargin
    generalize r.residual.mass + ex = m2 at *
    generalize r.ejectile.mass = m1 at *
    generalize cmEnergy r T = E at *
    have hp : m1 * m2 ≤ E ^ 2 / 4 := by nlinarith [sq_nonneg (m1 - m2)]
    have h3 := hmargin.trans (mul_le_mul_of_nonneg_left hp (by linarith))
    have h4 : (E ^ 2 / 4) * (4e-12 * E) ≤ (E ^ 2 / 4) * (E - (m1 + m2)) := by
      norm_num at h3 ⊢
      linarith
    have h5 := le_of_mul_le_mul_left h4 (by positivity)
    norm_num at h5 ⊢
    linarith
  refine ⟨(C136_allowed hk.rounding hm hT hT2 hx hx2).1 key, ?_⟩
  rw [C42_reaction hro T0, parent_M hro T0]
  have hc : Verif.Props.cmEnergy r T = cmEnergy r T := rfl
  rw [hc]
  have : 0 < outMass r ex := by unfold outMass; linarith
  have : outMass r ex < cmEnergy r T := by norm_num at key; linarith
  unfold outMass at this
  linarith

/-- **C141.** Events: if exact arithmetic accepts a sample, safely above all thresholds and with parents that are not
too fast, then float64 accepts the same sample, and all rows of the event are near the exact ones. -/
theorem C141_event {σ : Type} {k : Kin64} (hk : k.Accurate) {p : Pipeline σ} (hm : MassesOk p.reaction) {x : Sample}
    (hT : 1e-6 ≤ x.beam_energy) (hT2 : x.beam_energy ≤ p.reaction.target.mass + p.reaction.projectile.mass)
    (hx : 0 ≤ x.reaction_excitation) (hx2 : x.reaction_excitation ≤ 1e6)
    (hmargin : 1e-12 * cmEnergy p.reaction x.beam_energy ^ 3
      ≤ (cmEnergy p.reaction x.beam_energy - outMass p.reaction x.reaction_excitation)
        * (p.reaction.ejectile.mass * (p.reaction.residual.mass + x.reaction_excitation)))
    (hraise : ∀ err, reaction_calculate64 k p.reaction x.beam_energy x.reaction_theta x.reaction_phi x.reaction_excitation
      ≠ .error err)
    (hchain : ChainMargin (p.reaction.residual.mass + x.reaction_excitation)
      (reactionError p.reaction x.beam_energy x.reaction_excitation) p.decays x.decay_excitations)
    {buf : List ResultRow} (hb : buf.length = 4 + 2 * p.decays.length) {t0 b0 e0 r0 : Vec4} {rows0 : List Vec4}
    (h0 : p.attempt x buf = (.ok true, (t0 :: b0 :: e0 :: r0 :: rows0).map some)) (hs : SlowParents r0 rows0) :
    ∃ b e r rows, attempt64 k p x = .ok (some (t0 :: b :: e :: r :: rows)) ∧
      Near (1e-15 * cmEnergy p.reaction x.beam_energy) b b0 ∧
      Near (reactionError p.reaction x.beam_energy x.reaction_excitation) e e0 ∧
      Near (reactionError p.reaction x.beam_energy x.reaction_excitation) r r0 ∧
      RowsNear (p.reaction.residual.mass + x.reaction_excitation)
        (reactionError p.reaction x.beam_energy x.reaction_excitation) p.decays x.decay_excitations rows rows0 := by
  have hr := hk.rounding
  have T0 : 0 ≤ x.beam_energy := le_trans (by norm_num) hT
  have hro : ReactionOk p.reaction :=
    ⟨by linarith [hm.target.1], by linarith [hm.projectile.1], by linarith [hm.ejectile.1]⟩
  have hres : 0 < p.reaction.residual.mass + x.reaction_excitation := by linarith [hm.residual.1]
  have hev := attempt_event hb h0
  unfold eventRows at hev
  by_cases ha : p.reaction.is_excitation_allowed x.beam_energy x.reaction_excitation = true
  · simp only [ha, Bool.not_true, Bool.false_eq_true, if_false] at hev
    cases hcalc : p.reaction.calculate x.beam_energy x.reaction_theta x.reaction_phi x.reaction_excitation with
    | error e => rw [hcalc] at hev; simp at hev
    | ok res =>
      obtain ⟨t, b, e, r, rfl, h1, h2, h3, h4, h5, h6, h7, h8, h9, h10, h11⟩ := C40_reaction hro T0 hres.le ha _ _ hcalc
      rw [hcalc] at hev
      simp only at hev
      have hrm : r.Massive := massive_of_M2 hres (M2_of_M hres h9) h11
      cases hd : decayRows x 0 p.decays (some r) with
      | error e => rw [hd] at hev; simp at hev
      | ok o =>
        cases o with
        | none => rw [hd] at hev; simp at hev
        | some rows' =>
          rw [hd] at hev
          simp only [List.map_cons, Except.ok.injEq, Option.some.injEq, List.cons.injEq] at hev
          obtain ⟨rfl, rfl, rfl, rfl, rfl⟩ := hev
          obtain ⟨hall, -⟩ := reaction_margin hk hm hT hT2 hx hx2 hmargin
          rcases hc64 : reaction_calculate64 k p.reaction x.beam_energy x.reaction_theta x.reaction_phi
              x.reaction_excitation with err | res
          · exact absurd hc64 (hraise err)
          · obtain ⟨b', e', s', c, pp, f1, -, f2, -⟩ := C136_finite hk.toBoostOk hm hT hT2 hx hx2 hmargin hc64
            obtain ⟨t, b, e, s, b0, e0, s0, g1, g2, near⟩ := C138_reaction hk hm hT hT2 hx hx2 hmargin hc64 hcalc
            subst f1
            cases g1
            cases g2
            have hsd : Doubles s' := by
              rw [f2]
              exact Doubles.sub64 hr _ _
            have hns : Near (reactionError p.reaction x.beam_energy x.reaction_excitation) s' r := fun i => (near i).2.2
            obtain ⟨rows, j1, j2⟩ := C141_decays hk x p.decays 0 r s' _ rows0 hrm hns hsd
              (by rw [h9]; exact hchain) hd hs
            rw [h9] at j2
            refine ⟨b', e', s', rows, ?_, fun i => (near i).1, fun i => (near i).2.1, hns, j2⟩
            unfold attempt64
            simp only [hall, hc64, j1, bind, Except.bind, Bool.not_true, Bool.false_eq_true, if_false]
            rfl
  · simp [ha] at hev

/-- Exact arithmetic rejects the decays of `q`, by a safe margin: the first decay is below its threshold, or it is above
its threshold and the decays of its second product are rejected. -/
inductive Rejected (x : Sample) : ℕ → ℝ → List Decay → Vec4 → Prop where
  | here {idx δ d ds q ex} : x.decay_excitations[idx]? = some ex → q.E ^ 2 ≤ 4.9 * q.M ^ 2 → 2 ≤ q.M → q.M ≤ 9e6 →
      δ ≤ 1e-3 * q.M → 1 ≤ d.residual_1.mass → d.residual_1.mass ≤ 1e6 → 1 ≤ d.residual_2.mass →
      d.residual_2.mass ≤ 1e6 → 0 ≤ ex → ex ≤ 1e6 →
      (q.M + 5.8 * δ) * (1 + 2e-13) < d.residual_1.mass + d.residual_2.mass + ex → Rejected x idx δ (d :: ds) q
  | later {idx δ d ds q ex theta phi a b} : x.decay_excitations[idx]? = some ex → x.decay_thetas[idx]? = some theta →
      x.decay_phis[idx]? = some phi → q.E ^ 2 ≤ 4.9 * q.M ^ 2 → DecayMargin d ex q.M δ →
      d.calculate q theta phi ex = .ok (q, some a, some b) →
      Rejected x (idx + 1) (stepError d.residual_1.mass (d.residual_2.mass + ex) q.M δ) ds b → Rejected x idx δ (d :: ds) q

theorem rejected_both {k : Kin64} (hk : k.Accurate) {x : Sample} {idx : ℕ} {δ : ℝ} {ds : List Decay} {q : Vec4}
    (h : Rejected x idx δ ds q) : ∀ v : Vec4, q.Massive → Near δ v q → Doubles v →
    decayLoop64 k x idx ds v = .ok none ∧ decayRows x idx ds (some q) = .ok none := by
  induction h with
  | @here idx δ d ds q ex hx hγ h2 h9 hδ a1 a2 b1 b2 x1 x2 hlt =>
    intro v hq hn hd
    have hδ0 : 0 ≤ δ := (abs_nonneg _).trans (hn .E)
    obtain ⟨hv, hinv, n1⟩ := slow_near hq hγ h2 h9 hδ hn hd
    have f : decay_allowed64 k d v ex = false := by
      refine (C136_decay_allowed hk.toBoostOk a1 a2 b1 b2 hv x1 x2).2 (lt_of_le_of_lt ?_ hlt)
      rw [hinv]
      exact mul_le_mul_of_nonneg_right (by linarith [(abs_le.1 n1).2]) (by norm_num)
    have f0 : d.is_excitation_allowed q ex ≠ true := by
      intro hc
      have := (C42_decay d q ex).1 hc
      norm_num at hlt
      linarith
    refine ⟨?_, ?_⟩
    · rw [decayLoop64]
      simp only [listGet_some hx, f, bind, Except.bind, Bool.not_false, if_true]
      rfl
    · rw [decayRows]
      simp [listGet_some hx, f0]
  | @later idx δ d ds q ex theta phi a b hx ht hp hγ hm hcalc hrej ih =>
    intro v hq hn hd
    obtain ⟨hall, a', b', a0, b0, c1, c2, c3, c4, c5⟩ :=
      C141_step (polar := theta) (azimuthal := phi) hk hq hγ hm hn hd
    rw [hcalc] at c2
    cases c2
    have p2 : 0 < d.residual_2.mass + ex := by linarith [hm.second.1, hm.excitation.1]
    have ha : d.is_excitation_allowed q ex = true := by
      refine (C42_decay d q ex).2 ?_
      have h3 : 0 < (q.M - (d.residual_1.mass + (d.residual_2.mass + ex)))
          * (d.residual_1.mass * (d.residual_2.mass + ex)) :=
        lt_of_lt_of_le (by have := hq.M_pos; positivity) hm.margin
      have h4 : 0 < d.residual_1.mass * (d.residual_2.mass + ex) := mul_pos (by linarith [hm.first.1]) p2
      have := (pos_iff_pos_of_mul_pos h3).2 h4
      linarith
    obtain ⟨a1, b1, hcalc', -, -, hbM, -, hbE, hbM2⟩ := C45_decay hq (by linarith [hm.first.1]) p2.le ha theta phi
    rw [hcalc] at hcalc'
    cases hcalc'
    obtain ⟨i1, i2⟩ := ih b' (massive_of_M2 p2 hbM2 hbE) c5 c3
    refine ⟨?_, ?_⟩
    · rw [decayLoop64]
      simp only [listGet_some hx, hall, listGet_some ht, listGet_some hp, c1, i1, bind, Except.bind, Bool.not_true,
        Bool.false_eq_true, if_false]
      rfl
    · rw [decayRows]
      simp only [listGet_some hx, ha, listGet_some ht, listGet_some hp, hcalc, i2, bind, Except.bind, Bool.not_true,
        Bool.false_eq_true, if_false]

/-- **C141.** A sample that exact arithmetic rejects at one of the decays, safely below its threshold, is rejected in
float64 as well (without an exception), so that both draw the next sample. -/
theorem C141_rejected {σ : Type} {k : Kin64} (hk : k.Accurate) {p : Pipeline σ} (hm : MassesOk p.reaction) {x : Sample}
    (hT : 1e-6 ≤ x.beam_energy) (hT2 : x.beam_energy ≤ p.reaction.target.mass + p.reaction.projectile.mass)
    (hx : 0 ≤ x.reaction_excitation) (hx2 : x.reaction_excitation ≤ 1e6)
    (hmargin : 1e-12 * cmEnergy p.reaction x.beam_energy ^ 3
      ≤ (cmEnergy p.reaction x.beam_energy - outMass p.reaction x.reaction_excitation)
        * (p.reaction.ejectile.mass * (p.reaction.residual.mass + x.reaction_excitation)))
    (hraise : ∀ err, reaction_calculate64 k p.reaction x.beam_energy x.reaction_theta x.reaction_phi x.reaction_excitation
      ≠ .error err)
    {t0 b0 e0 r0 : Vec4} (h0 : p.reaction.calculate x.beam_energy x.reaction_theta x.reaction_phi x.reaction_excitation
      = .ok (t0, some b0, some e0, some r0))
    (hrej : Rejected x 0 (reactionError p.reaction x.beam_energy x.reaction_excitation) p.decays r0)
    {buf : List ResultRow} (hb : buf.length = 4 + 2 * p.decays.length) :
    attempt64 k p x = .ok none ∧ (p.attempt x buf).1 = .ok false := by
  have hr := hk.rounding
  have T0 : 0 ≤ x.beam_energy := le_trans (by norm_num) hT
  have hro : ReactionOk p.reaction :=
    ⟨by linarith [hm.target.1], by linarith [hm.projectile.1], by linarith [hm.ejectile.1]⟩
  have hres : 0 < p.reaction.residual.mass + x.reaction_excitation := by linarith [hm.residual.1]
  obtain ⟨hall, hall0⟩ := reaction_margin hk hm hT hT2 hx hx2 hmargin
  obtain ⟨t, b, e, r, f0, h1, h2, h3, h4, h5, h6, h7, h8, h9, h10, h11⟩ := C40_reaction hro T0 hres.le hall0 _ _ h0
  cases f0
  have hrm : r0.Massive := massive_of_M2 hres (M2_of_M hres h9) h11
  rcases hc64 : reaction_calculate64 k p.reaction x.beam_energy x.reaction_theta x.reaction_phi
      x.reaction_excitation with err | res
  · exact absurd hc64 (hraise err)
  · obtain ⟨b', e', s', c, pp, f1, -, f2, -⟩ := C136_finite hk.toBoostOk hm hT hT2 hx hx2 hmargin hc64
    obtain ⟨t, b, e, s, b0, e0, s0, g1, g2, near⟩ := C138_reaction hk hm hT hT2 hx hx2 hmargin hc64 h0
    subst f1
    cases g1
    cases g2
    have hsd : Doubles s' := by
      rw [f2]
      exact Doubles.sub64 hr _ _
    obtain ⟨j1, j2⟩ := rejected_both hk hrej s' hrm (fun i => (near i).2.2) hsd
    constructor
    · unfold attempt64
      simp only [hall, hc64, j1, bind, Except.bind, Bool.not_true, Bool.false_eq_true, if_false]
      rfl
    · have hev : eventRows p x = .ok none := by
        unfold eventRows
        simp only [hall0, Bool.not_true, Bool.false_eq_true, if_false, h0, j2]
      have := (attempt_rows p x buf hb).2
      rw [hev] at this
      exact this

/-! ## Example -/

/-- An excited alpha-like nucleus that emits a proton-like one. -/
def exSplit : Decay := ⟨⟨2, 4, 3727, "t"⟩, ⟨1, 1, 938, "p"⟩, ⟨1, 3, 2780, "u"⟩⟩

/-- Inelastic scattering, followed by a decay. -/
noncomputable def exChain : Pipeline Unit := ⟨exScatter, [exSplit], [], [], 10, none, 1,
  { normal := fun m _ s => (m, s), uniform := fun a _ s => (a, s) }⟩

/-- A sample with an excitation of 5 MeV; the second product of the decay has the excitation `ex`. -/
noncomputable def exDraw (ex : ℝ) : Sample := ⟨10, 5, 1, 2, (0, 0, 0), [ex], [1 / 2], [1]⟩

theorem exChain_raise {rn : ℝ → ℝ} (h : Rounding rn) (err : PyErr) :
    reaction_calculate64 (exactKin rn) exScatter 10 1 2 5 ≠ .error err := by
  have i1 : ∀ n : ℤ, |n| < 2 ^ 53 → rn (n : ℝ) = n := fun n hn => h.int hn
  have r1 : rn 4665 = 4665 := by simpa using i1 4665 (by norm_num)
  have r2 : rn 3727 = 3727 := by simpa using i1 3727 (by norm_num)
  have r3 : rn 4670 = 4670 := by simpa using i1 4670 (by norm_num)
  have r4 : rn (-5) = -5 := by simpa using i1 (-5) (by norm_num)
  have r5 : rn 23325 = 23325 := by simpa using i1 23325 (by norm_num)
  have m7 : (7 : ℝ) ∈ Binary64 := by simpa using int_mem (n := 7) (by norm_num)
  have r6 : rn (23325 / 3727) ≤ 7 := h.le_of_le m7 (by norm_num)
  unfold reaction_calculate64
  simp only [exactKin, exScatter]
  norm_num [r1, r2, r3, r4, r5]
  rw [if_neg (by linarith)]
  repeat' split
  all_goals simp

theorem exChain_margin : 1e-12 * cmEnergy exScatter 10 ^ 3
    ≤ (cmEnergy exScatter 10 - outMass exScatter 5) * (exScatter.ejectile.mass * (exScatter.residual.mass + 5)) := by
  obtain ⟨e1, e2⟩ := exScatter_energy
  have hx : outMass exScatter 5 = 4670 := by norm_num [outMass, exScatter]
  have hy : exScatter.ejectile.mass * (exScatter.residual.mass + 5) = 3500616 := by norm_num [exScatter]
  rw [hx, hy]
  have := pow_le_pow_left₀ (by linarith : 0 ≤ cmEnergy exScatter 10) e2.le 3
  norm_num at this ⊢
  linarith

theorem exChain_error : 0 ≤ reactionError exScatter 10 5 ∧ reactionError exScatter 10 5 ≤ 8e-6 := by
  obtain ⟨e1, e2⟩ := exScatter_energy
  have hm1 : exScatter.ejectile.mass = 938 := rfl
  have hm2 : exScatter.residual.mass + 5 = 3732 := by norm_num [exScatter]
  have hP : 38.5 ≤ productMomentum 938 3732 (cmEnergy exScatter 10) := by
    refine Real.le_sqrt_of_sq_le ?_
    refine le_trans ?_ (momentum_low (by norm_num) (by norm_num) (by linarith))
    rw [le_div_iff₀ (by linarith)]
    norm_num
    linarith
  unfold reactionError
  rw [hm1, hm2]
  have hsq := pow_le_pow_left₀ (by linarith : 0 ≤ cmEnergy exScatter 10) e2.le 2
  refine ⟨by positivity, ?_⟩
  have : cmEnergy exScatter 10 ^ 2 / productMomentum 938 3732 (cmEnergy exScatter 10) ≤ 5.7e5 := by
    rw [div_le_iff₀ (by linarith)]
    norm_num at hsq hP ⊢
    linarith
  norm_num at this ⊢
  linarith

theorem exSplit_momentum : 98 ≤ productMomentum 938 2780 3732 := by
  refine Real.le_sqrt_of_sq_le ?_
  unfold productEnergy
  norm_num

theorem exSplit_margin : DecayMargin exSplit 0 3732 (reactionError exScatter 10 5) := by
  obtain ⟨d0, d1⟩ := exChain_error
  have hP := exSplit_momentum
  have hsq := pow_le_pow_left₀ (by norm_num) hP 2
  have e1 : exSplit.residual_1.mass = 938 := rfl
  have e2 : exSplit.residual_2.mass = 2780 := rfl
  have e3 : exSplit.residual_2.mass + 0 = 2780 := by rw [e2, add_zero]
  constructor
  · rw [e1]; norm_num
  · rw [e2]; norm_num
  · norm_num
  · norm_num
  · norm_num at d1 ⊢; linarith
  · rw [e1, e3]; norm_num
  · rw [e1, e3]; norm_num at d1 ⊢; linarith
  · rw [e1, e3]
    norm_num at d1 hsq ⊢
    linarith

theorem exSplit_error : stepError 938 2780 3732 (reactionError exScatter 10 5) ≤ 1e-2 := by
  obtain ⟨d0, d1⟩ := exChain_error
  have hP := exSplit_momentum
  unfold stepError
  have h1 : 3732 / productMomentum 938 2780 3732 ≤ 38.1 := by
    rw [div_le_iff₀ (by linarith)]
    norm_num
    linarith
  have h2 : (3732 : ℝ) ^ 2 / productMomentum 938 2780 3732 ≤ 143000 := by
    rw [div_le_iff₀ (by linarith)]
    linarith
  have h3 : (27 * (3732 / productMomentum 938 2780 3732) + 182) * reactionError exScatter 10 5 ≤ 1211 * 8e-6 := by
    refine mul_le_mul ?_ d1 d0 (by norm_num)
    norm_num at h1 ⊢
    linarith
  norm_num at h2 h3 ⊢
  linarith

/-- The exact event. -/
theorem exChain_event (ex : ℝ) (h0 : 0 ≤ ex) (h1 : ex < 14) : ∃ t b e r a s : Vec4,
    exChain.attempt (exDraw ex) (List.replicate 6 none) = (.ok true, [t, b, e, r, a, s].map some) ∧
    r.E ^ 2 ≤ 4.9 * r.M ^ 2 := by
  obtain ⟨e1, e2⟩ := exScatter_energy
  have hc : ChainOk exChain := by
    refine ⟨by norm_num [exChain, exScatter], by norm_num [exChain, exScatter], by norm_num [exChain, exScatter], ?_⟩
    simp [exChain, exSplit]
  have hx : SampleOk exChain (exDraw ex) := by
    refine ⟨by norm_num [exChain, exScatter, exDraw], by norm_num [exChain, exScatter, exDraw], ?_⟩
    simp [exChain, exSplit, exDraw]
    linarith
  have hn : Enough exChain (exDraw ex) := by constructor <;> simp [exChain, exDraw]
  have hE : EnergyAllowed exChain (exDraw ex) := by
    refine ⟨by norm_num [exDraw], ?_, ?_, trivial⟩
    · change exScatter.ejectile.mass + exScatter.residual.mass + 5 < cmEnergy exScatter 10
      norm_num [exScatter] at e1 ⊢
      linarith
    · norm_num [exSplit, exChain, exDraw, exScatter]
      linarith
  have hro : ReactionOk exScatter := ⟨hc.target, hc.projectile, hc.ejectile⟩
  have hall : exScatter.is_excitation_allowed 10 5 = true := (reaction_allowed_iff hc hx).2 ⟨hE.1, hE.2.1⟩
  obtain ⟨t', b', e', r', hcalc⟩ := C43_partial hro (T := 10) (by norm_num) (Ex := 5) (by norm_num [exScatter]) hall
    (by norm_num [exScatter]) (.inl (by norm_num [exScatter])) 1 2
  obtain ⟨rows, hrows⟩ := (eventRows_cases hc hx hn).1 hE ⟨_, hcalc⟩
  obtain ⟨-, t, b, e, r, rs, rfl, hev⟩ := eventRows_some hc hx hrows
  have hlen := DecaysOk_length hev.decays
  have h2 := (attempt_rows exChain (exDraw ex) (List.replicate 6 none) (by simp [exChain])).2
  rw [hrows] at h2
  match rs, hlen, h2 with
  | [a, s], _, h2 =>
    refine ⟨t, b, e, r, a, s, h2, ?_⟩
    have c := congrArg Vec4.E hev.conserved
    have ht := congrArg Vec4.E hev.target
    have hbE := hev.beam_E
    have hM : r.M = 3732 := by rw [hev.residual_M]; norm_num [exChain, exScatter, exDraw]
    have hEE : r.E ≤ 4675 := by
      have := hev.ejectile_E
      norm_num [exChain, exScatter, exDraw] at c ht hbE
      linarith
    have := pow_le_pow_left₀ hev.residual_E.le hEE 2
    rw [hM]
    norm_num at this ⊢
    linarith
  | [], h, _ => simp [exChain] at h
  | [_], h, _ => simp [exChain] at h
  | _ :: _ :: _ :: _, h, _ => simp [exChain] at h

/-- Scattering at 10 MeV with an excitation of 5 MeV, followed by a decay: float64 accepts the event, and all momenta
and energies are within 10 keV of the exact ones. -/
example : ∃ (k : Kin64) (t b e r a s : Vec4) (b' e' r' a' s' : Vec4), k.Accurate ∧
    exChain.attempt (exDraw 0) (List.replicate 6 none) = (.ok true, [t, b, e, r, a, s].map some) ∧
    attempt64 k exChain (exDraw 0) = .ok (some [t, b', e', r', a', s']) ∧ Near 1e-5 r' r ∧ Near 1e-2 a' a ∧
    Near 1e-2 s' s := by
  obtain ⟨rn, h⟩ := exists_rounding
  have hk := exactKin_accurate h
  obtain ⟨t, b, e, r, a, s, h0, hs⟩ := exChain_event 0 le_rfl (by norm_num)
  have hm : exChain.reaction.residual.mass + (exDraw 0).reaction_excitation = 3732 := by norm_num [exChain, exScatter, exDraw]
  obtain ⟨b', e', r', rows, h1, h2, h3, h4, h5⟩ := C141_event hk (p := exChain) (x := exDraw 0) exScatter_masses
    (by norm_num [exDraw]) (by norm_num [exDraw, exChain, exScatter]) (by norm_num [exDraw]) (by norm_num [exDraw])
    exChain_margin (exChain_raise h) (by rw [hm]; exact ⟨exSplit_margin, trivial⟩) (by simp [exChain]) h0 ⟨hs, trivial⟩
  obtain ⟨d0, d1⟩ := exChain_error
  have hse := exSplit_error
  rw [hm] at h5
  change RowsNear _ _ [exSplit] [0] rows [a, s] at h5
  cases h5 with
  | cons n1 n2 h6 =>
    cases h6
    have e3 : exSplit.residual_2.mass + 0 = 2780 := by norm_num [exSplit]
    rw [e3] at n1 n2
    exact ⟨_, t, b, e, r, a, s, b', e', r', _, _, hk, h0, h1, fun i => (h4 i).trans (d1.trans (by norm_num)),
      fun i => (n1 i).trans hse, fun i => (n2 i).trans hse⟩

/-- With an excitation of 30 MeV the decay is impossible; both arithmetics reject the sample. -/
example : ∃ k : Kin64, k.Accurate ∧ attempt64 k exChain (exDraw 30) = .ok none ∧
    (exChain.attempt (exDraw 30) (List.replicate 6 none)).1 = .ok false := by
  obtain ⟨rn, h⟩ := exists_rounding
  have hk := exactKin_accurate h
  obtain ⟨-, hall⟩ := reaction_margin hk exScatter_masses (T := 10) (ex := 5) (by norm_num) (by norm_num [exScatter])
    (by norm_num) (by norm_num) exChain_margin
  have hro : ReactionOk exScatter := by constructor <;> norm_num [exScatter]
  obtain ⟨t, b, e, r, hcalc⟩ := C43_partial hro (T := 10) (by norm_num) (Ex := 5) (by norm_num [exScatter]) hall
    (by norm_num [exScatter]) (.inl (by norm_num [exScatter])) 1 2
  obtain ⟨t', b', e', r', h0, h1, -, -, -, h5, -, h7, -, h9, h10, h11⟩ :=
    C40_reaction hro (T := 10) (by norm_num) (Ex := 5) (by norm_num [exScatter]) hall 1 2 hcalc
  cases h0
  have hM : r.M = 3732 := by rw [h9]; norm_num [exScatter]
  have hE : r.E ≤ 4675 := by
    have c := congrArg Vec4.E h7
    have ht := congrArg Vec4.E h1
    norm_num [exScatter] at c ht h5
    linarith
  have hsq := pow_le_pow_left₀ h11.le hE 2
  obtain ⟨d0, d1⟩ := exChain_error
  refine ⟨exactKin rn, hk, C141_rejected hk (p := exChain) (x := exDraw 30) exScatter_masses
    (by norm_num [exDraw]) (by norm_num [exDraw, exChain, exScatter]) (by norm_num [exDraw]) (by norm_num [exDraw])
    exChain_margin (exChain_raise h) hcalc ?_ (by simp [exChain])⟩
  change Rejected _ 0 (reactionError exScatter 10 5) [exSplit] r
  refine .here (ex := 30) rfl ?_ ?_ ?_ ?_ ?_ ?_ ?_ ?_ ?_ ?_ ?_ <;> (try rw [hM]) <;> norm_num [exSplit] at hsq d1 ⊢ <;> linarith

end Verif.Machine
