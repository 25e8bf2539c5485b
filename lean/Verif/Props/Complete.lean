import Verif.Props.PipelineRuns
import Mathlib.Analysis.SpecialFunctions.Trigonometric.Inverse
import Mathlib.Analysis.SpecialFunctions.Complex.Arg

/-! # C125: the calculation reaches all, and only, the allowed final states -/

namespace Verif.Props

open Verif.Kinematics Verif.Spec

variable {σ : Type}

/-- The ranges of the angles: polar in `[0, π]`, azimuthal in `[0, 2π)`. -/
def AngleOk (polar azimuthal : ℝ) : Prop :=
  (0 ≤ polar ∧ polar ≤ Real.pi) ∧ 0 ≤ azimuthal ∧ azimuthal < 2 * Real.pi

/-- `a` and `b`, of masses `m1` and `m2`, are a final state of the break-up of `q`. No sign of the energies
is asked for. -/
structure FinalState (q : Vec4) (m1 m2 : ℝ) (a b : Vec4) : Prop where
  conserved : a + b = q
  first : a.M2 = m1 ^ 2
  second : b.M2 = m2 ^ 2

/-- The momentum of both products in the rest frame of a nucleus of mass `M` that breaks up into masses
`m1` and `m2`. -/
noncomputable def breakupMomentum (M m1 m2 : ℝ) : ℝ :=
  Real.sqrt ((M ^ 2 - (m1 + m2) ^ 2) * (M ^ 2 - (m1 - m2) ^ 2)) / (2 * M)

/-! ## Spherical coordinates -/

theorem polar_coordinates (x y : ℝ) : ∃ az, (0 ≤ az ∧ az < 2 * Real.pi) ∧
    x = Real.sqrt (x ^ 2 + y ^ 2) * Real.cos az ∧ y = Real.sqrt (x ^ 2 + y ^ 2) * Real.sin az := by
  have hpi := Real.pi_pos
  set z : ℂ := ⟨x, y⟩ with hz
  have hn : ‖z‖ = Real.sqrt (x ^ 2 + y ^ 2) := by
    rw [Complex.norm_def, Complex.normSq_mk]; ring_nf
  have h1 : x = Real.sqrt (x ^ 2 + y ^ 2) * Real.cos z.arg := by
    rw [← hn, Complex.norm_mul_cos_arg]
  have h2 : y = Real.sqrt (x ^ 2 + y ^ 2) * Real.sin z.arg := by
    rw [← hn, Complex.norm_mul_sin_arg]
  have h3 := Complex.neg_pi_lt_arg z
  have h4 := Complex.arg_le_pi z
  by_cases h0 : 0 ≤ z.arg
  · exact ⟨z.arg, ⟨h0, by linarith⟩, h1, h2⟩
  · refine ⟨z.arg + 2 * Real.pi, ⟨by linarith, by linarith [not_le.1 h0]⟩, ?_, ?_⟩
    · rw [Real.cos_add_two_pi]; exact h1
    · rw [Real.sin_add_two_pi]; exact h2

theorem spherical_coordinates {x y z p : ℝ} (hp : 0 ≤ p) (h : x ^ 2 + y ^ 2 + z ^ 2 = p ^ 2) :
    ∃ polar az, AngleOk polar az ∧ x = p * Real.sin polar * Real.cos az ∧
      y = p * Real.sin polar * Real.sin az ∧ z = p * Real.cos polar := by
  obtain ⟨az, haz, hx, hy⟩ := polar_coordinates x y
  have hz : z ^ 2 ≤ p ^ 2 := by nlinarith [sq_nonneg x, sq_nonneg y]
  have hz' := abs_le.1 (abs_le_of_sq_le_sq hz hp)
  rcases hp.eq_or_lt with h0 | h0
  · subst h0
    have a1 : x = 0 := by nlinarith [sq_nonneg x, sq_nonneg y, sq_nonneg z]
    have a2 : y = 0 := by nlinarith [sq_nonneg x, sq_nonneg y, sq_nonneg z]
    have a3 : z = 0 := by nlinarith [sq_nonneg x, sq_nonneg y, sq_nonneg z]
    exact ⟨0, az, ⟨⟨le_rfl, Real.pi_pos.le⟩, haz⟩, by simp [a1], by simp [a2], by simp [a3]⟩
  · have hs : p * Real.sin (Real.arccos (z / p)) = Real.sqrt (x ^ 2 + y ^ 2) := by
      rw [Real.sin_arccos]
      have e : x ^ 2 + y ^ 2 = p ^ 2 * (1 - (z / p) ^ 2) := by
        field_simp; linarith
      rw [e, Real.sqrt_mul (sq_nonneg p), Real.sqrt_sq hp]
    refine ⟨Real.arccos (z / p), az, ⟨⟨Real.arccos_nonneg _, Real.arccos_le_pi _⟩, haz⟩, ?_, ?_, ?_⟩
    · rw [hs]; exact hx
    · rw [hs]; exact hy
    · rw [Real.cos_arccos (by rw [le_div_iff₀ h0]; linarith [hz'.1])
        (by rw [div_le_iff₀ h0]; linarith [hz'.2])]
      field_simp

/-! ## Two-body final states -/

theorem boostCM_boost {q : Vec4} (h : q.Massive) (v : Vec4) : (v.boostCM_of q).boost q = v := by
  have hM := h.M_pos
  have hE := h.pos
  have hME : q.M + q.E ≠ 0 := by positivity
  have hM' := hM.ne'
  have hp : q.dot q = q.E ^ 2 - q.M ^ 2 := by linarith [h.M_sq]
  rw [Vec4.boostCM_eq h, Vec4.boost_eq h]
  set k := q.dot v / (q.M * (q.M + q.E)) - v.E / q.M with hk
  have hdot : q.dot (⟨v.px + k * q.px, v.py + k * q.py, v.pz + k * q.pz, (q.E * v.E - q.dot v) / q.M⟩ : Vec4) = q.dot v + k * (q.E ^ 2 - q.M ^ 2) := by
    rw [← hp]; unfold Vec4.dot; ring
  rw [hdot]
  have hk2 : (q.dot v + k * (q.E ^ 2 - q.M ^ 2)) / (q.M * (q.M + q.E))
      + (q.E * v.E - q.dot v) / q.M / q.M = -k := by
    rw [hk]; field_simp; ring
  simp only [hk2]
  ext
  · simp
  · simp
  · simp
  · simp only
    rw [hk]; field_simp; ring

theorem M2_of_M' {v : Vec4} {m : ℝ} (hm : 0 ≤ m) (h : v.M = m) : v.M2 = m ^ 2 := by
  unfold Vec4.M at h
  split_ifs at h with h0
  · have := Real.sqrt_pos.2 (show 0 < -v.M2 by linarith)
    linarith
  · rw [← h, Real.sq_sqrt (not_lt.1 h0)]

/-- Every final state is that of some angles. -/
theorem finalState_cm {q : Vec4} (hq : q.Massive) {m1 m2 : ℝ} (h1 : 0 ≤ m1) (h2 : 0 ≤ m2)
    (hle : m1 + m2 ≤ q.M) {a b : Vec4} (h : FinalState q m1 m2 a b) :
    ∃ polar az v, AngleOk polar az ∧ cmVector m1 m2 q.M polar az = some v ∧ v.boost q = a ∧
      q - v.boost q = b := by
  have hM := hq.M_pos
  set w := a.boostCM_of q with hw
  have hwM : w.M2 = m1 ^ 2 := by rw [hw, Vec4.boostCM_M2 hq, h.first]
  have hb : b = q - a := by rw [← h.conserved]; ext <;> simp
  have hwb : b.boostCM_of q = ⟨-w.px, -w.py, -w.pz, q.M - w.E⟩ := by
    rw [hb, Vec4.boostCM_sub hq, Vec4.boostCM_self hq]
    ext <;> simp [hw]
  have hwE : w.E = (m1 ^ 2 - m2 ^ 2 + q.M ^ 2) / (2 * q.M) := by
    have e := h.second
    rw [← Vec4.boostCM_M2 hq, hwb] at e
    have e2 : Vec4.M2 ⟨-w.px, -w.py, -w.pz, q.M - w.E⟩ = q.M ^ 2 - 2 * q.M * w.E + w.M2 := by
      simp only [Vec4.M2]; ring
    rw [e2, hwM] at e
    rw [eq_div_iff (by positivity)]
    linarith
  obtain ⟨p, hp, hp2, -⟩ := cmVector_some 0 0 h1 h2 hM hle
  have hsph : w.px ^ 2 + w.py ^ 2 + w.pz ^ 2 = p ^ 2 := by
    rw [hp2, ← hwE]
    simp only [Vec4.M2] at hwM
    linarith
  obtain ⟨polar, az, hang, hx, hy, hz⟩ := spherical_coordinates hp hsph
  obtain ⟨p', hp', hp2', hv⟩ := cmVector_some polar az h1 h2 hM hle
  have hpp : p' = p := by
    rw [← hp2] at hp2'
    exact (pow_left_inj₀ hp' hp (by norm_num)).1 hp2'
  subst hpp
  refine ⟨polar, az, w, hang, ?_, ?_, ?_⟩
  · rw [hv, Option.some_inj]
    ext
    · exact hx.symm
    · exact hy.symm
    · exact hz.symm
    · exact hwE.symm
  · rw [hw, boostCM_boost hq]
  · rw [hw, boostCM_boost hq, hb]

/-- **C125, decays.** Some choice of the two angles produces the pair `a`, `b` exactly when `a` and `b` add up
to the parent and have the squares of the masses of the products (with the excitation). -/
theorem C125_decay {d : Decay} {parent : Vec4} (hp : parent.Massive) (h1 : 0 ≤ d.residual_1.mass)
    {Ex : ℝ} (h2 : 0 ≤ d.residual_2.mass + Ex) (ha : d.is_excitation_allowed parent Ex = true)
    (a b : Vec4) :
    (∃ polar azimuthal, AngleOk polar azimuthal ∧
      d.calculate parent polar azimuthal Ex = .ok (parent, some a, some b)) ↔
    FinalState parent d.residual_1.mass (d.residual_2.mass + Ex) a b := by
  have ha' := (C42_decay d parent Ex).1 ha
  have hcalc : ∀ polar az v, cmVector d.residual_1.mass (d.residual_2.mass + Ex) parent.M polar az = some v →
      d.calculate parent polar az Ex = .ok (parent, some (v.boost parent), some (parent - v.boost parent)) := by
    intro polar az v hv
    unfold Decay.calculate
    simp only
    rw [if_neg (by linarith), if_pos hp.boostable, Vec4.boostCM_self hp]
    simp only [hv]
  constructor
  · rintro ⟨polar, az, -, hc⟩
    obtain ⟨v, p, hv, -, -, -, -, -, c1, c2, c3, -⟩ := breakup hp polar az h1 h2 (by linarith)
    rw [hcalc _ _ _ hv] at hc
    simp only [Except.ok.injEq, Prod.mk.injEq, Option.some.injEq, true_and] at hc
    obtain ⟨rfl, rfl⟩ := hc
    exact ⟨c1, c2, c3⟩
  · intro h
    obtain ⟨polar, az, v, hang, hv, e1, e2⟩ := finalState_cm hp h1 h2 (by linarith) h
    exact ⟨polar, az, hang, by rw [hcalc _ _ _ hv, e2, e1]⟩

/-- Whether `calculate` raises does not depend on the angles. -/
theorem accepts_any {r : Reaction} (h : ReactionOk r) {T : ℝ} (hT : 0 ≤ T) {Ex : ℝ}
    (hacc : ∃ polar azimuthal res, r.calculate T polar azimuthal Ex = .ok res) {polar azimuthal : ℝ} {v : Vec4}
    (hv : cmVector r.ejectile.mass (r.residual.mass + Ex) (cmEnergy r T) polar azimuthal = some v) :
    r.calculate T polar azimuthal Ex = .ok (targetVec r, some (beamVec r T),
      some (v.boost (targetVec r + beamVec r T)),
      some (targetVec r + beamVec r T - v.boost (targetVec r + beamVec r T))) := by
  obtain ⟨p0, a0, res, hc⟩ := hacc
  rw [reaction_calculate h hT] at hc ⊢
  split_ifs at hc ⊢
  rw [hv]

/-- **C125, reactions.** The same for a reaction that `calculate` accepts (which does not depend on the
angles, see C43 for what it wrongly rejects). -/
theorem C125_reaction {r : Reaction} (h : ReactionOk r) {T : ℝ} (hT : 0 ≤ T) {Ex : ℝ}
    (hEx : 0 ≤ r.residual.mass + Ex) (ha : r.is_excitation_allowed T Ex = true)
    (hacc : ∃ polar azimuthal res, r.calculate T polar azimuthal Ex = .ok res) (e q : Vec4) :
    (∃ polar azimuthal, AngleOk polar azimuthal ∧
      r.calculate T polar azimuthal Ex = .ok (targetVec r, some (beamVec r T), some e, some q)) ↔
    FinalState (targetVec r + beamVec r T) r.ejectile.mass (r.residual.mass + Ex) e q := by
  have ha' := ha
  rw [C42_reaction h hT] at ha'
  have hm := parent_massive h hT
  have hM := parent_M h hT
  constructor
  · rintro ⟨polar, az, -, hc⟩
    obtain ⟨v, p, hv, -, -, -, -, -, c1, c2, c3, -⟩ := breakup hm polar az h.ejectile hEx (by linarith)
    rw [hM] at hv
    rw [accepts_any h hT hacc hv] at hc
    simp only [Except.ok.injEq, Prod.mk.injEq, Option.some.injEq, true_and] at hc
    obtain ⟨rfl, rfl⟩ := hc
    exact ⟨c1, c2, c3⟩
  · intro hf
    obtain ⟨polar, az, v, hang, hv, e1, e2⟩ := finalState_cm hm h.ejectile hEx (by linarith) hf
    rw [hM] at hv
    exact ⟨polar, az, hang, by rw [accepts_any h hT hacc hv, e2, e1]⟩

/-! ## Chains -/

theorem decays_complete (exs : List ℝ) (ds : List Decay) : ∀ (idx : ℕ) (parent : Vec4) (rows : List Vec4),
    parent.Massive → (∀ d ∈ ds, 0 ≤ d.residual_1.mass) →
    (∀ de ∈ ds.zip (exs.drop idx), 0 < de.1.residual_2.mass + de.2) →
    DecaysAllowed parent.M ds (exs.drop idx) → DecaysOk parent ds (exs.drop idx) rows →
    ∃ ths phs : List ℝ, ths.length = ds.length ∧ phs.length = ds.length ∧
      (∀ tp ∈ ths.zip phs, AngleOk tp.1 tp.2) ∧
      ∀ x : Sample, x.decay_excitations = exs → x.decay_thetas.drop idx = ths → x.decay_phis.drop idx = phs →
        decayRows x idx ds (some parent) = .ok (some (rows.map some)) := by
  induction ds with
  | nil =>
    intro idx parent rows _ _ _ _ hok
    cases hok
    exact ⟨[], [], rfl, rfl, by simp, by intro x _ _ _; simp [decayRows]⟩
  | cons d ds ih =>
    intro idx parent rows hp h1 h2 hall hok
    cases hex : exs.drop idx with
    | nil => rw [hex] at hall; exact hall.elim
    | cons ex rest =>
      have hrest : exs.drop (idx + 1) = rest := by
        rw [← List.drop_drop, hex]; rfl
      have hget : exs[idx]? = some ex := by
        have := congrArg List.head? hex
        rwa [List.head?_drop] at this
      rw [hex] at hall hok h2
      cases hok with
      | @cons _ _ _ _ _ a b rows' hab haM hbM haE hbE htail =>
        have hm1 : 0 ≤ d.residual_1.mass := h1 d (by simp)
        have hm2 : 0 < d.residual_2.mass + ex := h2 (d, ex) (by simp)
        have hal : d.is_excitation_allowed parent ex = true := (C42_decay d parent ex).2 hall.1
        have hb2 := M2_of_M hm2 hbM
        have hbm : b.Massive := massive_of_M2 hm2 hb2 hbE
        obtain ⟨th, ph, hang, hcalc⟩ := (C125_decay hp hm1 hm2.le hal a b).2
          ⟨hab, M2_of_M' hm1 haM, hb2⟩
        obtain ⟨ths, phs, l1, l2, hr, hx⟩ := ih (idx + 1) b rows' hbm (fun d' hd' => h1 d' (by simp [hd']))
          (by rw [hrest]; exact fun de hde => h2 de (by simp [hde]))
          (by rw [hrest, hbM]; exact hall.2) (by rw [hrest]; exact htail)
        refine ⟨th :: ths, ph :: phs, by simp [l1], by simp [l2], ?_, ?_⟩
        · intro tp htp
          simp only [List.zip_cons_cons, List.mem_cons] at htp
          rcases htp with rfl | htp
          · exact hang
          · exact hr tp htp
        · intro x e1 e2 e3
          have g1 : listGet x.decay_excitations idx = .ok ex := listGet_some (by rw [e1]; exact hget)
          have g2 : listGet x.decay_thetas idx = .ok th := listGet_some (by
            have := congrArg List.head? e2
            rwa [List.head?_drop] at this)
          have g3 : listGet x.decay_phis idx = .ok ph := listGet_some (by
            have := congrArg List.head? e3
            rwa [List.head?_drop] at this)
          have f2 : x.decay_thetas.drop (idx + 1) = ths := by rw [← List.drop_drop, e2]; rfl
          have f3 : x.decay_phis.drop (idx + 1) = phs := by rw [← List.drop_drop, e3]; rfl
          rw [decayRows]
          simp only [g1, hal, Bool.not_true, Bool.false_eq_true, if_false, g2, g3, bind, Except.bind, hcalc]
          rw [hx x e1 f2 f3]
          rfl

/-- The sample with other angles. -/
def withAngles (x : Sample) (theta phi : ℝ) (thetas phis : List ℝ) : Sample :=
  ⟨x.beam_energy, x.reaction_excitation, theta, phi, x.vertex, x.decay_excitations, thetas, phis⟩

/-- **C125, chains.** For every energetically allowed sample of beam energy and excitations (whose reaction
`calculate` accepts), the events that `attempt` produces with all possible angles are exactly the
events that conserve energy and momentum in every step with all products on their mass shells. -/
theorem C125_chain {p : Pipeline σ} (hc : ChainOk p) {x : Sample} (hx : SampleOk p x)
    (hE : EnergyAllowed p x)
    (hacc : ∃ polar azimuthal res,
      p.reaction.calculate x.beam_energy polar azimuthal x.reaction_excitation = .ok res)
    (buf : List ResultRow) (hb : buf.length = 4 + 2 * p.decays.length) (t b e r : Vec4) (rows : List Vec4) :
    (∃ theta phi thetas phis, AngleOk theta phi ∧ (thetas.length = p.decays.length ∧
      phis.length = p.decays.length ∧ ∀ tp ∈ thetas.zip phis, AngleOk tp.1 tp.2) ∧
      p.attempt (withAngles x theta phi thetas phis) buf
        = (.ok true, (t :: b :: e :: r :: rows).map some)) ↔
    EventOk p x t b e r rows := by
  have hr : ReactionOk p.reaction := ⟨hc.target, hc.projectile, hc.ejectile⟩
  constructor
  · rintro ⟨theta, phi, thetas, phis, -, -, h⟩
    have hx' : SampleOk p (withAngles x theta phi thetas phis) := ⟨hx.beam, hx.residual, hx.decays⟩
    obtain ⟨-, h2⟩ := attempt_rows p (withAngles x theta phi thetas phis) buf hb
    rw [h] at h2
    cases he : eventRows p (withAngles x theta phi thetas phis) with
    | error err => rw [he] at h2; simp at h2
    | ok o =>
      cases o with
      | none => rw [he] at h2; simp at h2
      | some rws =>
        rw [he] at h2
        simp only [Prod.mk.injEq, true_and] at h2
        obtain ⟨-, t', b', e', r', rs', i1, i2⟩ := eventRows_some hc hx' he
        rw [← h2] at i1
        have inj := List.map_injective_iff.2 (Option.some_injective Vec4) i1
        simp only [List.cons.injEq] at inj
        obtain ⟨rfl, rfl, rfl, rfl, rfl⟩ := inj
        exact ⟨i2.target, i2.beam_px, i2.beam_py, i2.beam_pz, i2.beam_E, i2.beam_M, i2.conserved,
          i2.ejectile_M, i2.residual_M, i2.ejectile_E, i2.residual_E, i2.decays⟩
  · intro h
    have ha := (reaction_allowed_iff hc hx).2 ⟨hE.1, hE.2.1⟩
    have ht : t = targetVec p.reaction := h.target
    have hbv : b = beamVec p.reaction x.beam_energy := by
      have e2 := M2_of_M' hc.projectile h.beam_M
      have hz : b.pz = Real.sqrt (x.beam_energy * (x.beam_energy + 2 * p.reaction.projectile.mass)) := by
        rw [← Real.sqrt_sq h.beam_pz]
        congr 1
        simp only [Vec4.M2, h.beam_px, h.beam_py, h.beam_E] at e2
        linarith
      ext
      · exact h.beam_px
      · exact h.beam_py
      · exact hz
      · exact h.beam_E
    have hr2 := M2_of_M hx.residual h.residual_M
    have hrm : r.Massive := massive_of_M2 hx.residual hr2 h.residual_E
    obtain ⟨theta, phi, hang, hcalc⟩ := (C125_reaction hr hE.1 hx.residual.le ha hacc e r).2
      ⟨by rw [← ht, ← hbv]; exact h.conserved, M2_of_M' hc.ejectile h.ejectile_M, hr2⟩
    obtain ⟨ths, phs, l1, l2, hr', hrows⟩ := decays_complete x.decay_excitations p.decays 0 r rows hrm
      hc.decays (by simpa using hx.decays) (by rw [h.residual_M]; simpa using hE.2.2)
      (by simpa using h.decays)
    refine ⟨theta, phi, ths, phs, hang, ⟨l1, l2, hr'⟩, ?_⟩
    have hev : eventRows p (withAngles x theta phi ths phs)
        = .ok (some ((t :: b :: e :: r :: rows).map some)) := by
      unfold eventRows
      have ha2 : p.reaction.is_excitation_allowed (withAngles x theta phi ths phs).beam_energy
          (withAngles x theta phi ths phs).reaction_excitation = true := ha
      have hc2 : p.reaction.calculate (withAngles x theta phi ths phs).beam_energy
          (withAngles x theta phi ths phs).reaction_theta (withAngles x theta phi ths phs).reaction_phi
          (withAngles x theta phi ths phs).reaction_excitation
          = .ok (t, some b, some e, some r) := by rw [ht, hbv]; exact hcalc
      rw [ha2, hc2]
      simp only [Bool.not_true, Bool.false_eq_true, if_false]
      rw [hrows (withAngles x theta phi ths phs) rfl List.drop_zero List.drop_zero]
      rfl
    have := (attempt_rows p (withAngles x theta phi ths phs) buf hb).2
    rw [hev] at this
    exact this

/-! ## Directions -/

theorem breakupMomentum_sq {M m1 m2 : ℝ} (hM : 0 < M) (h1 : 0 ≤ m1) (h2 : 0 ≤ m2) (hle : m1 + m2 ≤ M) :
    (breakupMomentum M m1 m2 * M) ^ 2 = ((M ^ 2 + m1 ^ 2 - m2 ^ 2) / 2) ^ 2 - m1 ^ 2 * M ^ 2 := by
  have a1 : 0 ≤ M ^ 2 - (m1 + m2) ^ 2 := by nlinarith
  have a2 : 0 ≤ M ^ 2 - (m1 - m2) ^ 2 := by nlinarith
  unfold breakupMomentum
  rw [mul_pow, div_pow, Real.sq_sqrt (mul_nonneg a1 a2)]
  field_simp
  ring

theorem breakupMomentum_symm (M m1 m2 : ℝ) : breakupMomentum M m1 m2 = breakupMomentum M m2 m1 := by
  unfold breakupMomentum
  congr 2
  ring

/-- The momentum `k` along a direction solves a quadratic equation. -/
theorem cone_root {E κ m s : ℝ} (hE : 0 < E) (hκ : 0 < κ) (hpos : 0 < E ^ 2 - s ^ 2)
    (hD : m ^ 2 * (E ^ 2 - s ^ 2) ≤ κ ^ 2) (hor : 0 ≤ s ∨ m ^ 2 * E ^ 2 ≤ κ ^ 2) :
    ∃ k, 0 ≤ k ∧ E ^ 2 * (m ^ 2 + k ^ 2) = (κ + k * s) ^ 2 := by
  have hD' : 0 ≤ κ ^ 2 - m ^ 2 * (E ^ 2 - s ^ 2) := by linarith
  obtain ⟨w, hw, hw2⟩ : ∃ w, 0 ≤ w ∧ w ^ 2 = κ ^ 2 - m ^ 2 * (E ^ 2 - s ^ 2) :=
    ⟨_, Real.sqrt_nonneg _, Real.sq_sqrt hD'⟩
  have hk0 : 0 ≤ κ * s + E * w := by
    by_cases hs0 : 0 ≤ s
    · positivity
    · have hm : m ^ 2 * E ^ 2 ≤ κ ^ 2 := by
        rcases hor with h | h
        · exact absurd h hs0
        · exact h
      have h2' : (κ * (-s)) ^ 2 ≤ (E * w) ^ 2 := by
        rw [mul_pow E, hw2]
        nlinarith
      have := abs_le_of_sq_le_sq h2' (mul_nonneg hE.le hw)
      have := le_abs_self (κ * (-s))
      linarith
  refine ⟨(κ * s + E * w) / (E ^ 2 - s ^ 2), div_nonneg hk0 hpos.le, ?_⟩
  obtain ⟨k, hk⟩ : ∃ k, k = (κ * s + E * w) / (E ^ 2 - s ^ 2) := ⟨_, rfl⟩
  rw [← hk]
  rw [eq_div_iff hpos.ne'] at hk
  have h4 : (E ^ 2 - s ^ 2) * (E ^ 2 * (m ^ 2 + k ^ 2) - (κ + k * s) ^ 2) = 0 := by
    linear_combination (k * (E ^ 2 - s ^ 2) - κ * s + E * w) * hk + E ^ 2 * hw2
  rcases mul_eq_zero.1 h4 with h5 | h5
  · exact absurd h5 hpos.ne'
  · linarith

theorem cone_necessary {E κ m s k e : ℝ} (hE : 0 < E) (hm : 0 ≤ m) (hk : 0 ≤ k) (he : 0 ≤ e)
    (hee : e ^ 2 = m ^ 2 + k ^ 2) (hlin : E * e - k * s = κ) :
    m ^ 2 * (E ^ 2 - s ^ 2) ≤ κ ^ 2 ∧ (0 ≤ s ∨ m ^ 2 * E ^ 2 ≤ κ ^ 2) := by
  constructor
  · have key : ((E ^ 2 - s ^ 2) * k - κ * s) ^ 2 = E ^ 2 * (κ ^ 2 - m ^ 2 * (E ^ 2 - s ^ 2)) := by
      have hEa : E * e = κ + k * s := by linarith
      have : E ^ 2 * (m ^ 2 + k ^ 2) = (κ + k * s) ^ 2 := by rw [← hee, ← hEa]; ring
      linear_combination (E ^ 2 - s ^ 2) * this
    have h0 : 0 ≤ E ^ 2 * (κ ^ 2 - m ^ 2 * (E ^ 2 - s ^ 2)) := by rw [← key]; positivity
    have := nonneg_of_mul_nonneg_right h0 (by positivity)
    linarith
  · by_cases hs0 : 0 ≤ s
    · exact .inl hs0
    · right
      have hs1 := not_le.1 hs0
      have hge : m ≤ e := by
        have := abs_le_of_sq_le_sq (show m ^ 2 ≤ e ^ 2 by nlinarith [sq_nonneg k]) he
        rwa [abs_of_nonneg hm] at this
      have h1 : m * E ≤ κ := by
        rw [← hlin]
        nlinarith [mul_nonneg hk (neg_nonneg.2 hs1.le)]
      have h2 := mul_nonneg hm hE.le
      nlinarith

/-- A break-up into masses `m1`, `m2` with the first product in the direction `n`. -/
theorem directions {q : Vec4} (hq : q.Massive) {m1 m2 : ℝ} (h1 : 0 ≤ m1) (h2 : 0 ≤ m2)
    (hlt : m1 + m2 < q.M) {nx ny nz : ℝ} (hn : nx ^ 2 + ny ^ 2 + nz ^ 2 = 1) :
    (∃ k a b, 0 ≤ k ∧ FinalState q m1 m2 a b ∧ a.px = k * nx ∧ a.py = k * ny ∧ a.pz = k * nz) ↔
    m1 ^ 2 * (q.dot q - (q.px * nx + q.py * ny + q.pz * nz) ^ 2) ≤ (breakupMomentum q.M m1 m2 * q.M) ^ 2 ∧
      (0 ≤ q.px * nx + q.py * ny + q.pz * nz ∨
        m1 ^ 2 * q.dot q ≤ (breakupMomentum q.M m1 m2 * q.M) ^ 2) := by
  have hM := hq.M_pos
  have hE := hq.pos
  have hMsq := hq.M_sq
  rw [breakupMomentum_sq hM h1 h2 hlt.le]
  have hcs : (q.px * nx + q.py * ny + q.pz * nz) ^ 2 ≤ q.dot q := by
    have : q.dot q * (nx ^ 2 + ny ^ 2 + nz ^ 2) - (q.px * nx + q.py * ny + q.pz * nz) ^ 2
        = (q.px * ny - q.py * nx) ^ 2 + (q.px * nz - q.pz * nx) ^ 2 + (q.py * nz - q.pz * ny) ^ 2 := by
      unfold Vec4.dot; ring
    rw [hn, mul_one] at this
    linarith [sq_nonneg (q.px * ny - q.py * nx), sq_nonneg (q.px * nz - q.pz * nx),
      sq_nonneg (q.py * nz - q.pz * ny)]
  obtain ⟨s, hs⟩ : ∃ s, s = q.px * nx + q.py * ny + q.pz * nz := ⟨_, rfl⟩
  obtain ⟨κ, hκ⟩ : ∃ κ, κ = (q.M ^ 2 + m1 ^ 2 - m2 ^ 2) / 2 := ⟨_, rfl⟩
  have hκ0 : 0 < κ := by rw [hκ]; nlinarith
  have hd : q.dot q = q.E ^ 2 - q.M ^ 2 := by linarith
  rw [← hs, hd] at hcs
  have hpos : 0 < q.E ^ 2 - s ^ 2 := by nlinarith
  have hcone : (m1 ^ 2 * (q.dot q - (q.px * nx + q.py * ny + q.pz * nz) ^ 2)
        ≤ ((q.M ^ 2 + m1 ^ 2 - m2 ^ 2) / 2) ^ 2 - m1 ^ 2 * q.M ^ 2 ∧
      (0 ≤ q.px * nx + q.py * ny + q.pz * nz ∨
        m1 ^ 2 * q.dot q ≤ ((q.M ^ 2 + m1 ^ 2 - m2 ^ 2) / 2) ^ 2 - m1 ^ 2 * q.M ^ 2)) ↔
      (m1 ^ 2 * (q.E ^ 2 - s ^ 2) ≤ κ ^ 2 ∧ (0 ≤ s ∨ m1 ^ 2 * q.E ^ 2 ≤ κ ^ 2)) := by
    rw [← hs, ← hκ, hd]
    refine and_congr ?_ (or_congr Iff.rfl ?_)
    · constructor <;> intro h <;> linarith
    · constructor <;> intro h <;> linarith
  rw [hcone]
  constructor
  · rintro ⟨k, a, b, hk, hf, ax, ay, az⟩
    have hqa : q.dot a = k * s := by
      unfold Vec4.dot; rw [ax, ay, az, hs]; ring
    have haa : a.E ^ 2 = m1 ^ 2 + k ^ 2 := by
      have := hf.first
      simp only [Vec4.M2, ax, ay, az] at this
      linear_combination this + k ^ 2 * hn
    have hbq : b = q - a := by rw [← hf.conserved]; ext <;> simp
    have hlin : q.E * a.E - k * s = κ := by
      have e := hf.second
      rw [hbq] at e
      have e2 : (q - a).M2 = q.E ^ 2 - q.dot q - 2 * (q.E * a.E - q.dot a) + a.M2 := by
        simp only [Vec4.M2, Vec4.dot, Vec4.sub_px, Vec4.sub_py, Vec4.sub_pz, Vec4.sub_E]; ring
      rw [e2, hf.first, hqa, hd] at e
      rw [hκ]; linarith
    obtain ⟨polar, az', v, -, hv, e1, -⟩ := finalState_cm hq h1 h2 hlt.le hf
    obtain ⟨v', p, hv', -, -, -, -, -, -, -, -, -, -, c, -⟩ := breakup hq polar az' h1 h2 hlt.le
    rw [hv, Option.some_inj] at hv'
    subst hv'
    have haE := c (.inr hlt)
    rw [e1] at haE
    exact cone_necessary hE h1 hk haE.le haa hlin
  · rintro ⟨hD, hor⟩
    obtain ⟨k, hk0, key⟩ := cone_root hE hκ0 hpos hD hor
    obtain ⟨e, he⟩ : ∃ e, e = (κ + k * s) / q.E := ⟨_, rfl⟩
    have e1 : e ^ 2 = m1 ^ 2 + k ^ 2 := by
      rw [he, div_pow, ← key]; field_simp
    have e2 : q.E * e = κ + k * s := by rw [he]; field_simp
    refine ⟨k, ⟨k * nx, k * ny, k * nz, e⟩, q - ⟨k * nx, k * ny, k * nz, e⟩, hk0, ⟨?_, ?_, ?_⟩,
      rfl, rfl, rfl⟩
    · ext <;> simp
    · simp only [Vec4.M2]
      linear_combination e1 - k ^ 2 * hn
    · simp only [Vec4.M2, Vec4.sub_px, Vec4.sub_py, Vec4.sub_pz, Vec4.sub_E]
      have e3 : q.px ^ 2 + q.py ^ 2 + q.pz ^ 2 = q.E ^ 2 - q.M ^ 2 := by
        rw [← hd]; unfold Vec4.dot; ring
      linear_combination e1 - 2 * e2 - e3 - k ^ 2 * hn - 2 * k * hs - 2 * hκ

/-- The final state seen from the other product. -/
theorem FinalState.symm {q a b : Vec4} {m1 m2 : ℝ} (h : FinalState q m1 m2 a b) : FinalState q m2 m1 b a :=
  ⟨by rw [← h.conserved]; ext <;> simp [add_comm], h.second, h.first⟩

/-- The directions in which a product of mass `m` of the break-up of `q` can move: its angle to `q` has a
sine of at most `p* M / (m P)`, and is a forward angle unless this bound is at least 1. `s` is the
component of the momentum of `q` along the direction `n`. -/
def InCone (q : Vec4) (m p s : ℝ) : Prop :=
  m ^ 2 * (q.px ^ 2 + q.py ^ 2 + q.pz ^ 2 - s ^ 2) ≤ (p * q.M) ^ 2 ∧
    (0 ≤ s ∨ m ^ 2 * (q.px ^ 2 + q.py ^ 2 + q.pz ^ 2) ≤ (p * q.M) ^ 2)

theorem directions' {q : Vec4} (hq : q.Massive) {m1 m2 : ℝ} (h1 : 0 ≤ m1) (h2 : 0 ≤ m2)
    (hlt : m1 + m2 < q.M) {nx ny nz : ℝ} (hn : nx ^ 2 + ny ^ 2 + nz ^ 2 = 1) :
    (∃ k a b, 0 ≤ k ∧ FinalState q m1 m2 a b ∧ a.px = k * nx ∧ a.py = k * ny ∧ a.pz = k * nz) ↔
    InCone q m1 (breakupMomentum q.M m1 m2) (q.px * nx + q.py * ny + q.pz * nz) := by
  rw [directions hq h1 h2 hlt hn]
  have : q.dot q = q.px ^ 2 + q.py ^ 2 + q.pz ^ 2 := by unfold Vec4.dot; ring
  rw [this]
  rfl

/-- **C125, directions.** Some angles of the decay send the first product in the direction `n` of the
laboratory exactly when `n` lies in the cone around the parent; likewise the second product. -/
theorem C125_decay_directions {d : Decay} {parent : Vec4} (hp : parent.Massive)
    (h1 : 0 ≤ d.residual_1.mass) {Ex : ℝ} (h2 : 0 ≤ d.residual_2.mass + Ex)
    (ha : d.is_excitation_allowed parent Ex = true) {nx ny nz : ℝ} (hn : nx ^ 2 + ny ^ 2 + nz ^ 2 = 1) :
    ((∃ polar azimuthal k a b, AngleOk polar azimuthal ∧ 0 ≤ k ∧
      d.calculate parent polar azimuthal Ex = .ok (parent, some a, some b) ∧
      a.px = k * nx ∧ a.py = k * ny ∧ a.pz = k * nz) ↔
      InCone parent d.residual_1.mass
        (breakupMomentum parent.M d.residual_1.mass (d.residual_2.mass + Ex))
        (parent.px * nx + parent.py * ny + parent.pz * nz)) ∧
    ((∃ polar azimuthal k a b, AngleOk polar azimuthal ∧ 0 ≤ k ∧
      d.calculate parent polar azimuthal Ex = .ok (parent, some a, some b) ∧
      b.px = k * nx ∧ b.py = k * ny ∧ b.pz = k * nz) ↔
      InCone parent (d.residual_2.mass + Ex)
        (breakupMomentum parent.M d.residual_1.mass (d.residual_2.mass + Ex))
        (parent.px * nx + parent.py * ny + parent.pz * nz)) := by
  have ha' := (C42_decay d parent Ex).1 ha
  constructor
  · rw [← directions' hp h1 h2 (by linarith) hn]
    constructor
    · rintro ⟨polar, az, k, a, b, hang, hk, hc, e⟩
      exact ⟨k, a, b, hk, (C125_decay hp h1 h2 ha a b).1 ⟨polar, az, hang, hc⟩, e⟩
    · rintro ⟨k, a, b, hk, hf, e⟩
      obtain ⟨polar, az, hang, hc⟩ := (C125_decay hp h1 h2 ha a b).2 hf
      exact ⟨polar, az, k, a, b, hang, hk, hc, e⟩
  · rw [breakupMomentum_symm, ← directions' hp h2 h1 (by linarith) hn]
    constructor
    · rintro ⟨polar, az, k, a, b, hang, hk, hc, e⟩
      exact ⟨k, b, a, hk, ((C125_decay hp h1 h2 ha a b).1 ⟨polar, az, hang, hc⟩).symm, e⟩
    · rintro ⟨k, b, a, hk, hf, e⟩
      obtain ⟨polar, az, hang, hc⟩ := (C125_decay hp h1 h2 ha a b).2 hf.symm
      exact ⟨polar, az, k, a, b, hang, hk, hc, e⟩

/-- **C125, directions.** The same for the ejectile and the residual of a reaction; the cone is around the
beam. -/
theorem C125_reaction_directions {r : Reaction} (h : ReactionOk r) {T : ℝ} (hT : 0 ≤ T) {Ex : ℝ}
    (hEx : 0 ≤ r.residual.mass + Ex) (ha : r.is_excitation_allowed T Ex = true)
    (hacc : ∃ polar azimuthal res, r.calculate T polar azimuthal Ex = .ok res)
    {nx ny nz : ℝ} (hn : nx ^ 2 + ny ^ 2 + nz ^ 2 = 1) :
    ((∃ polar azimuthal k e q, AngleOk polar azimuthal ∧ 0 ≤ k ∧
      r.calculate T polar azimuthal Ex = .ok (targetVec r, some (beamVec r T), some e, some q) ∧
      e.px = k * nx ∧ e.py = k * ny ∧ e.pz = k * nz) ↔
      InCone (targetVec r + beamVec r T) r.ejectile.mass
        (breakupMomentum (cmEnergy r T) r.ejectile.mass (r.residual.mass + Ex))
        (Real.sqrt (T * (T + 2 * r.projectile.mass)) * nz)) ∧
    ((∃ polar azimuthal k e q, AngleOk polar azimuthal ∧ 0 ≤ k ∧
      r.calculate T polar azimuthal Ex = .ok (targetVec r, some (beamVec r T), some e, some q) ∧
      q.px = k * nx ∧ q.py = k * ny ∧ q.pz = k * nz) ↔
      InCone (targetVec r + beamVec r T) (r.residual.mass + Ex)
        (breakupMomentum (cmEnergy r T) r.ejectile.mass (r.residual.mass + Ex))
        (Real.sqrt (T * (T + 2 * r.projectile.mass)) * nz)) := by
  have ha' := ha
  rw [C42_reaction h hT] at ha'
  have hm := parent_massive h hT
  have hs : (targetVec r + beamVec r T).px * nx + (targetVec r + beamVec r T).py * ny
      + (targetVec r + beamVec r T).pz * nz = Real.sqrt (T * (T + 2 * r.projectile.mass)) * nz := by
    simp [targetVec, beamVec]
  rw [← parent_M h hT, ← hs]
  constructor
  · rw [← directions' hm h.ejectile hEx (by linarith) hn]
    constructor
    · rintro ⟨polar, az, k, a, b, hang, hk, hc, e⟩
      exact ⟨k, a, b, hk, (C125_reaction h hT hEx ha hacc a b).1 ⟨polar, az, hang, hc⟩, e⟩
    · rintro ⟨k, a, b, hk, hf, e⟩
      obtain ⟨polar, az, hang, hc⟩ := (C125_reaction h hT hEx ha hacc a b).2 hf
      exact ⟨polar, az, k, a, b, hang, hk, hc, e⟩
  · rw [breakupMomentum_symm, ← directions' hm hEx h.ejectile (by linarith) hn]
    constructor
    · rintro ⟨polar, az, k, a, b, hang, hk, hc, e⟩
      exact ⟨k, b, a, hk, ((C125_reaction h hT hEx ha hacc a b).1 ⟨polar, az, hang, hc⟩).symm, e⟩
    · rintro ⟨k, b, a, hk, hf, e⟩
      obtain ⟨polar, az, hang, hc⟩ := (C125_reaction h hT hEx ha hacc a b).2 hf.symm
      exact ⟨polar, az, k, a, b, hang, hk, hc, e⟩

/-! ## Examples -/

theorem exDecay_allowed : exDecay.is_excitation_allowed exParent (1 / 2) = true := by
  rw [C42_decay, exParent_M]
  norm_num [exDecay]

theorem exDecay_momentum :
    (breakupMomentum exParent.M exDecay.residual_1.mass (exDecay.residual_2.mass + 1 / 2) * exParent.M) ^ 2
      = 825 / 64 := by
  rw [breakupMomentum_sq (by rw [exParent_M]; norm_num) (by norm_num [exDecay]) (by norm_num [exDecay])
    (by rw [exParent_M]; norm_num [exDecay]), exParent_M]
  norm_num [exDecay]

/-- In the example decay the light first product can go straight backward; the heavy second product cannot
even go sideways. -/
example :
    (∃ polar azimuthal k a b, AngleOk polar azimuthal ∧ 0 ≤ k ∧
      exDecay.calculate exParent polar azimuthal (1 / 2) = .ok (exParent, some a, some b) ∧
      a.px = k * 0 ∧ a.py = k * 0 ∧ a.pz = k * (-1)) ∧
    ¬ ∃ polar azimuthal k a b, AngleOk polar azimuthal ∧ 0 ≤ k ∧
      exDecay.calculate exParent polar azimuthal (1 / 2) = .ok (exParent, some a, some b) ∧
      b.px = k * 1 ∧ b.py = k * 0 ∧ b.pz = k * 0 := by
  have h1 : 0 ≤ exDecay.residual_1.mass := by norm_num [exDecay]
  have h2 : (0 : ℝ) ≤ exDecay.residual_2.mass + 1 / 2 := by norm_num [exDecay]
  constructor
  · rw [(C125_decay_directions exParent_massive h1 h2 exDecay_allowed (by norm_num)).1]
    unfold InCone
    rw [exDecay_momentum]
    norm_num [exParent, exDecay]
  · rw [(C125_decay_directions exParent_massive h1 h2 exDecay_allowed (by norm_num)).2]
    unfold InCone
    rw [exDecay_momentum]
    norm_num [exParent, exDecay]

/-- `C125_chain` applies to the second sample of the example pipeline, and the set of its events is not
empty. -/
example : ∃ t b e r rows, EventOk exPipe (exSample 6) t b e r rows ∧
    ∃ theta phi thetas phis, AngleOk theta phi ∧ (thetas.length = exPipe.decays.length ∧
      phis.length = exPipe.decays.length ∧ ∀ tp ∈ thetas.zip phis, AngleOk tp.1 tp.2) ∧
      exPipe.attempt (withAngles (exSample 6) theta phi thetas phis) (List.replicate 6 none)
        = (.ok true, (t :: b :: e :: r :: rows).map some) := by
  have hx := exPipe_samples 6 _ _ (exPipe_sample 6)
  have hE := exPipe_allowed 6 (by norm_num)
  have hacc := exPipe_accepts 6 _ _ (exPipe_sample 6)
    ((reaction_allowed_iff exPipe_chain hx).2 ⟨hE.1, hE.2.1⟩)
  obtain ⟨rows, hrows⟩ := (eventRows_cases exPipe_chain hx
    (enough exPipe_Built countGen_lawful (exPipe_sample 6))).1 hE hacc
  obtain ⟨-, t, b, e, r, rs, -, hev⟩ := eventRows_some exPipe_chain hx hrows
  exact ⟨t, b, e, r, rs, hev,
    (C125_chain exPipe_chain hx hE ⟨_, _, hacc⟩ _ (by simp [exPipe]) t b e r rs).2 hev⟩

end Verif.Props
