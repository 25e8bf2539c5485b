import Verif.Proofs.Boost

/-! # C40–C45: two-body kinematics of one reaction or decay -/

namespace Verif.Props

open Verif.Kinematics

/-- Masses of a physical reaction. -/
structure ReactionOk (r : Reaction) : Prop where
  target : 0 < r.target.mass
  projectile : 0 ≤ r.projectile.mass
  ejectile : 0 ≤ r.ejectile.mass

/-- Beam energy in the centre of mass: the invariant mass of a projectile of kinetic energy `T` on a
target at rest. -/
noncomputable def cmEnergy (r : Reaction) (T : ℝ) : ℝ :=
  Real.sqrt ((r.target.mass + r.projectile.mass) ^ 2 + 2 * r.target.mass * T)

/-- The beam four-momentum. -/
noncomputable def beamVec (r : Reaction) (T : ℝ) : Vec4 :=
  ⟨0, 0, Real.sqrt (T * (T + 2 * r.projectile.mass)), T + r.projectile.mass⟩

/-- The target four-momentum. -/
noncomputable def targetVec (r : Reaction) : Vec4 := ⟨0, 0, 0, r.target.mass⟩

theorem beam_sq {r : Reaction} (h : ReactionOk r) {T : ℝ} (hT : 0 ≤ T) :
    (Real.sqrt (T * (T + 2 * r.projectile.mass))) ^ 2 = T * (T + 2 * r.projectile.mass) :=
  Real.sq_sqrt (mul_nonneg hT (by linarith [h.projectile]))

theorem cmEnergy_sq {r : Reaction} (h : ReactionOk r) {T : ℝ} (hT : 0 ≤ T) :
    cmEnergy r T ^ 2 = (r.target.mass + r.projectile.mass) ^ 2 + 2 * r.target.mass * T := by
  have := h.target
  exact Real.sq_sqrt (by positivity)

theorem cmEnergy_pos {r : Reaction} (h : ReactionOk r) {T : ℝ} (hT : 0 ≤ T) : 0 < cmEnergy r T := by
  have := h.target
  have := h.projectile
  exact Real.sqrt_pos.2 (by positivity)

theorem parent_massive {r : Reaction} (h : ReactionOk r) {T : ℝ} (hT : 0 ≤ T) :
    (targetVec r + beamVec r T).Massive := by
  have h1 := h.target
  have h2 := h.projectile
  constructor
  · unfold Vec4.Boostable
    simp only [targetVec, beamVec, Vec4.add_px, Vec4.add_py, Vec4.add_pz, Vec4.add_E, zero_add]
    rw [beam_sq h hT]
    nlinarith
  · simp only [targetVec, beamVec, Vec4.add_E]
    linarith

theorem parent_M {r : Reaction} (h : ReactionOk r) {T : ℝ} (hT : 0 ≤ T) :
    (targetVec r + beamVec r T).M = cmEnergy r T := by
  apply Vec4.M_of_M2 (cmEnergy_pos h hT).le
  rw [cmEnergy_sq h hT]
  simp only [Vec4.M2, targetVec, beamVec, Vec4.add_px, Vec4.add_py, Vec4.add_pz, Vec4.add_E, zero_add]
  rw [beam_sq h hT]
  ring

/-- Two-body reaction calculation in closed form. -/
theorem reaction_calculate {r : Reaction} (h : ReactionOk r) {T : ℝ} (hT : 0 ≤ T)
    (polar azimuthal Ex : ℝ) :
    r.calculate T polar azimuthal Ex =
      if r.ejectile.mass + r.residual.mass - r.projectile.mass = 0 then .error .zeroDivision
      else if T < -(r.target.mass + r.projectile.mass - (r.ejectile.mass + r.residual.mass + Ex))
          * (r.ejectile.mass + r.residual.mass)
          / (r.ejectile.mass + r.residual.mass - r.projectile.mass) then .error .valueError
      else match cmVector r.ejectile.mass (r.residual.mass + Ex) (cmEnergy r T) polar azimuthal with
        | none => .ok (targetVec r, some (beamVec r T), none, none)
        | some v => .ok (targetVec r, some (beamVec r T), some (v.boost (targetVec r + beamVec r T)),
            some (targetVec r + beamVec r T - v.boost (targetVec r + beamVec r T))) := by
  have hm := parent_massive h hT
  have hsq : npSqrt (T * (T + 2 * r.projectile.mass))
      = some (Real.sqrt (T * (T + 2 * r.projectile.mass))) := by
    unfold npSqrt
    rw [if_neg (not_lt.2 (mul_nonneg hT (by linarith [h.projectile])))]
  unfold Reaction.calculate
  simp only [hsq]
  have hb : (({ px := 0, py := 0, pz := 0, E := r.target.mass } : Vec4) +
    ({ px := 0, py := 0, pz := Real.sqrt (T * (T + 2 * r.projectile.mass)), E := T + r.projectile.mass } : Vec4))
      = targetVec r + beamVec r T := rfl
  rw [hb, if_pos hm.boostable, Vec4.boostCM_self hm, parent_M h hT]
  rfl

/-! ## C42 -/

/-- **C42.** For a physical reaction and a beam energy `T ≥ 0` the check is exactly: the invariant mass
of projectile plus target exceeds the outgoing masses plus the excitation. -/
theorem C42_reaction {r : Reaction} (h : ReactionOk r) {T : ℝ} (hT : 0 ≤ T) (Ex : ℝ) :
    r.is_excitation_allowed T Ex = true ↔
      r.ejectile.mass + r.residual.mass + Ex < (targetVec r + beamVec r T).M := by
  rw [parent_M h hT]
  have hsq : npSqrt (T * (T + 2 * r.projectile.mass))
      = some (Real.sqrt (T * (T + 2 * r.projectile.mass))) := by
    unfold npSqrt
    rw [if_neg (not_lt.2 (mul_nonneg hT (by linarith [h.projectile])))]
  have hrad : (r.target.mass + T + r.projectile.mass) ^ 2
      - (Real.sqrt (T * (T + 2 * r.projectile.mass))) ^ 2
      = (r.target.mass + r.projectile.mass) ^ 2 + 2 * r.target.mass * T := by
    rw [beam_sq h hT]; ring
  have hpos : 0 ≤ (r.target.mass + r.projectile.mass) ^ 2 + 2 * r.target.mass * T := by
    have := h.target
    positivity
  unfold Reaction.is_excitation_allowed
  simp only [hsq, hrad]
  unfold npSqrt
  rw [if_neg (not_lt.2 hpos)]
  simp [cmEnergy]

/-- **C42.** A beam that has lost all its energy is never allowed. -/
theorem C42_negative_energy (r : Reaction) {T : ℝ} (hT : T < 0) (hT' : -(2 * r.projectile.mass) < T)
    (Ex : ℝ) : r.is_excitation_allowed T Ex = false := by
  unfold Reaction.is_excitation_allowed
  have : npSqrt (T * (T + 2 * r.projectile.mass)) = none := by
    unfold npSqrt
    rw [if_pos (mul_neg_of_neg_of_pos hT (by linarith))]
  simp [this]

/-- **C42.** The same for decays. -/
theorem C42_decay (d : Decay) (parent : Vec4) (Ex : ℝ) :
    d.is_excitation_allowed parent Ex = true ↔
      d.residual_1.mass + d.residual_2.mass + Ex < parent.M := by
  unfold Decay.is_excitation_allowed
  simp

/-- **C42.** When the reaction is allowed, no square root of a negative number occurs in `calculate`:
if it returns, all vectors are defined. -/
theorem C42_no_nan {r : Reaction} (h : ReactionOk r) {T : ℝ} (hT : 0 ≤ T) {Ex : ℝ}
    (hEx : 0 ≤ r.residual.mass + Ex) (ha : r.is_excitation_allowed T Ex = true)
    (polar azimuthal : ℝ) {t : Vec4} {p e q : Option Vec4}
    (hc : r.calculate T polar azimuthal Ex = .ok (t, p, e, q)) :
    p ≠ none ∧ e ≠ none ∧ q ≠ none := by
  rw [C42_reaction h hT, parent_M h hT] at ha
  obtain ⟨pp, -, -, hv⟩ := cmVector_some polar azimuthal h.ejectile hEx (cmEnergy_pos h hT)
    (by linarith)
  rw [reaction_calculate h hT, hv] at hc
  split_ifs at hc
  simp only [Except.ok.injEq, Prod.mk.injEq] at hc
  obtain ⟨-, rfl, rfl, rfl⟩ := hc
  simp

/-- The same for decays. -/
theorem C42_decay_no_nan {d : Decay} {parent : Vec4} (hp : parent.Massive)
    (h1 : 0 ≤ d.residual_1.mass) {Ex : ℝ} (h2 : 0 ≤ d.residual_2.mass + Ex)
    (ha : d.is_excitation_allowed parent Ex = true) (polar azimuthal : ℝ) :
    ∃ a b, d.calculate parent polar azimuthal Ex = .ok (parent, some a, some b) := by
  rw [C42_decay] at ha
  obtain ⟨v, p, hv, -⟩ := breakup hp polar azimuthal h1 h2 (by linarith)
  unfold Decay.calculate
  simp only
  rw [if_neg (by linarith), if_pos hp.boostable, Vec4.boostCM_self hp]
  simp only [hv]
  exact ⟨_, _, rfl⟩

/-! ## C40 and C41 -/

/-- The reaction used in the examples: masses 2 (target), 2, 1, 3; used with
beam energy 5, that is 6 in the centre of mass. -/
noncomputable def exReaction : Reaction :=
  { target := ⟨1, 2, 2, "2H"⟩, projectile := ⟨1, 2, 2, "2H"⟩, ejectile := ⟨1, 1, 1, "1H"⟩,
    residual := ⟨1, 3, 3, "3H"⟩ }

theorem exReaction_ok : ReactionOk exReaction := ⟨by norm_num [exReaction], by norm_num [exReaction],
  by norm_num [exReaction]⟩

theorem exReaction_allowed : exReaction.is_excitation_allowed 5 1 = true := by
  rw [C42_reaction exReaction_ok (by norm_num), parent_M exReaction_ok (by norm_num)]
  have : cmEnergy exReaction 5 = 6 := by
    unfold cmEnergy
    rw [show ((exReaction.target.mass + exReaction.projectile.mass) ^ 2 + 2 * exReaction.target.mass * 5)
      = (6 : ℝ) ^ 2 by norm_num [exReaction]]
    exact Real.sqrt_sq (by norm_num)
  rw [this]
  norm_num [exReaction]

/-- **C40.** When the reaction is allowed and `calculate` returns, target plus projectile equal ejectile
plus residual, the ejectile has its mass, the residual has its mass plus the excitation, and all
energies are positive. -/
theorem C40_reaction {r : Reaction} (h : ReactionOk r) {T : ℝ} (hT : 0 ≤ T) {Ex : ℝ}
    (hEx : 0 ≤ r.residual.mass + Ex) (ha : r.is_excitation_allowed T Ex = true)
    (polar azimuthal : ℝ) {res : Vec4 × Option Vec4 × Option Vec4 × Option Vec4}
    (hc : r.calculate T polar azimuthal Ex = .ok res) :
    ∃ t p e q, res = (t, some p, some e, some q) ∧
      t = ⟨0, 0, 0, r.target.mass⟩ ∧
      p.px = 0 ∧ p.py = 0 ∧ 0 ≤ p.pz ∧ p.E = T + r.projectile.mass ∧ p.M = r.projectile.mass ∧
      e + q = t + p ∧ e.M = r.ejectile.mass ∧ q.M = r.residual.mass + Ex ∧ 0 < e.E ∧ 0 < q.E := by
  have ha' := ha
  rw [C42_reaction h hT] at ha'
  obtain ⟨v, pp, hv, h1, h2, h3, h4, h5, h6, h7, h8, h9, h10, h11, h12⟩ :=
    breakup (parent_massive h hT) polar azimuthal h.ejectile hEx (by linarith)
  rw [reaction_calculate h hT] at hc
  rw [parent_M h hT] at hv
  rw [hv] at hc
  split_ifs at hc
  simp only [Except.ok.injEq] at hc
  refine ⟨_, _, _, _, hc.symm, rfl, rfl, rfl, Real.sqrt_nonneg _, rfl, ?_, h6,
    Vec4.M_of_M2 h.ejectile h7, Vec4.M_of_M2 hEx h8, h11 (.inr (by linarith)), h12 (.inr (by linarith))⟩
  apply Vec4.M_of_M2 h.projectile
  simp only [Vec4.M2, beamVec]
  rw [beam_sq h hT]; ring

theorem exReaction_cm : cmEnergy exReaction 5 = 6 := by
  unfold cmEnergy
  rw [show ((exReaction.target.mass + exReaction.projectile.mass) ^ 2 + 2 * exReaction.target.mass * 5)
    = (6 : ℝ) ^ 2 by norm_num [exReaction]]
  exact Real.sqrt_sq (by norm_num)

/-- C40 and C41 apply: the hypotheses hold for the example reaction with excitation 1. -/
example : (∃ res, exReaction.calculate 5 (1 / 2) 1 1 = .ok res) ∧
    exReaction.is_excitation_allowed 5 1 = true ∧ (0 : ℝ) ≤ exReaction.residual.mass + 1 := by
  refine ⟨?_, exReaction_allowed, by norm_num [exReaction]⟩
  rw [reaction_calculate exReaction_ok (by norm_num)]
  obtain ⟨pp, -, -, hv⟩ := cmVector_some (m1 := exReaction.ejectile.mass)
    (m2 := exReaction.residual.mass + 1) (W := cmEnergy exReaction 5) (1 / 2) 1
    (by norm_num [exReaction]) (by norm_num [exReaction]) (by rw [exReaction_cm]; norm_num)
    (by rw [exReaction_cm]; norm_num [exReaction])
  rw [hv, if_neg (by norm_num [exReaction]), if_neg (by norm_num [exReaction])]
  exact ⟨_, rfl⟩

/-- **C41.** The frame in which the angles are meant: the boost into the rest frame of `q` is additive,
preserves invariant masses, and brings `q` to rest. -/
theorem C41_frame {q : Vec4} (hq : q.Massive) :
    q.boostCM_of q = ⟨0, 0, 0, q.M⟩ ∧ (∀ v : Vec4, (v.boostCM_of q).M2 = v.M2) ∧
    ∀ a b : Vec4, (a - b).boostCM_of q = a.boostCM_of q - b.boostCM_of q :=
  ⟨Vec4.boostCM_self hq, Vec4.boostCM_M2 hq, Vec4.boostCM_sub hq⟩

/-- `e` and `q` fly apart back to back, `e` in the direction `(polar, azimuthal)`. -/
def BackToBack (e q : Vec4) (polar azimuthal : ℝ) : Prop :=
  ∃ k : ℝ, 0 < k ∧ e.px = k * (Real.sin polar * Real.cos azimuthal) ∧
    e.py = k * (Real.sin polar * Real.sin azimuthal) ∧ e.pz = k * Real.cos polar ∧
    q.px = -e.px ∧ q.py = -e.py ∧ q.pz = -e.pz

/-- **C41.** In the centre-of-mass frame the ejectile has exactly the requested direction and the
residual is back to back. -/
theorem C41_reaction {r : Reaction} (h : ReactionOk r) {T : ℝ} (hT : 0 ≤ T) {Ex : ℝ}
    (hEx : 0 ≤ r.residual.mass + Ex) (ha : r.is_excitation_allowed T Ex = true)
    (polar azimuthal : ℝ) {t p e q : Vec4}
    (hc : r.calculate T polar azimuthal Ex = .ok (t, some p, some e, some q)) :
    BackToBack (e.boostCM_of (t + p)) (q.boostCM_of (t + p)) polar azimuthal := by
  rw [C42_reaction h hT] at ha
  obtain ⟨v, pp, hv, h1, h2, h3, h4, h5, h6, h7, h8, h9, h10, h11, h12⟩ :=
    breakup (parent_massive h hT) polar azimuthal h.ejectile hEx (by linarith)
  rw [reaction_calculate h hT] at hc
  rw [parent_M h hT] at hv
  rw [hv] at hc
  split_ifs at hc
  simp only [Except.ok.injEq, Prod.mk.injEq, Option.some.injEq] at hc
  obtain ⟨rfl, rfl, rfl, rfl⟩ := hc
  refine ⟨pp, h5 (by linarith), ?_, ?_, ?_, ?_, ?_, ?_⟩
  · rw [h9, h2]; ring
  · rw [h9, h3]; ring
  · rw [h9, h4]
  · rw [h10, h9]
  · rw [h10, h9]
  · rw [h10, h9]

/-! ## C45 -/

/-- **C45.** When the decay is allowed, `calculate` returns the parent unchanged and two products that
add up to it, with the invariant masses of residual_1 and of residual_2 plus its excitation, and
positive energies. -/
theorem C45_decay {d : Decay} {parent : Vec4} (hp : parent.Massive) (h1 : 0 ≤ d.residual_1.mass)
    {Ex : ℝ} (h2 : 0 ≤ d.residual_2.mass + Ex) (ha : d.is_excitation_allowed parent Ex = true)
    (polar azimuthal : ℝ) :
    ∃ a b, d.calculate parent polar azimuthal Ex = .ok (parent, some a, some b) ∧
      a + b = parent ∧ a.M = d.residual_1.mass ∧ b.M = d.residual_2.mass + Ex ∧ 0 < a.E ∧ 0 < b.E ∧
      b.M2 = (d.residual_2.mass + Ex) ^ 2 := by
  rw [C42_decay] at ha
  obtain ⟨v, pp, hv, g1, g2, g3, g4, g5, g6, g7, g8, g9, g10, g11, g12⟩ :=
    breakup hp polar azimuthal h1 h2 (by linarith)
  refine ⟨v.boost parent, parent - v.boost parent, ?_, g6, Vec4.M_of_M2 h1 g7, Vec4.M_of_M2 h2 g8,
    g11 (.inr (by linarith)), g12 (.inr (by linarith)), g8⟩
  unfold Decay.calculate
  simp only
  rw [if_neg (by linarith), if_pos hp.boostable, Vec4.boostCM_self hp]
  simp only [hv]

/-- **C41.** In the rest frame of the parent, residual_1 has exactly the requested direction and
residual_2 is back to back. -/
theorem C41_decay {d : Decay} {parent : Vec4} (hp : parent.Massive) (h1 : 0 ≤ d.residual_1.mass)
    {Ex : ℝ} (h2 : 0 ≤ d.residual_2.mass + Ex) (ha : d.is_excitation_allowed parent Ex = true)
    (polar azimuthal : ℝ) {a b : Vec4}
    (hc : d.calculate parent polar azimuthal Ex = .ok (parent, some a, some b)) :
    BackToBack (a.boostCM_of parent) (b.boostCM_of parent) polar azimuthal := by
  rw [C42_decay] at ha
  obtain ⟨v, pp, hv, g1, g2, g3, g4, g5, g6, g7, g8, g9, g10, g11, g12⟩ :=
    breakup hp polar azimuthal h1 h2 (by linarith)
  unfold Decay.calculate at hc
  simp only at hc
  rw [if_neg (by linarith), if_pos hp.boostable, Vec4.boostCM_self hp] at hc
  simp only [hv, Except.ok.injEq, Prod.mk.injEq, Option.some.injEq, true_and] at hc
  obtain ⟨rfl, rfl⟩ := hc
  refine ⟨pp, g5 (by linarith), ?_, ?_, ?_, ?_, ?_, ?_⟩
  · rw [g9, g2]; ring
  · rw [g9, g3]; ring
  · rw [g9, g4]
  · rw [g10, g9]
  · rw [g10, g9]
  · rw [g10, g9]

/-- The decay and parent of the examples: a parent of mass 4 and momentum 3 into masses 1 and 2. -/
noncomputable def exDecay : Decay :=
  { parent := ⟨1, 3, 3, "3H"⟩, residual_1 := ⟨0, 1, 1, "1n"⟩, residual_2 := ⟨1, 2, 2, "2H"⟩ }

noncomputable def exParent : Vec4 := ⟨0, 0, 3, 5⟩

theorem exParent_massive : exParent.Massive :=
  ⟨by norm_num [Vec4.Boostable, exParent], by norm_num [exParent]⟩

theorem exParent_M : exParent.M = 4 := Vec4.M_of_M2 (by norm_num) (by norm_num [Vec4.M2, exParent])

/-- C45 and C41 apply to the example decay with excitation 1/2. -/
example : exDecay.is_excitation_allowed exParent (1 / 2) = true ∧ 0 ≤ exDecay.residual_1.mass ∧
    (0 : ℝ) ≤ exDecay.residual_2.mass + 1 / 2 := by
  refine ⟨?_, by norm_num [exDecay], by norm_num [exDecay]⟩
  rw [C42_decay, exParent_M]
  norm_num [exDecay]

/-! ## C43 -/

/-- **C43.** An allowed decay is never rejected by `calculate`. -/
theorem C43_decay_accepts {d : Decay} {parent : Vec4} {Ex : ℝ}
    (ha : d.is_excitation_allowed parent Ex = true) (polar azimuthal : ℝ) :
    ∃ res, d.calculate parent polar azimuthal Ex = .ok res := by
  rw [C42_decay] at ha
  unfold Decay.calculate
  simp only
  rw [if_neg (by linarith)]
  split_ifs
  · cases cmVector d.residual_1.mass (d.residual_2.mass + Ex)
      (parent.boostCM_of parent).E polar azimuthal with
    | none => exact ⟨_, rfl⟩
    | some v => exact ⟨_, rfl⟩
  · exact ⟨_, rfl⟩

/-- An exothermic reaction in inverse kinematics that populates a state just above the threshold. -/
noncomputable def exExothermic : Reaction :=
  { target := ⟨1, 2, 2000, "2H"⟩, projectile := ⟨8, 16, 15000, "16O"⟩,
    ejectile := ⟨1, 1, 1000, "1H"⟩, residual := ⟨8, 17, 15990, "17O"⟩ }

/-- **C43 is false for reactions.** For an exothermic reaction populating an excited state, there is a
beam energy at which `is_excitation_allowed` returns True and `calculate` raises ValueError. -/
theorem C43_refuted : ReactionOk exExothermic ∧
    exExothermic.is_excitation_allowed 0.852 10.1 = true ∧
    ∀ polar azimuthal, exExothermic.calculate 0.852 polar azimuthal 10.1 = .error .valueError := by
  have hok : ReactionOk exExothermic := ⟨by norm_num [exExothermic], by norm_num [exExothermic],
    by norm_num [exExothermic]⟩
  refine ⟨hok, ?_, ?_⟩
  · rw [C42_reaction hok (by norm_num), parent_M hok (by norm_num)]
    unfold cmEnergy
    apply Real.lt_sqrt_of_sq_lt
    norm_num [exExothermic]
  · intro polar azimuthal
    rw [reaction_calculate hok (by norm_num)]
    rw [if_neg (by norm_num [exExothermic]), if_pos (by norm_num [exExothermic])]

/-- **C43, the part that holds.** When the outgoing masses alone exceed the projectile mass, and the
reaction is endothermic or elastic in the ground state (or the excited state is still exothermic),
an allowed reaction is never rejected. Missing: exothermic reactions to states above the beam-plus-target
mass, where it is false. -/
theorem C43_partial {r : Reaction} (h : ReactionOk r) {T : ℝ} (hT : 0 ≤ T) {Ex : ℝ}
    (hEx : 0 ≤ r.residual.mass + Ex) (ha : r.is_excitation_allowed T Ex = true)
    (hS : r.projectile.mass < r.ejectile.mass + r.residual.mass)
    (hQ : r.target.mass + r.projectile.mass ≤ r.ejectile.mass + r.residual.mass ∨
      r.ejectile.mass + r.residual.mass + Ex ≤ r.target.mass + r.projectile.mass)
    (polar azimuthal : ℝ) :
    ∃ t p e q, r.calculate T polar azimuthal Ex = .ok (t, some p, some e, some q) := by
  have ht := h.target
  have hpm := h.projectile
  have hem := h.ejectile
  have hS' : 0 < r.ejectile.mass + r.residual.mass - r.projectile.mass := by linarith
  have ha' := ha
  rw [C42_reaction h hT, parent_M h hT] at ha'
  have hsq := cmEnergy_sq h hT
  have hout : (r.ejectile.mass + r.residual.mass + Ex) ^ 2
      < (r.target.mass + r.projectile.mass) ^ 2 + 2 * r.target.mass * T := by
    rw [← hsq]
    have : 0 ≤ r.ejectile.mass + r.residual.mass + Ex := by linarith
    nlinarith
  rw [reaction_calculate h hT]
  have hth : ¬ T < -(r.target.mass + r.projectile.mass - (r.ejectile.mass + r.residual.mass + Ex))
          * (r.ejectile.mass + r.residual.mass)
          / (r.ejectile.mass + r.residual.mass - r.projectile.mass) := by
    rw [not_lt, div_le_iff₀ hS']
    generalize r.ejectile.mass = me at *
    generalize r.residual.mass = mr at *
    generalize r.projectile.mass = mp at *
    generalize r.target.mass = mt at *
    obtain ⟨S, rfl⟩ : ∃ S, mr = S - me := ⟨me + mr, by ring⟩
    obtain ⟨k, rfl⟩ : ∃ k, Ex = mt + mp + k - S := ⟨Ex - mt - mp + S, by ring⟩
    rw [show me + (S - me) = S by ring] at *
    rw [show S + (mt + mp + k - S) = mt + mp + k by ring] at *
    have e1 : -(mt + mp - (mt + mp + k)) * S = k * S := by ring
    rw [e1]
    by_cases hk : k ≤ 0
    · have : k * S ≤ 0 := mul_nonpos_of_nonpos_of_nonneg hk (by linarith)
      have : 0 ≤ T * (S - mp) := mul_nonneg hT hS'.le
      linarith
    · have hk : 0 < k := lt_of_not_ge hk
      have hd : mt + mp ≤ S := by
        rcases hQ with h | h
        · exact h
        · linarith
      -- 2 m_t T > k (2 (m_t + m_p) + k)
      have h1 : k * (2 * (mt + mp) + k) < 2 * mt * T := by nlinarith
      have h2 : 2 * mt * (k * S) ≤ k * (2 * (mt + mp) + k) * (S - mp) := by
        obtain ⟨d, rfl⟩ : ∃ d, S = mt + mp + d := ⟨S - mt - mp, by ring⟩
        have hd0 : 0 ≤ d := by linarith
        have : k * (2 * (mt + mp) + k) * (mt + mp + d - mp) - 2 * mt * (k * (mt + mp + d))
            = k * (2 * mp * d + k * (mt + d)) := by ring
        have : 0 ≤ k * (2 * mp * d + k * (mt + d)) := by positivity
        linarith
      have h3 : 2 * mt * (k * S) ≤ 2 * mt * (T * (S - mp)) := by
        calc 2 * mt * (k * S) ≤ k * (2 * (mt + mp) + k) * (S - mp) := h2
          _ ≤ 2 * mt * T * (S - mp) := mul_le_mul_of_nonneg_right h1.le hS'.le
          _ = 2 * mt * (T * (S - mp)) := by ring
      exact le_of_mul_le_mul_left h3 (by linarith)
  rw [if_neg hS'.ne', if_neg hth]
  obtain ⟨pp, -, -, hv⟩ := cmVector_some polar azimuthal h.ejectile hEx (cmEnergy_pos h hT)
    (by linarith)
  rw [hv]
  exact ⟨_, _, _, _, rfl⟩

/-- C43_partial applies to the example reaction. -/
example : exReaction.projectile.mass < exReaction.ejectile.mass + exReaction.residual.mass ∧
    exReaction.target.mass + exReaction.projectile.mass
      ≤ exReaction.ejectile.mass + exReaction.residual.mass := by
  norm_num [exReaction]

/-! ## C44 -/

/-- An endothermic reaction: 10 MeV are missing. -/
noncomputable def exEndothermic : Reaction :=
  { target := ⟨1, 2, 2000, "2H"⟩, projectile := ⟨6, 12, 12000, "12C"⟩,
    ejectile := ⟨1, 1, 1000, "1H"⟩, residual := ⟨6, 13, 13010, "13C"⟩ }

/-- **C44 is false.** Between the threshold of the code and the exact one, `calculate` returns NaN
four-vectors without raising. -/
theorem C44_refuted : ReactionOk exEndothermic ∧ ∀ polar azimuthal,
    exEndothermic.calculate 70 polar azimuthal 0
      = .ok (targetVec exEndothermic, some (beamVec exEndothermic 70), none, none) := by
  have hok : ReactionOk exEndothermic := ⟨by norm_num [exEndothermic], by norm_num [exEndothermic],
    by norm_num [exEndothermic]⟩
  refine ⟨hok, fun polar azimuthal => ?_⟩
  rw [reaction_calculate hok (by norm_num)]
  rw [if_neg (by norm_num [exEndothermic]), if_neg (by norm_num [exEndothermic])]
  have hsq := cmEnergy_sq hok (T := 70) (by norm_num)
  have hpos := cmEnergy_pos hok (T := 70) (by norm_num)
  set W := cmEnergy exEndothermic 70
  have hW : W ^ 2 = 196280000 := by rw [hsq]; norm_num [exEndothermic]
  have : cmVector exEndothermic.ejectile.mass (exEndothermic.residual.mass + 0) W polar azimuthal
      = none := by
    unfold cmVector
    have hneg : ((exEndothermic.ejectile.mass ^ 2 - (exEndothermic.residual.mass + 0) ^ 2 + W ^ 2)
        / (2 * W)) ^ 2 - exEndothermic.ejectile.mass ^ 2 < 0 := by
      rw [div_pow, mul_pow, hW]
      norm_num [exEndothermic]
    simp only
    rw [show npSqrt (((exEndothermic.ejectile.mass ^ 2 - (exEndothermic.residual.mass + 0) ^ 2 + W ^ 2)
        / (2 * W)) ^ 2 - exEndothermic.ejectile.mass ^ 2) = none by
      unfold npSqrt; rw [if_pos hneg]]
  rw [this]

/-- **C44, the part that holds.** Whenever the available energy covers the outgoing masses and the
excitation, `calculate` either raises or returns finite four-vectors. Missing: beam energies below the
exact threshold, where it is false. -/
theorem C44_partial {r : Reaction} (h : ReactionOk r) {T : ℝ} (hT : 0 ≤ T) {Ex : ℝ}
    (hEx : 0 ≤ r.residual.mass + Ex)
    (henough : r.ejectile.mass + r.residual.mass + Ex ≤ cmEnergy r T) (polar azimuthal : ℝ) :
    (∃ e, r.calculate T polar azimuthal Ex = .error e) ∨
    ∃ t p e q, r.calculate T polar azimuthal Ex = .ok (t, some p, some e, some q) := by
  obtain ⟨pp, -, -, hv⟩ := cmVector_some polar azimuthal h.ejectile hEx (cmEnergy_pos h hT)
    (by linarith)
  rw [reaction_calculate h hT, hv]
  split_ifs
  · exact .inl ⟨_, rfl⟩
  · exact .inl ⟨_, rfl⟩
  · exact .inr ⟨_, _, _, _, rfl⟩

/-- **C44.** Decays of a massive parent either raise or return finite four-vectors. -/
theorem C44_decay_finite {d : Decay} {parent : Vec4} (hp : parent.Massive)
    (h1 : 0 ≤ d.residual_1.mass) {Ex : ℝ} (h2 : 0 ≤ d.residual_2.mass + Ex) (polar azimuthal : ℝ) :
    (parent.M < d.residual_1.mass + d.residual_2.mass + Ex ∧
      d.calculate parent polar azimuthal Ex = .error .valueError) ∨
    (d.residual_1.mass + d.residual_2.mass + Ex ≤ parent.M ∧
      ∃ a b, d.calculate parent polar azimuthal Ex = .ok (parent, some a, some b)) := by
  unfold Decay.calculate
  simp only
  by_cases hq : parent.M - (d.residual_1.mass + d.residual_2.mass + Ex) < 0
  · rw [if_pos hq]
    exact .inl ⟨by linarith, rfl⟩
  · obtain ⟨v, p, hv, -⟩ := breakup hp polar azimuthal h1 h2 (by linarith)
    rw [if_neg hq, if_pos hp.boostable, Vec4.boostCM_self hp]
    simp only [hv]
    exact .inr ⟨by linarith, _, _, rfl⟩

end Verif.Props
