import Verif.Spec.Rotation
import Verif.Spec.ExactIvp
import Verif.Props.Motion

/-! # C96: symmetry about the beam axis -/

namespace Verif.Detector

open Verif.Spec Verif.Kinematics

theorem cos_sq_sin_sq (α : ℝ) : Real.cos α ^ 2 + Real.sin α ^ 2 = 1 := by
  rw [add_comm]; exact Real.sin_sq_add_cos_sq α

theorem turn_sq (α x y : ℝ) :
    (Real.cos α * x - Real.sin α * y) ^ 2 + (Real.sin α * x + Real.cos α * y) ^ 2 = x ^ 2 + y ^ 2 := by
  have := cos_sq_sin_sq α
  linear_combination (x ^ 2 + y ^ 2) * this

/-! ## Kinematics -/

theorem turn_M2 (α : ℝ) (p : Vec4) : (turnVec α p).M2 = p.M2 := by
  unfold Vec4.M2 turnVec
  simp only
  rw [turn_sq]

theorem turn_M (α : ℝ) (p : Vec4) : (turnVec α p).M = p.M := by
  unfold Vec4.M
  rw [turn_M2]

theorem turn_boostable (α : ℝ) (p : Vec4) : (turnVec α p).Boostable ↔ p.Boostable := by
  unfold Vec4.Boostable turnVec
  simp only
  rw [turn_sq]

theorem turn_boostBeta (α : ℝ) (p : Vec4) (bx by' bz : ℝ) :
    (turnVec α p).boostBeta (Real.cos α * bx - Real.sin α * by') (Real.sin α * bx + Real.cos α * by') bz
      = turnVec α (p.boostBeta bx by' bz) := by
  have hdot : (Real.cos α * bx - Real.sin α * by') * (Real.cos α * p.px - Real.sin α * p.py)
      + (Real.sin α * bx + Real.cos α * by') * (Real.sin α * p.px + Real.cos α * p.py) + bz * p.pz
      = bx * p.px + by' * p.py + bz * p.pz := by
    have := cos_sq_sin_sq α
    linear_combination (bx * p.px + by' * p.py) * this
  unfold Vec4.boostBeta turnVec
  simp only [turn_sq, hdot]
  congr 1 <;> ring

theorem turn_boost (α : ℝ) (p q : Vec4) : (turnVec α p).boost (turnVec α q) = turnVec α (p.boost q) := by
  unfold Vec4.boost
  rw [← turn_boostBeta]
  congr 1 <;> simp only [turnVec] <;> ring

theorem turn_boostCM (α : ℝ) (p q : Vec4) :
    (turnVec α p).boostCM_of (turnVec α q) = turnVec α (p.boostCM_of q) := by
  unfold Vec4.boostCM_of
  rw [← turn_boostBeta]
  congr 1 <;> simp only [turnVec] <;> ring

theorem turn_sub (α : ℝ) (p q : Vec4) : turnVec α p - turnVec α q = turnVec α (p - q) := by
  change Vec4.sub _ _ = turnVec α (Vec4.sub p q)
  unfold Vec4.sub turnVec
  simp only
  congr 1 <;> ring

theorem turn_cmVector {α azimuthal azimuthal' : ℝ} (h : TurnedAngle α azimuthal azimuthal') (m1 m2 e polar : ℝ) :
    cmVector m1 m2 e polar azimuthal' = (cmVector m1 m2 e polar azimuthal).map (turnVec α) := by
  unfold cmVector
  simp only
  cases npSqrt (((m1 ^ 2 - m2 ^ 2 + e ^ 2) / (2 * e)) ^ 2 - m1 ^ 2) with
  | none => rfl
  | some p =>
    simp only [Option.map_some, Option.some.injEq, turnVec, h.1, h.2, Real.cos_add, Real.sin_add]
    congr 1 <;> ring

/-- The direction of the beam is the axis. -/
theorem turn_axis (α : ℝ) {p : Vec4} (hx : p.px = 0) (hy : p.py = 0) : turnVec α p = p := by
  unfold turnVec
  ext <;> simp [hx, hy]

/-- **C96.** Turning the azimuth of the ejectile turns the products of the reaction about the beam axis and
nothing else. -/
theorem C96_reaction (r : Reaction) {α azimuthal azimuthal' : ℝ} (h : TurnedAngle α azimuthal azimuthal')
    (energy polar excitation : ℝ) :
    r.calculate energy polar azimuthal' excitation
      = (r.calculate energy polar azimuthal excitation).map fun (t, p, e, res) =>
          (t, p, e.map (turnVec α), res.map (turnVec α)) := by
  unfold Reaction.calculate
  simp only
  split
  · rfl
  split
  · rfl
  cases npSqrt (energy * (energy + 2 * r.projectile.mass)) with
  | none => rfl
  | some pz =>
    simp only
    have hparent : ∀ q : Vec4, q = (⟨0, 0, 0, r.target.mass⟩ : Vec4) + ⟨0, 0, pz, energy + r.projectile.mass⟩ →
        turnVec α q = q := by
      rintro q rfl
      exact turn_axis α (by change (0 : ℝ) + 0 = 0; simp) (by change (0 : ℝ) + 0 = 0; simp)
    generalize hq : (⟨0, 0, 0, r.target.mass⟩ : Vec4) + ⟨0, 0, pz, energy + r.projectile.mass⟩ = q
    have hfix := hparent q hq.symm
    split
    · rw [turn_cmVector h]
      cases cmVector r.ejectile.mass (r.residual.mass + excitation) (q.boostCM_of q).E polar azimuthal with
      | none => rfl
      | some v =>
        simp only [Option.map_some, Except.map]
        have h1 := turn_boost α v q
        rw [hfix] at h1
        have h2 := turn_sub α q (v.boost q)
        rw [hfix] at h2
        rw [h1, h2]
    · rfl

/-- The target and the projectile of a reaction lie on the axis. -/
theorem incoming_axis {r : Reaction} {α energy polar azimuthal excitation : ℝ} {t : Vec4}
    {p e res : Option Vec4} (h : r.calculate energy polar azimuthal excitation = .ok (t, p, e, res)) :
    turnVec α t = t ∧ p.map (turnVec α) = p := by
  have h0 : turnVec α ⟨0, 0, 0, r.target.mass⟩ = ⟨0, 0, 0, r.target.mass⟩ := turn_axis α rfl rfl
  have h1 : ∀ pz E, turnVec α ⟨0, 0, pz, E⟩ = ⟨0, 0, pz, E⟩ := fun _ _ => turn_axis α rfl rfl
  unfold Reaction.calculate at h
  simp only at h
  split at h
  · cases h
  split at h
  · cases h
  split at h
  · obtain ⟨rfl, rfl, rfl, rfl⟩ : _ ∧ _ ∧ _ ∧ _ := by simpa using Except.ok.inj h
    exact ⟨h0, rfl⟩
  split at h
  · split at h
    · obtain ⟨rfl, rfl, rfl, rfl⟩ : _ ∧ _ ∧ _ ∧ _ := by simpa using Except.ok.inj h
      exact ⟨h0, by rw [Option.map_some, h1]⟩
    · obtain ⟨rfl, rfl, rfl, rfl⟩ : _ ∧ _ ∧ _ ∧ _ := by simpa using Except.ok.inj h
      exact ⟨h0, by rw [Option.map_some, h1]⟩
  · obtain ⟨rfl, rfl, rfl, rfl⟩ : _ ∧ _ ∧ _ ∧ _ := by simpa using Except.ok.inj h
    exact ⟨h0, by rw [Option.map_some, h1]⟩

/-- **C96.** Turning the parent and the azimuth of a decay turns its products. -/
theorem C96_decay (d : Decay) {α azimuthal azimuthal' : ℝ} (h : TurnedAngle α azimuthal azimuthal')
    (parent : Vec4) (polar excitation : ℝ) :
    d.calculate (turnVec α parent) polar azimuthal' excitation
      = (d.calculate parent polar azimuthal excitation).map fun (q, r1, r2) =>
          (turnVec α q, r1.map (turnVec α), r2.map (turnVec α)) := by
  unfold Decay.calculate
  simp only [turn_M, turn_boostable, turn_boostCM, turn_cmVector h]
  split
  · rfl
  by_cases hb : parent.Boostable
  · rw [if_pos ((turn_boostable α parent).2 hb), if_pos hb]
    have hE : (turnVec α (parent.boostCM_of parent)).E = (parent.boostCM_of parent).E := rfl
    rw [hE]
    cases cmVector d.residual_1.mass (d.residual_2.mass + excitation) (parent.boostCM_of parent).E polar
        azimuthal with
    | none => rfl
    | some v =>
      simp only [Option.map_some, Except.map, turn_boost, turn_sub]
  · rw [if_neg (fun h => hb ((turn_boostable α parent).1 h)), if_neg hb]
    rfl

theorem turn_allowed (d : Decay) (α : ℝ) (parent : Vec4) (ex : ℝ) :
    d.is_excitation_allowed (turnVec α parent) ex = d.is_excitation_allowed parent ex := by
  unfold Decay.is_excitation_allowed
  rw [turn_M]

theorem listGet_turned {α : ℝ} {l l' : List ℝ} (h : List.Forall₂ (TurnedAngle α) l l') (k : ℕ) :
    (∃ e, listGet l k = .error e ∧ listGet l' k = .error e) ∨
      ∃ φ φ', listGet l k = .ok φ ∧ listGet l' k = .ok φ' ∧ TurnedAngle α φ φ' := by
  induction h generalizing k with
  | nil => left; exact ⟨.indexError, rfl, rfl⟩
  | cons h _ ih =>
    cases k with
    | zero => right; exact ⟨_, _, rfl, rfl, h⟩
    | succ k => exact ih k

theorem turn_decayLoop {α : ℝ} {x x' : Sample} (h : TurnedSample α x x') : ∀ (decays : List Decay) (idx : ℕ)
    (prev : ResultRow) (buf : List ResultRow),
    decayLoop x' idx decays (prev.map (turnVec α)) (buf.map (Option.map (turnVec α)))
      = ((decayLoop x idx decays prev buf).1,
         (decayLoop x idx decays prev buf).2.map (Option.map (turnVec α)))
  | [], _, _, _ => rfl
  | decay :: rest, idx, prev, buf => by
    unfold decayLoop
    rw [h.decay_excitations, h.decay_thetas]
    cases listGet x.decay_excitations idx with
    | error e => rfl
    | ok ex =>
      cases prev with
      | none => rfl
      | some parent =>
        simp only [Option.map_some, turn_allowed]
        split
        · rfl
        · cases listGet x.decay_thetas idx with
          | error e => rfl
          | ok theta =>
            obtain ⟨e, h1, h2⟩ | ⟨φ, φ', h1, h2, h3⟩ := listGet_turned h.decay_phis idx
            · simp only [h1, h2, bind, Except.bind]
            · simp only [h1, h2, bind, Except.bind, C96_decay decay h3]
              cases decay.calculate parent theta φ ex with
              | error e => rfl
              | ok r =>
                obtain ⟨q, r1, r2⟩ := r
                simp only [Except.map]
                rw [← List.map_set, ← List.map_set]
                exact turn_decayLoop h rest (idx + 1) r2 _

/-- **C96.** Turning the vertex and all azimuths of a sample: the event is accepted in the same cases, fails
in the same cases, and all its four-momenta are turned. -/
theorem C96_event {σ : Type} (p : Pipeline σ) {α : ℝ} {x x' : Sample} (h : TurnedSample α x x')
    (buf : List ResultRow) :
    p.attempt x' (buf.map (Option.map (turnVec α)))
      = ((p.attempt x buf).1, (p.attempt x buf).2.map (Option.map (turnVec α))) := by
  unfold Pipeline.attempt
  rw [h.beam_energy, h.reaction_excitation, h.reaction_theta, C96_reaction p.reaction h.reaction_phi]
  split
  · rfl
  · cases hc : p.reaction.calculate x.beam_energy x.reaction_theta x.reaction_phi
        x.reaction_excitation with
    | error e => rfl
    | ok r =>
      obtain ⟨t, q, e, res⟩ := r
      obtain ⟨ht, hq⟩ := incoming_axis (α := α) hc
      simp only [Except.map]
      rw [← turn_decayLoop h]
      simp only [List.map_set, Option.map_some, ht, hq]

/-! ## Trajectories -/

theorem turn_gv (α : ℝ) (r : Row) : (turnRow α r).gv = r.gv := by
  unfold Row.gv turnRow
  simp only
  rw [turn_sq]

/-- **C96.** The equation of motion is symmetric about the axis of the fields: the derivative at the turned
state is the turned derivative. -/
theorem C96_motion (α t : ℝ) (r : Row) (B E : ℝ) (target : GasTarget) (n : Nucleus) :
    equation_of_motion t (turnRow α r) B E target n
      = (equation_of_motion t r B E target n).map (turnRow α) := by
  unfold equation_of_motion
  simp only [turn_gv]
  split
  · rfl
  · simp only [Except.map, turnRow, Except.ok.injEq, Row.mk.injEq, true_and, and_true]
    refine ⟨?_, ?_, ?_, ?_⟩ <;> ring

/-- The problem posed for a turned vertex and momentum starts in the turned state. -/
theorem turn_start (α : ℝ) (vertex momentum : ℝ × ℝ × ℝ) (nucleus : Nucleus) (params : DetectorParams) :
    (trajectory_problem (turnPoint α vertex) (turnPoint α momentum) nucleus params).y0
      = turnRow α (trajectory_problem vertex momentum nucleus params).y0 := by
  simp only [trajectory_problem, turnPoint, turnRow, Row.mk.injEq, true_and, and_true]
  constructor <;> ring

/-- **C96.** The bounds of the detector are symmetric about its axis: no event function of the trajectory
changes when the state is turned. -/
theorem C96_bounds (α : ℝ) (vertex momentum vertex' momentum' : ℝ × ℝ × ℝ) (nucleus : Nucleus)
    (params : DetectorParams) {ev : IvpEvent}
    (hev : ev ∈ (trajectory_problem vertex momentum nucleus params).events) (t : ℝ) (r : Row) :
    ev ∈ (trajectory_problem vertex' momentum' nucleus params).events ∧
      ev.fn t (turnRow α r) = ev.fn t r := by
  refine ⟨hev, ?_⟩
  simp only [trajectory_problem, List.mem_cons, List.not_mem_nil, or_false] at hev
  rcases hev with rfl | rfl | rfl | rfl
  · simp only [stop_condition, turn_gv]
  · rfl
  · rfl
  · simp only [rho_bound_condition, turnRow, turn_sq]

/-- **C96.** The turned trajectory is the trajectory of the turned nucleus: it solves its equation of motion
for as long and respects the same bounds. -/
theorem C96_trajectory (α : ℝ) {vertex momentum : ℝ × ℝ × ℝ} {nucleus : Nucleus} {params : DetectorParams}
    {traj : ℝ → Row} {T : ℝ} (h : Solves (trajectory_problem vertex momentum nucleus params) traj T) :
    Solves (trajectory_problem (turnPoint α vertex) (turnPoint α momentum) nucleus params)
      (fun t => turnRow α (traj t)) T where
  start := by
    rw [turn_start, ← h.start]
    rfl
  span := h.span
  deriv := by
    intro t ht
    obtain ⟨d, hd, h1, h2, h3, h4, h5, h6⟩ := h.deriv t ht
    have hd' : equation_of_motion t (traj t) (params.bfield * -1) (params.efield * -1)
      params.gas_target nucleus = .ok d := hd
    refine ⟨turnRow α d, ?_, ?_, ?_, h3, ?_, ?_, h6⟩
    · change equation_of_motion t (turnRow α (traj t)) (params.bfield * -1) (params.efield * -1)
        params.gas_target nucleus = _
      rw [C96_motion, hd']
      rfl
    · exact (h1.const_mul (Real.cos α)).sub (h2.const_mul (Real.sin α))
    · exact (h1.const_mul (Real.sin α)).add (h2.const_mul (Real.cos α))
    · exact (h4.const_mul (Real.cos α)).sub (h5.const_mul (Real.sin α))
    · exact (h4.const_mul (Real.sin α)).add (h5.const_mul (Real.cos α))
  events := by
    intro t ht ev hev hterm v₀ hv₀ ty hty
    obtain rfl := List.mem_singleton.1 hty
    rw [turn_start, (C96_bounds α _ _ vertex momentum nucleus params hev _ _).2] at hv₀
    have hev' := (C96_bounds α _ _ vertex momentum nucleus params hev 0 (traj t)).1
    have := h.events t ht ev hev' hterm v₀ hv₀ _ (List.mem_singleton.2 rfl)
    simp only [(C96_bounds α _ _ vertex momentum nucleus params hev t (traj t)).2]
    exact this

/-- **C96.** A turned track releases the same electrons at the same heights, from the same random numbers. -/
theorem C96_electrons {σ : Type} (α : ℝ) (track : List Row) (nucleus : Nucleus) (params : DetectorParams)
    (rng : Gen σ) (s : σ) :
    generate_electrons (track.map (turnRow α)) nucleus params rng s
        = generate_electrons track nucleus params rng s ∧
      (track.map (turnRow α)).map (·.z) = track.map (·.z) := by
  have h : ∀ r, track_energy nucleus (turnRow α r) = track_energy nucleus r := by
    intro r
    unfold track_energy
    rw [turn_gv]
  constructor
  · unfold generate_electrons
    simp only [List.map_map]
    have : (track_energy nucleus ∘ turnRow α) = track_energy nucleus := funext h
    rw [this]
  · rw [List.map_map]
    rfl

/-- A particle flying along x and, turned by a right angle, along y: the hypotheses of C96 are met by turned
samples, and the derivative at the turned state is the turned derivative. -/
example (B E : ℝ) : ∃ d, equation_of_motion 0 ⟨0, 0, 0.5, 3 / 4, 0, 0⟩ B E
      { density := 1, get_dedx := fun _ _ => 2, get_energy_loss := fun _ _ _ => 0 } exNucleus = .ok d ∧
    0 < d.x ∧
    equation_of_motion 0 ⟨0, 0, 0.5, 0, 3 / 4, 0⟩ B E
      { density := 1, get_dedx := fun _ _ => 2, get_energy_loss := fun _ _ _ => 0 } exNucleus
        = .ok ⟨-d.y, d.x, d.z, -d.gvy, d.gvx, d.gvz⟩ := by
  have hgv : (⟨0, 0, 0.5, 3 / 4, 0, 0⟩ : Row).gv = 3 / 4 := sqrt_of_sq (by norm_num) (by norm_num)
  obtain ⟨d, hd⟩ := (eom_ok_iff 0 ⟨0, 0, 0.5, 3 / 4, 0, 0⟩ B E
      { density := 1, get_dedx := fun _ _ => 2, get_energy_loss := fun _ _ _ => 0 } exNucleus).2
    (by rw [hgv]; norm_num)
  refine ⟨d, hd, ?_, ?_⟩
  · rw [(C22_velocity hd).1]
    have := lorentz_pos ⟨0, 0, 0.5, 3 / 4, 0, 0⟩
    positivity
  · have := C96_motion (Real.pi / 2) 0 ⟨0, 0, 0.5, 3 / 4, 0, 0⟩ B E
      { density := 1, get_dedx := fun _ _ => 2, get_energy_loss := fun _ _ _ => 0 } exNucleus
    rw [hd] at this
    simpa [turnRow, Except.map] using this

/-- Angles that differ by a full turn are the same direction. -/
example : TurnedAngle Real.pi (3 / 2 * Real.pi) (1 / 2 * Real.pi) := by
  unfold TurnedAngle
  have : 3 / 2 * Real.pi + Real.pi = 1 / 2 * Real.pi + 2 * Real.pi := by ring
  rw [this, Real.cos_add_two_pi, Real.sin_add_two_pi]
  exact ⟨rfl, rfl⟩

end Verif.Detector
