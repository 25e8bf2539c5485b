import Verif.Props.Determined
import Verif.Props.Rotation
import Verif.Props.FieldStopping
import Verif.Props.Pairing

/-! # C156: moving the vertex along the beam axis -/

namespace Verif.Detector

open Verif.Spec Verif.Kinematics Set

/-- A state moved by `δ` along the beam axis. -/
def shiftRow (δ : ℝ) (r : Row) : Row := { r with z := r.z + δ }

/-- A point moved by `δ` along the beam axis. -/
def shiftPoint (δ : ℝ) (v : ℝ × ℝ × ℝ) : ℝ × ℝ × ℝ := (v.1, v.2.1, v.2.2 + δ)

/-- A row of the cloud moved by `k` time buckets. -/
noncomputable def delayPoint (k : ℤ) (p : CloudPoint) : CloudPoint := { p with tb := p.tb + k }

/-! ## Trajectories -/

/-- **C156.** The equation of motion does not depend on the position along the beam axis. -/
theorem C156_motion (δ t : ℝ) (r : Row) (B E : ℝ) (target : GasTarget) (n : Nucleus) :
    equation_of_motion t (shiftRow δ r) B E target n = equation_of_motion t r B E target n := rfl

section

variable {vertex momentum : ℝ × ℝ × ℝ} {n : Nucleus} {d : DetectorParams}

theorem shift_start (δ : ℝ) : (trajectory_problem (shiftPoint δ vertex) momentum n d).y0
    = shiftRow δ (trajectory_problem vertex momentum n d).y0 := rfl

/-- A solution moved along the axis solves the moved problem for as long as both stay between the ends of
the volume. -/
theorem C156_trajectory (δ : ℝ) (hK : KE_LIMIT ≤ kinetic n (trajectory_problem vertex momentum n d).y0)
    {traj : ℝ → Row} {T : ℝ} (h : Solves (trajectory_problem vertex momentum n d) traj T)
    (hin : ∀ t ∈ Icc 0 T, 0 ≤ (traj t).z + δ ∧ (traj t).z + δ ≤ 1) :
    Solves (trajectory_problem (shiftPoint δ vertex) momentum n d) (fun t => shiftRow δ (traj t)) T where
  start := by
    rw [shift_start, ← h.start]
    rfl
  span := h.span
  deriv := by
    intro t ht
    obtain ⟨v, hv, h1, h2, h3, h4, h5, h6⟩ := h.deriv t ht
    exact ⟨v, hv, h1, h2, h3.add_const δ, h4, h5, h6⟩
  events := by
    intro t ht
    have hK' : KE_LIMIT ≤ kinetic n (trajectory_problem (shiftPoint δ vertex) momentum n d).y0 := hK
    rw [respects_iff hK']
    obtain ⟨h1, -, -, h4⟩ := (respects_iff hK t (traj t)).1 (h.events t ht)
    exact ⟨h1, fun _ => (hin t ht).2, fun _ => (hin t ht).1, h4⟩

/-- A part of a solution is a solution. -/
theorem solves_until {P : IvpProblem} {traj : ℝ → Row} {T T' : ℝ} (h : Solves P traj T) (h0 : P.t_span.1 ≤ T')
    (hle : T' ≤ T) : Solves P traj T' where
  start := h.start
  span := h0
  deriv := fun t ht => h.deriv t ⟨ht.1, ht.2.trans hle⟩
  events := fun t ht => h.events t ⟨ht.1, ht.2.trans hle⟩

/-- **C156.** If the complete trajectory of a nucleus, as it is and moved by `δ`, keeps away from both ends of the
volume, then the moved trajectory is the complete trajectory of the nucleus emitted from the moved vertex. -/
theorem C156_complete (δ : ℝ) (hm : 0 < n.mass) (hdedx : ∀ k, 0 ≤ d.gas_target.get_dedx n k)
    (hrho : 0 ≤ d.gas_target.density) (hlip : LocallyLipschitzOn (Ioi 0) (d.gas_target.get_dedx n))
    (hK : KE_LIMIT ≤ kinetic n (trajectory_problem vertex momentum n d).y0)
    {traj : ℝ → Row} {T : ℝ} (h : SolvesCompletely (trajectory_problem vertex momentum n d) traj T)
    (hin : ∀ t ∈ Icc 0 T, (0 < (traj t).z ∧ (traj t).z < 1) ∧ 0 < (traj t).z + δ ∧ (traj t).z + δ < 1) :
    SolvesCompletely (trajectory_problem (shiftPoint δ vertex) momentum n d) (fun t => shiftRow δ (traj t)) T := by
  have hK' : KE_LIMIT ≤ kinetic n (trajectory_problem (shiftPoint δ vertex) momentum n d).y0 := hK
  have hs := C156_trajectory δ hK h.solves fun t ht => ⟨(hin t ht).2.1.le, (hin t ht).2.2.le⟩
  have h0T : 0 ≤ T := h.solves.span
  refine ⟨h.within, hs, fun traj' T' hT' hs' => ?_⟩
  by_contra hlt
  push Not at hlt
  obtain ⟨traj₀, T₀, -, -, huniq⟩ := C105_well_posed hm hdedx hrho hlip hK'
  have hagree : ∀ t ∈ Icc 0 T, traj' t = shiftRow δ (traj t) := by
    intro t ht
    rw [(huniq traj' T' hT' hs').2 t ⟨ht.1, ht.2.trans hlt.le⟩]
    exact ((huniq _ T h.within hs).2 t ht).symm
  obtain ⟨v, -, -, -, h3, -⟩ := hs'.deriv T ⟨h0T, hlt.le⟩
  have hzT : (traj' T).z - δ = (traj T).z := by
    rw [hagree T ⟨h0T, le_refl _⟩]
    simp [shiftRow]
  have hc : ContinuousAt (fun t => (traj' t).z - δ) T := h3.continuousAt.sub continuousAt_const
  have e1 : ∀ᶠ t in nhds T, 0 < (traj' t).z - δ :=
    hc.eventually (lt_mem_nhds (by beta_reduce; rw [hzT]; exact (hin T ⟨h0T, le_refl _⟩).1.1))
  have e2 : ∀ᶠ t in nhds T, (traj' t).z - δ < 1 :=
    hc.eventually (gt_mem_nhds (by beta_reduce; rw [hzT]; exact (hin T ⟨h0T, le_refl _⟩).1.2))
  obtain ⟨ε, hε, hball⟩ := Metric.eventually_nhds_iff.1 (e1.and e2)
  obtain ⟨τ, hτ⟩ : ∃ τ, τ = min T' (T + ε / 2) := ⟨_, rfl⟩
  have hτT : T < τ := by rw [hτ]; exact lt_min hlt (by linarith)
  have hτ1 : τ ≤ T' := by rw [hτ]; exact min_le_left _ _
  have hτ2 : τ ≤ T + ε / 2 := by rw [hτ]; exact min_le_right _ _
  have hback := C156_trajectory (-δ) hK' (solves_until hs' (h0T.trans hτT.le) hτ1) (by
    intro t ht
    rcases le_total t T with hle | hle
    · rw [hagree t ⟨ht.1, hle⟩]
      have := (hin t ⟨ht.1, hle⟩).1
      simp only [shiftRow]
      constructor <;> linarith
    · have := @hball t (by rw [Real.dist_eq, abs_of_nonneg (by linarith)]; linarith [ht.2])
      constructor <;> linarith)
  have hv : shiftPoint (-δ) (shiftPoint δ vertex) = vertex := by
    unfold shiftPoint
    simp
  rw [hv] at hback
  have := h.last _ τ (hτ1.trans hT') hback
  linarith

/-- **C156.** A solver that integrates without error returns the moved track. -/
theorem C156_track {ivp : IvpSolver} (he : SolvesToTheEnd ivp) (δ : ℝ) (hm : 0 < n.mass)
    (hdedx : ∀ k, 0 ≤ d.gas_target.get_dedx n k)
    (hrho : 0 ≤ d.gas_target.density) (hlip : LocallyLipschitzOn (Ioi 0) (d.gas_target.get_dedx n))
    (hK : KE_LIMIT ≤ kinetic n (trajectory_problem vertex momentum n d).y0)
    {traj : ℝ → Row} {T : ℝ} (h : SolvesCompletely (trajectory_problem vertex momentum n d) traj T)
    (hin : ∀ t ∈ Icc 0 T, (0 < (traj t).z ∧ (traj t).z < 1) ∧ 0 < (traj t).z + δ ∧ (traj t).z + δ < 1)
    {sol sol' : List (ℝ × Row)} (hok : ivp (trajectory_problem vertex momentum n d) = .ok sol)
    (hok' : ivp (trajectory_problem (shiftPoint δ vertex) momentum n d) = .ok sol') :
    sol' = sol.map (fun tr => (tr.1, shiftRow δ tr.2)) ∧ ∀ tr ∈ sol, ∃ t ∈ Icc 0 T, tr.2 = traj t := by
  have hK' : KE_LIMIT ≤ kinetic n (trajectory_problem (shiftPoint δ vertex) momentum n d).y0 := hK
  have e1 := (C105_track hm hdedx hrho hlip hK).unique (he _ _ hok) ⟨traj, T, h, rfl⟩
  have e2 := (C105_track hm hdedx hrho hlip hK').unique (he _ _ hok')
    ⟨_, T, C156_complete δ hm hdedx hrho hlip hK h hin, rfl⟩
  constructor
  · rw [e1, e2, List.map_map]
    rfl
  · intro tr htr
    rw [e1, List.mem_map] at htr
    obtain ⟨t, ht, rfl⟩ := htr
    have := of_mem_takeWhile ht
    rw [decide_eq_true_eq] at this
    exact ⟨t, this, rfl⟩

end

/-! ## Electrons and drift -/

/-- **C156.** A moved track releases the same electrons, from the same random numbers. -/
theorem C156_electrons {σ : Type} (δ : ℝ) (track : List Row) (nucleus : Nucleus) (params : DetectorParams)
    (rng : Gen σ) (s : σ) :
    generate_electrons (track.map (shiftRow δ)) nucleus params rng s
      = generate_electrons track nucleus params rng s := by
  unfold generate_electrons
  simp only [List.map_map]
  have : (track_energy nucleus ∘ shiftRow δ) = track_energy nucleus := rfl
  rw [this]

/-- **C156.** Moved away from the micromegas plane by the distance that electrons drift in `k` time buckets (towards
it for negative `k`), a point arrives `k` buckets later. -/
theorem C156_drift {config : Config} (hv : config.drift_velocity ≠ 0) (k : ℤ) (z : ℝ) :
    to_time_bucket config (z + -(k * config.drift_velocity)) = to_time_bucket config z + k := by
  unfold to_time_bucket
  field_simp
  ring

/-! ## The dictionary -/

/-- The cells of the time window before and after the delay. -/
def InWindow (k tb : ℤ) : Prop := 0 ≤ tb ∧ tb < NUM_TB ∧ 0 ≤ tb + k ∧ tb + k < NUM_TB

/-- The same entries with all times `k` buckets later. -/
def Delayed (k : ℤ) (p q : Points) : Prop :=
  List.Forall₂ (fun a b => ∃ tb pad, InWindow k tb ∧ 0 ≤ pad ∧ a.1 = pair tb pad ∧ b.1 = pair (tb + k) pad ∧
    a.2 = b.2) p q

section

variable {k tb pad : ℤ} {p q : Points}

theorem delayed_key {tb' pad' : ℤ} (ht : InWindow k tb) (hp : 0 ≤ pad) (ht' : InWindow k tb') (hp' : 0 ≤ pad') :
    pair tb' pad' = pair tb pad ↔ pair (tb' + k) pad' = pair (tb + k) pad := by
  constructor
  · intro h
    obtain ⟨rfl, rfl⟩ := C01_pair_injective _ _ _ _ ht'.1 hp' ht.1 hp h
    rfl
  · intro h
    obtain ⟨h1, rfl⟩ := C01_pair_injective _ _ _ _ ht'.2.2.1 hp' ht.2.2.1 hp h
    rw [show tb' = tb by omega]

theorem Delayed.get (h : Delayed k p q) (ht : InWindow k tb) (hp : 0 ≤ pad) (dflt : ℤ × ℤ) :
    p.get (pair tb pad) dflt = q.get (pair (tb + k) pad) dflt := by
  induction h with
  | nil => rfl
  | @cons a b p q hab _ ih =>
    obtain ⟨a1, a2⟩ := a
    obtain ⟨b1, b2⟩ := b
    obtain ⟨tb', pad', ht', hp', h1, h2, h3⟩ := hab
    simp only at h1 h2 h3
    subst h1 h2 h3
    have := delayed_key ht hp ht' hp'
    unfold Points.get
    by_cases hc : pair tb' pad' = pair tb pad
    · rw [if_pos hc, if_pos (this.1 hc)]
    · rw [if_neg hc, if_neg fun h => hc (this.2 h)]
      exact ih

theorem Delayed.set (h : Delayed k p q) (ht : InWindow k tb) (hp : 0 ≤ pad) (v : ℤ × ℤ) :
    Delayed k (p.set (pair tb pad) v) (q.set (pair (tb + k) pad) v) := by
  induction h with
  | nil => exact .cons ⟨tb, pad, ht, hp, rfl, rfl, rfl⟩ .nil
  | @cons a b p q hab hpq ih =>
    obtain ⟨a1, a2⟩ := a
    obtain ⟨b1, b2⟩ := b
    obtain ⟨tb', pad', ht', hp', h1, h2, h3⟩ := hab
    simp only at h1 h2 h3
    subst h1 h2 h3
    have := delayed_key ht hp ht' hp'
    unfold Points.set
    by_cases hc : pair tb' pad' = pair tb pad
    · rw [if_pos hc, if_pos (this.1 hc)]
      exact .cons ⟨tb', pad', ht', hp', rfl, rfl, rfl⟩ hpq
    · rw [if_neg hc, if_neg fun h => hc (this.2 h)]
      exact .cons ⟨tb', pad', ht', hp', rfl, rfl, rfl⟩ ih

theorem Delayed.addCharge (h : Delayed k p q) (ht : InWindow k tb) (hp : 0 ≤ pad) (e label : ℤ) :
    Delayed k (addCharge p tb pad e label) (addCharge q (tb + k) pad e label) := by
  unfold Verif.Detector.addCharge
  simp only
  rw [h.get ht hp]
  exact h.set ht hp _

end

/-- A pad grid whose entries, inside the array, are pad numbers or -1, and whose edges cover the array. -/
structure PlainGrid (grid : PadGrid) (g : GridEdges) : Prop where
  bin : 0 < g.bin
  covers : g.high - g.low ≤ grid.size * g.bin
  pads : ∀ i j : ℤ, 0 ≤ i → i < grid.size → 0 ≤ j → j < grid.size → -1 ≤ grid.cell i j

/-- A time inside the window of the electronics before and after the delay. -/
def TimeInWindow (k : ℤ) (t : ℝ) : Prop := 0 ≤ t ∧ t < NUM_TB ∧ 0 ≤ t + k ∧ t + k < NUM_TB

theorem TimeInWindow.bucket {k : ℤ} {t : ℝ} (h : TimeInWindow k t) :
    InWindow k (pyInt t) ∧ pyInt (t + k) = pyInt t + k := by
  obtain ⟨h1, h2, h3, h4⟩ := h
  have e : pyInt (t + k) = pyInt t + k := by
    rw [pyInt_of_nonneg h1, pyInt_of_nonneg h3, Int.floor_add_intCast]
  refine ⟨⟨pyInt_nonneg h1, ?_, ?_, ?_⟩, e⟩
  · rw [pyInt_of_nonneg h1, Int.floor_lt]
    exact_mod_cast h2
  · rw [← e]
    exact pyInt_nonneg h3
  · rw [← e, pyInt_of_nonneg h3, Int.floor_lt]
    exact_mod_cast h4

section

variable {k : ℤ} {grid : PadGrid} {g : GridEdges}

theorem activePad_nonneg (hg : PlainGrid grid g) {pos : ℝ × ℝ} {pad : ℤ} (h : activePad grid g pos = some pad) :
    0 ≤ pad := by
  unfold activePad at h
  rcases hx : gridIndex g pos.1 with _ | i
  · simp [hx] at h
  · rcases hy : gridIndex g pos.2 with _ | j
    · simp [hx, hy] at h
    · simp only [hx, hy] at h
      split_ifs at h with hc
      push Not at hc
      have hi := gridIndex_lt hg.bin hg.covers hx
      have hj := gridIndex_lt hg.bin hg.covers hy
      have := hg.pads i j hi.1 hi.2 hj.1 hj.2
      have e := Option.some.inj h
      have := hc.1
      omega

theorem point_delayed (hg : PlainGrid grid g) {p q : Points} (h : Delayed k p q) {t : ℝ} (ht : TimeInWindow k t)
    (center : ℝ × ℝ) (e label : ℤ) :
    Delayed k (point_transport grid g t center e p label) (point_transport grid g (t + k) center e q label) := by
  have h1 := pad_branch grid g hg.bin center p (fun pad => addCharge p (pyInt t) pad e label)
  have h2 := pad_branch grid g hg.bin center q (fun pad => addCharge q (pyInt (t + k)) pad e label)
  unfold point_transport
  simp only at h1 h2 ⊢
  rw [h1, h2]
  obtain ⟨hw, he⟩ := ht.bucket
  rcases hp : activePad grid g center with _ | pad
  · exact h
  · simp only
    rw [he]
    exact h.addCharge hw (activePad_nonneg hg hp) e label

/-- Without diffusion. -/
theorem step_delayed (hg : PlainGrid grid g) {efield dv : ℝ} (hE : efield ≠ 0) {p q : Points}
    (h : Delayed k p q) {r : Row} (ht : TimeInWindow k r.z) (e label : ℤ) :
    ∃ p' q', transport_step grid g 0 efield dv label p (r, e) = .ok p' ∧
      transport_step grid g 0 efield dv label q ({ r with z := r.z + k }, e) = .ok q' ∧ Delayed k p' q' := by
  have h0 : ∀ t : ℝ, npSqrt (2 * 0 * dv * t / efield) = some 0 := by
    intro t
    simp [npSqrt]
  refine ⟨_, _, ?_, ?_, point_delayed hg h ht (r.x, r.y) e label⟩
  · unfold transport_step
    simp only [if_neg hE, h0, if_true]
  · unfold transport_step
    simp only [if_neg hE, h0, if_true]

theorem track_delayed (hg : PlainGrid grid g) {efield dv : ℝ} (hE : efield ≠ 0) (label : ℤ) :
    ∀ (track : List Row) (electrons : List ℤ) {p q : Points}, Delayed k p q →
      (∀ r ∈ track, TimeInWindow k r.z) → ∃ p' q',
      transport_track grid g 0 efield dv track electrons p label = .ok p' ∧
      transport_track grid g 0 efield dv (track.map fun r => { r with z := r.z + k }) electrons q label = .ok q' ∧
      Delayed k p' q'
  | [], _, p, q, h, _ => ⟨p, q, rfl, rfl, h⟩
  | _ :: _, [], p, q, h, _ => ⟨p, q, rfl, rfl, h⟩
  | r :: track, e :: electrons, p, q, h, ht => by
    obtain ⟨p1, q1, e1, e2, h1⟩ := step_delayed (dv := dv) hg hE h (ht r (by simp)) e label
    obtain ⟨p2, q2, e3, e4, h2⟩ := track_delayed hg hE (dv := dv) label track electrons h1 fun r hr => ht r (by simp [hr])
    unfold transport_track at e3 e4 ⊢
    refine ⟨p2, q2, ?_, ?_, h2⟩
    · rw [List.zip_cons_cons, List.foldlM_cons, e1]
      exact e3
    · rw [List.map_cons, List.zip_cons_cons, List.foldlM_cons, e2]
      exact e4

theorem maskSel_map_comm {α β : Type} (f : α → β) : ∀ (m : List Bool) (l : List α),
    maskSel m (l.map f) = (maskSel m l).map f
  | [], [] => rfl
  | [], _ :: _ => rfl
  | true :: _, [] => rfl
  | false :: _, [] => rfl
  | true :: m, a :: l => by simp [maskSel, maskSel_map_comm f m l]
  | false :: m, a :: l => by simp [maskSel, maskSel_map_comm f m l]

theorem maskSel_subset {α : Type} : ∀ (m : List Bool) (l : List α), ∀ a ∈ maskSel m l, a ∈ l
  | [], [], a, h => by simp [maskSel] at h
  | [], _ :: _, a, h => by simp [maskSel] at h
  | true :: _, [], a, h => by simp [maskSel] at h
  | false :: _, [], a, h => by simp [maskSel] at h
  | true :: m, b :: l, a, h => by
    simp only [maskSel, List.mem_cons] at h ⊢
    exact h.imp id (maskSel_subset m l a)
  | false :: m, b :: l, a, h => by
    simp only [maskSel, List.mem_cons] at h ⊢
    exact Or.inr (maskSel_subset m l a h)

variable {σ : Type} {config : Config} {ivp : IvpSolver}

/-- One nucleus: both fail alike, or both give dictionaries that differ by the delay. -/
theorem cloud_delayed (hgrid : config.pad_grid = some (grid, g)) (hg : PlainGrid grid g)
    (hv : config.drift_velocity ≠ 0) (hD : config.det_params.diffusion = 0) (hE : config.det_params.efield ≠ 0)
    {vertex momentum : ℝ × ℝ × ℝ} {n : Nucleus} {sol : List (ℝ × Row)}
    (hok : ivp (trajectory_problem vertex momentum n config.det_params) = .ok sol)
    (hok' : ivp (trajectory_problem (shiftPoint (-(k * config.drift_velocity)) vertex) momentum n config.det_params)
      = .ok (sol.map fun tr => (tr.1, shiftRow (-(k * config.drift_velocity)) tr.2)))
    (hwin : ∀ tr ∈ sol, TimeInWindow k (to_time_bucket config tr.2.z))
    (rng : Gen σ) {p q : Points} (h : Delayed k p q) (label : ℤ) (s : σ) :
    (∃ e, generate_point_cloud ivp momentum vertex n config rng p label s = .error e ∧
      generate_point_cloud ivp momentum (shiftPoint (-(k * config.drift_velocity)) vertex) n config rng q label s
        = .error e) ∨
    ∃ p' q' s', generate_point_cloud ivp momentum vertex n config rng p label s = .ok (p', s') ∧
      generate_point_cloud ivp momentum (shiftPoint (-(k * config.drift_velocity)) vertex) n config rng q label s
        = .ok (q', s') ∧ Delayed k p' q' := by
  have t1 : generate_trajectory ivp vertex momentum n config.det_params = .ok (sol.map Prod.snd) := by
    unfold generate_trajectory
    rw [hok]
  have t2 : generate_trajectory ivp (shiftPoint (-(k * config.drift_velocity)) vertex) momentum n config.det_params
      = .ok ((sol.map Prod.snd).map (shiftRow (-(k * config.drift_velocity)))) := by
    unfold generate_trajectory
    rw [hok', List.map_map]
    simp only [List.map_map]
    rfl
  have he := C156_electrons (-(k * config.drift_velocity)) (sol.map Prod.snd) n config.det_params rng s
  rcases hel : generate_electrons (sol.map Prod.snd) n config.det_params rng s with e | ⟨electrons, s'⟩
  · left
    refine ⟨e, ?_, ?_⟩
    · unfold generate_point_cloud
      rw [t1]
      simp only [bind, Except.bind, hel]
    · unfold generate_point_cloud
      rw [t2]
      simp only [bind, Except.bind, he, hel]
  · right
    obtain ⟨p', q', e1, e2, h'⟩ := track_delayed (k := k) (dv := config.drift_velocity) hg hE label
      ((maskSel (electrons.map fun e => decide (1 ≤ e)) (sol.map Prod.snd)).map
        fun r => { r with z := to_time_bucket config r.z })
      ((maskSel (electrons.map fun e => decide (1 ≤ e)) electrons).map (· * config.det_params.mpgd_gain)) h (by
        intro r hr
        obtain ⟨r0, hr0, rfl⟩ := List.mem_map.1 hr
        obtain ⟨tr, htr, rfl⟩ := List.mem_map.1 (maskSel_subset _ _ _ hr0)
        exact hwin tr htr)
    refine ⟨p', q', s', ?_, ?_, h'⟩
    · unfold generate_point_cloud
      rw [t1]
      simp only [bind, Except.bind, hel, hgrid, hD, e1]
      rfl
    · unfold generate_point_cloud
      rw [t2]
      simp only [bind, Except.bind, he, hel, hgrid, hD]
      rw [maskSel_map_comm, List.map_map]
      rw [List.map_map] at e2
      have hf : ((fun r : Row => ({ r with z := to_time_bucket config r.z } : Row)) ∘
          shiftRow (-(k * config.drift_velocity)))
          = ((fun r : Row => ({ r with z := r.z + k } : Row)) ∘
            fun r => { r with z := to_time_bucket config r.z }) := by
        funext r
        simp only [Function.comp_apply, shiftRow, C156_drift hv]
      rw [hf, e2]
      rfl

/-! ## Events -/

/-- The solver returns, for every charged nucleus of an event, a track inside the time window, and for the event
emitted `k` time buckets further away the same track moved along. -/
def TracksAlong (env : SimEnv) (config : Config) (k : ℤ) (momenta : List Vec4) (vertex : ℝ × ℝ × ℝ)
    (Zs As indices : List ℤ) : Prop :=
  ∀ idx ∈ indices, ∀ z a n m, pyGet Zs idx = .ok z → z ≠ 0 → pyGet As idx = .ok a → env.get_data z a = .ok n →
    pyGet momenta idx = .ok m → ∃ sol,
      env.solve_ivp (trajectory_problem vertex (m.px, m.py, m.pz) n config.det_params) = .ok sol ∧
      env.solve_ivp (trajectory_problem (shiftPoint (-(k * config.drift_velocity)) vertex) (m.px, m.py, m.pz) n
        config.det_params) = .ok (sol.map fun tr => (tr.1, shiftRow (-(k * config.drift_velocity)) tr.2)) ∧
      ∀ tr ∈ sol, TimeInWindow k (to_time_bucket config tr.2.z)

variable {env : SimEnv} {momenta : List Vec4} {vertex : ℝ × ℝ × ℝ} {Zs As : List ℤ}

theorem nuclei_delayed (hgrid : config.pad_grid = some (grid, g)) (hg : PlainGrid grid g)
    (hv : config.drift_velocity ≠ 0) (hD : config.det_params.diffusion = 0) (hE : config.det_params.efield ≠ 0)
    (rng : Gen σ) : ∀ (indices : List ℤ), TracksAlong env config k momenta vertex Zs As indices →
    ∀ {p q : Points}, Delayed k p q → ∀ s : σ,
    (∃ e, indices.foldlM (simulate_nucleus env momenta vertex Zs As config rng) (p, s) = .error e ∧
      indices.foldlM (simulate_nucleus env momenta (shiftPoint (-(k * config.drift_velocity)) vertex) Zs As config rng)
        (q, s) = .error e) ∨
    ∃ p' q' s', indices.foldlM (simulate_nucleus env momenta vertex Zs As config rng) (p, s) = .ok (p', s') ∧
      indices.foldlM (simulate_nucleus env momenta (shiftPoint (-(k * config.drift_velocity)) vertex) Zs As config rng)
        (q, s) = .ok (q', s') ∧ Delayed k p' q'
  | [], _, p, q, h, s => Or.inr ⟨p, q, s, rfl, rfl, h⟩
  | idx :: indices, ht, p, q, h, s => by
    have hstep : (∃ e, simulate_nucleus env momenta vertex Zs As config rng (p, s) idx = .error e ∧
        simulate_nucleus env momenta (shiftPoint (-(k * config.drift_velocity)) vertex) Zs As config rng (q, s) idx
          = .error e) ∨
        ∃ p' q' s', simulate_nucleus env momenta vertex Zs As config rng (p, s) idx = .ok (p', s') ∧
        simulate_nucleus env momenta (shiftPoint (-(k * config.drift_velocity)) vertex) Zs As config rng (q, s) idx
          = .ok (q', s') ∧ Delayed k p' q' := by
      unfold simulate_nucleus
      rcases hz : pyGet Zs idx with e | z
      · exact Or.inl ⟨e, rfl, rfl⟩
      · by_cases hz0 : z = 0
        · simp only [hz0, bind, Except.bind, if_true]
          exact Or.inr ⟨p, q, s, rfl, rfl, h⟩
        · rcases ha : pyGet As idx with e | a
          · simp only [bind, Except.bind, if_neg hz0]
            exact Or.inl ⟨e, rfl, rfl⟩
          · rcases hn : env.get_data z a with e | n
            · simp only [bind, Except.bind, if_neg hz0, hn]
              exact Or.inl ⟨e, rfl, rfl⟩
            · rcases hm : pyGet momenta idx with e | m
              · simp only [bind, Except.bind, if_neg hz0, hn]
                exact Or.inl ⟨e, rfl, rfl⟩
              · obtain ⟨sol, hok, hok', hwin⟩ := ht idx (by simp) z a n m hz hz0 ha hn hm
                simp only [bind, Except.bind, if_neg hz0, hn]
                exact cloud_delayed hgrid hg hv hD hE hok hok' hwin rng h idx s
    rcases hstep with ⟨e, h1, h2⟩ | ⟨p', q', s', h1, h2, h'⟩
    · left
      refine ⟨e, ?_, ?_⟩
      · rw [List.foldlM_cons, h1]
        rfl
      · rw [List.foldlM_cons, h2]
        rfl
    · rw [List.foldlM_cons, List.foldlM_cons, h1, h2]
      exact nuclei_delayed hgrid hg hv hD hE rng indices (fun i hi => ht i (by simp [hi])) h' s'

theorem maskSel_all {α : Type} : ∀ (m : List Bool) (l : List α), (∀ b ∈ m, b = true) → m.length = l.length →
    maskSel m l = l
  | [], [], _, _ => rfl
  | [], _ :: _, _, h => by simp at h
  | _ :: _, [], _, h => by simp at h
  | b :: m, a :: l, hb, h => by
    obtain rfl := hb b (by simp)
    simp only [maskSel]
    rw [maskSel_all m l (fun b hb' => hb b (by simp [hb'])) (by simpa using h)]

/-- The rows made from a dictionary and the uniform numbers added to the time buckets. -/
noncomputable def wiggled (p : Points) (w : List ℝ) : List CloudPoint :=
  ((dict_to_points p).1.zip w).map fun pw => { pw.1 with tb := pw.1.tb + pw.2 }

theorem rows_delayed {p q : Points} (h : Delayed k p q) : ∀ w : List ℝ, (∀ u ∈ w, 0 ≤ u ∧ u < 1) →
    wiggled q w = (wiggled p w).map (delayPoint k) ∧
      ∀ r ∈ wiggled p w, (0 ≤ r.tb ∧ r.tb < (NUM_TB : ℝ)) ∧ 0 ≤ r.tb + k ∧ r.tb + k < (NUM_TB : ℝ) := by
  induction h with
  | nil =>
    intro w _
    simp [wiggled, dict_to_points]
  | @cons a b p q hab hpq ih =>
    intro w hw
    cases w with
    | nil => simp [wiggled]
    | cons u w =>
      obtain ⟨tb, pad, ht, hp, h1, h2, h3⟩ := hab
      obtain ⟨ih1, ih2⟩ := ih w fun u hu => hw u (by simp [hu])
      have hu := hw u (by simp)
      have u1 : unpair a.1 = (tb, pad) := by rw [h1]; exact C01_unpair_pair tb pad ht.1 hp
      have u2 : unpair b.1 = (tb + k, pad) := by rw [h2]; exact C01_unpair_pair _ pad ht.2.2.1 hp
      have c1 : wiggled (a :: p) (u :: w) = ⟨pad, tb + u, a.2.1⟩ :: wiggled p w := by
        unfold wiggled dict_to_points
        simp only [List.map_cons, List.zip_cons_cons, u1]
      have c2 : wiggled (b :: q) (u :: w) = ⟨pad, ((tb + k : ℤ) : ℝ) + u, b.2.1⟩ :: wiggled q w := by
        unfold wiggled dict_to_points
        simp only [List.map_cons, List.zip_cons_cons, u2]
      rw [c1, c2]
      constructor
      · rw [ih1, List.map_cons, ← h3]
        congr 1
        unfold delayPoint
        simp only [CloudPoint.mk.injEq, true_and, and_true]
        push_cast
        ring
      · intro r hr
        rcases List.mem_cons.1 hr with rfl | hr
        · obtain ⟨t1, t2, t3, t4⟩ := ht
          have t1' : (0 : ℝ) ≤ tb := by exact_mod_cast t1
          have t2' : (tb : ℝ) + 1 ≤ (NUM_TB : ℝ) := by exact_mod_cast t2
          have t3' : (0 : ℝ) ≤ tb + k := by exact_mod_cast t3
          have t4' : (tb : ℝ) + k + 1 ≤ (NUM_TB : ℝ) := by exact_mod_cast t4
          simp only
          refine ⟨⟨?_, ?_⟩, ?_, ?_⟩ <;> linarith [hu.1, hu.2]
        · exact ih2 r hr

/-- If the loops over the nuclei of two events fail alike or give dictionaries that differ by a delay, the events differ
by the delay. -/
theorem simulate_delayed {env' : SimEnv} {momenta' : List Vec4} {vertex' : ℝ × ℝ × ℝ} {config' : Config}
    {rng : Gen σ} (hr : LawfulGen rng) {indices : List ℤ} {s : σ}
    (hfold : (∃ e, indices.foldlM (simulate_nucleus env momenta vertex Zs As config rng) (([] : Points), s) = .error e ∧
      indices.foldlM (simulate_nucleus env' momenta' vertex' Zs As config' rng) (([] : Points), s) = .error e) ∨
    ∃ p q s', indices.foldlM (simulate_nucleus env momenta vertex Zs As config rng) (([] : Points), s) = .ok (p, s') ∧
      indices.foldlM (simulate_nucleus env' momenta' vertex' Zs As config' rng) (([] : Points), s) = .ok (q, s') ∧
      Delayed k p q) :
    simulate env' momenta' vertex' Zs As config' rng indices s
      = (simulate env momenta vertex Zs As config rng indices s).map
          fun r => ((r.1.1.map (delayPoint k), r.1.2), r.2) := by
  unfold simulate
  rcases hfold with ⟨e, h1, h2⟩ | ⟨p, q, s', h1, h2, h⟩
  · rw [h1, h2]
    rfl
  · rw [h1, h2]
    have hlen : (dict_to_points q).1.length = (dict_to_points p).1.length := by
      simp only [dict_to_points, List.length_map]
      exact h.length_eq.symm
    have hlab : (dict_to_points q).2 = (dict_to_points p).2 := by
      simp only [dict_to_points]
      clear h1 h2 hlen
      induction h with
      | nil => rfl
      | cons hab _ ih =>
        obtain ⟨_, _, _, _, _, _, h3⟩ := hab
        rw [List.map_cons, List.map_cons, ih, h3]
    simp only [bind, Except.bind, pure, Except.pure, Except.map, hlen]
    obtain ⟨w, s'', hw⟩ : ∃ w s'', rng.uniformN 0 1 (dict_to_points p).1.length s' = (w, s'') := ⟨_, _, rfl⟩
    have hw1 : w.length = (dict_to_points p).1.length := by
      have := uniformN_length rng 0 1 (dict_to_points p).1.length s'
      rwa [hw] at this
    have hw2 : ∀ u ∈ w, 0 ≤ u ∧ u < 1 := by
      have := uniformN_mem hr 0 1 one_pos (dict_to_points p).1.length s'
      rwa [hw] at this
    simp only [hw]
    obtain ⟨e1, e2⟩ := rows_delayed h w hw2
    change Except.ok ((maskSel ((wiggled q w).map _) (wiggled q w),
      maskSel ((wiggled q w).map _) (dict_to_points q).2), s'')
      = Except.ok (((maskSel ((wiggled p w).map _) (wiggled p w)).map (delayPoint k),
      maskSel ((wiggled p w).map _) (dict_to_points p).2), s'')
    have hl : (wiggled p w).length = (dict_to_points p).2.length := by
      unfold wiggled
      rw [List.length_map, List.length_zip, hw1]
      simp [dict_to_points]
    have m1 : ∀ b ∈ (wiggled p w).map (fun r => decide (0 ≤ r.tb) && decide (r.tb < (NUM_TB : ℝ))), b = true := by
      intro b hb
      obtain ⟨r, hr, rfl⟩ := List.mem_map.1 hb
      simp [(e2 r hr).1.1, (e2 r hr).1.2]
    have m2 : ∀ b ∈ (wiggled q w).map (fun r => decide (0 ≤ r.tb) && decide (r.tb < (NUM_TB : ℝ))), b = true := by
      intro b hb
      obtain ⟨r, hr, rfl⟩ := List.mem_map.1 hb
      rw [e1] at hr
      obtain ⟨r, hr', rfl⟩ := List.mem_map.1 hr
      simp [delayPoint, (e2 r hr').2.1, (e2 r hr').2.2]
    have hlq : (wiggled q w).length = (wiggled p w).length := by rw [e1, List.length_map]
    rw [maskSel_all _ _ m1 (by simp), maskSel_all _ _ m2 (by simp), maskSel_all _ _ m1 (by simpa using hl),
      maskSel_all _ _ m2 (by rw [List.length_map, hlq, hlab]; exact hl), e1, hlab]

/-- **C156.** Without diffusion, an event emitted further from the micromegas plane, by the distance that electrons
drift in `k` time buckets, has the same point cloud `k` time buckets later: the same rows in the same order on the
same pads with the same charges and labels, from the same random numbers, as long as both clouds are inside the time
window. -/
theorem C156_cloud (hgrid : config.pad_grid = some (grid, g)) (hg : PlainGrid grid g)
    (hv : config.drift_velocity ≠ 0) (hD : config.det_params.diffusion = 0) (hE : config.det_params.efield ≠ 0)
    {rng : Gen σ} (hr : LawfulGen rng) {indices : List ℤ}
    (ht : TracksAlong env config k momenta vertex Zs As indices) (s : σ) :
    simulate env momenta (shiftPoint (-(k * config.drift_velocity)) vertex) Zs As config rng indices s
      = (simulate env momenta vertex Zs As config rng indices s).map
          fun r => ((r.1.1.map (delayPoint k), r.1.2), r.2) :=
  simulate_delayed hr (nuclei_delayed hgrid hg hv hD hE rng indices ht .nil s)

/-- The trajectory of every charged nucleus of the event keeps away from the ends of the volume, as it is and moved
by `k` time buckets, and drifts into the time window in both cases. -/
def StaysInside (env : SimEnv) (config : Config) (k : ℤ) (momenta : List Vec4) (vertex : ℝ × ℝ × ℝ)
    (Zs As indices : List ℤ) : Prop :=
  ∀ idx ∈ indices, ∀ z a n m, pyGet Zs idx = .ok z → z ≠ 0 → pyGet As idx = .ok a → env.get_data z a = .ok n →
    pyGet momenta idx = .ok m → ∃ traj T,
      SolvesCompletely (trajectory_problem vertex (m.px, m.py, m.pz) n config.det_params) traj T ∧
      ∀ t ∈ Icc 0 T, (0 < (traj t).z ∧ (traj t).z < 1) ∧
        (0 < (traj t).z + -(k * config.drift_velocity) ∧ (traj t).z + -(k * config.drift_velocity) < 1) ∧
        TimeInWindow k (to_time_bucket config (traj t).z)

/-- **C156.** With a solver that integrates without error, in a gas that slows nuclei down, the cloud of an event
whose nuclei keep away from the ends of the volume moves with the vertex. -/
theorem C156_event (hgrid : config.pad_grid = some (grid, g)) (hg : PlainGrid grid g)
    (hv : config.drift_velocity ≠ 0) (hD : config.det_params.diffusion = 0) (hE : config.det_params.efield ≠ 0)
    (hs : SolvesToTheEnd env.solve_ivp) (hh : HandlesMoving env.solve_ivp config.det_params)
    (hgas : SlowingGas config.det_params.gas_target) {rng : Gen σ} (hr : LawfulGen rng) {indices : List ℤ}
    (hm : AllMoving env Zs As indices momenta) (hi : StaysInside env config k momenta vertex Zs As indices) (s : σ) :
    simulate env momenta (shiftPoint (-(k * config.drift_velocity)) vertex) Zs As config rng indices s
      = (simulate env momenta vertex Zs As config rng indices s).map
          fun r => ((r.1.1.map (delayPoint k), r.1.2), r.2) := by
  refine C156_cloud hgrid hg hv hD hE hr (fun idx hidx z a n m hz hz0 ha hn hp => ?_) s
  obtain ⟨hmass, hE0⟩ := hm idx hidx z a n m hz hz0 ha hn hp
  obtain ⟨traj, T, hc, hin⟩ := hi idx hidx z a n m hz hz0 ha hn hp
  obtain ⟨sol, hsol⟩ := hh vertex m n hmass hE0
  obtain ⟨sol', hsol'⟩ := hh (shiftPoint (-(k * config.drift_velocity)) vertex) m n hmass hE0
  have hK : KE_LIMIT ≤ kinetic n (trajectory_problem vertex (m.px, m.py, m.pz) n config.det_params).y0 := by
    rw [kinetic_initial hmass]
    unfold startEnergy at hE0
    unfold KE_LIMIT
    convert hE0 using 3
    simp only
    ring
  obtain ⟨e, hmem⟩ := C156_track hs (-(k * config.drift_velocity)) hmass (hgas.dedx n) hgas.density
    (hgas.lipschitz n) hK hc (fun t ht => ⟨(hin t ht).1, (hin t ht).2.1⟩) hsol hsol'
  refine ⟨sol, hsol, by rw [hsol', e], fun tr htr => ?_⟩
  obtain ⟨t, ht, e⟩ := hmem tr htr
  rw [e]
  exact (hin t ht).2.2

end

/-- **C156.** A nucleus that stops in the gas keeps away from the ends of the volume by its range: if the range fits
between the ends and into the time window, before and after the move, its trajectory stays inside. -/
theorem C156_stopped {vertex momentum : ℝ × ℝ × ℝ} {n : Nucleus} {config : Config} {K p S S' : ℝ} {k : ℤ}
    (h : StopsInGas vertex momentum n config.det_params K p S S')
    (hback : rangeBound K S < vertex.2.2 + -(k * config.drift_velocity))
    (hfront : vertex.2.2 + -(k * config.drift_velocity) + rangeBound K S < 1)
    (hwin : ∀ z, |z - vertex.2.2| ≤ rangeBound K S → TimeInWindow k (to_time_bucket config z)) :
    ∃ traj T, SolvesCompletely (trajectory_problem vertex momentum n config.det_params) traj T ∧
      ∀ t ∈ Icc 0 T, (0 < (traj t).z ∧ (traj t).z < 1) ∧
        (0 < (traj t).z + -(k * config.drift_velocity) ∧ (traj t).z + -(k * config.drift_velocity) < 1) ∧
        TimeInWindow k (to_time_bucket config (traj t).z) := by
  obtain ⟨traj, T, hs, -, -, -, -, hin⟩ := C126_stops h.mass h.dedx h.density h.smooth h.momentum_eq h.energy_eq
    h.energy h.pos h.lower h.back h.front h.side (lt_of_le_of_lt h.time (by norm_num))
  refine ⟨traj, T, hs, fun t ht => ?_⟩
  have hz : |(traj t).z - vertex.2.2| ≤ rangeBound K S := by
    refine le_trans ?_ (hin t ht).2
    rw [← Real.sqrt_sq_eq_abs]
    exact Real.sqrt_le_sqrt (by nlinarith [sq_nonneg ((traj t).x - vertex.1), sq_nonneg ((traj t).y - vertex.2.1)])
  have hb := h.back
  have hf := h.front
  obtain ⟨h1, h2⟩ := abs_le.1 hz
  exact ⟨⟨by linarith, by linarith⟩, ⟨by linarith, by linarith⟩, hwin _ hz⟩

/-! ## Examples -/

theorem exPlain : PlainGrid exGrid exEdges :=
  ⟨exEdges_bin, by norm_num [exGrid, exEdges], fun _ _ _ _ _ _ => by norm_num [exGrid]⟩

/-- A solver that returns the two points of the example track at the height of the vertex. -/
noncomputable def exMovingSolver : IvpSolver := fun P =>
  .ok [(0, { exTrack0 with z := P.y0.z }), (1e-10, { exTrack1 with z := P.y0.z })]

/-- The event of the examples of C07 emitted 7 cm further away: the cloud arrives 7 time buckets later. -/
example : ∃ cloud labels,
    simulate ⟨fun _ _ => .ok exNucleus, exMovingSolver⟩ exMomenta (0, 0, 0.5) [1, 1, 1] [1, 1, 1]
      (exConfig 7 0) exGen [2] () = .ok ((cloud, labels), ()) ∧
    simulate ⟨fun _ _ => .ok exNucleus, exMovingSolver⟩ exMomenta (0, 0, 0.43) [1, 1, 1] [1, 1, 1]
      (exConfig 7 0) exGen [2] () = .ok ((cloud.map (delayPoint 7), labels), ()) := by
  obtain ⟨cloud, labels, h⟩ := exSimulate 7 0 le_rfl
  have h' : simulate ⟨fun _ _ => .ok exNucleus, exMovingSolver⟩ exMomenta (0, 0, 0.5) [1, 1, 1] [1, 1, 1]
      (exConfig 7 0) exGen [2] () = .ok ((cloud, labels), ()) := h
  refine ⟨cloud, labels, h', ?_⟩
  have hs : shiftPoint (-(((7 : ℤ) : ℝ) * (exConfig 7 0).drift_velocity)) (0, 0, 0.5) = (0, 0, 0.43) := by
    norm_num [shiftPoint, exConfig]
  have := C156_cloud (k := 7) (env := ⟨fun _ _ => .ok exNucleus, exMovingSolver⟩) (momenta := exMomenta)
    (vertex := (0, 0, 0.5)) (Zs := [1, 1, 1]) (As := [1, 1, 1]) (config := exConfig 7 0) rfl exPlain
    (by norm_num [exConfig]) rfl (by norm_num [exConfig, exDet]) exGen_lawful (indices := [2]) (by
      intro idx hidx z a n m _ _ _ _ _
      refine ⟨_, rfl, rfl, fun tr htr => ?_⟩
      have hz : tr.2.z = 0.5 := by
        simp only [trajectory_problem, List.mem_cons, List.not_mem_nil, or_false] at htr
        rcases htr with rfl | rfl <;> rfl
      rw [hz]
      norm_num [TimeInWindow, to_time_bucket, exConfig, exDet, exElec, NUM_TB]) ()
  rw [hs, h'] at this
  exact this

/-- A helium nucleus of 2 MeV that stops within 2.1 cm, in an electric field and without diffusion, emitted from the
middle of the detector and 10 cm further away: the hypotheses of the theorem about exact solvers hold together. -/
example : ∃ env : SimEnv, ∀ s, simulate env [⟨0, 0, 0, 1⟩, ⟨0, 0, 0, 1⟩, ⟨0, 122, 0, 3722⟩] (0, 0, 0.4) [1, 1, 2] [1, 1, 4]
      { exConfig 100 0 with det_params := stopFieldDet } exGen [2] s
    = (simulate env [⟨0, 0, 0, 1⟩, ⟨0, 0, 0, 1⟩, ⟨0, 122, 0, 3722⟩] (0, 0, 1 / 2) [1, 1, 2] [1, 1, 4]
      { exConfig 100 0 with det_params := stopFieldDet } exGen [2] s).map
        fun r => ((r.1.1.map (delayPoint 10), r.1.2), r.2) := by
  obtain ⟨ivp, h1, h2⟩ := C120_exists
  have hgas : SlowingGas stopFieldDet.gas_target :=
    ⟨by norm_num [stopFieldDet, stopDet], fun n k => by norm_num [stopFieldDet, stopDet],
      fun n => (LipschitzWith.const (1 : ℝ)).locallyLipschitz.locallyLipschitzOn⟩
  refine ⟨⟨fun _ _ => .ok stopNucleus, ivp⟩, fun s => ?_⟩
  have hs : shiftPoint (-(((10 : ℤ) : ℝ) * ({ exConfig 100 0 with det_params := stopFieldDet } : Config).drift_velocity))
      (0, 0, 1 / 2) = (0, 0, 0.4) := by
    norm_num [shiftPoint, exConfig]
  have hR : rangeBound 2 98 < 0.021 := by norm_num [rangeBound]
  have := C156_event (k := 10) (env := ⟨fun _ _ => .ok stopNucleus, ivp⟩)
    (momenta := [⟨0, 0, 0, 1⟩, ⟨0, 0, 0, 1⟩, ⟨0, 122, 0, 3722⟩]) (vertex := (0, 0, 1 / 2)) (Zs := [1, 1, 2])
    (As := [1, 1, 4]) (config := { exConfig 100 0 with det_params := stopFieldDet }) (indices := [2]) rfl exPlain
    (by norm_num [exConfig]) rfl (by norm_num [stopFieldDet]) h1 (h2 _ hgas) hgas exGen_lawful (by
      intro idx hidx z a n m _ _ _ hn hm
      obtain rfl : idx = 2 := by simpa using hidx
      obtain rfl := Except.ok.inj hn
      obtain rfl : (⟨0, 122, 0, 3722⟩ : Vec4) = m := Except.ok.inj hm
      refine ⟨by norm_num [stopNucleus], ?_⟩
      unfold startEnergy
      rw [le_sub_iff_add_le]
      apply Real.le_sqrt_of_sq_le
      norm_num [stopNucleus]) (by
      intro idx hidx z a n m _ _ _ hn hm
      obtain rfl : idx = 2 := by simpa using hidx
      obtain rfl := Except.ok.inj hn
      obtain rfl : (⟨0, 122, 0, 3722⟩ : Vec4) = m := Except.ok.inj hm
      have hdv : ({ exConfig 100 0 with det_params := stopFieldDet } : Config).drift_velocity = 0.01 := rfl
      refine C156_stopped stopField_stops ?_ ?_ fun z hz => ?_
      · rw [hdv]
        norm_num at hR ⊢
        linarith
      · rw [hdv]
        norm_num at hR ⊢
        linarith
      · have e : to_time_bucket { exConfig 100 0 with det_params := stopFieldDet } z = (1 - z) / 0.01 + ((0 : ℤ) : ℝ) := rfl
        rw [e]
        obtain ⟨z1, z2⟩ := abs_le.1 hz
        have hN : (NUM_TB : ℝ) = 512 := by norm_num [NUM_TB]
        unfold TimeInWindow
        rw [hN]
        norm_num at hR z1 z2 ⊢
        refine ⟨?_, ?_, ?_, ?_⟩ <;> linarith) s
  rw [hs] at this
  exact this

end Verif.Detector
