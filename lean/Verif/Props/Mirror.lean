import Verif.Props.Determined
import Verif.Props.Rotation
import Verif.Props.FieldStopping

/-! # C157: turned and mirrored tracks -/

namespace Verif.Detector

open Verif.Spec Verif.Kinematics Set

/-- A track with all states mapped by `f`. -/
def mapTrack (f : Row → Row) (sol : List (ℝ × Row)) : List (ℝ × Row) := sol.map fun tr => (tr.1, f tr.2)

/-- If the solutions of two problems correspond to each other, so do their tracks. -/
theorem track_image {P P' : IvpProblem} {f f' : Row → Row} (hspan : P'.t_span = P.t_span)
    (heval : P'.t_eval = P.t_eval)
    (h : ∀ traj T, Solves P traj T → Solves P' (fun t => f (traj t)) T)
    (h' : ∀ traj T, Solves P' traj T → Solves P (fun t => f' (traj t)) T) {sol : List (ℝ × Row)}
    (hs : IsTrackOf P sol) : IsTrackOf P' (mapTrack f sol) := by
  obtain ⟨traj, T, hc, rfl⟩ := hs
  refine ⟨fun t => f (traj t), T, ⟨by rw [hspan]; exact hc.within, h _ _ hc.solves, ?_⟩, ?_⟩
  · intro traj' T' hT' hs'
    rw [hspan] at hT'
    exact hc.last _ _ hT' (h' _ _ hs')
  · unfold mapTrack
    rw [heval, hspan, List.map_map]
    rfl

/-! ## Rotations -/

theorem turnPoint_neg (α : ℝ) (v : ℝ × ℝ × ℝ) : turnPoint (-α) (turnPoint α v) = v := by
  have h := cos_sq_sin_sq α
  unfold turnPoint
  simp only [Real.cos_neg, Real.sin_neg]
  refine Prod.ext ?_ (Prod.ext ?_ rfl)
  · simp only
    linear_combination v.1 * h
  · simp only
    linear_combination v.2.1 * h

section

variable {vertex momentum : ℝ × ℝ × ℝ} {n : Nucleus} {d : DetectorParams}

/-- **C157.** The track of the turned nucleus is the turned track. -/
theorem C157_turned_track (α : ℝ) {sol : List (ℝ × Row)}
    (h : IsTrackOf (trajectory_problem vertex momentum n d) sol) :
    IsTrackOf (trajectory_problem (turnPoint α vertex) (turnPoint α momentum) n d) (mapTrack (turnRow α) sol) := by
  refine track_image (P := trajectory_problem vertex momentum n d)
    (P' := trajectory_problem (turnPoint α vertex) (turnPoint α momentum) n d) (f' := turnRow (-α)) rfl rfl
    (fun traj T hs => C96_trajectory α hs) (fun traj T hs => ?_) h
  have := C96_trajectory (-α) hs
  rwa [turnPoint_neg, turnPoint_neg] at this

/-! ## Reflections -/

/-- A state reflected in the plane of the beam axis and the x axis. -/
def mirrorRow (r : Row) : Row := { r with y := -r.y, gvy := -r.gvy }

/-- A vector reflected in the plane of the beam axis and the x axis. -/
def mirrorPoint (v : ℝ × ℝ × ℝ) : ℝ × ℝ × ℝ := (v.1, -v.2.1, v.2.2)

/-- The detector with the magnetic field reversed. -/
def reversed (d : DetectorParams) : DetectorParams := { d with bfield := -d.bfield }

theorem mirror_gv (r : Row) : (mirrorRow r).gv = r.gv := by
  unfold Row.gv mirrorRow
  simp only [neg_sq]

/-- **C157.** In the reversed magnetic field the derivative at the reflected state is the reflected derivative. -/
theorem C157_motion (t : ℝ) (r : Row) (B E : ℝ) (target : GasTarget) (n : Nucleus) :
    equation_of_motion t (mirrorRow r) (-B) E target n = (equation_of_motion t r B E target n).map mirrorRow := by
  unfold equation_of_motion
  simp only [mirror_gv]
  split
  · rfl
  · simp only [Except.map, mirrorRow, Except.ok.injEq, Row.mk.injEq, true_and, and_true]
    refine ⟨?_, ?_, ?_⟩ <;> ring

theorem mirror_bounds {ev : IvpEvent} {vertex' momentum' : ℝ × ℝ × ℝ} {d' : DetectorParams}
    (hev : ev ∈ (trajectory_problem vertex momentum n d).events) (t : ℝ) (r : Row) :
    ev ∈ (trajectory_problem vertex' momentum' n d').events ∧ ev.fn t (mirrorRow r) = ev.fn t r := by
  refine ⟨hev, ?_⟩
  simp only [trajectory_problem, List.mem_cons, List.not_mem_nil, or_false] at hev
  rcases hev with rfl | rfl | rfl | rfl
  · simp only [stop_condition, mirror_gv]
  · rfl
  · rfl
  · simp only [rho_bound_condition, mirrorRow, neg_sq]

theorem mirror_start : (trajectory_problem (mirrorPoint vertex) (mirrorPoint momentum) n (reversed d)).y0
    = mirrorRow (trajectory_problem vertex momentum n d).y0 := by
  simp only [trajectory_problem, mirrorPoint, mirrorRow, neg_div]

/-- **C157.** The reflected trajectory is the trajectory of the reflected nucleus in the reversed magnetic field. -/
theorem C157_trajectory {traj : ℝ → Row} {T : ℝ} (h : Solves (trajectory_problem vertex momentum n d) traj T) :
    Solves (trajectory_problem (mirrorPoint vertex) (mirrorPoint momentum) n (reversed d))
      (fun t => mirrorRow (traj t)) T where
  start := by
    rw [mirror_start, ← h.start]
    rfl
  span := h.span
  deriv := by
    intro t ht
    obtain ⟨v, hv, h1, h2, h3, h4, h5, h6⟩ := h.deriv t ht
    have hv' : equation_of_motion t (traj t) (d.bfield * -1) (d.efield * -1) d.gas_target n = .ok v := hv
    refine ⟨mirrorRow v, ?_, h1, h2.neg, h3, h4, h5.neg, h6⟩
    change equation_of_motion t (mirrorRow (traj t)) (-d.bfield * -1) (d.efield * -1) d.gas_target n = _
    rw [neg_mul, C157_motion, hv']
    rfl
  events := by
    intro t ht ev hev hterm v₀ hv₀ ty hty
    obtain rfl := List.mem_singleton.1 hty
    rw [mirror_start, (mirror_bounds hev _ _ (vertex' := vertex) (momentum' := momentum) (d' := d)).2] at hv₀
    have hev' := (mirror_bounds hev 0 (traj t) (vertex' := vertex) (momentum' := momentum) (d' := d)).1
    have := h.events t ht ev hev' hterm v₀ hv₀ _ (List.mem_singleton.2 rfl)
    simp only [(mirror_bounds hev t (traj t) (vertex' := vertex) (momentum' := momentum) (d' := d)).2]
    exact this

/-- **C157.** The track of the reflected nucleus in the reversed magnetic field is the reflected track. -/
theorem C157_mirrored_track {sol : List (ℝ × Row)} (h : IsTrackOf (trajectory_problem vertex momentum n d) sol) :
    IsTrackOf (trajectory_problem (mirrorPoint vertex) (mirrorPoint momentum) n (reversed d))
      (mapTrack mirrorRow sol) := by
  refine track_image (P := trajectory_problem vertex momentum n d)
    (P' := trajectory_problem (mirrorPoint vertex) (mirrorPoint momentum) n (reversed d)) (f' := mirrorRow) rfl rfl
    (fun traj T hs => C157_trajectory hs) (fun traj T hs => ?_) h
  have := C157_trajectory hs
  simpa [mirrorPoint, reversed] using this

/-! ## What reaches the pad plane -/

variable {σ : Type}

/-- **C157.** A reflected track releases the same electrons at the same heights, from the same random numbers. -/
theorem C157_electrons (track : List Row) (rng : Gen σ) (s : σ) :
    generate_electrons (track.map mirrorRow) n (reversed d) rng s = generate_electrons track n d rng s ∧
      (track.map mirrorRow).map (·.z) = track.map (·.z) := by
  have h : ∀ r, track_energy n (mirrorRow r) = track_energy n r := by
    intro r
    unfold track_energy
    rw [mirror_gv]
  constructor
  · unfold generate_electrons
    simp only [List.map_map]
    have : (track_energy n ∘ mirrorRow) = track_energy n := funext h
    rw [this]
    rfl
  · rw [List.map_map]
    rfl

variable {ivp : IvpSolver}

/-- **C157.** A solver that integrates without error returns the turned track for the turned nucleus; it releases the
same electrons. -/
theorem C157_turned (he : SolvesToTheEnd ivp) (α : ℝ) (hm : 0 < n.mass)
    (hdedx : ∀ k, 0 ≤ d.gas_target.get_dedx n k) (hrho : 0 ≤ d.gas_target.density)
    (hlip : LocallyLipschitzOn (Ioi 0) (d.gas_target.get_dedx n))
    (hK : KE_LIMIT ≤ kinetic n (trajectory_problem vertex momentum n d).y0)
    {track track' : List Row} (h : generate_trajectory ivp vertex momentum n d = .ok track)
    (h' : generate_trajectory ivp (turnPoint α vertex) (turnPoint α momentum) n d = .ok track')
    (rng : Gen σ) (s : σ) :
    track' = track.map (turnRow α) ∧
      generate_electrons track' n d rng s = generate_electrons track n d rng s := by
  have key : track' = track.map (turnRow α) := by
    unfold generate_trajectory at h h'
    rcases hs : ivp (trajectory_problem vertex momentum n d) with e | sol
    · simp [hs] at h
    · rcases hs' : ivp (trajectory_problem (turnPoint α vertex) (turnPoint α momentum) n d) with e | sol'
      · simp [hs'] at h'
      · simp only [hs, hs', Except.ok.injEq] at h h'
        have hK' : KE_LIMIT ≤ kinetic n
            (trajectory_problem (turnPoint α vertex) (turnPoint α momentum) n d).y0 := by
          rw [turn_start]
          convert hK using 1
          unfold kinetic lorentz gammaBetaSq turnRow
          simp only
          rw [turn_sq]
        have := (C105_track hm hdedx hrho hlip hK').unique (he _ _ hs') (C157_turned_track α (he _ _ hs))
        rw [← h, ← h', this, mapTrack, List.map_map, List.map_map]
        rfl
  refine ⟨key, ?_⟩
  rw [key]
  exact (C96_electrons α track n d rng s).1

/-- **C157.** A solver that integrates without error returns the reflected track for the reflected nucleus in the
reversed magnetic field; it releases the same electrons. -/
theorem C157_mirrored (he : SolvesToTheEnd ivp) (hm : 0 < n.mass)
    (hdedx : ∀ k, 0 ≤ d.gas_target.get_dedx n k) (hrho : 0 ≤ d.gas_target.density)
    (hlip : LocallyLipschitzOn (Ioi 0) (d.gas_target.get_dedx n))
    (hK : KE_LIMIT ≤ kinetic n (trajectory_problem vertex momentum n d).y0)
    {track track' : List Row} (h : generate_trajectory ivp vertex momentum n d = .ok track)
    (h' : generate_trajectory ivp (mirrorPoint vertex) (mirrorPoint momentum) n (reversed d) = .ok track')
    (rng : Gen σ) (s : σ) :
    track' = track.map mirrorRow ∧
      generate_electrons track' n (reversed d) rng s = generate_electrons track n d rng s := by
  have key : track' = track.map mirrorRow := by
    unfold generate_trajectory at h h'
    rcases hs : ivp (trajectory_problem vertex momentum n d) with e | sol
    · simp [hs] at h
    · rcases hs' : ivp (trajectory_problem (mirrorPoint vertex) (mirrorPoint momentum) n (reversed d)) with e | sol'
      · simp [hs'] at h'
      · simp only [hs, hs', Except.ok.injEq] at h h'
        have hK' : KE_LIMIT ≤ kinetic n
            (trajectory_problem (mirrorPoint vertex) (mirrorPoint momentum) n (reversed d)).y0 := by
          rw [mirror_start]
          convert hK using 1
          unfold kinetic lorentz gammaBetaSq mirrorRow
          simp only [neg_sq]
        have := (C105_track (d := reversed d) hm hdedx hrho hlip hK').unique (he _ _ hs')
          (C157_mirrored_track (he _ _ hs))
        rw [← h, ← h', this, mapTrack, List.map_map, List.map_map]
        rfl
  refine ⟨key, ?_⟩
  rw [key]
  exact (C157_electrons track rng s).1

end

/-- The particle of 2 MeV of the example of C126, emitted along y: in the reversed field the exact solver returns the
reflected track for the opposite direction. -/
example : ∃ (ivp : IvpSolver) (track : List Row), SolvesToTheEnd ivp ∧
    generate_trajectory ivp (0, 0, 1 / 2) (0, 122, 0) stopNucleus stopFieldDet = .ok track ∧
    generate_trajectory ivp (0, 0, 1 / 2) (0, -122, 0) stopNucleus (reversed stopFieldDet)
      = .ok (track.map mirrorRow) := by
  obtain ⟨ivp, hend, -, -, -, -, hok⟩ := C105_solver
  have hst := stopField_stops
  have hKy : KE_LIMIT ≤ kinetic stopNucleus
      (trajectory_problem (0, 0, 1 / 2) (0, 122, 0) stopNucleus stopFieldDet).y0 := by
    rw [kinetic_initial hst.mass]
    simp only
    have : (0 : ℝ) ^ 2 + 122 ^ 2 + 0 ^ 2 + stopNucleus.mass ^ 2 = 3722 ^ 2 := by norm_num [stopNucleus]
    rw [this, Real.sqrt_sq (by norm_num)]
    norm_num [stopNucleus, KE_LIMIT]
  have hKy' : KE_LIMIT ≤ kinetic stopNucleus
      (trajectory_problem (0, 0, 1 / 2) (0, -122, 0) stopNucleus (reversed stopFieldDet)).y0 := by
    rw [kinetic_initial hst.mass]
    simp only
    have : (0 : ℝ) ^ 2 + (-122) ^ 2 + 0 ^ 2 + stopNucleus.mass ^ 2 = 3722 ^ 2 := by norm_num [stopNucleus]
    rw [this, Real.sqrt_sq (by norm_num)]
    norm_num [stopNucleus, KE_LIMIT]
  obtain ⟨sol, hsol⟩ := hok (0, 0, 1 / 2) (0, 122, 0) stopNucleus stopFieldDet hst.mass hst.dedx hst.density
    hst.smooth hKy
  obtain ⟨sol', hsol'⟩ := hok (0, 0, 1 / 2) (0, -122, 0) stopNucleus (reversed stopFieldDet) hst.mass hst.dedx
    hst.density hst.smooth hKy'
  have h1 : generate_trajectory ivp (0, 0, 1 / 2) (0, 122, 0) stopNucleus stopFieldDet
      = .ok (sol.map Prod.snd) := by
    unfold generate_trajectory
    rw [hsol]
  have h2 : generate_trajectory ivp (0, 0, 1 / 2) (0, -122, 0) stopNucleus (reversed stopFieldDet)
      = .ok (sol'.map Prod.snd) := by
    unfold generate_trajectory
    rw [hsol']
  refine ⟨ivp, _, hend, h1, ?_⟩
  have hv : mirrorPoint (0, 0, 1 / 2) = (0, 0, 1 / 2) := by simp [mirrorPoint]
  have hp : mirrorPoint (0, 122, 0) = (0, -122, 0) := by simp [mirrorPoint]
  have := (C157_mirrored hend hst.mass hst.dedx hst.density hst.smooth hKy h1
    (track' := sol'.map Prod.snd) (by rw [hv, hp]; exact h2) exGen ()).1
  rw [h2, this]

end Verif.Detector
