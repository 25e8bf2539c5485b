import Verif.Proofs.Expected
import Verif.Props.FieldWork
import Verif.Props.Trajectory
import Verif.Props.Deposit

/-! # C101: the expected charge of an event with fluctuations -/

namespace Verif.Props

open MeasureTheory ProbabilityTheory Verif.Spec Verif.Detector Verif.Kinematics

variable {σ : Type} [MeasurableSpace σ] {μ : Measure σ} [IsProbabilityMeasure μ]
  {rng : Gen σ} {u z : σ → ℝ} {next skip : σ → σ}

/-- The total charge of the simulated event; 0 if the simulation raises an exception. -/
noncomputable def eventCharge (env : SimEnv) (momenta : List Vec4) (vertex : ℝ × ℝ × ℝ) (Zs As : List ℤ)
    (config : Config) (rng : Gen σ) (indices : List ℤ) (s : σ) : ℝ :=
  match simulate env momenta vertex Zs As config rng indices s with
  | .ok ((cloud, _), _) => (cloud.map (·.e)).sum
  | .error _ => 0

/-- The trajectory of nucleus `idx` of the event; none for a neutral nucleus. -/
noncomputable def trackOf (env : SimEnv) (momenta : List Vec4) (vertex : ℝ × ℝ × ℝ) (Zs As : List ℤ)
    (params : DetectorParams) (idx : ℤ) : Option (Nucleus × List Row) :=
  match pyGet Zs idx, pyGet As idx, pyGet momenta idx with
  | .ok z, .ok a, .ok q =>
    if z = 0 then none
    else match env.get_data z a with
      | .ok n => match generate_trajectory env.solve_ivp vertex (q.px, q.py, q.pz) n params with
        | .ok track => some (n, track)
        | .error _ => none
      | .error _ => none
  | _, _, _ => none

/-- The electrons expected of nucleus `idx` at most: the total change of its kinetic energy, in eV, over W,
and a quarter of the Fano factor for every track point after the first. -/
noncomputable def expectedElectrons (env : SimEnv) (momenta : List Vec4) (vertex : ℝ × ℝ × ℝ)
    (Zs As : List ℤ) (params : DetectorParams) (idx : ℤ) : ℝ :=
  match trackOf env momenta vertex Zs As params idx with
  | some (n, track) => energyVariation n track * 1000000 / params.w_value
      + params.fano_factor / 4 * (track.length - 1 : ℕ)
  | none => 0

omit [MeasurableSpace σ] in
theorem lawful_of_ranges {u z : σ → ℝ} {next skip : σ → σ}
    (h1 : ∀ a b s, rng.uniform a b s = (a + (b - a) * u s, next s)) (h2 : ∀ s, 0 ≤ u s ∧ u s < 1)
    (h3 : ∀ m sd s, rng.normal m sd s = (m + sd * z s, skip s)) : LawfulGen rng where
  uniform_ge := fun a b s h => by
    rw [h1]
    have := mul_nonneg (sub_nonneg.2 h) (h2 s).1
    simp only
    linarith
  uniform_lt := fun a b s h => by
    rw [h1]
    have := mul_lt_mul_of_pos_left (h2 s).2 (sub_pos.2 h)
    simp only
    linarith
  uniform_eq := fun a s => by rw [h1]; simp
  normal_zero := fun m s => by rw [h3]; simp

theorem trackBound_eq (nucleus : Nucleus) (params : DetectorParams) (track : List Row) :
    trackBound nucleus params track = energyVariation nucleus track * 1000000 / params.w_value
      + params.fano_factor / 4 * (track.length - 1 : ℕ) := by
  unfold trackBound
  induction track with
  | nil => simp [energyVariation]
  | cons a rest ih =>
    cases rest with
    | nil => simp [energyVariation]
    | cons c rest =>
      rw [List.length_cons, List.range_succ_eq_map, List.map_cons, if_pos rfl, List.sum_cons, zero_add,
        List.map_map]
      rw [List.length_cons, List.range_succ_eq_map, List.map_cons, if_pos rfl, List.sum_cons, zero_add,
        List.map_map] at ih
      rw [List.length_cons, List.range_succ_eq_map, List.map_cons, List.map_map, List.sum_cons]
      have e : (List.range rest.length).map
            (((fun k => if k = 0 then 0 else meanAt nucleus params.w_value (a :: c :: rest) k
              + params.fano_factor / 4) ∘ Nat.succ) ∘ Nat.succ)
          = (List.range rest.length).map
            ((fun k => if k = 0 then 0 else meanAt nucleus params.w_value (c :: rest) k
              + params.fano_factor / 4) ∘ Nat.succ) := by
        apply List.map_congr_left
        intro k _
        simp [Function.comp, meanAt]
      rw [e, ih]
      simp only [Function.comp, Nat.succ_eq_add_one, zero_add, one_ne_zero, if_false, List.length_cons,
        Nat.add_sub_cancel, Nat.cast_add, Nat.cast_one]
      rw [meanAt_succ (a := a) (b := c) rfl rfl, energyVariation]
      unfold meanElectrons
      ring

theorem iterate_preserving (hr : FreshGen rng μ u z next skip) (k : ℕ) :
    MeasurePreserving skip^[k] μ μ := (fresh_preserving hr.fresh_normal).iterate k

theorem energyVariation_nonneg (n : Nucleus) (track : List Row) : 0 ≤ energyVariation n track := by
  induction track with
  | nil => simp [energyVariation]
  | cons a rest ih =>
    cases rest with
    | nil => simp [energyVariation]
    | cons c rest =>
      rw [energyVariation]
      exact add_nonneg (abs_nonneg _) ih

theorem expectedElectrons_nonneg {env : SimEnv} {momenta : List Vec4} {vertex : ℝ × ℝ × ℝ}
    {Zs As : List ℤ} {params : DetectorParams} (hW : 0 < params.w_value) (hF : 0 ≤ params.fano_factor)
    (idx : ℤ) : 0 ≤ expectedElectrons env momenta vertex Zs As params idx := by
  unfold expectedElectrons
  split
  · rename_i n track _
    have hv := energyVariation_nonneg n track
    positivity
  · exact le_rfl

/-- The electrons released in an event are bounded by a number with the given expectation. -/
theorem eventTotal_expected (hr : IdealGen rng μ u z next skip) {env : SimEnv} {momenta : List Vec4}
    {vertex : ℝ × ℝ × ℝ} {Zs As : List ℤ} {config : Config} (hW : 0 < config.det_params.w_value)
    (hF : 0 ≤ config.det_params.fano_factor) (indices : List ℤ) :
    ∃ T : σ → ENNReal, Measurable T ∧
      (∀ s n s', EventTotal released env momenta vertex Zs As config rng indices s n s' →
        ENNReal.ofReal n ≤ T s) ∧
      ∫⁻ s, T s ∂μ ≤ ENNReal.ofReal
        (indices.map (expectedElectrons env momenta vertex Zs As config.det_params)).sum := by
  induction indices with
  | nil =>
    refine ⟨0, measurable_const, ?_, by simp⟩
    intro s n s' h
    cases h
    simp
  | cons idx rest ih =>
    obtain ⟨T, hT, hle, hint⟩ := ih
    have hsum : ENNReal.ofReal
        ((idx :: rest).map (expectedElectrons env momenta vertex Zs As config.det_params)).sum
        = ENNReal.ofReal (expectedElectrons env momenta vertex Zs As config.det_params idx)
          + ENNReal.ofReal
            (rest.map (expectedElectrons env momenta vertex Zs As config.det_params)).sum := by
      rw [List.map_cons, List.sum_cons, ENNReal.ofReal_add (expectedElectrons_nonneg hW hF idx)]
      refine List.sum_nonneg fun x hx => ?_
      obtain ⟨i, -, rfl⟩ := List.mem_map.1 hx
      exact expectedElectrons_nonneg hW hF i
    rw [hsum]
    rcases ht : trackOf env momenta vertex Zs As config.det_params idx with _ | ⟨nucleus, track⟩
    · refine ⟨T, hT, ?_, hint.trans le_add_self⟩
      intro s n s' h
      cases h with
      | neutral _ _ _ _ _ hz h => exact hle _ _ _ h
      | charged _ z a nucleus momentum track primary _ _ s₁ _ n hz hz0 ha hn hm htr he h =>
        exfalso
        unfold trackOf at ht
        rw [hz, ha, hm] at ht
        simp only [if_neg hz0, hn, htr] at ht
        cases ht
    · refine ⟨fun s => positiveSum nucleus config.det_params track z skip s
          + T (skip^[track.length] s), ?_, ?_, ?_⟩
      · exact (measurable_positiveSum hr.fresh).add
          (hT.comp (iterate_preserving hr.fresh _).measurable)
      · intro s n s' h
        cases h with
        | neutral _ _ _ _ _ hz h =>
          exfalso
          unfold trackOf at ht
          rw [hz] at ht
          cases ha : pyGet As idx <;> cases hm : pyGet momenta idx <;> rw [ha, hm] at ht <;> simp at ht
        | charged _ z' a nucleus' momentum track' primary _ _ s₁ _ n hz hz0 ha hn hm htr he h =>
          unfold trackOf at ht
          rw [hz, ha, hm] at ht
          simp only [if_neg hz0, hn, htr, Option.some.injEq, Prod.mk.injEq] at ht
          obtain ⟨rfl, rfl⟩ := ht
          have h1 := hle _ _ _ h
          rw [electrons_state hr.fresh he] at h1
          have h2 := released_le hr.fresh he
          rw [Int.cast_add]
          exact ENNReal.ofReal_add_le.trans (add_le_add h2 h1)
      · rw [lintegral_add_left (measurable_positiveSum hr.fresh)]
        refine add_le_add ?_ ?_
        · refine (positiveSum_mean hr hW hF).trans (le_of_eq ?_)
          unfold expectedElectrons
          rw [ht]
          simp only
          rw [trackBound_eq]
        · rw [(iterate_preserving hr.fresh track.length).lintegral_comp hT]
          exact hint

/-- **C101.** With an ideal generator, and for trajectories from any solver, the expected charge of an event
is at most the gain times the electrons expected at most of its nuclei: the total change of their kinetic
energy over W, and a quarter of the Fano factor per track point. -/
theorem C101_tracks (hr : IdealGen rng μ u z next skip) {env : SimEnv} {momenta : List Vec4}
    {vertex : ℝ × ℝ × ℝ} {Zs As : List ℤ} {config : Config} {grid : PadGrid} {g : GridEdges}
    (hb : 0 < g.bin) (hgrid : config.pad_grid = some (grid, g))
    (hgain : 0 ≤ config.det_params.mpgd_gain) (hW : 0 < config.det_params.w_value)
    (hF : 0 ≤ config.det_params.fano_factor) (indices : List ℤ) :
    (∀ s, 0 ≤ eventCharge env momenta vertex Zs As config rng indices s) ∧
    ∫⁻ s, ENNReal.ofReal (eventCharge env momenta vertex Zs As config rng indices s) ∂μ
      ≤ ENNReal.ofReal (config.det_params.mpgd_gain *
        (indices.map (expectedElectrons env momenta vertex Zs As config.det_params)).sum) := by
  have hl : LawfulGen rng := lawful_of_ranges hr.fresh.uniform hr.fresh.range hr.fresh.normal
  obtain ⟨T, hT, hle, hint⟩ := eventTotal_expected hr (env := env) (momenta := momenta)
    (vertex := vertex) (Zs := Zs) (As := As) hW hF indices
  have hg : (0 : ℝ) ≤ config.det_params.mpgd_gain := by exact_mod_cast hgain
  constructor
  · intro s
    unfold eventCharge
    split
    · rename_i h
      obtain ⟨n, s₁, -, h2, -⟩ := C76_charge_bound hb hgrid hl hgain h
      exact h2
    · exact le_rfl
  calc ∫⁻ s, ENNReal.ofReal (eventCharge env momenta vertex Zs As config rng indices s) ∂μ
      ≤ ∫⁻ s, ENNReal.ofReal config.det_params.mpgd_gain * T s ∂μ := by
        refine lintegral_mono fun s => ?_
        unfold eventCharge
        split
        · rename_i h
          obtain ⟨n, s₁, h1, -, h3⟩ := C76_charge_bound hb hgrid hl hgain h
          refine (ENNReal.ofReal_le_ofReal h3).trans ?_
          rw [Int.cast_mul, ENNReal.ofReal_mul hg]
          exact mul_le_mul_right (hle _ _ _ h1) _
        · simp
    _ = ENNReal.ofReal config.det_params.mpgd_gain * ∫⁻ s, T s ∂μ := lintegral_const_mul _ hT
    _ ≤ _ := by
        rw [ENNReal.ofReal_mul hg]
        exact mul_le_mul_right hint _

/-- 2500 times the Fano factor for a charged nucleus, 0 for a neutral one. -/
noncomputable def fluctuation (Zs : List ℤ) (params : DetectorParams) (idx : ℤ) : ℝ :=
  match pyGet Zs idx with
  | .ok z => if z = 0 then 0 else 2500 * params.fano_factor
  | .error _ => 0

/-- **C101.** With an exact solver that evaluates the trajectory at the requested times, and for any fields,
the expected charge of an event is at most the gain times the kinetic energy of its charged nuclei plus
twice the energy that the field can supply to them, in eV, over W, and 2500 times the Fano factor for each
of them. -/
theorem C101_energy (hr : IdealGen rng μ u z next skip) {env : SimEnv} {momenta : List Vec4}
    {vertex : ℝ × ℝ × ℝ} {Zs As : List ℤ} {config : Config} {grid : PadGrid} {g : GridEdges}
    (hb : 0 < g.bin) (hgrid : config.pad_grid = some (grid, g))
    (hgain : 0 ≤ config.det_params.mpgd_gain) (hW : 0 < config.det_params.w_value)
    (hF : 0 ≤ config.det_params.fano_factor) (hsol : SolvesExactly env.solve_ivp)
    (hev : EvaluatesAt env.solve_ivp) (hz0 : 0 ≤ vertex.2.2) (hz1 : vertex.2.2 ≤ 1)
    (hmass : ∀ z a n, env.get_data z a = .ok n → 0 < n.mass)
    (hdedx : ∀ n k, 0 ≤ config.det_params.gas_target.get_dedx n k)
    (hrho : 0 ≤ config.det_params.gas_target.density) (indices : List ℤ) :
    ∫⁻ s, ENNReal.ofReal (eventCharge env momenta vertex Zs As config rng indices s) ∂μ
      ≤ ENNReal.ofReal (config.det_params.mpgd_gain *
        (((indices.map (ionising env momenta Zs As)).sum
          + (indices.map (fieldSupply env Zs As config.det_params.efield)).sum) * 1000000
          / config.det_params.w_value + (indices.map (fluctuation Zs config.det_params)).sum)) := by
  refine ((C101_tracks hr hb hgrid hgain hW hF indices).2).trans (ENNReal.ofReal_le_ofReal ?_)
  have hg : (0 : ℝ) ≤ config.det_params.mpgd_gain := by exact_mod_cast hgain
  refine mul_le_mul_of_nonneg_left ?_ hg
  induction indices with
  | nil => simp
  | cons idx rest ih =>
    simp only [List.map_cons, List.sum_cons]
    have key : expectedElectrons env momenta vertex Zs As config.det_params idx
        ≤ (ionising env momenta Zs As idx + fieldSupply env Zs As config.det_params.efield idx) * 1000000
          / config.det_params.w_value + fluctuation Zs config.det_params idx := by
      have hion : 0 ≤ ionising env momenta Zs As idx := by
        unfold ionising
        split
        · split_ifs
          · exact le_rfl
          · split
            · rename_i n hn
              rw [sub_nonneg]
              apply Real.le_sqrt_of_sq_le
              nlinarith
            · exact le_rfl
        · exact le_rfl
      have hfs : 0 ≤ fieldSupply env Zs As config.det_params.efield idx := by
        unfold fieldSupply
        split
        · split_ifs
          · exact le_rfl
          · split
            · positivity
            · exact le_rfl
        · exact le_rfl
      have hfl : 0 ≤ fluctuation Zs config.det_params idx := by
        unfold fluctuation
        split
        · split_ifs
          · exact le_rfl
          · positivity
        · exact le_rfl
      unfold expectedElectrons
      rcases ht : trackOf env momenta vertex Zs As config.det_params idx with _ | ⟨n, track⟩
      · simp only
        positivity
      · simp only
        unfold trackOf at ht
        split at ht
        · rename_i z' a q hz ha hq
          split_ifs at ht with hz'
          split at ht
          · rename_i n' hn
            split at ht
            · rename_i track' htr
              simp only [Option.some.injEq, Prod.mk.injEq] at ht
              obtain ⟨rfl, rfl⟩ := ht
              have h1 := exact_variation (hmass _ _ _ hn) (hdedx n') hrho hsol hz0 hz1 htr
              have hlen : track'.length ≤ 10001 := by
                obtain ⟨P, hP, -, hPl, -⟩ := C63_events vertex (q.px, q.py, q.pz) n' config.det_params
                rw [hP] at htr
                cases hs : env.solve_ivp P with
                | error e => rw [hs] at htr; cases htr
                | ok sol =>
                  rw [hs] at htr
                  obtain rfl := Except.ok.inj htr
                  have := (hev P sol hs).length_le
                  rw [List.length_map] at this ⊢
                  omega
              have e1 : ionising env momenta Zs As idx
                  = Real.sqrt (q.px ^ 2 + q.py ^ 2 + q.pz ^ 2 + n'.mass ^ 2) - n'.mass := by
                unfold ionising
                rw [hz, ha, hq]
                simp only [if_neg hz', hn]
              have e2 : fieldSupply env Zs As config.det_params.efield idx
                  = 2 * (1 + 2e-9) * (|n'.Z * config.det_params.efield| / 1000000) := by
                unfold fieldSupply
                rw [hz, ha]
                simp only [if_neg hz', hn]
              have e3 : fluctuation Zs config.det_params idx = 2500 * config.det_params.fano_factor := by
                unfold fluctuation
                rw [hz]
                simp only [if_neg hz']
              rw [← e1, ← e2] at h1
              rw [e3]
              refine add_le_add (by gcongr) ?_
              have h2 : ((track'.length - 1 : ℕ) : ℝ) ≤ 10000 := by
                have : track'.length - 1 ≤ 10000 := by omega
                exact_mod_cast this
              have h3 := mul_le_mul_of_nonneg_left h2 (by positivity : 0 ≤ config.det_params.fano_factor / 4)
              linarith
            · cases ht
          · cases ht
        · cases ht
    refine (add_le_add key ih).trans (le_of_eq ?_)
    ring

/-! ## Example -/

open Classical in
/-- A solver that knows the motion of the example nucleus, from 1.5 MeV to 0.5 MeV, evaluates it at the
requested times, and fails for all other problems. -/
noncomputable def timedSolver : IvpSolver := fun P =>
  if P.t_span.1 = 0 ∧ P.t_eval = TIME_STEPS ∧
      Solves P (accelerated (-exDecel) (3 / 4) 0.5) (1 / (3 * exDecel)) then
    .ok ((evaluated P (1 / (3 * exDecel))).map fun t => (t, accelerated (-exDecel) (3 / 4) 0.5 t))
  else .error .valueError

theorem exEnd : 0 ≤ 1 / (3 * exDecel) ∧ 1 / (3 * exDecel) ≤ 1e-6 := by
  have h := exDecel_pos
  refine ⟨by positivity, ?_⟩
  have h1 := exDecel_big
  rw [div_le_iff₀ h] at h1
  rw [div_le_iff₀ (by positivity)]
  norm_num at h1 ⊢
  linarith

theorem evaluated_steps {P : IvpProblem} (h : P.t_eval = TIME_STEPS) (T : ℝ) :
    evaluated P T = evaluated (trajectory_problem (0, 0, 0) (0, 0, 0) exNucleus exFieldConfig.det_params) T := by
  unfold evaluated
  rw [h]
  dsimp only [trajectory_problem]

theorem timedSolver_exact : SolvesExactly timedSolver := by
  intro P sol h
  unfold timedSolver at h
  split at h
  · rename_i hS
    obtain rfl := Except.ok.inj h
    obtain ⟨h0, h1⟩ := exEnd
    obtain ⟨e1, e2, -⟩ := evaluated_times (vertex := (0, 0, 0)) (momentum := (0, 0, 0))
      (nucleus := exNucleus) (params := exFieldConfig.det_params) h0 h1
    refine ⟨_, _, _, hS.2.2, ?_, ?_, rfl⟩
    · rw [hS.1, evaluated_steps hS.2.1]
      exact e1
    · rw [evaluated_steps hS.2.1]
      exact e2
  · cases h

theorem filter_prefix {l : List ℝ} (h : l.Pairwise (· ≤ ·)) (T : ℝ) :
    l.filter (fun t => decide (t ≤ T)) <+: l := by
  induction l with
  | nil => simp
  | cons a l ih =>
    rw [List.pairwise_cons] at h
    rw [List.filter_cons]
    split_ifs with ha
    · exact List.cons_prefix_cons.2 ⟨rfl, ih h.2⟩
    · simp only [decide_eq_true_eq] at ha
      rw [List.filter_eq_nil_iff.2 (by
        intro b hb
        have := h.1 b hb
        simp only [decide_eq_true_eq]
        linarith)]
      exact List.nil_prefix

theorem linspace_sorted {stop : ℝ} (h : 0 ≤ stop) (n : ℕ) : (linspace0 stop n).Pairwise (· ≤ ·) := by
  unfold linspace0
  rw [List.pairwise_map]
  refine List.pairwise_lt_range.imp ?_
  intro a b hab
  have : (a : ℝ) ≤ b := by exact_mod_cast hab.le
  exact mul_le_mul_of_nonneg_right this (by positivity)

theorem steps_sorted : TIME_STEPS.Pairwise (· ≤ ·) := linspace_sorted (by norm_num) _

theorem timedSolver_times : EvaluatesAt timedSolver := by
  intro P sol h
  unfold timedSolver at h
  split at h
  · rename_i hS
    obtain rfl := Except.ok.inj h
    rw [List.map_map]
    have : (Prod.fst ∘ fun t => (t, accelerated (-exDecel) (3 / 4) 0.5 t)) = id := rfl
    rw [this, List.map_id]
    unfold evaluated
    rw [hS.2.1]
    exact filter_prefix steps_sorted _
  · cases h

/-- The example configuration with a Fano factor of 0.2. -/
noncomputable def exFanoConfig : Config :=
  { exFieldConfig with det_params := { exFieldConfig.det_params with fano_factor := 0.2 } }

/-- Example: a nucleus with 1.5 MeV whose trajectory is known exactly, W = 1 MeV, gain 100 and Fano factor
0.2. The expected charge is at most 100 times 1.5 + 500 electrons and a little from the field. -/
example : SolvesExactly timedSolver ∧ EvaluatesAt timedSolver ∧
    (∃ track, generate_trajectory timedSolver (0, 0, 0.5) (0, 0, 4.5) exNucleus exFanoConfig.det_params
      = .ok track) ∧
    ∫⁻ s, ENNReal.ofReal (eventCharge { exEnv with solve_ivp := timedSolver } exMomenta (0, 0, 0.5)
        [1, 1, 1] [1, 1, 1] exFanoConfig pairGen [2] s) ∂pairMeasure ≤ ENNReal.ofReal 50150.1 := by
  refine ⟨timedSolver_exact, timedSolver_times, ?_, ?_⟩
  · unfold generate_trajectory timedSolver
    rw [if_pos ⟨rfl, by dsimp only [trajectory_problem], exSolves⟩]
    exact ⟨_, rfl⟩
  refine (C101_energy pairGen_ideal exEdges_bin rfl (by norm_num [exFanoConfig, exFieldConfig, exDet])
    (by norm_num [exFanoConfig, exFieldConfig, exDet]) (by norm_num [exFanoConfig])
    timedSolver_exact timedSolver_times (by norm_num) (by norm_num) (by
      intro z a n hn
      obtain rfl := Except.ok.inj hn
      norm_num [exNucleus]) (fun _ _ => by norm_num [exFanoConfig, exFieldConfig, exStopGas])
      (by norm_num [exFanoConfig, exFieldConfig, exStopGas]) [2]).trans (ENNReal.ofReal_le_ofReal ?_)
  have hi : ionising { exEnv with solve_ivp := timedSolver } exMomenta [1, 1, 1] [1, 1, 1] 2 = 1.5 := by
    change Real.sqrt (0 ^ 2 + 0 ^ 2 + 4.5 ^ 2 + 6 ^ 2) - 6 = 1.5
    rw [sqrt_of_sq (y := 7.5) (by norm_num) (by norm_num)]
    norm_num
  have hf : fieldSupply { exEnv with solve_ivp := timedSolver } [1, 1, 1] [1, 1, 1] 1 2
      = 2 * (1 + 2e-9) * (|((1 : ℤ) : ℝ) * 1| / 1000000) := rfl
  have hl : fluctuation [1, 1, 1] exFanoConfig.det_params 2 = 2500 * 0.2 := rfl
  simp only [List.map_cons, List.map_nil, List.sum_cons, List.sum_nil, hi, hl]
  simp only [exFanoConfig, exFieldConfig, exConfig, exDet, hf]
  norm_num

end Verif.Props
