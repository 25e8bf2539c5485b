import Verif.Spec.Independence
import Verif.Proofs.Sampling
import Verif.Proofs.Counts
import Verif.Proofs.Simulate
import Mathlib.MeasureTheory.MeasurableSpace.Constructions

/-! # Random procedures with countably many results -/

namespace Verif.Spec

open Verif.Detector Verif.Kinematics MeasureTheory

variable {σ α β : Type} [MeasurableSpace σ] [MeasurableSpace α] [MeasurableSpace β] {μ : Measure σ}

/-- The outcomes of a procedure. -/
def outcomes (f : σ → Except PyErr (α × σ)) (B : Set α) (A : Set σ) : Set σ :=
  {s | ∃ a s', f s = .ok (a, s') ∧ a ∈ B ∧ s' ∈ A}

theorem outcomes_univ (f : σ → Except PyErr (α × σ)) (B : Set α) :
    outcomes f B Set.univ = {s | ∃ a s', f s = .ok (a, s') ∧ a ∈ B} := by
  ext s; simp [outcomes]

theorem FreshSampler.result {f : σ → Except PyErr (α × σ)} (h : FreshSampler μ f) : FreshResult μ f := by
  obtain ⟨v, g, hf, hd⟩ := h
  have h1 : ∀ (B : Set α) (A : Set σ), {s | ∃ a s', f s = .ok (a, s') ∧ a ∈ B ∧ s' ∈ A} = {s | v s ∈ B ∧ g s ∈ A} := by
    intro B A
    ext s
    simp [hd]
  have h2 : ∀ (B : Set α), {s | ∃ a s', f s = .ok (a, s') ∧ a ∈ B} = {s | v s ∈ B} := by
    intro B
    ext s
    simp [hd]
  refine ⟨fun B A hB hA => ?_, fun B A hB hA => ?_⟩
  · rw [h1]
    exact (hf.value hB).inter (hf.state hA)
  · rw [h1, h2]
    exact hf.indep B A hB hA

theorem FreshResult.error (f : σ → Except PyErr (α × σ)) (h : ∀ s, ∃ e, f s = .error e) :
    FreshResult μ f := by
  have h1 : ∀ (B : Set α) (A : Set σ), {s | ∃ a s', f s = .ok (a, s') ∧ a ∈ B ∧ s' ∈ A} = ∅ := by
    intro B A
    ext s
    obtain ⟨e, he⟩ := h s
    simp [he]
  have h2 : ∀ (B : Set α), {s | ∃ a s', f s = .ok (a, s') ∧ a ∈ B} = ∅ := by
    intro B
    ext s
    obtain ⟨e, he⟩ := h s
    simp [he]
  exact ⟨fun B A _ _ => by rw [h1]; exact MeasurableSet.empty, fun B A _ _ => by rw [h1, h2]; simp⟩

theorem FreshResult.congr {f g : σ → Except PyErr (α × σ)} (h : FreshResult μ f) (e : ∀ s, g s = f s) :
    FreshResult μ g := by
  have : g = f := funext e
  rw [this]
  exact h

/-- A procedure whose result takes countably many values, followed by one that depends on it. -/
theorem FreshResult.bind [Countable α] [DiscreteMeasurableSpace α]
    {f : σ → Except PyErr (α × σ)} {k : α → σ → Except PyErr (β × σ)} (hf : FreshResult μ f)
    (hk : ∀ a, FreshResult μ (k a)) : FreshResult μ (fun s => f s >>= fun r => k r.1 r.2) := by
  have split : ∀ (B : Set β) (A : Set σ),
      {s | ∃ b s', (f s >>= fun r => k r.1 r.2) = .ok (b, s') ∧ b ∈ B ∧ s' ∈ A}
        = ⋃ a, outcomes f {a} (outcomes (k a) B A) := by
    intro B A
    ext s
    simp only [Set.mem_setOf_eq, Set.mem_iUnion, outcomes, except_bind_ok, Set.mem_singleton_iff]
    constructor
    · rintro ⟨b, s', ⟨⟨a, s1⟩, h1, h2⟩, hb, hs⟩
      exact ⟨a, a, s1, h1, rfl, b, s', h2, hb, hs⟩
    · rintro ⟨a, a', s1, h1, rfl, b, s', h2, hb, hs⟩
      exact ⟨b, s', ⟨⟨a', s1⟩, h1, h2⟩, hb, hs⟩
  have disj : ∀ (B : Set β) (A : Set σ),
      Pairwise (Function.onFun Disjoint fun a => outcomes f {a} (outcomes (k a) B A)) := by
    intro B A a a' haa
    rw [Function.onFun, Set.disjoint_left]
    rintro s ⟨x, s1, h1, hx, -⟩ ⟨y, s2, h2, hy, -⟩
    rw [h1] at h2
    simp only [Except.ok.injEq, Prod.mk.injEq] at h2
    exact haa (by rw [← Set.mem_singleton_iff.1 hx, ← Set.mem_singleton_iff.1 hy, h2.1])
  have meas : ∀ (B : Set β) (A : Set σ), MeasurableSet B → MeasurableSet A →
      ∀ a, MeasurableSet (outcomes f {a} (outcomes (k a) B A)) := fun B A hB hA a =>
    hf.measurable _ _ (MeasurableSet.of_discrete) ((hk a).measurable B A hB hA)
  have total : ∀ (B : Set β) (A : Set σ), MeasurableSet B → MeasurableSet A →
      μ {s | ∃ b s', (f s >>= fun r => k r.1 r.2) = .ok (b, s') ∧ b ∈ B ∧ s' ∈ A}
        = ∑' a, μ {s | ∃ x s', f s = .ok (x, s') ∧ x ∈ ({a} : Set α)}
            * (μ {s | ∃ b s', k a s = .ok (b, s') ∧ b ∈ B} * μ A) := by
    intro B A hB hA
    rw [split, measure_iUnion (disj B A) (meas B A hB hA)]
    refine tsum_congr fun a => ?_
    have h1 := hf.indep {a} _ (MeasurableSet.of_discrete) ((hk a).measurable B A hB hA)
    have h2 := (hk a).indep B A hB hA
    rw [← h2]
    exact h1
  have whole : ∀ (B : Set β), MeasurableSet B →
      μ {s | ∃ b s', (f s >>= fun r => k r.1 r.2) = .ok (b, s') ∧ b ∈ B}
        = ∑' a, μ {s | ∃ x s', f s = .ok (x, s') ∧ x ∈ ({a} : Set α)}
            * (μ {s | ∃ b s', k a s = .ok (b, s') ∧ b ∈ B}) := by
    intro B hB
    have e1 := split B Set.univ
    have e2 : {s | ∃ b s', (f s >>= fun r => k r.1 r.2) = .ok (b, s') ∧ b ∈ B ∧ s' ∈ Set.univ}
        = {s | ∃ b s', (f s >>= fun r => k r.1 r.2) = .ok (b, s') ∧ b ∈ B} := by
      ext s; simp
    rw [← e2, e1, measure_iUnion (disj B Set.univ) (meas B Set.univ hB MeasurableSet.univ)]
    refine tsum_congr fun a => ?_
    rw [← outcomes_univ (k a) B]
    exact hf.indep {a} _ (MeasurableSet.of_discrete) ((hk a).measurable B _ hB MeasurableSet.univ)
  refine ⟨fun B A hB hA => ?_, fun B A hB hA => ?_⟩
  · rw [split]
    exact MeasurableSet.iUnion (meas B A hB hA)
  · rw [total B A hB hA, whole B hB, ← ENNReal.tsum_mul_right]
    exact tsum_congr fun a => by rw [mul_assoc]

/-- A fixed result, or a fixed exception. -/
theorem FreshResult.lift [IsProbabilityMeasure μ] (x : Except PyErr α) :
    FreshResult μ (fun s : σ => x >>= fun a => (.ok (a, s) : Except PyErr (α × σ))) := by
  cases x with
  | error e => exact .error _ fun s => ⟨e, rfl⟩
  | ok a => exact (FreshSampler.pure (μ := μ) a).result

/-! ## Simulation -/

/-- The dictionary of points has countably many values. -/
instance : MeasurableSpace Points := ⊤

instance : DiscreteMeasurableSpace Points := ⟨fun _ => trivial⟩

instance : DiscreteMeasurableSpace (List ℤ) := ⟨fun _ => trivial⟩

variable [IsProbabilityMeasure μ] {rng : Gen σ} {u z : σ → ℝ} {next skip : σ → σ}

theorem fano_draw_fresh (hr : FreshGen rng μ u z next skip) (fano : ℝ) (point : Option ℝ) :
    FreshResult μ (fano_draw rng fano point) := by
  cases point with
  | none => exact .error _ fun s => ⟨_, rfl⟩
  | some m =>
    cases hs : npSqrt (fano * m) with
    | none => exact .error _ fun s => ⟨.valueError, by simp [fano_draw, hs]⟩
    | some sd =>
      refine FreshSampler.result ((normal_fresh hr m sd).map Verif.Props.measurable_pyInt fun s a s' h => ?_)
      simp only [Except.ok.injEq] at h
      simp only [fano_draw, hs, h]

theorem fano_draws_fresh (hr : FreshGen rng μ u z next skip) (fano : ℝ) (points : List (Option ℝ)) :
    FreshResult μ (fano_draws rng fano points) := by
  induction points with
  | nil => exact (FreshSampler.pure (μ := μ) ([] : List ℤ)).result
  | cons p ps ih =>
    exact (fano_draw_fresh hr fano p).bind (k := fun v s => fano_draws rng fano ps s >>= fun r =>
      .ok (v :: r.1, r.2)) fun v => ih.bind (k := fun vs s => .ok (v :: vs, s)) fun vs =>
        (FreshSampler.pure (μ := μ) (v :: vs)).result

theorem generate_electrons_fresh (hr : FreshGen rng μ u z next skip) (track : List Row)
    (nucleus : Nucleus) (params : DetectorParams) :
    FreshResult μ (generate_electrons track nucleus params rng) := by
  by_cases hw : params.w_value = 0
  · exact .error _ fun s => ⟨.zeroDivision, by simp [generate_electrons, hw]⟩
  · refine (fano_draws_fresh hr params.fano_factor ((energy_lost (track.map (track_energy nucleus))).map
      (Option.map (· * (1.0e6 / params.w_value))))).congr fun s => ?_
    unfold generate_electrons
    rw [if_neg hw]

theorem generate_point_cloud_fresh (hr : FreshGen rng μ u z next skip) (ivp : IvpSolver)
    (momentum vertex : ℝ × ℝ × ℝ) (nucleus : Nucleus) (config : Config) (points : Points) (label : ℤ) :
    FreshResult μ (generate_point_cloud ivp momentum vertex nucleus config rng points label) := by
  cases ht : generate_trajectory ivp vertex momentum nucleus config.det_params with
  | error e => exact .error _ fun s => ⟨e, by simp [generate_point_cloud, ht, bind, Except.bind]⟩
  | ok track =>
    refine ((generate_electrons_fresh hr track nucleus config.det_params).bind
      (k := fun electrons s => (match config.pad_grid with
        | none => .error .valueError
        | some (pad_grid, pad_grid_edges) =>
          transport_track pad_grid pad_grid_edges config.det_params.diffusion
            config.det_params.efield config.drift_velocity
            ((maskSel (electrons.map fun e => decide (1 ≤ e)) track).map
              fun r => { r with z := to_time_bucket config r.z })
            ((maskSel (electrons.map fun e => decide (1 ≤ e)) electrons).map
              (· * config.det_params.mpgd_gain)) points label) >>= fun p => .ok (p, s))
      fun electrons => FreshResult.lift _).congr fun s => ?_
    unfold generate_point_cloud
    rw [ht]
    simp only [bind, Except.bind]
    cases generate_electrons track nucleus config.det_params rng s with
    | error e => rfl
    | ok r =>
      cases hg : config.pad_grid with
      | none => rfl
      | some pg => rfl

theorem simulate_nucleus_fresh (hr : FreshGen rng μ u z next skip) (env : SimEnv) (momenta : List Vec4)
    (vertex : ℝ × ℝ × ℝ) (zs as : List ℤ) (config : Config) (points : Points) (idx : ℤ) :
    FreshResult μ (fun s => simulate_nucleus env momenta vertex zs as config rng (points, s) idx) := by
  unfold simulate_nucleus
  cases h1 : pyGet zs idx with
  | error e => exact .error _ fun s => ⟨e, rfl⟩
  | ok zn =>
    simp only [bind, Except.bind]
    by_cases hz : zn = 0
    · simp only [hz, if_true]
      exact (FreshSampler.pure (μ := μ) points).result
    · simp only [hz, if_false]
      cases h2 : pyGet as idx with
      | error e => exact .error _ fun s => ⟨e, rfl⟩
      | ok an =>
        cases h3 : env.get_data zn an with
        | error e => exact .error _ fun s => ⟨e, by simp [h3]⟩
        | ok nuc =>
          cases h4 : pyGet momenta idx with
          | error e => exact .error _ fun s => ⟨e, by simp [h3]⟩
          | ok p =>
            simp only [h3]
            exact generate_point_cloud_fresh hr _ _ _ _ _ _ _

theorem simulate_fold_fresh (hr : FreshGen rng μ u z next skip) (env : SimEnv) (momenta : List Vec4)
    (vertex : ℝ × ℝ × ℝ) (zs as : List ℤ) (config : Config) (indices : List ℤ) (points : Points) :
    FreshResult μ (fun s => indices.foldlM
      (simulate_nucleus env momenta vertex zs as config rng) (points, s)) := by
  induction indices generalizing points with
  | nil => exact (FreshSampler.pure (μ := μ) points).result
  | cons i is ih =>
    refine ((simulate_nucleus_fresh hr env momenta vertex zs as config points i).bind
      (k := fun p s => is.foldlM (simulate_nucleus env momenta vertex zs as config rng) (p, s))
      ih).congr fun s => ?_
    rw [List.foldlM_cons]

/-- The last stage of `simulate`: the random part of the times, and the time window. -/
noncomputable def wiggled (rng : Gen σ) (points : Points) (s : σ) :
    Except PyErr ((List CloudPoint × List ℤ) × σ) :=
  let r := rng.uniformN 0 1 (dict_to_points points).1.length s
  let arr := ((dict_to_points points).1.zip r.1).map fun pw => ({ pw.1 with tb := pw.1.tb + pw.2 } : CloudPoint)
  let mask := arr.map fun p => decide (0 ≤ p.tb) && decide (p.tb < (NUM_TB : ℝ))
  .ok ((maskSel mask arr, maskSel mask (dict_to_points points).2), r.2)

omit [MeasurableSpace σ] in
theorem simulate_eq (env : SimEnv) (momenta : List Vec4) (vertex : ℝ × ℝ × ℝ) (zs as : List ℤ)
    (config : Config) (rng : Gen σ) (indices : List ℤ) (s : σ) :
    simulate env momenta vertex zs as config rng indices s
      = (indices.foldlM (simulate_nucleus env momenta vertex zs as config rng) (([] : Points), s))
        >>= fun r => wiggled rng r.1 r.2 := rfl

/-- Whether a time is in the window. -/
def RowInWindow (t : ℝ) : Prop := 0 ≤ t ∧ t < (NUM_TB : ℝ)

open Classical in
/-- Putting one more dictionary entry in front. -/
noncomputable def consRow (kd : ℤ × (ℤ × ℤ)) (w : ℝ) (r : List CloudPoint × List ℤ) :
    List CloudPoint × List ℤ :=
  if RowInWindow ((unpair kd.1).1 + w) then (mkRow kd w :: r.1, kd.2.2 :: r.2) else r

omit [MeasurableSpace σ] in
theorem wiggled_cons (rng : Gen σ) (kd : ℤ × (ℤ × ℤ)) (points : Points) (s : σ) :
    wiggled rng (kd :: points) s = (do
      let (w, s) ← (.ok (rng.uniform 0 1 s) : Except PyErr (ℝ × σ))
      let (r, s) ← wiggled rng points s
      return (consRow kd w r, s)) := by
  simp only [wiggled, dict_to_points, List.map_cons, List.length_cons, Gen.uniformN, bind, Except.bind, pure,
    Except.pure, List.zip_cons_cons]
  congr 2
  unfold consRow RowInWindow mkRow
  by_cases h : 0 ≤ ((unpair kd.1).1 : ℝ) + (rng.uniform 0 1 s).1 ∧
      ((unpair kd.1).1 : ℝ) + (rng.uniform 0 1 s).1 < (NUM_TB : ℝ)
  · rw [if_pos h]
    simp only [h.1, h.2, decide_true, Bool.and_self, maskSel]
  · rw [if_neg h]
    have : (decide (0 ≤ ((unpair kd.1).1 : ℝ) + (rng.uniform 0 1 s).1) &&
        decide (((unpair kd.1).1 : ℝ) + (rng.uniform 0 1 s).1 < (NUM_TB : ℝ))) = false := by
      rw [← Bool.not_eq_true, Bool.and_eq_true, decide_eq_true_eq, decide_eq_true_eq]
      exact h
    simp only [this, maskSel]

theorem measurable_cloud {V : Type} [MeasurableSpace V] {f : V → List CloudPoint}
    (h1 : Measurable fun v => (f v).map (·.pad)) (h2 : Measurable fun v => (f v).map (·.tb))
    (h3 : Measurable fun v => (f v).map (·.e)) : Measurable f := by
  rintro _ ⟨B, hB, rfl⟩
  exact (h1.prodMk (h2.prodMk h3)) hB

theorem measurable_columns : Measurable fun l : List CloudPoint => (l.map (·.pad), l.map (·.tb), l.map (·.e)) :=
  fun B hB => ⟨B, hB, rfl⟩

theorem measurableSet_window (t : ℤ) : MeasurableSet {w : ℝ | RowInWindow (t + w)} := by
  have h1 : MeasurableSet {w : ℝ | 0 ≤ (t : ℝ) + w} :=
    measurableSet_le measurable_const (measurable_id.const_add _)
  have h2 : MeasurableSet {w : ℝ | (t : ℝ) + w < (NUM_TB : ℝ)} :=
    measurableSet_lt (measurable_id.const_add _) measurable_const
  exact h1.inter h2

theorem measurable_consRow (kd : ℤ × (ℤ × ℤ)) :
    Measurable fun x : ℝ × (List CloudPoint × List ℤ) => consRow kd x.1 x.2 := by
  unfold consRow
  refine Measurable.ite (measurable_fst (measurableSet_window _)) ?_ measurable_snd
  refine Measurable.prodMk ?_ ((measurable_from_top (f := fun l : List ℤ => kd.2.2 :: l)).comp
    (measurable_snd.comp measurable_snd))
  have hc : Measurable fun x : ℝ × (List CloudPoint × List ℤ) => x.2.1 := measurable_fst.comp measurable_snd
  have h1 := measurable_fst.comp (measurable_columns.comp hc)
  have h2 := measurable_fst.comp (measurable_snd.comp (measurable_columns.comp hc))
  have h3 := measurable_snd.comp (measurable_snd.comp (measurable_columns.comp hc))
  refine measurable_cloud ?_ ?_ ?_
  · simp only [List.map_cons, mkRow]
    exact measurable_cons.comp (measurable_const.prodMk h1)
  · simp only [List.map_cons, mkRow]
    exact measurable_cons.comp ((measurable_fst.const_add _).prodMk h2)
  · simp only [List.map_cons, mkRow]
    exact measurable_cons.comp (measurable_const.prodMk h3)

theorem wiggled_fresh (hr : FreshGen rng μ u z next skip) (points : Points) :
    FreshSampler μ (wiggled rng points) := by
  induction points with
  | nil => exact FreshSampler.pure (μ := μ) (([], []) : List CloudPoint × List ℤ)
  | cons kd points ih =>
    have := (uniform_fresh hr 0 1).seq ih (consRow kd) (measurable_consRow kd)
    have e : wiggled rng (kd :: points) = _ := funext fun s => wiggled_cons rng kd points s
    rw [e]
    exact this

theorem simulate_fresh (hr : FreshGen rng μ u z next skip) (env : SimEnv) (momenta : List Vec4)
    (vertex : ℝ × ℝ × ℝ) (zs as : List ℤ) (config : Config) (indices : List ℤ) :
    FreshResult μ (simulate env momenta vertex zs as config rng indices) :=
  ((simulate_fold_fresh hr env momenta vertex zs as config indices []).bind
    fun p => (wiggled_fresh hr p).result).congr fun s =>
      simulate_eq env momenta vertex zs as config rng indices s

end Verif.Spec
