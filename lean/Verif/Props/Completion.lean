import Verif.Props.Sampling
import Mathlib.MeasureTheory.Integral.Lebesgue.Map

/-! # C150: how long a kinematics run takes and whether it completes -/

namespace Verif.Props

open Verif.Kinematics Verif.Spec MeasureTheory

open Classical in
/-- Number of samples drawn, from state `s`, to obtain `n` samples with property `A` when at most `limit`
samples may be drawn for each of them and `left` remain for the first. The samples are `v s`,
`v (g s)`, … -/
noncomputable def draws {σ X : Type} (A : X → Prop) (v : σ → X) (g : σ → σ) (limit : ℕ) :
    ℕ → ℕ → σ → ℕ
  | 0, _, _ => 0
  | _ + 1, 0, _ => 0
  | n + 1, left + 1, s =>
    1 + if A (v s) then draws A v g limit n limit (g s) else draws A v g limit (n + 1) left (g s)
termination_by n left => (n, left)

section

variable {σ : Type} {p : Pipeline σ} {v : σ → Sample} {g : σ → σ}

theorem draws_skip (hs : ∀ s, p.sample s = .ok (v s, g s)) {limit n k : ℕ} {s s1 : σ}
    (h : SkippedBy (fun y => ¬ EnergyAllowed p y) p k s s1) : ∀ l : ℕ, k ≤ l →
    s1 = g^[k] s ∧ draws (EnergyAllowed p) v g limit (n + 1) l s
      = k + draws (EnergyAllowed p) v g limit (n + 1) (l - k) s1 := by
  induction h with
  | zero s => intro l _; exact ⟨rfl, by simp⟩
  | @succ m s x s1 s' h1 h2 _ ih =>
    intro l hl
    obtain ⟨l, rfl⟩ : ∃ l', l = l' + 1 := ⟨l - 1, by omega⟩
    rw [hs, Except.ok.injEq, Prod.mk.injEq] at h1
    obtain ⟨rfl, rfl⟩ := h1
    obtain ⟨i1, i2⟩ := ih l (by omega)
    refine ⟨by rw [Function.iterate_succ_apply]; exact i1, ?_⟩
    rw [draws, if_neg h2, i2, show l + 1 - (m + 1) = l - m from by omega]
    omega

/-- An error of `run` is that of the limit, after drawing as many samples as it allows. -/
theorem run_error (h : RunsOk p) (hs : ∀ s, p.sample s = .ok (v s, g s)) {st st' : PipeState σ}
    (hlen : st.result.length = 4 + 2 * p.decays.length) {e : PyErr} (hr : p.run st = (.error e, st')) :
    e = .pipelineError ∧
    SkippedBy (fun y => ¬ EnergyAllowed p y) p p.event_sample_limit.toNat st.gen st'.gen := by
  have hmono : ∀ s x s', p.sample s = .ok (x, s') → eventRows p x = .ok none → ¬ EnergyAllowed p x :=
    fun s x s' hx hn => eventRows_none h.chain (h.samples _ _ _ hx) (enough h.built h.lawful hx) hn
  obtain ⟨-, h2⟩ := runLoop_spec p p.event_sample_limit.toNat st hlen
  unfold Pipeline.run at hr
  rw [hr] at h2
  rcases h2 with ⟨g1, rfl⟩ | ⟨k, hk, s, g1, g2⟩ | ⟨k, hk, s, x, g1, g2, g3⟩
  · exact ⟨rfl, Skipped_mono hmono g1⟩
  · rw [hs] at g2
    simp at g2
  · obtain ⟨ha, he⟩ := (eventRows_cases h.chain (h.samples _ _ _ g2) (enough h.built h.lawful g2)).2 e g3
    obtain ⟨res, hres⟩ := h.calculates _ _ _ g2 ha
    rw [hres] at he
    simp at he

theorem run_ok_firstAllowed (h : RunsOk p) {st st' : PipeState σ}
    (hlen : st.result.length = 4 + 2 * p.decays.length) {vertex : ℝ × ℝ × ℝ}
    (hr : p.run st = (.ok vertex, st')) :
    ∃ x, FirstAllowed p p.event_sample_limit.toNat st.gen x st'.gen := by
  obtain ⟨k, hk, s1, x, i1, i2, i3, -⟩ := C49_first_allowed h.built h.lawful h.chain h.samples hlen hr
  exact ⟨x, k, by omega, s1, i1, i2, i3⟩

theorem produced_draws (h : RunsOk p) (hs : ∀ s, p.sample s = .ok (v s, g s))
    {st st' : PipeState σ} {evs : List (Event (List ResultRow))} (hp : Produced p.runCopy st evs st') :
    st.result.length = 4 + 2 * p.decays.length → st'.result.length = 4 + 2 * p.decays.length ∧
    (∃ xs, xs.length = evs.length ∧
      AcceptedSamples p p.event_sample_limit.toNat st.gen xs st'.gen) ∧
    ∃ d, st'.gen = g^[d] st.gen ∧ ∀ m, draws (EnergyAllowed p) v g p.event_sample_limit.toNat
        (evs.length + m) p.event_sample_limit.toNat st.gen
      = d + draws (EnergyAllowed p) v g p.event_sample_limit.toNat m p.event_sample_limit.toNat st'.gen := by
  induction hp with
  | nil st => intro hl; exact ⟨hl, ⟨[], rfl, .nil _⟩, 0, rfl, fun m => by simp⟩
  | @cons st e st1 evs st' h1 _ ih =>
    intro hl
    unfold Pipeline.runCopy at h1
    rcases hr : p.run st with ⟨o, st2⟩
    rw [hr] at h1
    cases o with
    | error e => simp at h1
    | ok vertex =>
      simp only [Prod.mk.injEq, Except.ok.injEq] at h1
      obtain ⟨-, rfl⟩ := h1
      have hl1 := run_length p (st := st) hl
      rw [hr] at hl1
      obtain ⟨i1, ⟨xs, j1, j2⟩, d, i2, i3⟩ := ih hl1
      obtain ⟨x, hf⟩ := run_ok_firstAllowed h hl hr
      refine ⟨i1, ⟨x :: xs, by simp [j1], .cons hf j2⟩, ?_⟩
      obtain ⟨k, hk, s1, k1, k2, k3⟩ := hf
      rw [hs, Except.ok.injEq, Prod.mk.injEq] at k2
      obtain ⟨rfl, k2⟩ := k2
      have hg : s1 = g^[k] st.gen :=
        (draws_skip (limit := 0) (n := 0) hs k1 _ le_rfl).1
      refine ⟨d + (k + 1), ?_, fun m => ?_⟩
      · rw [i2, ← k2, Function.iterate_add_apply, Function.iterate_succ_apply', ← hg]
      · rw [List.length_cons, show evs.length + 1 + m = evs.length + m + 1 from by omega,
          (draws_skip hs k1 _ hk.le).2]
        obtain ⟨l, hl⟩ : ∃ l, p.event_sample_limit.toNat - k = l + 1 :=
          ⟨p.event_sample_limit.toNat - k - 1, by omega⟩
        rw [hl, draws, if_pos k3, k2, i3]
        omega

/-- **C150.** A run of `n` events draws exactly `draws n` samples: the state of the generator afterwards is
that after as many samples, whether the run completes or not. -/
theorem C150_draws (h : RunsOk p) (hs : ∀ s, p.sample s = .ok (v s, g s)) (zs as : List ℤ) (cs : ℕ)
    (hcs : 1 ≤ cs) (n : ℕ) (s : σ) {buf : List ResultRow} (hlen : buf.length = 4 + 2 * p.decays.length) :
    (run_kinematics_pipeline p.runCopy zs as cs n ⟨s, buf⟩).2.pipe.gen
      = g^[draws (EnergyAllowed p) v g p.event_sample_limit.toNat n p.event_sample_limit.toNat s] s := by
  rcases kin_run p.runCopy zs as cs hcs n ⟨s, buf⟩ with ⟨done, cur, q, trace, e, -, -, -, h4, h5, -⟩ |
    ⟨e, evs, q, q', file, trace, e1, h1, h2, h3, -⟩
  · rw [e]
    obtain ⟨-, -, d, i1, i2⟩ := produced_draws h hs h4 hlen
    have := i2 0
    rw [h5, add_zero, Int.toNat_natCast, draws] at this
    rw [this]
    exact i1
  · rw [e1]
    obtain ⟨j1, -, d, i1, i2⟩ := produced_draws h hs h1 hlen
    rw [Int.toNat_natCast] at h3
    have := i2 (n - evs.length)
    rw [show evs.length + (n - evs.length) = n from by omega] at this
    unfold Pipeline.runCopy at h2
    rcases hr : p.run q with ⟨o, st2⟩
    rw [hr] at h2
    cases o with
    | ok vertex => simp at h2
    | error e' =>
      simp only [Prod.mk.injEq] at h2
      obtain ⟨-, rfl⟩ := h2
      obtain ⟨-, hsk⟩ := run_error h hs j1 hr
      obtain ⟨m, hm⟩ : ∃ m, n - evs.length = m + 1 := ⟨n - evs.length - 1, by omega⟩
      rw [hm, (draws_skip hs hsk _ le_rfl).2, Nat.sub_self, draws, add_zero] at this
      rw [this, add_comm d, Function.iterate_add_apply]
      show st2.gen = _
      have hd : g^[d] s = q.gen := i1.symm
      rw [hd]
      exact (draws_skip (limit := 0) (n := 0) hs hsk _ le_rfl).1

/-- **C150.** A run either completes or ends with the error of the sampling limit. -/
theorem C150_outcomes (h : RunsOk p) (hs : ∀ s, p.sample s = .ok (v s, g s)) (zs as : List ℤ) (cs : ℕ)
    (hcs : 1 ≤ cs) (n : ℕ) (s : σ) {buf : List ResultRow} (hlen : buf.length = 4 + 2 * p.decays.length) :
    (run_kinematics_pipeline p.runCopy zs as cs n ⟨s, buf⟩).1 = .ok () ∨
    (run_kinematics_pipeline p.runCopy zs as cs n ⟨s, buf⟩).1 = .error .pipelineError := by
  rcases kin_run p.runCopy zs as cs hcs n ⟨s, buf⟩ with ⟨done, cur, q, trace, e, -⟩ |
    ⟨e, evs, q, q', file, trace, e1, h1, h2, -⟩
  · rw [e]; exact .inl rfl
  · rw [e1]
    obtain ⟨j1, -⟩ := produced_draws h hs h1 hlen
    unfold Pipeline.runCopy at h2
    rcases hr : p.run q with ⟨o, st2⟩
    rw [hr] at h2
    cases o with
    | ok vertex => simp at h2
    | error e' =>
      simp only [Prod.mk.injEq, Except.error.injEq] at h2
      obtain ⟨rfl, -⟩ := h2
      rw [(run_error h hs j1 hr).1]
      exact .inr rfl

end

variable {σ : Type} [MeasurableSpace σ] {μ : Measure σ} [IsProbabilityMeasure μ]
  {p : Pipeline σ} {v : σ → Sample} {g : σ → σ}

theorem allowed_add {A : Set σ} (hA : MeasurableSet A) : μ A + μ {s | s ∉ A} = 1 := by
  have : {s | s ∉ A} = Aᶜ := rfl
  rw [this, measure_add_measure_compl hA, measure_univ]

/-- A geometric sum. -/
theorem geometric {a q : ENNReal} (h : a + q = 1) (n : ℕ) :
    a * (∑ k ∈ Finset.range n, q ^ k) + q ^ n = 1 := by
  induction n with
  | zero => simp
  | succ n ih =>
    rw [Finset.sum_range_succ, mul_add, pow_succ, add_assoc, mul_comm (q ^ n) q, ← add_mul, h, one_mul]
    exact ih

theorem geometric_sub {a q : ENNReal} (h : a + q = 1) (n : ℕ) :
    a * (∑ k ∈ Finset.range n, q ^ k) = 1 - q ^ n := by
  have hq : q ≤ 1 := by rw [← h]; exact le_add_self
  refine ENNReal.eq_sub_of_add_eq ?_ (geometric h n)
  exact ne_top_of_le_ne_top ENNReal.one_ne_top (pow_le_one₀ zero_le' hq)

/-- **C150.** A run of `n` events completes with probability `(1 - q ^ limit) ^ n`, where `q` is the
probability that a sample is forbidden. -/
theorem C150_completes (h : RunsOk p) (hf : Fresh μ v g) (hs : ∀ s, p.sample s = .ok (v s, g s))
    (zs as : List ℤ) (cs : ℕ) (hcs : 1 ≤ cs) (n : ℕ)
    {buf : List ResultRow} (hlen : buf.length = 4 + 2 * p.decays.length) :
    MeasurableSet {s | (run_kinematics_pipeline p.runCopy zs as cs n ⟨s, buf⟩).1 = .ok ()} ∧
    μ {s | (run_kinematics_pipeline p.runCopy zs as cs n ⟨s, buf⟩).1 = .ok ()}
      = (1 - μ {s | ¬ EnergyAllowed p (v s)} ^ p.event_sample_limit.toNat) ^ n := by
  have hm : MeasurableSet {s | EnergyAllowed p (v s)} := hf.value (measurable_energyAllowed p)
  have h1 := accepted_prob hf hs p.event_sample_limit.toNat MeasurableSet.univ
    (List.replicate n Set.univ) (fun B hB => by rw [List.eq_of_mem_replicate hB]; exact .univ)
  have h2 := (firstAllowed_prob hf hs p.event_sample_limit.toNat (B := Set.univ) .univ
    MeasurableSet.univ).2
  simp only [Set.mem_univ, and_true, measure_univ, mul_one] at h1 h2
  rw [List.map_replicate, List.prod_replicate] at h1
  simp only [Set.mem_univ, and_true] at h1
  have h3 := geometric_sub (allowed_add (μ := μ) hm) p.event_sample_limit.toNat
  simp only [Set.mem_setOf_eq] at h3
  rw [h2, h3] at h1
  have e : {s | (run_kinematics_pipeline p.runCopy zs as cs n ⟨s, buf⟩).1 = .ok ()}
      = {s | ∃ xs s', AcceptedSamples p p.event_sample_limit.toNat s xs s' ∧
          List.Forall₂ (· ∈ ·) xs (List.replicate n Set.univ)} := by
    ext s
    simp only [Set.mem_setOf_eq]
    rw [C37_succeeds p.runCopy zs as cs hcs n ⟨s, buf⟩, Int.toNat_natCast]
    constructor
    · rintro ⟨evs, st', j1, j2⟩
      obtain ⟨-, ⟨xs, i1, i2⟩, -⟩ := produced_draws h hs j1 hlen
      refine ⟨xs, _, i2, List.forall₂_iff_get.2 ⟨by simp; omega, fun i _ _ => by simp⟩⟩
    · rintro ⟨xs, s', i1, i2⟩
      obtain ⟨evs, buf', j1, j2⟩ := produced_of_accepted h i1 hlen
      refine ⟨evs, _, j1, ?_⟩
      have h1 := j2.length_eq
      have h2 := i2.length_eq
      simp at h2
      omega
  rw [e]
  exact h1

/-- **C150.** It fails with probability `1 - (1 - q ^ limit) ^ n`, always with the error of the limit. -/
theorem C150_fails (h : RunsOk p) (hf : Fresh μ v g) (hs : ∀ s, p.sample s = .ok (v s, g s))
    (zs as : List ℤ) (cs : ℕ) (hcs : 1 ≤ cs) (n : ℕ)
    {buf : List ResultRow} (hlen : buf.length = 4 + 2 * p.decays.length) :
    μ {s | (run_kinematics_pipeline p.runCopy zs as cs n ⟨s, buf⟩).1 = .error .pipelineError}
      = 1 - (1 - μ {s | ¬ EnergyAllowed p (v s)} ^ p.event_sample_limit.toNat) ^ n := by
  obtain ⟨h1, h2⟩ := C150_completes h hf hs zs as cs hcs n hlen
  have e : {s | (run_kinematics_pipeline p.runCopy zs as cs n ⟨s, buf⟩).1 = .error .pipelineError}
      = {s | (run_kinematics_pipeline p.runCopy zs as cs n ⟨s, buf⟩).1 = .ok ()}ᶜ := by
    ext s
    simp only [Set.mem_setOf_eq, Set.mem_compl_iff]
    rcases C150_outcomes h hs zs as cs hcs n s hlen with i | i <;> rw [i] <;> simp
  rw [e, prob_compl_eq_one_sub h1, h2]

/-- **C150.** It fails with probability at most `n q ^ limit`. -/
theorem C150_rarely (h : RunsOk p) (hf : Fresh μ v g) (hs : ∀ s, p.sample s = .ok (v s, g s))
    (zs as : List ℤ) (cs : ℕ) (hcs : 1 ≤ cs) (n : ℕ)
    {buf : List ResultRow} (hlen : buf.length = 4 + 2 * p.decays.length) :
    μ {s | (run_kinematics_pipeline p.runCopy zs as cs n ⟨s, buf⟩).1 = .error .pipelineError}
      ≤ n * μ {s | ¬ EnergyAllowed p (v s)} ^ p.event_sample_limit.toNat := by
  rw [C150_fails h hf hs zs as cs hcs n hlen]
  set x := μ {s | ¬ EnergyAllowed p (v s)} ^ p.event_sample_limit.toNat
  have hx : x ≤ 1 := pow_le_one₀ zero_le' prob_le_one
  rw [tsub_le_iff_right]
  induction n with
  | zero => simp
  | succ n ih =>
    calc (1 : ENNReal) = x + (1 - x) := (add_tsub_cancel_of_le hx).symm
      _ ≤ x + (1 - x) * (n * x + (1 - x) ^ n) := by
          gcongr
          exact le_mul_of_one_le_right zero_le' ih
      _ = x + ((1 - x) * (n * x) + (1 - x) ^ (n + 1)) := by rw [mul_add, pow_succ']
      _ ≤ x + (1 * (n * x) + (1 - x) ^ (n + 1)) := by
          gcongr
          exact tsub_le_self
      _ = _ := by push_cast; ring

/-- **C150.** If samples can be forbidden at all, a run of enough events almost surely fails, however large
the limit. -/
theorem C150_eventually (h : RunsOk p) (hf : Fresh μ v g) (hs : ∀ s, p.sample s = .ok (v s, g s))
    (zs as : List ℤ) (cs : ℕ) (hcs : 1 ≤ cs)
    {buf : List ResultRow} (hlen : buf.length = 4 + 2 * p.decays.length)
    (hq : μ {s | ¬ EnergyAllowed p (v s)} ≠ 0) :
    Filter.Tendsto (fun n : ℕ => μ {s | (run_kinematics_pipeline p.runCopy zs as cs n ⟨s, buf⟩).1 = .ok ()})
      Filter.atTop (nhds 0) := by
  have : ∀ n : ℕ, μ {s | (run_kinematics_pipeline p.runCopy zs as cs n ⟨s, buf⟩).1 = .ok ()}
      = (1 - μ {s | ¬ EnergyAllowed p (v s)} ^ p.event_sample_limit.toNat) ^ n :=
    fun n => (C150_completes h hf hs zs as cs hcs n hlen).2
  simp only [this]
  exact ENNReal.tendsto_pow_atTop_nhds_zero_of_lt_one
    (ENNReal.sub_lt_self ENNReal.one_ne_top one_ne_zero (pow_ne_zero _ hq))

/-! ## The number of samples -/

omit [IsProbabilityMeasure μ] in
theorem fresh_lintegral (hf : Fresh μ v g) {B : Set Sample} (hB : MeasurableSet B)
    {F : σ → ENNReal} (hF : Measurable F) :
    ∫⁻ s in {s | v s ∈ B}, F (g s) ∂μ = μ {s | v s ∈ B} * ∫⁻ s, F s ∂μ := by
  have hm : (μ.restrict {s | v s ∈ B}).map g = μ {s | v s ∈ B} • μ := by
    ext A hA
    rw [Measure.map_apply hf.state hA, Measure.restrict_apply (hf.state hA)]
    have := hf.indep B A hB hA
    rw [Measure.smul_apply, smul_eq_mul, ← this]
    congr 1
    ext s
    exact and_comm
  rw [← lintegral_map hF hf.state, hm, lintegral_smul_measure, smul_eq_mul]

omit [IsProbabilityMeasure μ] in
theorem draws_measurable (hf : Fresh μ v g) (limit : ℕ) : ∀ n l : ℕ,
    Measurable fun s => draws (EnergyAllowed p) v g limit n l s := by
  have hm : MeasurableSet {s | EnergyAllowed p (v s)} := hf.value (measurable_energyAllowed p)
  intro n
  induction n with
  | zero => intro l; simp only [draws]; exact measurable_const
  | succ n ihn =>
    intro l
    induction l with
    | zero => simp only [draws]; exact measurable_const
    | succ l ihl =>
      simp only [draws]
      exact (Measurable.ite hm ((ihn limit).comp hf.state)
        (ihl.comp hf.state)).const_add 1

open Classical in
theorem draws_step (hf : Fresh μ v g) (limit n l : ℕ) :
    ∫⁻ s, (draws (EnergyAllowed p) v g limit (n + 1) (l + 1) s : ENNReal) ∂μ
      = 1 + (μ {s | EnergyAllowed p (v s)} *
          ∫⁻ s, (draws (EnergyAllowed p) v g limit n limit s : ENNReal) ∂μ
        + μ {s | ¬ EnergyAllowed p (v s)} *
          ∫⁻ s, (draws (EnergyAllowed p) v g limit (n + 1) l s : ENNReal) ∂μ) := by
  have hE := measurable_energyAllowed p
  have hm : MeasurableSet {s | EnergyAllowed p (v s)} := hf.value hE
  have hc : Measurable fun n : ℕ => (n : ENNReal) := measurable_from_top
  have h1 := fresh_lintegral hf (B := {x | EnergyAllowed p x}) hE
    (hc.comp (draws_measurable (p := p) hf limit n limit))
  have h2 := fresh_lintegral hf (B := {x | EnergyAllowed p x}ᶜ) hE.compl
    (hc.comp (draws_measurable (p := p) hf limit (n + 1) l))
  simp only [Function.comp_apply, Set.mem_setOf_eq, Set.mem_compl_iff] at h1 h2
  rw [← h1, ← h2]
  have hall : ∀ s, (draws (EnergyAllowed p) v g limit (n + 1) (l + 1) s : ENNReal)
      = 1 + (if EnergyAllowed p (v s) then
          (draws (EnergyAllowed p) v g limit n limit (g s) : ENNReal)
        else (draws (EnergyAllowed p) v g limit (n + 1) l (g s) : ENNReal)) := by
    intro s
    rw [draws]
    push_cast
    rfl
  simp only [hall]
  rw [lintegral_add_left measurable_const, lintegral_const, measure_univ, mul_one]
  congr 1
  rw [← lintegral_add_compl _ hm]
  congr 1
  · exact setLIntegral_congr_fun hm fun s hs => if_pos hs
  · exact setLIntegral_congr_fun hm.compl fun s hs => if_neg hs

theorem draws_mean (hf : Fresh μ v g) (limit n : ℕ) : ∀ l : ℕ,
    ∫⁻ s, (draws (EnergyAllowed p) v g limit (n + 1) l s : ENNReal) ∂μ
      = (∑ k ∈ Finset.range l, μ {s | ¬ EnergyAllowed p (v s)} ^ k) *
        (1 + μ {s | EnergyAllowed p (v s)} *
          ∫⁻ s, (draws (EnergyAllowed p) v g limit n limit s : ENNReal) ∂μ) := by
  intro l
  induction l with
  | zero => simp [draws]
  | succ l ih =>
    rw [draws_step hf, ih, Finset.sum_range_succ']
    simp only [pow_succ, pow_zero]
    rw [← Finset.sum_mul]
    ring

/-- **C150.** The mean number of samples drawn by a run of `n` events, which stops at the first event that
reaches the limit. -/
theorem C150_mean (hf : Fresh μ v g) (limit n : ℕ) :
    ∫⁻ s, (draws (EnergyAllowed p) v g limit n limit s : ENNReal) ∂μ
      = (∑ i ∈ Finset.range n, (1 - μ {s | ¬ EnergyAllowed p (v s)} ^ limit) ^ i) *
        ∑ k ∈ Finset.range limit, μ {s | ¬ EnergyAllowed p (v s)} ^ k := by
  have hm : MeasurableSet {s | EnergyAllowed p (v s)} := hf.value (measurable_energyAllowed p)
  have hr := geometric_sub (allowed_add (μ := μ) hm) limit
  simp only [Set.mem_setOf_eq] at hr
  induction n with
  | zero => simp [draws]
  | succ n ih =>
    rw [draws_mean hf, ih, ← hr, Finset.sum_range_succ']
    simp only [pow_succ, pow_zero]
    rw [← Finset.sum_mul]
    ring

/-- **C150.** It is at most `n` divided by the probability that a sample is allowed. -/
theorem C150_bound (hf : Fresh μ v g) (limit n : ℕ) :
    μ {s | EnergyAllowed p (v s)} *
      ∫⁻ s, (draws (EnergyAllowed p) v g limit n limit s : ENNReal) ∂μ ≤ n := by
  have hm : MeasurableSet {s | EnergyAllowed p (v s)} := hf.value (measurable_energyAllowed p)
  have hr := geometric_sub (allowed_add (μ := μ) hm) limit
  simp only [Set.mem_setOf_eq] at hr
  rw [C150_mean hf, mul_left_comm, hr]
  have h1 : (1 - μ {s | ¬ EnergyAllowed p (v s)} ^ limit) ≤ 1 := tsub_le_self
  calc _ ≤ (∑ i ∈ Finset.range n, (1 : ENNReal)) * 1 :=
        mul_le_mul' (Finset.sum_le_sum fun i _ => pow_le_one₀ zero_le' h1) h1
    _ = n := by simp

/-- **C150.** The number of samples drawn for one event is geometric, cut at the limit. -/
theorem C150_tail (hf : Fresh μ v g) (limit : ℕ) : ∀ k l : ℕ, k < l →
    μ {s | k < draws (EnergyAllowed p) v g limit 1 l s} = μ {s | ¬ EnergyAllowed p (v s)} ^ k := by
  have hE := measurable_energyAllowed p
  intro k
  induction k with
  | zero =>
    intro l hl
    obtain ⟨l, rfl⟩ : ∃ l', l = l' + 1 := ⟨l - 1, by omega⟩
    have : {s | 0 < draws (EnergyAllowed p) v g limit 1 (l + 1) s} = Set.univ := by
      ext s
      rw [Set.mem_setOf_eq, draws]
      simp
    rw [this, measure_univ, pow_zero]
  | succ k ih =>
    intro l hl
    obtain ⟨l, rfl⟩ : ∃ l', l = l' + 1 := ⟨l - 1, by omega⟩
    have e : {s | k + 1 < draws (EnergyAllowed p) v g limit 1 (l + 1) s}
        = {s | v s ∈ {x | EnergyAllowed p x}ᶜ ∧
            g s ∈ {s | k < draws (EnergyAllowed p) v g limit 1 l s}} := by
      ext s
      simp only [Set.mem_setOf_eq, Set.mem_compl_iff]
      rw [draws]
      by_cases ha : EnergyAllowed p (v s)
      · simp [ha, draws]
      · simp only [ha, if_false, not_false_iff, true_and, zero_add]
        omega
    have hA : MeasurableSet {s | k < draws (EnergyAllowed p) v g limit 1 l s} :=
      (draws_measurable hf limit 1 l) (t := {n | k < n}) trivial
    rw [e, hf.indep _ _ hE.compl hA, ih l (by omega), pow_succ, mul_comm]
    rfl

/-! ## An example -/

theorem halfPipe_forbidden {v : Stream → Sample} {g : Stream → Stream}
    (hs : ∀ s, halfPipe.sample s = .ok (v s, g s)) :
    streamMeasure {s | ¬ EnergyAllowed halfPipe (v s)} = 2⁻¹ := by
  have e : {s | ¬ EnergyAllowed halfPipe (v s)}
      = {s : Stream | (1 / 2 : ℝ) ≤ s 0 ∧ (s 0 : ℝ) < 1} := by
    ext s
    simp only [Set.mem_setOf_eq, halfPipe_allowed (hs s), not_lt]
    exact ⟨fun h => ⟨h, (s 0).2.2⟩, fun h => h.1⟩
  have h := streamGen_iid.pair 0 1 (by norm_num) (1 / 2) 1 0 1 (by norm_num) le_rfl le_rfl le_rfl
  rw [show (1 : ℝ) - 1 / 2 = 2⁻¹ from by norm_num, sub_zero, ENNReal.ofReal_one, mul_one,
    ENNReal.ofReal_inv_of_pos (by norm_num)] at h
  rw [e]
  have h2 : ENNReal.ofReal 2 = 2 := by simp
  rw [h2] at h
  rw [← h]
  congr 1
  ext s
  exact ⟨fun h => ⟨h, (s 1).2⟩, fun h => h.1⟩

/-- With half of the samples forbidden and at most three per event, a run of two events completes with
probability `(7/8)²`, and draws `(1 + 7/8) * 7/4` samples on average. -/
example : streamMeasure {s | (run_kinematics_pipeline halfPipe.runCopy [] [] 1 (2 : ℕ)
      ⟨s, List.replicate 4 none⟩).1 = .ok ()} = (1 - 2⁻¹ ^ 3) ^ 2 ∧
    ∃ v g, (∀ s, halfPipe.sample s = .ok (v s, g s)) ∧
      ∫⁻ s, (draws (EnergyAllowed halfPipe) v g 3 2 3 s : ENNReal) ∂streamMeasure
        = (1 + (1 - 2⁻¹ ^ 3)) * (1 + 2⁻¹ + 2⁻¹ ^ 2) := by
  obtain ⟨v, g, hf, hs⟩ := halfPipe_fresh
  refine ⟨?_, v, g, hs, ?_⟩
  · rw [(C150_completes halfPipe_ok hf hs [] [] 1 le_rfl 2 rfl).2, halfPipe_forbidden hs]
    rfl
  · rw [C150_mean hf, halfPipe_forbidden hs]
    simp [Finset.sum_range_succ]

end Verif.Props
