import Verif.Props.MachineRun
import Verif.Props.Completion

/-! # C151: how likely a kinematics run in machine arithmetic takes the samples of exact arithmetic -/

namespace Verif.Machine

open Verif.Kinematics Verif.Spec Verif.Props MeasureTheory
open Verif.Detector (read_event)

section
variable {σ : Type} {k : Kin64} {p : Pipeline σ} {v : σ → Sample} {g : σ → σ}

/-- The samples drawn for `n` events, with `left` samples left for the first of them, are decisive. -/
def DecisivePath (k : Kin64) (p : Pipeline σ) (v : σ → Sample) (g : σ → σ) (n left : ℕ) (s : σ) : Prop :=
  ∀ i < draws (EnergyAllowed p) v g p.event_sample_limit.toNat n left s, Decisive k p (v (g^[i] s))

theorem path_step {n l : ℕ} {s : σ} (h : DecisivePath k p v g (n + 1) (l + 1) s) :
    Decisive k p (v s) ∧
    (EnergyAllowed p (v s) → DecisivePath k p v g n p.event_sample_limit.toNat (g s)) ∧
    (¬ EnergyAllowed p (v s) → DecisivePath k p v g (n + 1) l (g s)) := by
  unfold DecisivePath at h
  rw [draws] at h
  refine ⟨h 0 (by omega), fun ha i hi => ?_, fun ha i hi => ?_⟩
  · rw [if_pos ha] at h
    have := h (i + 1) (by omega)
    rwa [Function.iterate_succ_apply] at this
  · rw [if_neg ha] at h
    have := h (i + 1) (by omega)
    rwa [Function.iterate_succ_apply] at this

theorem runLoop_path (hk : k.Accurate) (hm : MassesOk p.reaction) (h : RunsOk p)
    (hs : ∀ s, p.sample s = .ok (v s, g s)) (n l : ℕ) : ∀ st : PipeState σ,
    st.result.length = 4 + 2 * p.decays.length → DecisivePath k p v g (n + 1) l st.gen →
    SameRun p (runLoop64 k p p.sample l st.gen) (p.runLoop l st) ∧
    ((∃ vertex, (p.runLoop l st).1 = .ok vertex) →
      DecisivePath k p v g n p.event_sample_limit.toNat (p.runLoop l st).2.gen) ∧
    (p.runLoop l st).2.result.length = 4 + 2 * p.decays.length := by
  induction l with
  | zero =>
    intro st hb _
    refine ⟨⟨rfl, .inl ⟨_, rfl, rfl⟩⟩, ?_, hb⟩
    rintro ⟨_, h⟩
    simp [Pipeline.runLoop] at h
  | succ l ih =>
    intro st hb hp
    obtain ⟨hd, p1, p2⟩ := path_step hp
    rw [runLoop64, Pipeline.runLoop, hs]
    simp only
    obtain ⟨hlen, hrows⟩ := attempt_rows p (v st.gen) st.result hb
    have hok := h.samples _ _ _ (hs st.gen)
    have hen := enough h.built h.lawful (hs st.gen)
    rcases C142_sample hk hm hd with ⟨h1, h2⟩ | ⟨rows, rows0, h1, h2, h3⟩
    · have h2 := h2 _ hb
      have hno : ¬ EnergyAllowed p (v st.gen) := by
        refine eventRows_none h.chain hok hen ?_
        rcases he : eventRows p (v st.gen) with e | _ | rows
        · rw [he] at hrows; simp only at hrows; rw [hrows] at h2; cases h2
        · rfl
        · rw [he] at hrows; simp only at hrows; rw [hrows] at h2; cases h2
      simp only [h1]
      rcases ha : p.attempt (v st.gen) st.result with ⟨res, buf⟩
      rw [ha] at h2 hlen
      simp only at h2 hlen
      subst h2
      exact ih ⟨g st.gen, buf⟩ (hlen.trans hb) (p2 hno)
    · have h2 := h2 _ hb
      have hyes : EnergyAllowed p (v st.gen) := by
        rcases he : eventRows p (v st.gen) with e | _ | rows
        · rw [he] at hrows; simp only at hrows; rw [h2] at hrows; cases hrows
        · rw [he] at hrows; simp only at hrows; rw [h2] at hrows; cases hrows
        · exact (eventRows_some h.chain hok he).1
      rw [h2] at hlen
      simp only [h1, h2]
      exact ⟨⟨rfl, .inr ⟨v st.gen, rows, rows0, rfl, rfl, rfl, h3⟩⟩, fun _ => p1 hyes, hlen.trans hb⟩

theorem run_path (hk : k.Accurate) (hm : MassesOk p.reaction) (h : RunsOk p)
    (hs : ∀ s, p.sample s = .ok (v s, g s)) (n : ℕ) {st : PipeState σ}
    (hb : st.result.length = 4 + 2 * p.decays.length)
    (hp : DecisivePath k p v g (n + 1) p.event_sample_limit.toNat st.gen) :
    SameRun p (run64 k p p.sample st.gen) (p.run st) ∧
    ((∃ vertex, (p.run st).1 = .ok vertex) →
      DecisivePath k p v g n p.event_sample_limit.toNat (p.run st).2.gen) ∧
    (p.run st).2.result.length = 4 + 2 * p.decays.length :=
  runLoop_path hk hm h hs n _ st hb hp

theorem events_path (hk : k.Accurate) (hm : MassesOk p.reaction) (h : RunsOk p)
    (hs : ∀ s, p.sample s = .ok (v s, g s)) (m : ℕ) {st st' : PipeState σ}
    {evs : List (Event (List ResultRow))} (hp : Produced p.runCopy st evs st') :
    st.result.length = 4 + 2 * p.decays.length →
    DecisivePath k p v g (evs.length + m) p.event_sample_limit.toNat st.gen →
    st'.result.length = 4 + 2 * p.decays.length ∧
    DecisivePath k p v g m p.event_sample_limit.toNat st'.gen ∧
    ∃ evs', Produced (run64 k p p.sample) st.gen evs' st'.gen ∧ List.Forall₂ (SameEvent p) evs' evs := by
  induction hp with
  | nil st => exact fun hb hd => ⟨hb, by simpa using hd, [], .nil _, .nil⟩
  | @cons st e st1 evs st2 hrun _ ih =>
    intro hb hd
    rw [List.length_cons, show evs.length + 1 + m = evs.length + m + 1 from by omega] at hd
    obtain ⟨⟨h1, h2⟩, h3, h4⟩ := run_path hk hm h hs (evs.length + m) hb hd
    unfold Pipeline.runCopy at hrun
    rcases hr : p.run st with ⟨res, st3⟩
    rw [hr] at hrun h1 h2 h3 h4
    rcases h2 with ⟨err, -, h2⟩ | ⟨x, rows, rows0, g1, g2, g3, g4⟩
    · simp only at h2
      subst h2
      simp at hrun
    · simp only at g2
      subst g2
      simp only [Prod.mk.injEq, Except.ok.injEq] at hrun
      obtain ⟨rfl, rfl⟩ := hrun
      obtain ⟨i0, i00, evs', i1, i2⟩ := ih h4 (h3 ⟨_, rfl⟩)
      exact ⟨i0, i00, (x.vertex, rows.map some) :: evs', .cons (Prod.ext g1 h1) i1,
        .cons ⟨rfl, x, rfl, rows, rows0, rfl, g3, g4⟩ i2⟩

theorem produced_stops {ρ π : Type} {run : PipeRun ρ π} {a b b' : π} {l : List (Event ρ)} {e : PyErr}
    (h1 : Produced run a l b) (hb : run b = (.error e, b')) : ∀ {l' : List (Event ρ)} {c : π},
    Produced run a l' c → l'.length ≤ l.length := by
  induction h1 with
  | nil a =>
    intro l' c h2
    cases h2 with
    | nil => simp
    | cons h3 _ => rw [hb] at h3; simp at h3
  | cons h3 _ ih =>
    intro l' c h2
    cases h2 with
    | nil => simp
    | cons h4 h5 =>
      rw [h3] at h4
      simp only [Prod.mk.injEq, Except.ok.injEq] at h4
      obtain ⟨rfl, rfl⟩ := h4
      have := ih hb h5
      simp
      exact this

/-- A kinematics run of `n` events in float64 and the same run in exact arithmetic: they end in the same way,
have drawn the same random numbers, and if they complete, the events in the files have the same vertices and nearly
the same momenta. -/
def SameFiles (k : Kin64) (p : Pipeline σ) (zs as : List ℤ) (cs n : ℕ) (buf : List ResultRow) (s : σ) : Prop :=
  (run_kinematics_pipeline (run64 k p p.sample) zs as cs n s).1
    = (run_kinematics_pipeline p.runCopy zs as cs n ⟨s, buf⟩).1 ∧
  (run_kinematics_pipeline (run64 k p p.sample) zs as cs n s).2.pipe
    = (run_kinematics_pipeline p.runCopy zs as cs n ⟨s, buf⟩).2.pipe.gen ∧
  ((run_kinematics_pipeline p.runCopy zs as cs n ⟨s, buf⟩).1 = .ok () → ∀ i < n, ∃ a b,
    read_event (run_kinematics_pipeline (run64 k p p.sample) zs as cs n s).2.file cs i = .ok (a.2, a.1) ∧
    read_event (run_kinematics_pipeline p.runCopy zs as cs n ⟨s, buf⟩).2.file cs i = .ok (b.2, b.1) ∧
    SameEvent p a b)

/-- **C151.** It is enough that the samples which are drawn are decisive. -/
theorem C151_path (hk : k.Accurate) (hm : MassesOk p.reaction) (h : RunsOk p)
    (hs : ∀ s, p.sample s = .ok (v s, g s)) (zs as : List ℤ) {cs : ℕ} (hcs : 1 ≤ cs) (n : ℕ) (s : σ)
    {buf : List ResultRow} (hb : buf.length = 4 + 2 * p.decays.length)
    (hp : DecisivePath k p v g n p.event_sample_limit.toNat s) : SameFiles k p zs as cs n buf s := by
  unfold SameFiles
  rcases kin_run p.runCopy zs as cs hcs n ⟨s, buf⟩ with ⟨done, cur, q, trace, e, -, -, -, h4, h5, -⟩ |
    ⟨e, evs, q, q', file, trace, e1, h1, h2, h3, -⟩
  · obtain ⟨-, -, evs', i1, i2⟩ := events_path hk hm h hs 0 h4 hb
      (by rw [h5, add_zero, Int.toNat_natCast]; exact hp)
    have hl := i2.length_eq
    have hok := (C37_succeeds (run64 k p p.sample) zs as cs hcs n s).2 ⟨evs', _, i1, by rw [hl, h5]⟩
    have hok0 : (run_kinematics_pipeline p.runCopy zs as cs n ⟨s, buf⟩).1 = .ok () := by rw [e]
    obtain ⟨f, g1, g2, -, -, -, -, g3⟩ := C37_round_trip (run64 k p p.sample) zs as cs hcs n s
      (run_kinematics_pipeline (run64 k p p.sample) zs as cs n s).2 (Prod.ext hok rfl)
    obtain ⟨f0, j1, j2, -, -, -, -, j3⟩ := C37_round_trip p.runCopy zs as cs hcs n ⟨s, buf⟩
      (run_kinematics_pipeline p.runCopy zs as cs n ⟨s, buf⟩).2 (Prod.ext hok0 rfl)
    obtain ⟨rfl, k1⟩ := Produced_unique i1 g1 (by rw [hl, h5, g2])
    obtain ⟨rfl, k2⟩ := Produced_unique h4 j1 (by rw [h5, j2])
    refine ⟨by rw [hok, hok0], by rw [← k1, ← k2], fun _ i hi => ?_⟩
    have hi' : i < evs'.length := by rw [g2]; simpa using hi
    exact ⟨evs'[i], _, g3 i hi', j3 i (by omega), (List.forall₂_iff_get.1 i2).2 i hi' (by omega)⟩
  · rw [Int.toNat_natCast] at h3
    obtain ⟨m, hmn⟩ : ∃ m, n = evs.length + (m + 1) := ⟨n - evs.length - 1, by omega⟩
    obtain ⟨i0, i00, evs', i1, i2⟩ := events_path hk hm h hs (m + 1) h1 hb (by rw [← hmn]; exact hp)
    have hl := i2.length_eq
    obtain ⟨⟨r1, r2⟩, -⟩ := run_path hk hm h hs m i0 i00
    unfold Pipeline.runCopy at h2
    rcases hr : p.run q with ⟨res, st3⟩
    rw [hr] at h2 r1 r2
    cases res with
    | ok vertex => simp at h2
    | error e' =>
      simp only [Prod.mk.injEq, Except.error.injEq] at h2
      obtain ⟨rfl, rfl⟩ := h2
      rcases r2 with ⟨err, r3, r4⟩ | ⟨_, _, _, _, r4, _⟩
      · simp only [Except.error.injEq] at r4
        subst r4
        have hrun : run64 k p p.sample q.gen = (.error e', st3.gen) := Prod.ext r3 r1
        rw [e1]
        rcases kin_run (run64 k p p.sample) zs as cs hcs n s with
          ⟨done, cur, q2, trace2, e2, -, -, -, t4, t5, -⟩ | ⟨e3, evs3, q3, q3', file3, trace3, e2, t1, t2, t3, -⟩
        · have := produced_stops i1 hrun t4
          rw [t5, Int.toNat_natCast] at this
          omega
        · rw [e2]
          have l1 := produced_stops i1 hrun t1
          have l2 := produced_stops t1 t2 i1
          obtain ⟨-, rfl⟩ := Produced_unique i1 t1 (by omega)
          rw [hrun] at t2
          simp only [Prod.mk.injEq, Except.error.injEq] at t2
          obtain ⟨rfl, rfl⟩ := t2
          exact ⟨rfl, rfl, fun h => by simp at h⟩
      · cases r4

end

variable {σ : Type} [MeasurableSpace σ] {μ : Measure σ} [IsProbabilityMeasure μ] {k : Kin64}
  {p : Pipeline σ} {v : σ → Sample} {g : σ → σ}

/-- Some of the samples drawn lie in `D`. -/
def Meets (p : Pipeline σ) (v : σ → Sample) (g : σ → σ) (limit : ℕ) (D : Set Sample) (n l : ℕ) : Set σ :=
  {s | ∃ i < draws (EnergyAllowed p) v g limit n l s, v (g^[i] s) ∈ D}

omit [MeasurableSpace σ] in
theorem meets_succ (limit : ℕ) (D : Set Sample) (n l : ℕ) :
    Meets p v g limit D (n + 1) (l + 1) = {s | v s ∈ D} ∪
      ({s | v s ∈ {x | EnergyAllowed p x} ∧ g s ∈ Meets p v g limit D n limit} ∪
      {s | v s ∈ {x | EnergyAllowed p x}ᶜ ∧ g s ∈ Meets p v g limit D (n + 1) l}) := by
  ext s
  simp only [Meets, Set.mem_setOf_eq, Set.mem_union, Set.mem_compl_iff]
  rw [draws]
  by_cases ha : EnergyAllowed p (v s)
  · simp only [ha, if_true, true_and, not_true, false_and, or_false]
    constructor
    · rintro ⟨i, hi, hD⟩
      cases i with
      | zero => exact .inl hD
      | succ i => exact .inr ⟨i, by omega, by rwa [Function.iterate_succ_apply] at hD⟩
    · rintro (h | ⟨i, hi, hD⟩)
      · exact ⟨0, by omega, h⟩
      · exact ⟨i + 1, by omega, by rwa [Function.iterate_succ_apply]⟩
  · simp only [ha, if_false, false_and, not_false_iff, true_and, false_or]
    constructor
    · rintro ⟨i, hi, hD⟩
      cases i with
      | zero => exact .inl hD
      | succ i => exact .inr ⟨i, by omega, by rwa [Function.iterate_succ_apply] at hD⟩
    · rintro (h | ⟨i, hi, hD⟩)
      · exact ⟨0, by omega, h⟩
      · exact ⟨i + 1, by omega, by rwa [Function.iterate_succ_apply]⟩

omit [IsProbabilityMeasure μ] in
theorem meets_measurable (hf : Fresh μ v g) (limit : ℕ) {D : Set Sample} (hD : MeasurableSet D) : ∀ n l : ℕ,
    MeasurableSet (Meets p v g limit D n l) := by
  have hE := measurable_energyAllowed p
  intro n
  induction n with
  | zero =>
    intro l
    have : Meets p v g limit D 0 l = ∅ := by ext s; simp [Meets, draws]
    rw [this]
    exact .empty
  | succ n ihn =>
    intro l
    induction l with
    | zero =>
      have : Meets p v g limit D (n + 1) 0 = ∅ := by ext s; simp [Meets, draws]
      rw [this]
      exact .empty
    | succ l ihl =>
      rw [meets_succ]
      exact (hf.value hD).union (((hf.value hE).inter (hf.state (ihn _))).union
        ((hf.value hE.compl).inter (hf.state ihl)))

/-- The probability of meeting `D` is at most that of a single sample times the mean number of samples. -/
theorem meets_le (hf : Fresh μ v g) (limit : ℕ) {D : Set Sample} (hD : MeasurableSet D) : ∀ n l : ℕ,
    μ (Meets p v g limit D n l) ≤ μ {s | v s ∈ D} *
      ∫⁻ s, (draws (EnergyAllowed p) v g limit n l s : ENNReal) ∂μ := by
  have hE := measurable_energyAllowed p
  intro n
  induction n with
  | zero =>
    intro l
    have : Meets p v g limit D 0 l = ∅ := by ext s; simp [Meets, draws]
    rw [this]
    simp
  | succ n ihn =>
    intro l
    induction l with
    | zero =>
      have : Meets p v g limit D (n + 1) 0 = ∅ := by ext s; simp [Meets, draws]
      rw [this]
      simp
    | succ l ihl =>
      rw [meets_succ, draws_step hf, mul_add, mul_one]
      refine (measure_union_le _ _).trans (add_le_add le_rfl ((measure_union_le _ _).trans ?_))
      rw [hf.indep _ _ hE (meets_measurable hf limit hD n limit),
        hf.indep _ _ hE.compl (meets_measurable hf limit hD (n + 1) l), mul_add, mul_left_comm,
        mul_left_comm (μ {s | v s ∈ D})]
      exact add_le_add (mul_le_mul' le_rfl (ihn limit)) (mul_le_mul' le_rfl ihl)

/-- **C151.** Let the samples outside of `D` be decisive. The probability that a run of `n` events in float64 differs
from the run in exact arithmetic is at most that of a sample in `D` times the mean number of samples (C150). -/
theorem C151_probability (hk : k.Accurate) (hm : MassesOk p.reaction) (h : RunsOk p) (hf : Fresh μ v g)
    (hs : ∀ s, p.sample s = .ok (v s, g s)) {D : Set Sample} (hD : MeasurableSet D)
    (hdec : ∀ s, v s ∉ D → Decisive k p (v s)) (zs as : List ℤ) {cs : ℕ} (hcs : 1 ≤ cs) (n : ℕ)
    {buf : List ResultRow} (hb : buf.length = 4 + 2 * p.decays.length) :
    μ {s | ¬ SameFiles k p zs as cs n buf s} ≤ μ {s | v s ∈ D} *
      ∫⁻ s, (draws (EnergyAllowed p) v g p.event_sample_limit.toNat n p.event_sample_limit.toNat s : ENNReal) ∂μ := by
  refine le_trans (measure_mono fun s hn => ?_) (meets_le (p := p) hf p.event_sample_limit.toNat hD n
    p.event_sample_limit.toNat)
  by_contra hc
  refine hn (C151_path hk hm h hs zs as hcs n s hb fun i hi => hdec _ fun hmem => hc ⟨i, hi, hmem⟩)

/-- **C151.** In particular it is at most `n` times the ratio of the probabilities of a sample in `D` and of an allowed
sample. -/
theorem C151_bound (hk : k.Accurate) (hm : MassesOk p.reaction) (h : RunsOk p) (hf : Fresh μ v g)
    (hs : ∀ s, p.sample s = .ok (v s, g s)) {D : Set Sample} (hD : MeasurableSet D)
    (hdec : ∀ s, v s ∉ D → Decisive k p (v s)) (zs as : List ℤ) {cs : ℕ} (hcs : 1 ≤ cs) (n : ℕ)
    {buf : List ResultRow} (hb : buf.length = 4 + 2 * p.decays.length) :
    μ {s | EnergyAllowed p (v s)} * μ {s | ¬ SameFiles k p zs as cs n buf s} ≤ n * μ {s | v s ∈ D} := by
  refine (mul_le_mul' le_rfl (C151_probability hk hm h hf hs hD hdec zs as hcs n hb)).trans ?_
  rw [mul_left_comm, mul_comm]
  exact mul_le_mul' (C150_bound hf _ n) le_rfl

/-! ## Example -/

/-- A reaction whose residual has an excitation between 0 and 2, of which those below 1 are allowed. -/
noncomputable def fairPipe : Pipeline Stream :=
  { reaction := exReaction, decays := [],
    excitations := [(⟨0, 2⟩ : ExcitationUniform).sample streamGen],
    polar_dists := [(mkPolarUniform 0 Real.pi).sample streamGen],
    beam_energy := 9 / 4, target_material := none, event_sample_limit := 1000, rng := streamGen }

theorem fairPipe_fresh : FreshSampler streamMeasure fairPipe.sample := by
  refine C82_fresh streamGen_fresh rfl (by simp [fairPipe]) ⟨by simp [fairPipe], fun d hd => ?_⟩
    ⟨by simp [fairPipe], fun d hd => ?_⟩
  · simp only [fairPipe, List.mem_singleton] at hd
    subst hd
    exact .uniform _ (by norm_num)
  · simp only [fairPipe, List.mem_singleton] at hd
    subst hd
    exact .uniform _ (by simp [mkPolarUniform])

theorem fairPipe_values {s s' : Stream} {x : Sample} (h : fairPipe.sample s = .ok (x, s')) :
    x.beam_energy = 9 / 4 ∧ x.reaction_excitation = 2 * s 0 ∧ x.decay_excitations = [] := by
  have h1 : ¬ (1 : ℝ) < -1 := by norm_num
  have h4 : ¬ (2 : ℝ) < 0 := by norm_num
  simp only [Pipeline.sample, Pipeline.sample_vertex, fairPipe, sampleHead, ExcitationUniform.sample,
    PolarUniform.sample, mkPolarUniform, Real.cos_zero, Real.cos_pi, h1, h4, if_false, sampleAll, streamGen, List.tail_cons, bind, Except.bind, pure, Except.pure,
    Except.ok.injEq, Prod.mk.injEq] at h
  obtain ⟨rfl, -⟩ := h
  exact ⟨rfl, by simp, rfl⟩

theorem fairPipe_cm : cmEnergy exReaction (9 / 4) = 5 := by
  unfold cmEnergy
  rw [show (exReaction.target.mass + exReaction.projectile.mass) ^ 2 + 2 * exReaction.target.mass * (9 / 4)
    = 5 ^ 2 from by norm_num [exReaction]]
  exact Real.sqrt_sq (by norm_num)

theorem fairPipe_samples : SamplesOk fairPipe := by
  intro s x s' h
  obtain ⟨h1, h2, -⟩ := fairPipe_values h
  have := (s 0).2.1
  refine ⟨?_, ?_, by simp [fairPipe]⟩
  · rw [h1]; norm_num [fairPipe, exReaction]
  · rw [h2]
    simp only [fairPipe, exReaction]
    linarith

theorem fairPipe_allowed {s s' : Stream} {x : Sample} (h : fairPipe.sample s = .ok (x, s')) :
    EnergyAllowed fairPipe x ↔ (s 0 : ℝ) < 1 / 2 := by
  obtain ⟨h1, h2, -⟩ := fairPipe_values h
  have hW := fairPipe_cm
  unfold cmEnergy at hW
  unfold EnergyAllowed
  rw [h1, h2]
  simp only [fairPipe]
  rw [hW]
  simp only [DecaysAllowed, exReaction, and_true]
  constructor
  · rintro ⟨-, h⟩; linarith
  · intro h; exact ⟨by norm_num, by linarith⟩

theorem fairPipe_calculate {s s' : Stream} {x : Sample} (h : fairPipe.sample s = .ok (x, s'))
    (ha : exReaction.is_excitation_allowed x.beam_energy x.reaction_excitation = true) :
    ∃ res, exReaction.calculate x.beam_energy x.reaction_theta x.reaction_phi
      x.reaction_excitation = .ok res := by
  have hx := fairPipe_samples s x s' h
  obtain ⟨h1, h2, -⟩ := fairPipe_values h
  rw [h1] at ha ⊢
  obtain ⟨t, b, e, q, h⟩ := C43_partial exReaction_ok (T := 9 / 4) (by norm_num) (hx.residual.le) ha
    (by norm_num [exReaction]) (.inl (by norm_num [exReaction])) x.reaction_theta x.reaction_phi
  exact ⟨_, h⟩

theorem fairPipe_ok : RunsOk fairPipe where
  built := ⟨rfl, rfl⟩
  lawful := streamGen_lawful
  chain := ⟨by norm_num [fairPipe, exReaction], by norm_num [fairPipe, exReaction],
    by norm_num [fairPipe, exReaction], by simp [fairPipe]⟩
  samples := fairPipe_samples
  calculates := fun _ _ _ h ha => fairPipe_calculate h ha

theorem fairPipe_masses : MassesOk fairPipe.reaction := by
  constructor <;> norm_num [fairPipe, exReaction]

/-- The samples whose excitation is not within 1e-10 of the threshold are decisive. -/
theorem fairPipe_decisive (hk : k.Accurate) {s s' : Stream} {x : Sample} (h : fairPipe.sample s = .ok (x, s'))
    (hx : x.reaction_excitation ≤ 1 - 1e-10 ∨ 1 + 1e-10 ≤ x.reaction_excitation) : Decisive k fairPipe x := by
  obtain ⟨h1, h2, h3⟩ := fairPipe_values h
  have l0 := (s 0).2.1
  have l1 := (s 0).2.2
  have hW : cmEnergy fairPipe.reaction x.beam_energy = 5 := by rw [h1]; exact fairPipe_cm
  have hreg : Regular fairPipe x := by
    refine ⟨?_, ?_⟩
    · rw [h1]; norm_num [fairPipe, exReaction]
    · rw [h2]; constructor <;> linarith
  rcases hx with hx | hx
  · have hn : 0 ≤ x.reaction_excitation := hreg.excitation.1
    have hyes : EnergyAllowed fairPipe x := (fairPipe_allowed h).2 (by rw [h2] at hx; linarith)
    have hok := fairPipe_samples _ _ _ h
    have hen := enough fairPipe_ok.built fairPipe_ok.lawful h
    have hall : fairPipe.reaction.is_excitation_allowed x.beam_energy x.reaction_excitation = true :=
      (reaction_allowed_iff fairPipe_ok.chain hok).2 ⟨hyes.1, hyes.2.1⟩
    obtain ⟨rows, hrows⟩ := (eventRows_cases fairPipe_ok.chain hok hen).1 hyes (fairPipe_calculate h hall)
    have ha := (attempt_rows fairPipe x (List.replicate (4 + 2 * fairPipe.decays.length) none) (by simp)).2
    obtain ⟨-, t, b, e, r, rs, rfl, hev⟩ := eventRows_some fairPipe_ok.chain hok hrows
    have hlen := DecaysOk_length hev.decays
    rw [hrows] at ha
    refine .accepted hreg ⟨?_, fun err => ?_⟩ trivial ha ?_
    · rw [hW]
      simp only [outMass, fairPipe, exReaction]
      nlinarith
    · -- the threshold formula gives at most 2, which is below the beam energy
      have hr := hk.rounding
      have r4 : k.rn 4 = 4 := by simpa using hr.int (n := 4) (by norm_num)
      have r2 : k.rn 2 = 2 := by simpa using hr.int (n := 2) (by norm_num)
      have m : ∀ n : ℤ, |n| < 2 ^ 53 → (n : ℝ) ∈ Binary64 := fun n hn => int_mem hn
      have m5 : (5 : ℝ) ∈ Binary64 := by simpa using m 5 (by norm_num)
      have m1 : (-1 : ℝ) ∈ Binary64 := by simpa using m (-1) (by norm_num)
      have m4 : (4 : ℝ) ∈ Binary64 := by simpa using m 4 (by norm_num)
      have m2 : (2 : ℝ) ∈ Binary64 := by simpa using m 2 (by norm_num)
      have a1 : k.rn (4 + x.reaction_excitation) ≤ 5 := hr.le_of_le m5 (by linarith)
      have a2 : -1 ≤ k.rn (4 - k.rn (4 + x.reaction_excitation)) := hr.ge_of_ge m1 (by linarith)
      have a3 : k.rn (-k.rn (4 - k.rn (4 + x.reaction_excitation)) * 4) ≤ 4 := hr.le_of_le m4 (by linarith)
      have a4 : k.rn (k.rn (-k.rn (4 - k.rn (4 + x.reaction_excitation)) * 4) / 2) ≤ 2 :=
        hr.le_of_le m2 (by linarith)
      rw [neg_mul] at a4
      unfold reaction_calculate64
      simp only [fairPipe, exReaction, h1]
      norm_num [r4, r2]
      rw [if_neg (by linarith)]
      repeat' split
      all_goals simp
    · match rs, hlen with
      | [], _ => trivial
      | _ :: _, h => simp [fairPipe] at h
  · refine .below hreg ?_
    rw [hW]
    simp only [outMass, fairPipe, exReaction]
    norm_num at hx ⊢
    linarith

/-- A run of `n` events of this pipeline in float64 differs from the run in exact arithmetic with a probability of at
most `2e-10 n`, in every accurate arithmetic. -/
example (hk : k.Accurate) (n : ℕ) :
    streamMeasure {s | ¬ SameFiles k fairPipe [] [] 1 n (List.replicate 4 none) s} ≤ n * ENNReal.ofReal 2e-10 := by
  obtain ⟨v, g, hf, hs⟩ := fairPipe_fresh
  have hD : MeasurableSet {x : Sample | 1 - 1e-10 < x.reaction_excitation ∧ x.reaction_excitation < 1 + 1e-10} := by
    have he := measurable_reaction_excitation
    exact (measurableSet_lt measurable_const he).inter (measurableSet_lt he measurable_const)
  have h := C151_bound hk fairPipe_masses fairPipe_ok hf hs hD (fun s hn => fairPipe_decisive hk (hs s) (by
    simp only [Set.mem_setOf_eq, not_and_or, not_lt] at hn
    exact hn)) [] [] (cs := 1) le_rfl n (buf := List.replicate 4 none) rfl
  have h1 : streamMeasure {s | EnergyAllowed fairPipe (v s)} = ENNReal.ofReal (1 / 2) := by
    have hp := streamGen_iid.pair 0 1 (by norm_num) 0 (1 / 2) 0 1 le_rfl (by norm_num) le_rfl le_rfl
    rw [sub_zero, sub_zero, ENNReal.ofReal_one, mul_one] at hp
    rw [← hp]
    congr 1
    ext s
    simp only [Set.mem_setOf_eq, fairPipe_allowed (hs s)]
    exact ⟨fun h => ⟨⟨(s 0).2.1, h⟩, (s 1).2⟩, fun h => h.1.2⟩
  have h2 : streamMeasure {s | v s ∈ {x : Sample | 1 - 1e-10 < x.reaction_excitation ∧
      x.reaction_excitation < 1 + 1e-10}} ≤ ENNReal.ofReal 1e-10 := by
    have hp := streamGen_iid.pair 0 1 (by norm_num) (1 / 2 - 0.5e-10) (1 / 2 + 0.5e-10) 0 1 (by norm_num)
      (by norm_num) le_rfl le_rfl
    rw [show (1 / 2 + 0.5e-10 : ℝ) - (1 / 2 - 0.5e-10) = 1e-10 from by norm_num, sub_zero, ENNReal.ofReal_one,
      mul_one] at hp
    rw [← hp]
    refine measure_mono fun s hm => ?_
    simp only [Set.mem_setOf_eq, (fairPipe_values (hs s)).2.1] at hm
    exact ⟨⟨by change _ ≤ (s 0 : ℝ); norm_num at hm ⊢; linarith [hm.1],
      by change (s 0 : ℝ) < _; norm_num at hm ⊢; linarith [hm.2]⟩, (s 1).2⟩
  rw [h1] at h
  have h3 := (mul_le_mul' (le_refl (ENNReal.ofReal 2)) (h.trans (mul_le_mul' le_rfl h2)))
  rw [← mul_assoc, ← ENNReal.ofReal_mul (by norm_num), show (2 : ℝ) * (1 / 2) = 1 from by norm_num,
    ENNReal.ofReal_one, one_mul, mul_left_comm, ← ENNReal.ofReal_mul (by norm_num)] at h3
  rw [show (2e-10 : ℝ) = 2 * 1e-10 from by norm_num]
  exact h3

end Verif.Machine
