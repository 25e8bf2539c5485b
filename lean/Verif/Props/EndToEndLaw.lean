import Verif.Props.Completion
import Verif.Props.Efficiency
import Verif.Props.Layout

/-! # C153: the law of the events of the whole chain, from sampling to point clouds -/

namespace Verif.Props

open MeasureTheory Verif.Spec Verif.Detector Verif.Kinematics

/-- The probability that the detector simulation of the event with the sampled parameters `x` gives a cloud
and labels in `B`. -/
noncomputable def response {σ σ' : Type} [MeasurableSpace σ'] (μ' : Measure σ') (env : SimEnv)
    (config : Config) (p : Pipeline σ) (zs as indices : List ℤ) (rng : Gen σ')
    (B : Set (List CloudPoint × List ℤ)) (x : Sample) : ENNReal :=
  μ' {s | ∃ rows, eventRows p x = .ok (some rows) ∧ ∃ r s',
    simulate env (plainRows rows) x.vertex zs as config rng indices s = .ok (r, s') ∧ r ∈ B}

/-- A function of the sampled parameters that is measurable as far as allowed samples are concerned. -/
def SampledMeasurable {σ : Type} (p : Pipeline σ) (v : σ → Sample) (e : Sample → ENNReal) : Prop :=
  ∃ e' : Sample → ENNReal, Measurable e' ∧ ∀ s, EnergyAllowed p (v s) → e' (v s) = e (v s)

section

variable {σ : Type} {p : Pipeline σ} {v : σ → Sample} {g : σ → σ}

open Classical in
/-- `f` at the first allowed one of at most `m` samples, 0 if there is none. -/
noncomputable def picked (p : Pipeline σ) (v : σ → Sample) (g : σ → σ) (f : Sample → σ → ENNReal) :
    ℕ → σ → ENNReal
  | 0, _ => 0
  | m + 1, s => if EnergyAllowed p (v s) then f (v s) (g s) else picked p v g f m (g s)

/-- The product of `E k x` over the accepted samples `x`, 0 if the run does not complete. -/
noncomputable def weight (p : Pipeline σ) (v : σ → Sample) (g : σ → σ) (limit : ℕ)
    (E : ℕ → Sample → ENNReal) : ℕ → ℕ → σ → ENNReal
  | _, 0, _ => 1
  | k, n + 1, s => picked p v g (fun x s' => E k x * weight p v g limit E (k + 1) n s') limit s

theorem picked_congr {f f' : Sample → σ → ENNReal}
    (h : ∀ s, EnergyAllowed p (v s) → f (v s) (g s) = f' (v s) (g s)) (m : ℕ) :
    picked p v g f m = picked p v g f' m := by
  induction m with
  | zero => rfl
  | succ m ih =>
    funext s
    rw [picked, picked, ih]
    split_ifs with hA
    · exact h s hA
    · rfl

theorem weight_congr {limit : ℕ} {E E' : ℕ → Sample → ENNReal}
    (h : ∀ k s, EnergyAllowed p (v s) → E k (v s) = E' k (v s)) (n : ℕ) :
    ∀ k, weight p v g limit E k n = weight p v g limit E' k n := by
  induction n with
  | zero => intro k; rfl
  | succ n ih =>
    intro k
    funext s
    rw [weight, weight, ih (k + 1)]
    exact congrFun (picked_congr (fun s hA => by rw [h k s hA]) limit) s

theorem firstAllowed_iff (hs : ∀ s, p.sample s = .ok (v s, g s)) (m : ℕ) (s : σ) (x : Sample) (s' : σ) :
    FirstAllowed p (m + 1) s x s' ↔ (EnergyAllowed p (v s) ∧ x = v s ∧ s' = g s) ∨
      (¬ EnergyAllowed p (v s) ∧ FirstAllowed p m (g s) x s') := by
  constructor
  · rintro ⟨k, hk, s1, h1, h2, h3⟩
    cases h1 with
    | zero =>
      rw [hs] at h2
      simp only [Except.ok.injEq, Prod.mk.injEq] at h2
      obtain ⟨rfl, rfl⟩ := h2
      exact .inl ⟨h3, rfl, rfl⟩
    | succ h4 h5 h6 =>
      rw [hs] at h4
      simp only [Except.ok.injEq, Prod.mk.injEq] at h4
      obtain ⟨rfl, rfl⟩ := h4
      exact .inr ⟨h5, _, by omega, s1, h6, h2, h3⟩
  · rintro (⟨h1, rfl, rfl⟩ | ⟨h1, k, hk, s1, h2, h3, h4⟩)
    · exact ⟨0, by omega, s, .zero s, hs s, h1⟩
    · exact ⟨k + 1, by omega, s1, .succ (hs s) h1 h2, h3, h4⟩

theorem picked_first (hs : ∀ s, p.sample s = .ok (v s, g s)) (f : Sample → σ → ENNReal) {m : ℕ} :
    ∀ {s : σ} {x : Sample} {s' : σ}, FirstAllowed p m s x s' → picked p v g f m s = f x s' := by
  induction m with
  | zero => rintro s x s' ⟨k, hk, -⟩; omega
  | succ m ih =>
    intro s x s' h
    rcases (firstAllowed_iff hs m s x s').1 h with ⟨h1, rfl, rfl⟩ | ⟨h1, h2⟩
    · rw [picked, if_pos h1]
    · rw [picked, if_neg h1, ih h2]

theorem picked_none (hs : ∀ s, p.sample s = .ok (v s, g s)) (f : Sample → σ → ENNReal) {m : ℕ} :
    ∀ {s : σ}, (¬ ∃ x s', FirstAllowed p m s x s') → picked p v g f m s = 0 := by
  induction m with
  | zero => intro s _; rfl
  | succ m ih =>
    intro s h
    by_cases h1 : EnergyAllowed p (v s)
    · exact absurd ⟨_, _, (firstAllowed_iff hs m s _ _).2 (.inl ⟨h1, rfl, rfl⟩)⟩ h
    · rw [picked, if_neg h1]
      refine ih ?_
      rintro ⟨x, s', h2⟩
      exact h ⟨x, s', (firstAllowed_iff hs m s _ _).2 (.inr ⟨h1, h2⟩)⟩

theorem weight_accepted (hs : ∀ s, p.sample s = .ok (v s, g s)) {limit : ℕ} (E : ℕ → Sample → ENNReal)
    {s s' : σ} {xs : List Sample} (h : AcceptedSamples p limit s xs s') : ∀ (k : ℕ) (f : ℕ → ENNReal),
    (∀ i x, xs[i]? = some x → f i = E (k + i) x) →
    weight p v g limit E k xs.length s = ∏ i ∈ Finset.range xs.length, f i := by
  induction h with
  | nil => intro k f _; simp [weight]
  | @cons s x s1 xs s' h1 _ ih =>
    intro k f hf
    rw [List.length_cons, weight, picked_first hs _ h1, Finset.prod_range_succ', mul_comm,
      ih (k + 1) (fun i => f (i + 1)) fun i y hy => by
        rw [hf (i + 1) y (by simpa using hy), show k + (i + 1) = k + 1 + i by omega],
      hf 0 x rfl, Nat.add_zero]

theorem weight_none (hs : ∀ s, p.sample s = .ok (v s, g s)) {limit : ℕ} (E : ℕ → Sample → ENNReal)
    (n : ℕ) : ∀ (k : ℕ) (s : σ), (¬ ∃ xs s', AcceptedSamples p limit s xs s' ∧ xs.length = n) →
    weight p v g limit E k n s = 0 := by
  induction n with
  | zero => intro k s h; exact absurd ⟨[], s, .nil s, rfl⟩ h
  | succ n ih =>
    intro k s h
    rw [weight]
    by_cases h1 : ∃ x s1, FirstAllowed p limit s x s1
    · obtain ⟨x, s1, h1⟩ := h1
      rw [picked_first hs _ h1, ih (k + 1) s1, mul_zero]
      rintro ⟨xs, s', h2, h3⟩
      exact h ⟨x :: xs, s', .cons h1 h2, by simp [h3]⟩
    · exact picked_none hs _ h1

end

section

variable {σ : Type} [MeasurableSpace σ] {μ : Measure σ} [IsProbabilityMeasure μ] {p : Pipeline σ}
  {v : σ → Sample} {g : σ → σ}

/-- The mean of `e` over the accepted samples, where runs in which no sample is accepted count as 0: the
mean over the samples that are allowed, times the mean number of samples drawn. -/
noncomputable def acceptedMean (μ : Measure σ) (p : Pipeline σ) (v : σ → Sample) (e : Sample → ENNReal) :
    ENNReal :=
  (∫⁻ s in {s | EnergyAllowed p (v s)}, e (v s) ∂μ)
    * ∑ k ∈ Finset.range p.event_sample_limit.toNat, μ {s | ¬ EnergyAllowed p (v s)} ^ k

theorem fresh_mul (hf : Fresh μ v g) {h : Sample → ENNReal} (hh : Measurable h) {F : σ → ENNReal}
    (hF : Measurable F) : ∫⁻ s, h (v s) * F (g s) ∂μ = (∫⁻ s, h (v s) ∂μ) * ∫⁻ s, F s ∂μ := by
  have : IsProbabilityMeasure (μ.map v) := Measure.isProbabilityMeasure_map hf.value.aemeasurable
  have hm : μ.map (fun s => (v s, g s)) = (μ.map v).prod μ := by
    refine (Measure.prod_eq fun B A hB hA => ?_).symm
    rw [Measure.map_apply (hf.value.prodMk hf.state) (hB.prod hA), Measure.map_apply hf.value hB]
    exact hf.indep B A hB hA
  have h1 : ∫⁻ s, h (v s) * F (g s) ∂μ = ∫⁻ q, h q.1 * F q.2 ∂(μ.map fun s => (v s, g s)) :=
    (lintegral_map ((hh.comp measurable_fst).mul (hF.comp measurable_snd))
      (hf.value.prodMk hf.state)).symm
  rw [h1, hm, lintegral_prod_mul hh.aemeasurable hF.aemeasurable, lintegral_map hh hf.value]

omit [IsProbabilityMeasure μ] in
theorem picked_measurable (hf : Fresh μ v g) {f : Sample → σ → ENNReal}
    (hfm : Measurable fun q : Sample × σ => f q.1 q.2) (m : ℕ) : Measurable (picked p v g f m) := by
  induction m with
  | zero => exact measurable_const
  | succ m ih =>
    exact Measurable.ite (hf.value (measurable_energyAllowed p))
      (hfm.comp (hf.value.prodMk hf.state)) (ih.comp hf.state)

omit [IsProbabilityMeasure μ] in
theorem weight_measurable (hf : Fresh μ v g) (limit : ℕ) {E : ℕ → Sample → ENNReal}
    (hE : ∀ k, Measurable (E k)) (n : ℕ) : ∀ k, Measurable (weight p v g limit E k n) := by
  induction n with
  | zero => intro k; exact measurable_const
  | succ n ih =>
    intro k
    exact picked_measurable hf (((hE k).comp measurable_fst).mul ((ih (k + 1)).comp measurable_snd)) limit

theorem picked_mean (hf : Fresh μ v g) {e : Sample → ENNReal} (he : Measurable e) {F : σ → ENNReal}
    (hF : Measurable F) (m : ℕ) :
    ∫⁻ s, picked p v g (fun x s' => e x * F s') m s ∂μ
      = (∫⁻ s in {s | EnergyAllowed p (v s)}, e (v s) ∂μ)
        * (∑ k ∈ Finset.range m, μ {s | ¬ EnergyAllowed p (v s)} ^ k) * ∫⁻ s, F s ∂μ := by
  classical
  have hA := measurable_energyAllowed p
  have hAv : MeasurableSet {s | EnergyAllowed p (v s)} := hf.value hA
  induction m with
  | zero => simp [picked]
  | succ m ih =>
    have hpm : Measurable (picked p v g (fun x s' => e x * F s') m) :=
      picked_measurable hf ((he.comp measurable_fst).mul (hF.comp measurable_snd)) m
    have split : ∀ s, picked p v g (fun x s' => e x * F s') (m + 1) s
        = ({x | EnergyAllowed p x}.indicator e) (v s) * F (g s)
          + ({x | EnergyAllowed p x}ᶜ.indicator fun _ => 1) (v s)
            * picked p v g (fun x s' => e x * F s') m (g s) := by
      intro s
      rw [picked]
      by_cases h : EnergyAllowed p (v s)
      · simp [h]
      · simp [h]
    have h1 := fresh_mul hf (he.indicator hA) hF
    have h2 := fresh_mul hf ((measurable_const (a := (1 : ENNReal))).indicator hA.compl) hpm
    simp only [split]
    have hm : Measurable fun s => ({x | EnergyAllowed p x}.indicator e) (v s) * F (g s) :=
      ((he.indicator hA).comp hf.value).mul (hF.comp hf.state)
    rw [lintegral_add_left hm, h1, h2, ih]
    have e1 : ∫⁻ s, ({x | EnergyAllowed p x}.indicator e) (v s) ∂μ
        = ∫⁻ s in {s | EnergyAllowed p (v s)}, e (v s) ∂μ := by
      rw [← lintegral_indicator hAv]
      rfl
    have e2 : ∫⁻ s, ({x | EnergyAllowed p x}ᶜ.indicator fun _ => (1 : ENNReal)) (v s) ∂μ
        = μ {s | ¬ EnergyAllowed p (v s)} := by
      have : ∀ s, ({x | EnergyAllowed p x}ᶜ.indicator fun _ => (1 : ENNReal)) (v s)
          = ({s | ¬ EnergyAllowed p (v s)} : Set σ).indicator 1 s := fun s => rfl
      simp only [this]
      exact lintegral_indicator_one hAv.compl
    rw [e1, e2, Finset.sum_range_succ', Finset.sum_congr rfl fun k _ => pow_succ _ k, ← Finset.sum_mul]
    ring

omit [IsProbabilityMeasure μ] in
theorem acceptedMean_congr (hf : Fresh μ v g) {e e' : Sample → ENNReal}
    (h : ∀ s, EnergyAllowed p (v s) → e (v s) = e' (v s)) :
    acceptedMean μ p v e = acceptedMean μ p v e' := by
  unfold acceptedMean
  congr 1
  exact setLIntegral_congr_fun (hf.value (measurable_energyAllowed p)) fun s hs => h s hs

theorem weight_mean_of_measurable (hf : Fresh μ v g) {E : ℕ → Sample → ENNReal} (hE : ∀ k, Measurable (E k)) (n : ℕ) :
    ∀ k, ∫⁻ s, weight p v g p.event_sample_limit.toNat E k n s ∂μ
      = ∏ i ∈ Finset.range n, acceptedMean μ p v (E (k + i)) := by
  induction n with
  | zero => intro k; simp [weight]
  | succ n ih =>
    intro k
    simp only [weight]
    rw [picked_mean hf (hE k) (weight_measurable hf _ hE n (k + 1)), ih (k + 1), Finset.prod_range_succ',
      mul_comm]
    congr 1
    refine Finset.prod_congr rfl fun i _ => ?_
    rw [show k + 1 + i = k + (i + 1) by omega]

theorem weight_mean (hf : Fresh μ v g) {E : ℕ → Sample → ENNReal}
    (hE : ∀ k, SampledMeasurable p v (E k)) (n : ℕ) :
    Measurable (weight p v g p.event_sample_limit.toNat E 0 n) ∧
    ∫⁻ s, weight p v g p.event_sample_limit.toNat E 0 n s ∂μ
      = ∏ i ∈ Finset.range n, acceptedMean μ p v (E i) := by
  choose E' hm he using hE
  rw [← weight_congr he n 0]
  refine ⟨weight_measurable hf _ hm n 0, ?_⟩
  rw [weight_mean_of_measurable hf hm n 0]
  refine Finset.prod_congr rfl fun i _ => ?_
  rw [Nat.zero_add]
  exact acceptedMean_congr hf (he i)

end

section

variable {σ σ' τ : Type} [MeasurableSpace σ] {μ : Measure σ} [IsProbabilityMeasure μ] {p : Pipeline σ}
  {v : σ → Sample} {g : σ → σ} [MeasurableSpace σ'] {μ' : Measure σ'} [IsProbabilityMeasure μ']
  {rng : Gen σ'} {u z : σ' → ℝ} {next skip : σ' → σ'}

omit [MeasurableSpace σ] in
/-- A kinematics run that draws its samples from state `s` completes if and only if enough samples are
accepted; the file then holds the events of the accepted samples. -/
theorem chain_file (h : RunsOk p) (hs : ∀ s, p.sample s = .ok (v s, g s)) (zs as : List ℤ) (cs : ℕ)
    (hcs : 1 ≤ cs) (n : ℕ) {buf : List ResultRow} (hlen : buf.length = 4 + 2 * p.decays.length) (s : σ) :
    ((∃ xs s', AcceptedSamples p p.event_sample_limit.toNat s xs s' ∧ xs.length = n) ↔
      (run_kinematics_pipeline p.runCopy zs as cs n ⟨s, buf⟩).1 = .ok ()) ∧
    ∀ xs s', AcceptedSamples p p.event_sample_limit.toNat s xs s' → xs.length = n →
      ∀ k x, xs[k]? = some x → ∃ rows, eventRows p x = .ok (some rows) ∧
        read_event (run_kinematics_pipeline p.runCopy zs as cs n ⟨s, buf⟩).2.file cs k
          = .ok (rows, x.vertex) := by
  have back : ∀ xs s', AcceptedSamples p p.event_sample_limit.toNat s xs s' → xs.length = n →
      ∃ evs q, Produced p.runCopy ⟨s, buf⟩ evs q ∧ evs.length = (n : ℤ).toNat ∧
      List.Forall₂ (fun x e => eventRows p x = .ok (some e.2) ∧ e.1 = x.vertex) xs evs := by
    intro xs s' h1 h2
    obtain ⟨evs, buf', j1, j2⟩ := produced_of_accepted h h1 hlen
    exact ⟨evs, _, j1, by rw [← j2.length_eq, h2]; rfl, j2⟩
  refine ⟨⟨?_, ?_⟩, ?_⟩
  · rintro ⟨xs, s', h1, h2⟩
    obtain ⟨evs, q, j1, j2, -⟩ := back xs s' h1 h2
    exact (C37_succeeds p.runCopy zs as cs hcs n ⟨s, buf⟩).2 ⟨evs, q, j1, j2⟩
  · intro hok
    obtain ⟨evs, q, j1, j2⟩ := (C37_succeeds p.runCopy zs as cs hcs n ⟨s, buf⟩).1 hok
    obtain ⟨-, ⟨xs, h1, h2⟩, -⟩ := produced_draws h hs j1 hlen
    exact ⟨xs, _, h2, by rw [h1, j2]; rfl⟩
  · intro xs s' h1 h2 k x hx
    obtain ⟨evs, q, j1, j2, j3⟩ := back xs s' h1 h2
    have hok := (C37_succeeds p.runCopy zs as cs hcs n ⟨s, buf⟩).2 ⟨evs, q, j1, j2⟩
    rcases hrun : run_kinematics_pipeline p.runCopy zs as cs n ⟨s, buf⟩ with ⟨o, st⟩
    rw [hrun] at hok
    simp only at hok
    subst hok
    obtain ⟨evs', k1, k2, -, -, -, -, k3⟩ := C37_round_trip _ zs as cs hcs _ _ st hrun
    obtain ⟨rfl, -⟩ := Produced_unique j1 k1 (by rw [k2, j2])
    have hl := j3.length_eq
    have hk : k < xs.length := (List.getElem?_eq_some_iff.1 hx).1
    have hkx : xs[k] = x := (List.getElem?_eq_some_iff.1 hx).2
    have := List.Forall₂.get j3 hk (by omega)
    simp only [List.get_eq_getElem, hkx] at this
    exact ⟨_, this.1, by rw [k3 k (by omega), this.2]⟩

omit [MeasurableSpace σ] [IsProbabilityMeasure μ'] in
theorem alone_response {file : KinFile (List ResultRow)} {cs k : ℕ} {x : Sample} {rows : List ResultRow}
    (h1 : eventRows p x = .ok (some rows)) (h2 : read_event file cs k = .ok (rows, x.vertex)) (env : SimEnv)
    (config : Config) (zs as indices : List ℤ) (B : Set (List CloudPoint × List ℤ)) :
    μ' (alone env config (mapData plainRows file) zs as cs indices rng k B)
      = response μ' env config p zs as indices rng B x := by
  unfold alone response
  congr 1
  ext s
  simp only [Set.mem_setOf_eq, read_mapData, h1, h2, Except.map]
  constructor
  · rintro ⟨m, w, hmw, r⟩
    obtain ⟨rfl, rfl⟩ := Prod.mk.inj (Except.ok.inj hmw)
    exact ⟨rows, rfl, r⟩
  · rintro ⟨rows', hr, r⟩
    obtain rfl := Option.some.inj (Except.ok.inj hr)
    exact ⟨_, _, rfl, r⟩

variable (h : RunsOk p) (hf : Fresh μ v g) (hs : ∀ s, p.sample s = .ok (v s, g s))
  (hr : FreshGen rng μ' u z next skip) (zs as : List ℤ) (cs : ℕ) (hcs : 1 ≤ cs) (n : ℕ)
  {buf : List ResultRow} (hlen : buf.length = 4 + 2 * p.decays.length)
  (env : SimEnv) (config : Config) (W : SimWriter τ)
  (hW : ∀ cloud labels c n w, (W.write cloud labels c n w).1 = .ok ())
  (hW' : ∀ w, (W.close w).1 = .ok ()) (indices : Option (List ℤ)) (w : τ)

/-- The whole chain completes: the kinematics run from generator state `s`, then the detector simulation of
its file from generator state `s'`. -/
def WholeOk (p : Pipeline σ) (zs as : List ℤ) (cs n : ℕ) (buf : List ResultRow) (env : SimEnv)
    (config : Config) (W : SimWriter τ) (indices : Option (List ℤ)) (rng : Gen σ') (w : τ) (s : σ)
    (s' : σ') : Prop :=
  (run_kinematics_pipeline p.runCopy zs as cs n ⟨s, buf⟩).1 = .ok () ∧
  (run_simulation env config
    (mapData plainRows (run_kinematics_pipeline p.runCopy zs as cs n ⟨s, buf⟩).2.file) (logged W)
    indices rng ⟨s', (w, [])⟩).1 = .ok ()

/-- What the chain gives to the writer. -/
noncomputable def wholeLog (p : Pipeline σ) (zs as : List ℤ) (cs n : ℕ) (buf : List ResultRow) (env : SimEnv)
    (config : Config) (W : SimWriter τ) (indices : Option (List ℤ)) (rng : Gen σ') (w : τ) (s : σ)
    (s' : σ') : List Call :=
  (run_simulation env config
    (mapData plainRows (run_kinematics_pipeline p.runCopy zs as cs n ⟨s, buf⟩).2.file) (logged W)
    indices rng ⟨s', (w, [])⟩).2.writer.2

include h hs hr hcs hlen hW hW'

omit [MeasurableSpace σ] in
theorem chain_events (B : ℕ → Set (List CloudPoint × List ℤ)) (hB : ∀ k, MeasurableSet (B k)) (s : σ) :
    μ' {s' | WholeOk p zs as cs n buf env config W indices rng w s s' ∧
        ∀ k < n, writtenAt (wholeLog p zs as cs n buf env config W indices rng w s s') k ∈ B k}
      = weight p v g p.event_sample_limit.toNat
        (fun k => response μ' env config p zs as (indices.getD (default_indices zs.length)) rng (B k)) 0 n s := by
  obtain ⟨c1, c2⟩ := chain_file h hs zs as cs hcs n hlen s
  unfold WholeOk wholeLog
  by_cases hacc : ∃ xs s', AcceptedSamples p p.event_sample_limit.toNat s xs s' ∧ xs.length = n
  · have hok := c1.1 hacc
    obtain ⟨xs, s1, h1, h2⟩ := hacc
    have c3 := c2 xs s1 h1 h2
    rcases hrun : run_kinematics_pipeline p.runCopy zs as cs n ⟨s, buf⟩ with ⟨o, st⟩
    rw [hrun] at hok c3
    simp only at hok c3
    subst hok
    obtain ⟨a1, a2, a3, a4, nc, a5⟩ := final_attrs _ zs as cs hcs n _ st hrun
    simp only [true_and]
    have := run_set (rng := rng) env config (mapData plainRows st.file) W hW hW' indices w
      (zs := zs) (as := as) (n := n) (cs := cs) (nc := nc) a3 a4 a1 a2 a5 B
    simp only [Int.toNat_natCast] at this
    rw [this, (together_prob hr env config _ zs as cs _ B hB n 0).2]
    rw [← h2]
    symm
    refine weight_accepted hs _ h1 0 _ fun i x hx => ?_
    obtain ⟨rows, r1, r2⟩ := c3 i x hx
    simp only [Nat.zero_add]
    rw [alone_response r1 r2 env config zs as]
  · rw [weight_none hs _ n 0 s hacc]
    have : ∀ s', ¬ ((run_kinematics_pipeline p.runCopy zs as cs n ⟨s, buf⟩).1 = .ok () ∧
        (run_simulation env config
          (mapData plainRows (run_kinematics_pipeline p.runCopy zs as cs n ⟨s, buf⟩).2.file) (logged W)
          indices rng ⟨s', (w, [])⟩).1 = .ok ()) := fun s' hh => hacc (c1.2 hh.1)
    simp only [this, false_and, Set.setOf_false, measure_empty]

include hf

/-- **C153.** The events of the whole chain, kinematics and detector simulation with independent generators,
are independent: the probability that both runs complete and that what the writer is given for event `k` lies
in `B k`, for all `k`, is the product over the events of the mean of the detector's response over the
accepted samples. The responses are assumed to be measurable functions of the sampled parameters, as
far as allowed samples are concerned. -/
theorem C153_events (B : ℕ → Set (List CloudPoint × List ℤ)) (hB : ∀ k, MeasurableSet (B k))
    (hm : ∀ k, SampledMeasurable p v
      (response μ' env config p zs as (indices.getD (default_indices zs.length)) rng (B k))) :
    ∫⁻ s, μ' {s' | WholeOk p zs as cs n buf env config W indices rng w s s' ∧
        ∀ k < n, writtenAt (wholeLog p zs as cs n buf env config W indices rng w s s') k ∈ B k} ∂μ
      = ∏ k ∈ Finset.range n, acceptedMean μ p v
        (response μ' env config p zs as (indices.getD (default_indices zs.length)) rng (B k)) := by
  simp only [chain_events h hs hr zs as cs hcs n hlen env config W hW hW' indices w B hB]
  exact (weight_mean hf hm n).2

/-- **C153.** The same as a probability on pairs of generator states. -/
theorem C153_product (B : ℕ → Set (List CloudPoint × List ℤ)) (hB : ∀ k, MeasurableSet (B k))
    (hm : ∀ k, SampledMeasurable p v
      (response μ' env config p zs as (indices.getD (default_indices zs.length)) rng (B k)))
    (hset : MeasurableSet {q : σ × σ' | WholeOk p zs as cs n buf env config W indices rng w q.1 q.2 ∧
      ∀ k < n, writtenAt (wholeLog p zs as cs n buf env config W indices rng w q.1 q.2) k ∈ B k}) :
    (μ.prod μ') {q : σ × σ' | WholeOk p zs as cs n buf env config W indices rng w q.1 q.2 ∧
        ∀ k < n, writtenAt (wholeLog p zs as cs n buf env config W indices rng w q.1 q.2) k ∈ B k}
      = ∏ k ∈ Finset.range n, acceptedMean μ p v
        (response μ' env config p zs as (indices.getD (default_indices zs.length)) rng (B k)) := by
  rw [Measure.prod_apply hset,
    ← C153_events h hf hs hr zs as cs hcs n hlen env config W hW hW' indices w B hB hm]
  rfl

theorem chain_binomial {A : Set (List CloudPoint × List ℤ)} (hA : MeasurableSet A)
    (hm : SampledMeasurable p v (response μ' env config p zs as (indices.getD (default_indices zs.length)) rng A))
    (hm' : SampledMeasurable p v (response μ' env config p zs as (indices.getD (default_indices zs.length)) rng Aᶜ))
    (m : ℕ) :
    (Measurable fun s => μ' {s' | WholeOk p zs as cs n buf env config W indices rng w s s' ∧
        passed A n (wholeLog p zs as cs n buf env config W indices rng w s s') = m}) ∧
    ∫⁻ s, μ' {s' | WholeOk p zs as cs n buf env config W indices rng w s s' ∧
        passed A n (wholeLog p zs as cs n buf env config W indices rng w s s') = m} ∂μ
      = n.choose m
        * acceptedMean μ p v
          (response μ' env config p zs as (indices.getD (default_indices zs.length)) rng A) ^ m
        * acceptedMean μ p v
          (response μ' env config p zs as (indices.getD (default_indices zs.length)) rng Aᶜ) ^ (n - m) := by
  classical
  set I := indices.getD (default_indices zs.length) with hI
  set E : Finset ℕ → ℕ → Sample → ENNReal := fun S k => if k ∈ S
    then response μ' env config p zs as I rng A else response μ' env config p zs as I rng Aᶜ with hE
  have hEm : ∀ S k, SampledMeasurable p v (E S k) := by
    intro S k
    by_cases hk : k ∈ S
    · simp only [hE, hk, if_true, hm]
    · simp only [hE, hk, if_false, hm']
  have point : ∀ s, μ' {s' | WholeOk p zs as cs n buf env config W indices rng w s s' ∧
        passed A n (wholeLog p zs as cs n buf env config W indices rng w s s') = m}
      = ∑ S ∈ (Finset.range n).powersetCard m, weight p v g p.event_sample_limit.toNat (E S) 0 n s := by
    intro s
    obtain ⟨c1, c2⟩ := chain_file h hs zs as cs hcs n hlen s
    unfold WholeOk wholeLog
    by_cases hacc : ∃ xs s', AcceptedSamples p p.event_sample_limit.toNat s xs s' ∧ xs.length = n
    · have hok := c1.1 hacc
      obtain ⟨xs, s1, h1, h2⟩ := hacc
      have c3 := c2 xs s1 h1 h2
      rcases hrun : run_kinematics_pipeline p.runCopy zs as cs n ⟨s, buf⟩ with ⟨o, st⟩
      rw [hrun] at hok c3
      simp only at hok c3
      subst hok
      obtain ⟨a1, a2, a3, a4, nc, a5⟩ := final_attrs _ zs as cs hcs n _ st hrun
      simp only [true_and]
      have := (C152_law hr env config (mapData plainRows st.file) W hW hW' indices w
        (zs := zs) (as := as) (n := n) (cs := cs) (nc := nc) a3 a4 a1 a2 a5 hA m).2
      simp only [Int.toNat_natCast] at this
      rw [this]
      refine Finset.sum_congr rfl fun S _ => ?_
      subst h2
      symm
      refine weight_accepted hs _ h1 0 _ fun i x hx => ?_
      obtain ⟨rows, r1, r2⟩ := c3 i x hx
      rw [alone_response r1 r2 env config zs as, alone_response r1 r2 env config zs as, Nat.zero_add]
      by_cases hk : i ∈ S
      · simp only [hE, hk, if_true, hI]
      · simp only [hE, hk, if_false, hI]
    · rw [Finset.sum_eq_zero fun S _ => weight_none hs _ n 0 s hacc]
      have : ∀ s', ¬ ((run_kinematics_pipeline p.runCopy zs as cs n ⟨s, buf⟩).1 = .ok () ∧
          (run_simulation env config
            (mapData plainRows (run_kinematics_pipeline p.runCopy zs as cs n ⟨s, buf⟩).2.file) (logged W)
            indices rng ⟨s', (w, [])⟩).1 = .ok ()) := fun s' hh => hacc (c1.2 hh.1)
      simp only [this, false_and, Set.setOf_false, measure_empty]
  simp only [point]
  refine ⟨Finset.measurable_fun_sum _ fun S _ => (weight_mean hf (hEm S) n).1, ?_⟩
  rw [lintegral_finset_sum _ fun S _ => (weight_mean hf (hEm S) n).1]
  have : ∀ S ∈ (Finset.range n).powersetCard m,
      ∫⁻ s, weight p v g p.event_sample_limit.toNat (E S) 0 n s ∂μ
      = acceptedMean μ p v (response μ' env config p zs as I rng A) ^ m
        * acceptedMean μ p v (response μ' env config p zs as I rng Aᶜ) ^ (n - m) := by
    intro S hS
    obtain ⟨h1, h2⟩ := Finset.mem_powersetCard.1 hS
    rw [(weight_mean hf (hEm S) n).2]
    have : ∀ k ∈ Finset.range n, acceptedMean μ p v (E S k) = if k ∈ S
        then acceptedMean μ p v (response μ' env config p zs as I rng A)
        else acceptedMean μ p v (response μ' env config p zs as I rng Aᶜ) := by
      intro k _
      by_cases hk : k ∈ S
      · simp only [hE, hk, if_true]
      · simp only [hE, hk, if_false]
    rw [Finset.prod_congr rfl this, Finset.prod_ite, Finset.prod_const, Finset.prod_const,
      Finset.filter_mem_eq_inter, Finset.inter_eq_right.2 h1, h2]
    have h3 : (Finset.range n).filter (fun k => k ∉ S) = Finset.range n \ S := by
      ext k; simp
    rw [h3, Finset.card_sdiff_of_subset h1, Finset.card_range, h2]
  rw [Finset.sum_congr rfl this, Finset.sum_const, Finset.card_powersetCard, Finset.card_range, nsmul_eq_mul,
    mul_assoc]

/-- **C153.** The number of events of the whole chain that meet a criterion is binomial: with `P` and `Q` the
means, over the accepted samples, of the probabilities that the detector simulation meets and does not meet
it, both runs complete and exactly `m` of `n` events meet it with probability `C(n, m) P^m Q^(n-m)`. -/
theorem C153_binomial {A : Set (List CloudPoint × List ℤ)} (hA : MeasurableSet A)
    (hm : SampledMeasurable p v (response μ' env config p zs as (indices.getD (default_indices zs.length)) rng A))
    (hm' : SampledMeasurable p v (response μ' env config p zs as (indices.getD (default_indices zs.length)) rng Aᶜ))
    (m : ℕ) :
    ∫⁻ s, μ' {s' | WholeOk p zs as cs n buf env config W indices rng w s s' ∧
        passed A n (wholeLog p zs as cs n buf env config W indices rng w s s') = m} ∂μ
      = n.choose m
        * acceptedMean μ p v
          (response μ' env config p zs as (indices.getD (default_indices zs.length)) rng A) ^ m
        * acceptedMean μ p v
          (response μ' env config p zs as (indices.getD (default_indices zs.length)) rng Aᶜ) ^ (n - m) :=
  (chain_binomial h hf hs hr zs as cs hcs n hlen env config W hW hW' indices w hA hm hm' m).2

/-- **C153.** Both runs complete with the `n`-th power of the probability for one event. -/
theorem C153_completes
    (hm : SampledMeasurable p v
      (response μ' env config p zs as (indices.getD (default_indices zs.length)) rng Set.univ)) :
    ∫⁻ s, μ' {s' | WholeOk p zs as cs n buf env config W indices rng w s s'} ∂μ
      = acceptedMean μ p v
        (response μ' env config p zs as (indices.getD (default_indices zs.length)) rng Set.univ) ^ n := by
  have := C153_events h hf hs hr zs as cs hcs n hlen env config W hW hW' indices w (fun _ => Set.univ)
    (fun _ => MeasurableSet.univ) fun _ => hm
  simpa using this

omit h hs hcs hlen hW hW' hf [MeasurableSpace σ] in
theorem response_add {A : Set (List CloudPoint × List ℤ)} (hA : MeasurableSet A) (x : Sample) :
    response μ' env config p zs as (indices.getD (default_indices zs.length)) rng A x
      + response μ' env config p zs as (indices.getD (default_indices zs.length)) rng Aᶜ x
      = response μ' env config p zs as (indices.getD (default_indices zs.length)) rng Set.univ x := by
  unfold response
  cases hx : eventRows p x with
  | error e => simp
  | ok o =>
    cases o with
    | none => simp
    | some rows =>
      have hfr := simulate_fresh hr env (plainRows rows) x.vertex zs as config
        (indices.getD (default_indices zs.length))
      have hms := hfr.measurable Aᶜ Set.univ hA.compl MeasurableSet.univ
      simp only [Set.mem_univ, and_true] at hms
      simp only [Except.ok.injEq, Option.some.injEq, exists_eq_left', Set.mem_univ, and_true]
      rw [← measure_union _ hms]
      · congr 1
        ext s
        simp only [Set.mem_union, Set.mem_setOf_eq, Set.mem_compl_iff]
        constructor
        · rintro (⟨r, s', h1, -⟩ | ⟨r, s', h1, -⟩) <;> exact ⟨r, s', h1⟩
        · rintro ⟨r, s', h1⟩
          by_cases hrA : r ∈ A
          · exact .inl ⟨r, s', h1, hrA⟩
          · exact .inr ⟨r, s', h1, hrA⟩
      · rw [Set.disjoint_left]
        rintro s ⟨r, s', h1, hrA⟩ ⟨r', s'', h2, hrA'⟩
        rw [h1] at h2
        obtain ⟨rfl, -⟩ := Prod.mk.inj (Except.ok.inj h2)
        exact hrA' hrA

omit h hs hcs hlen hW hW' hr hf in
theorem mean_ne_top (B : Set (List CloudPoint × List ℤ)) : acceptedMean μ p v
    (response μ' env config p zs as (indices.getD (default_indices zs.length)) rng B) ≠ ⊤ := by
  unfold acceptedMean
  refine ENNReal.mul_ne_top ?_ ?_
  · refine ne_top_of_le_ne_top ENNReal.one_ne_top ?_
    calc _ ≤ ∫⁻ _s in {s | EnergyAllowed p (v s)}, (1 : ENNReal) ∂μ := lintegral_mono fun s => prob_le_one
      _ = μ {s | EnergyAllowed p (v s)} := setLIntegral_one _
      _ ≤ 1 := prob_le_one
  · exact ENNReal.sum_ne_top.2 fun k _ => ENNReal.pow_ne_top (measure_ne_top _ _)

omit h hs hcs hlen hW hW' [IsProbabilityMeasure μ] in
theorem mean_add {A : Set (List CloudPoint × List ℤ)} (hA : MeasurableSet A)
    (hm : SampledMeasurable p v (response μ' env config p zs as (indices.getD (default_indices zs.length)) rng A)) :
    acceptedMean μ p v (response μ' env config p zs as (indices.getD (default_indices zs.length)) rng A)
        + acceptedMean μ p v
          (response μ' env config p zs as (indices.getD (default_indices zs.length)) rng Aᶜ)
      = acceptedMean μ p v
        (response μ' env config p zs as (indices.getD (default_indices zs.length)) rng Set.univ) := by
  have hadd := response_add (μ' := μ') (p := p) hr zs as env config indices hA
  obtain ⟨e, hem, he⟩ := hm
  rw [acceptedMean_congr hf fun s hA => (he s hA).symm,
    acceptedMean_congr hf (e := response μ' env config p zs as (indices.getD (default_indices zs.length)) rng
      Set.univ) (e' := fun x => e x + response μ' env config p zs as
        (indices.getD (default_indices zs.length)) rng Aᶜ x)
      fun s hA => by rw [he s hA, hadd]]
  unfold acceptedMean
  have hem' : Measurable fun s => e (v s) := hem.comp hf.value
  rw [← add_mul, lintegral_add_left hem']

/-- **C153.** Given that both runs complete, the number of events that meet a criterion has the binomial
distribution with the conditional success probability `P / R`, where `P` and `R` are the means, over the
accepted samples, of the probabilities that the detector simulation meets the criterion and that it
completes. -/
theorem C153_conditional {A : Set (List CloudPoint × List ℤ)} (hA : MeasurableSet A)
    (hm : SampledMeasurable p v (response μ' env config p zs as (indices.getD (default_indices zs.length)) rng A))
    (hm' : SampledMeasurable p v
      (response μ' env config p zs as (indices.getD (default_indices zs.length)) rng Aᶜ))
    {P R : ENNReal} (hP : P = acceptedMean μ p v
      (response μ' env config p zs as (indices.getD (default_indices zs.length)) rng A))
    (hR : R = acceptedMean μ p v
      (response μ' env config p zs as (indices.getD (default_indices zs.length)) rng Set.univ))
    (h0 : R ≠ 0) (m : ℕ) :
    ∫⁻ s, μ' {s' | WholeOk p zs as cs n buf env config W indices rng w s s' ∧
        passed A n (wholeLog p zs as cs n buf env config W indices rng w s s') = m} ∂μ
      = (∫⁻ s, μ' {s' | WholeOk p zs as cs n buf env config W indices rng w s s'} ∂μ)
        * (n.choose m * (P / R) ^ m * (1 - P / R) ^ (n - m)) := by
  have hadd := mean_add hf hr zs as env config indices hA hm
  have htop : R ≠ ⊤ := hR ▸ mean_ne_top zs as env config indices Set.univ
  have hmu : SampledMeasurable p v
      (response μ' env config p zs as (indices.getD (default_indices zs.length)) rng Set.univ) := by
    obtain ⟨e, e1, e2⟩ := hm
    obtain ⟨e', e3, e4⟩ := hm'
    refine ⟨fun x => e x + e' x, e1.add e3, fun s hs => ?_⟩
    simp only [e2 s hs, e4 s hs]
    exact response_add hr zs as env config indices hA _
  rw [C153_completes h hf hs hr zs as cs hcs n hlen env config W hW hW' indices w hmu,
    C153_binomial h hf hs hr zs as cs hcs n hlen env config W hW hW' indices w hA hm hm', ← hP, ← hR]
  rw [← hP, ← hR] at hadd
  set Q := acceptedMean μ p v
    (response μ' env config p zs as (indices.getD (default_indices zs.length)) rng Aᶜ) with hQ
  rcases le_or_gt m n with hmn | hmn
  swap
  · rw [Nat.choose_eq_zero_of_lt hmn]
    simp
  have hPt : P ≠ ⊤ := ne_top_of_le_ne_top htop (hadd ▸ le_self_add)
  have hQR : 1 - P / R = Q / R := by
    rw [← ENNReal.div_self h0 htop, ← ENNReal.sub_div fun _ _ => h0]
    congr 1
    rw [← hadd, ENNReal.add_sub_cancel_left hPt]
  rw [hQR]
  have e1 : P = R * (P / R) := (ENNReal.mul_div_cancel h0 htop).symm
  have e2 : Q = R * (Q / R) := (ENNReal.mul_div_cancel h0 htop).symm
  calc (n.choose m : ENNReal) * P ^ m * Q ^ (n - m)
      = n.choose m * (R * (P / R)) ^ m * (R * (Q / R)) ^ (n - m) := by rw [← e1, ← e2]
    _ = R ^ (m + (n - m)) * (n.choose m * (P / R) ^ m * (Q / R) ^ (n - m)) := by
        rw [mul_pow, mul_pow, pow_add]; ring
    _ = _ := by rw [Nat.add_sub_cancel' hmn]

end

/-! ## Example

Half of the samples of `halfPipe` are allowed, and at most three are drawn for each event, so an event is
found with probability 7/8. The detector of C122 then stores its point early with probability 1/2. -/

theorem anySimulate (gain : ℤ) (s : ℕ → ℝ × Set.Ico (0 : ℝ) 1) {t b e : Vec4} {rs : List Vec4}
    (vertex : ℝ × ℝ × ℝ) :
    ∃ s', simulate exEnv (t :: b :: e :: rs) vertex [1, 1, 1, 1] [1, 1, 1, 1] (exConfig gain 0) pairGen [2] s
      = .ok (([⟨5, 50 + ((s 2).2 : ℝ), gain⟩], [2]), s') := by
  obtain ⟨s', h⟩ := pairSimulate gain s
  refine ⟨s', ?_⟩
  rw [← h]
  unfold simulate
  have : ∀ q : Points × (ℕ → ℝ × Set.Ico (0 : ℝ) 1),
      simulate_nucleus exEnv (t :: b :: e :: rs) vertex [1, 1, 1, 1] [1, 1, 1, 1] (exConfig gain 0) pairGen q 2
      = simulate_nucleus exEnv exMomenta (0, 0, 0.5) [1, 1, 1] [1, 1, 1] (exConfig gain 0) pairGen q 2 := by
    intro q
    rfl
  simp only [List.foldlM_cons, List.foldlM_nil, this]

theorem exResponse {v : Stream → Sample} {g : Stream → Stream} (hs : ∀ s, halfPipe.sample s = .ok (v s, g s))
    (B : Set (List CloudPoint × List ℤ)) (s : Stream) (hA : EnergyAllowed halfPipe (v s)) :
    response pairMeasure exEnv (exConfig 100 0) halfPipe [1, 1, 1, 1] [1, 1, 1, 1] [2] pairGen B (v s)
      = pairMeasure {s | (([⟨5, 50 + ((s 2).2 : ℝ), 100⟩], [2]) : List CloudPoint × List ℤ) ∈ B} := by
  have h1 : FirstAllowed halfPipe halfPipe.event_sample_limit.toNat s (v s) (g s) :=
    (firstAllowed_iff hs 2 s _ _).2 (.inl ⟨hA, rfl, rfl⟩)
  obtain ⟨st', -, -, h2⟩ := run_of_firstAllowed halfPipe_ok (st := ⟨s, List.replicate 4 none⟩) rfl h1
  obtain ⟨-, t, b, e, r, rs, h3, -⟩ := eventRows_some halfPipe_ok.chain
    (halfPipe_ok.samples _ _ _ (hs s)) h2
  have h4 : plainRows st'.result = t :: b :: e :: r :: rs := by
    rw [h3]
    simp [plainRows]
  unfold response
  congr 1
  ext s1
  obtain ⟨s2, h5⟩ := anySimulate 100 s1 (t := t) (b := b) (e := e) (rs := r :: rs) (v s).vertex
  simp only [Set.mem_setOf_eq, h2]
  constructor
  · rintro ⟨rows, hrows, x, s3, h6, hx⟩
    obtain rfl := Option.some.inj (Except.ok.inj hrows)
    rw [h4, h5] at h6
    obtain ⟨rfl, -⟩ := Prod.mk.inj (Except.ok.inj h6)
    exact_mod_cast hx
  · intro hx
    exact ⟨_, rfl, _, s2, by rw [h4]; exact h5, by exact_mod_cast hx⟩

theorem exMeasurable {v : Stream → Sample} {g : Stream → Stream}
    (hs : ∀ s, halfPipe.sample s = .ok (v s, g s)) (B : Set (List CloudPoint × List ℤ)) :
    SampledMeasurable halfPipe v
      (response pairMeasure exEnv (exConfig 100 0) halfPipe [1, 1, 1, 1] [1, 1, 1, 1] [2] pairGen B) :=
  ⟨_, measurable_const, fun s hA => (exResponse hs B s hA).symm⟩

theorem exAcceptedMean {v : Stream → Sample} {g : Stream → Stream} (hf : Fresh streamMeasure v g)
    (hs : ∀ s, halfPipe.sample s = .ok (v s, g s)) {B : Set (List CloudPoint × List ℤ)}
    (hB : pairMeasure {s | (([⟨5, 50 + ((s 2).2 : ℝ), 100⟩], [2]) : List CloudPoint × List ℤ) ∈ B} = 2⁻¹) :
    acceptedMean streamMeasure halfPipe v
      (response pairMeasure exEnv (exConfig 100 0) halfPipe [1, 1, 1, 1] [1, 1, 1, 1] [2] pairGen B)
      = 7 / 16 := by
  rw [acceptedMean_congr hf (e' := fun _ => 2⁻¹) fun s hA => by rw [exResponse hs B s hA, hB]]
  unfold acceptedMean
  have hm : MeasurableSet {s | EnergyAllowed halfPipe (v s)} := hf.value (measurable_energyAllowed halfPipe)
  have h1 : streamMeasure {s | EnergyAllowed halfPipe (v s)} = 2⁻¹ := by
    have h2 := prob_compl_eq_one_sub (μ := streamMeasure) hm
    have h3 : {s | EnergyAllowed halfPipe (v s)}ᶜ = {s | ¬ EnergyAllowed halfPipe (v s)} := rfl
    have h4 := prob_add_prob_compl (μ := streamMeasure) hm
    rw [h3, halfPipe_forbidden hs, ← ENNReal.inv_two_add_inv_two] at h4
    exact (ENNReal.add_left_inj (by simp)).1 h4
  rw [setLIntegral_const, h1, halfPipe_forbidden hs]
  have h5 : halfPipe.event_sample_limit.toNat = 3 := rfl
  rw [h5]
  simp only [Finset.sum_range_succ, Finset.sum_range_zero]
  rw [← ENNReal.toReal_eq_toReal_iff' (by finiteness) (by finiteness)]
  rw [ENNReal.toReal_mul, ENNReal.toReal_add (by finiteness) (by finiteness),
    ENNReal.toReal_add (by finiteness) (by finiteness)]
  simp
  norm_num

/-- Two events of the whole chain: exactly one of them has an early point with probability 2 (7/16)². -/
example : ∫⁻ s, pairMeasure {s' | WholeOk halfPipe [1, 1, 1, 1] [1, 1, 1, 1] 1 2 (List.replicate 4 none) exEnv
      (exConfig 100 0) exSink (some [2]) pairGen () s s' ∧
      passed exEarly 2 (wholeLog halfPipe [1, 1, 1, 1] [1, 1, 1, 1] 1 2 (List.replicate 4 none) exEnv
        (exConfig 100 0) exSink (some [2]) pairGen () s s') = 1} ∂streamMeasure
    = 2 * (7 / 16) * (7 / 16) := by
  obtain ⟨v, g, hf, hs⟩ := halfPipe_fresh
  have e1 : pairMeasure {s | (([⟨5, 50 + ((s 2).2 : ℝ), 100⟩], [2]) : List CloudPoint × List ℤ) ∈ exEarly}
      = 2⁻¹ := by
    rw [← exAlone 0 (by norm_num), exEarly_half 0 (by norm_num), one_div]
  have e2 : pairMeasure {s | (([⟨5, 50 + ((s 2).2 : ℝ), 100⟩], [2]) : List CloudPoint × List ℤ) ∈ exEarlyᶜ}
      = 2⁻¹ := by
    have := alone_add pairGen_ideal.fresh exEnv (exConfig 100 0) exKinFile [1, 1, 1] [1, 1, 1] 1 [2] 0
      exEarly_measurable
    rw [exSimulated 0 (by norm_num), exAlone 0 (by norm_num), exAlone 0 (by norm_num), e1,
      ← ENNReal.inv_two_add_inv_two] at this
    exact (ENNReal.add_right_inj (by simp)).1 this
  rw [C153_binomial halfPipe_ok hf hs pairGen_ideal.fresh [1, 1, 1, 1] [1, 1, 1, 1] 1 le_rfl 2 rfl exEnv
    (exConfig 100 0) exSink (fun _ _ _ _ _ => rfl) (fun _ => rfl) (some [2]) () exEarly_measurable
    (exMeasurable hs _) (exMeasurable hs _) 1]
  simp only [Option.getD_some]
  rw [exAcceptedMean hf hs e1, exAcceptedMean hf hs e2]
  norm_num

end Verif.Props
