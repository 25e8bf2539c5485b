import Verif.Props.EndToEndLaw
import Mathlib.Data.Nat.Choose.Sum

/-! # C154: how many samples were rejected says nothing about the events that were accepted -/

namespace Verif.Props

open MeasureTheory Verif.Spec Verif.Detector Verif.Kinematics

section

variable {σ : Type} {p : Pipeline σ} {v : σ → Sample} {g : σ → σ}

/-- Of the samples `v s`, `v (g s)`, …, exactly `k` forbidden ones come before the first allowed one, which
is `x`; the generator is then in state `s'`. -/
def AcceptedAfter (p : Pipeline σ) (v : σ → Sample) (g : σ → σ) (k : ℕ) (s : σ) (x : Sample) (s' : σ) : Prop :=
  (∀ i < k, ¬ EnergyAllowed p (v (g^[i] s))) ∧ EnergyAllowed p (v (g^[k] s)) ∧
    x = v (g^[k] s) ∧ s' = g^[k + 1] s

/-- The accepted samples, each with the number of forbidden samples before it. -/
inductive CountedSamples (p : Pipeline σ) (v : σ → Sample) (g : σ → σ) (limit : ℕ) :
    σ → List (ℕ × Sample) → σ → Prop where
  | nil (s) : CountedSamples p v g limit s [] s
  | cons {k s x s1 l s'} : k < limit → AcceptedAfter p v g k s x s1 → CountedSamples p v g limit s1 l s' →
      CountedSamples p v g limit s ((k, x) :: l) s'

theorem after_zero (s : σ) (x : Sample) (s' : σ) :
    AcceptedAfter p v g 0 s x s' ↔ EnergyAllowed p (v s) ∧ x = v s ∧ s' = g s := by
  simp [AcceptedAfter]

theorem after_succ (k : ℕ) (s : σ) (x : Sample) (s' : σ) :
    AcceptedAfter p v g (k + 1) s x s' ↔ ¬ EnergyAllowed p (v s) ∧ AcceptedAfter p v g k (g s) x s' := by
  unfold AcceptedAfter
  simp only [← Function.iterate_succ_apply]
  constructor
  · rintro ⟨h1, h2⟩
    exact ⟨h1 0 (by omega), fun i hi => h1 (i + 1) (by omega), h2⟩
  · rintro ⟨h1, h2, h3⟩
    refine ⟨fun i hi => ?_, h3⟩
    cases i with
    | zero => exact h1
    | succ i => exact h2 i (by omega)

theorem after_unique {k k' : ℕ} {s : σ} {x x' : Sample} {s1 s2 : σ} (h : AcceptedAfter p v g k s x s1)
    (h' : AcceptedAfter p v g k' s x' s2) : k = k' ∧ x = x' ∧ s1 = s2 := by
  have hk : k = k' := by
    rcases lt_trichotomy k k' with hlt | e | hlt
    · exact absurd h.2.1 (h'.1 k hlt)
    · exact e
    · exact absurd h'.2.1 (h.1 k' hlt)
  subst hk
  exact ⟨rfl, by rw [h.2.2.1, h'.2.2.1], by rw [h.2.2.2, h'.2.2.2]⟩

theorem firstAllowed_after (hs : ∀ s, p.sample s = .ok (v s, g s)) (m : ℕ) : ∀ (s : σ) (x : Sample) (s' : σ),
    FirstAllowed p m s x s' ↔ ∃ k < m, AcceptedAfter p v g k s x s' := by
  induction m with
  | zero =>
    intro s x s'
    constructor
    · rintro ⟨k, hk, -⟩; omega
    · rintro ⟨k, hk, -⟩; omega
  | succ m ih =>
    intro s x s'
    rw [firstAllowed_iff hs, ih]
    constructor
    · rintro (h | ⟨h, k, hk, h1⟩)
      · exact ⟨0, by omega, (after_zero ..).2 h⟩
      · exact ⟨k + 1, by omega, (after_succ ..).2 ⟨h, h1⟩⟩
    · rintro ⟨k, hk, h⟩
      cases k with
      | zero => exact .inl ((after_zero ..).1 h)
      | succ k => exact .inr ⟨((after_succ ..).1 h).1, k, by omega, ((after_succ ..).1 h).2⟩

theorem accepted_counted (hs : ∀ s, p.sample s = .ok (v s, g s)) {limit : ℕ} {s s' : σ} {xs : List Sample} :
    AcceptedSamples p limit s xs s' ↔ ∃ l, CountedSamples p v g limit s l s' ∧ l.map Prod.snd = xs := by
  constructor
  · intro h
    induction h with
    | nil s => exact ⟨[], .nil s, rfl⟩
    | cons h1 _ ih =>
      obtain ⟨l, i1, rfl⟩ := ih
      obtain ⟨k, hk, h1⟩ := (firstAllowed_after hs _ _ _ _).1 h1
      exact ⟨(k, _) :: l, .cons hk h1 i1, rfl⟩
  · rintro ⟨l, h, rfl⟩
    induction h with
    | nil s => exact .nil s
    | cons hk h1 _ ih => exact .cons ((firstAllowed_after hs _ _ _ _).2 ⟨_, hk, h1⟩) ih

theorem counted_unique {limit : ℕ} {s s' : σ} {l : List (ℕ × Sample)} (h : CountedSamples p v g limit s l s') :
    ∀ {l' : List (ℕ × Sample)} {s'' : σ}, CountedSamples p v g limit s l' s'' → l.length = l'.length →
      l = l' ∧ s' = s'' := by
  induction h with
  | nil s =>
    intro l' s'' h' hl
    cases h' with
    | nil => exact ⟨rfl, rfl⟩
    | cons => simp at hl
  | cons hk h1 _ ih =>
    intro l' s'' h' hl
    cases h' with
    | nil => simp at hl
    | cons hk' h1' h2' =>
      obtain ⟨rfl, rfl, rfl⟩ := after_unique h1 h1'
      obtain ⟨rfl, rfl⟩ := ih h2' (by simpa using hl)
      exact ⟨rfl, rfl⟩

theorem draws_after {limit n : ℕ} (k : ℕ) : ∀ {s : σ} {x : Sample} {s1 : σ} {l : ℕ}, k < l →
    AcceptedAfter p v g k s x s1 → draws (EnergyAllowed p) v g limit (n + 1) l s
      = k + 1 + draws (EnergyAllowed p) v g limit n limit s1 := by
  induction k with
  | zero =>
    intro s x s1 l hl h
    obtain ⟨l, rfl⟩ : ∃ l', l = l' + 1 := ⟨l - 1, by omega⟩
    obtain ⟨h1, -, rfl⟩ := (after_zero ..).1 h
    rw [draws, if_pos h1]
  | succ k ih =>
    intro s x s1 l hl h
    obtain ⟨l, rfl⟩ : ∃ l', l = l' + 1 := ⟨l - 1, by omega⟩
    obtain ⟨h1, h2⟩ := (after_succ ..).1 h
    rw [draws, if_neg h1, ih (by omega) h2]
    omega

/-- The samples drawn are those accepted and those rejected. -/
theorem counted_draws {limit : ℕ} {s s' : σ} {l : List (ℕ × Sample)}
    (h : CountedSamples p v g limit s l s') :
    draws (EnergyAllowed p) v g limit l.length limit s = (l.map Prod.fst).sum + l.length := by
  induction h with
  | nil s => simp [draws]
  | cons hk h1 _ ih =>
    rw [List.length_cons, draws_after _ hk h1, ih]
    simp only [List.map_cons, List.sum_cons]
    omega

/-- **C154.** A run completes exactly if its accepted samples can be counted; there is only one way to count
them, the events of the file are those of the accepted samples, and the samples drawn are those accepted and
those rejected. -/
theorem C154_counts (h : RunsOk p) (hs : ∀ s, p.sample s = .ok (v s, g s)) (zs as : List ℤ) (cs : ℕ)
    (hcs : 1 ≤ cs) (n : ℕ) {buf : List ResultRow} (hlen : buf.length = 4 + 2 * p.decays.length) (s : σ) :
    ((run_kinematics_pipeline p.runCopy zs as cs n ⟨s, buf⟩).1 = .ok () ↔
      ∃ l s', CountedSamples p v g p.event_sample_limit.toNat s l s' ∧ l.length = n) ∧
    ∀ l s', CountedSamples p v g p.event_sample_limit.toNat s l s' → l.length = n →
      (∀ l' s'', CountedSamples p v g p.event_sample_limit.toNat s l' s'' → l'.length = n → l' = l) ∧
      (run_kinematics_pipeline p.runCopy zs as cs n ⟨s, buf⟩).2.pipe.gen
        = g^[(l.map Prod.fst).sum + n] s ∧
      ∀ i k x, l[i]? = some (k, x) → ∃ rows, eventRows p x = .ok (some rows) ∧
        read_event (run_kinematics_pipeline p.runCopy zs as cs n ⟨s, buf⟩).2.file cs i
          = .ok (rows, x.vertex) := by
  obtain ⟨h1, h2⟩ := chain_file h hs zs as cs hcs n hlen s
  refine ⟨?_, fun l s' i1 i2 => ⟨fun l' s'' j1 j2 => (counted_unique j1 i1 (by omega)).1, ?_, ?_⟩⟩
  · rw [← h1]
    constructor
    · rintro ⟨xs, s', i1, i2⟩
      obtain ⟨l, i3, rfl⟩ := (accepted_counted hs).1 i1
      exact ⟨l, s', i3, by simpa using i2⟩
    · rintro ⟨l, s', i1, i2⟩
      exact ⟨_, s', (accepted_counted hs).2 ⟨l, i1, rfl⟩, by simpa using i2⟩
  · rw [C150_draws h hs zs as cs hcs n s hlen, ← i2, counted_draws i1]
  · intro i k x hx
    refine h2 _ s' ((accepted_counted hs).2 ⟨l, i1, rfl⟩) (by simpa using i2) i x ?_
    rw [List.getElem?_map, hx]
    rfl

end

variable {σ : Type} [MeasurableSpace σ] {μ : Measure σ} [IsProbabilityMeasure μ]
  {p : Pipeline σ} {v : σ → Sample} {g : σ → σ}

omit [IsProbabilityMeasure μ] in
theorem after_prob (hf : Fresh μ v g) (k : ℕ) {B : Set Sample} (hB : MeasurableSet B) {A : Set σ}
    (hA : MeasurableSet A) :
    MeasurableSet {s | ∃ x s', AcceptedAfter p v g k s x s' ∧ x ∈ B ∧ s' ∈ A} ∧
    μ {s | ∃ x s', AcceptedAfter p v g k s x s' ∧ x ∈ B ∧ s' ∈ A}
      = μ {s | ¬ EnergyAllowed p (v s)} ^ k * μ {s | EnergyAllowed p (v s) ∧ v s ∈ B} * μ A := by
  have hm := measurable_energyAllowed p
  induction k with
  | zero =>
    have e : {s | ∃ x s', AcceptedAfter p v g 0 s x s' ∧ x ∈ B ∧ s' ∈ A}
        = {s | v s ∈ {w | EnergyAllowed p w} ∩ B ∧ g s ∈ A} := by
      ext s
      simp only [Set.mem_setOf_eq, after_zero]
      constructor
      · rintro ⟨x, s', ⟨h1, rfl, rfl⟩, h2, h3⟩
        exact ⟨⟨h1, h2⟩, h3⟩
      · rintro ⟨⟨h1, h2⟩, h3⟩
        exact ⟨_, _, ⟨h1, rfl, rfl⟩, h2, h3⟩
    rw [e, pow_zero, one_mul]
    exact ⟨(hf.value (hm.inter hB)).inter (hf.state hA), hf.indep _ _ (hm.inter hB) hA⟩
  | succ k ih =>
    have e : {s | ∃ x s', AcceptedAfter p v g (k + 1) s x s' ∧ x ∈ B ∧ s' ∈ A}
        = {s | v s ∈ {w | EnergyAllowed p w}ᶜ ∧
            g s ∈ {s | ∃ x s', AcceptedAfter p v g k s x s' ∧ x ∈ B ∧ s' ∈ A}} := by
      ext s
      simp only [Set.mem_setOf_eq, after_succ, Set.mem_compl_iff]
      constructor
      · rintro ⟨x, s', ⟨h1, h2⟩, h3⟩
        exact ⟨h1, x, s', h2, h3⟩
      · rintro ⟨h1, x, s', h2, h3⟩
        exact ⟨x, s', ⟨h1, h2⟩, h3⟩
    rw [e]
    refine ⟨(hf.value hm.compl).inter (hf.state ih.1), ?_⟩
    rw [hf.indep _ _ hm.compl ih.1, ih.2, pow_succ']
    simp only [Set.mem_compl_iff, Set.mem_setOf_eq]
    ring

omit [IsProbabilityMeasure μ] in
/-- The same for a number of rejected samples below `m`, where what is asked of the sample and of the state
may depend on that number. -/
theorem within_prob (hf : Fresh μ v g) (m : ℕ) {B : Set (ℕ × Sample)}
    (hB : ∀ k, MeasurableSet {x | (k, x) ∈ B}) {A : ℕ → Set σ} (hA : ∀ k, MeasurableSet (A k)) :
    MeasurableSet {s | ∃ k x s', k < m ∧ AcceptedAfter p v g k s x s' ∧ (k, x) ∈ B ∧ s' ∈ A k} ∧
    μ {s | ∃ k x s', k < m ∧ AcceptedAfter p v g k s x s' ∧ (k, x) ∈ B ∧ s' ∈ A k}
      = ∑ k ∈ Finset.range m, μ {s | ¬ EnergyAllowed p (v s)} ^ k
        * μ {s | EnergyAllowed p (v s) ∧ (k, v s) ∈ B} * μ (A k) := by
  have e : {s | ∃ k x s', k < m ∧ AcceptedAfter p v g k s x s' ∧ (k, x) ∈ B ∧ s' ∈ A k}
      = ⋃ k ∈ Finset.range m, {s | ∃ x s', AcceptedAfter p v g k s x s' ∧ x ∈ {x | (k, x) ∈ B} ∧ s' ∈ A k} := by
    ext s
    simp only [Set.mem_setOf_eq, Set.mem_iUnion, Finset.mem_range, exists_prop]
    constructor
    · rintro ⟨k, x, s', h1, h2⟩
      exact ⟨k, h1, x, s', h2⟩
    · rintro ⟨k, h1, x, s', h2⟩
      exact ⟨k, x, s', h1, h2⟩
  have hp := fun k => after_prob (p := p) hf k (hB k) (hA k)
  rw [e]
  refine ⟨Finset.measurableSet_biUnion _ fun k _ => (hp k).1, ?_⟩
  rw [measure_biUnion_finset _ fun k _ => (hp k).1]
  · exact Finset.sum_congr rfl fun k _ => (hp k).2
  · intro k _ k' _ hne
    refine Set.disjoint_left.2 ?_
    rintro s ⟨x, s', h1, -⟩ ⟨x', s'', h2, -⟩
    exact hne (after_unique h1 h2).1

/-- The probability that an event is accepted with a number of rejected samples and parameters in `B`. -/
noncomputable def countedProb (μ : Measure σ) (p : Pipeline σ) (v : σ → Sample) (B : Set (ℕ × Sample)) :
    ENNReal :=
  ∑ k ∈ Finset.range p.event_sample_limit.toNat, μ {s | ¬ EnergyAllowed p (v s)} ^ k
    * μ {s | EnergyAllowed p (v s) ∧ (k, v s) ∈ B}

theorem counted_prob (hf : Fresh μ v g) (Bs : List (Set (ℕ × Sample)))
    (hB : ∀ B ∈ Bs, ∀ k, MeasurableSet {x | (k, x) ∈ B}) :
    MeasurableSet {s | ∃ l s', CountedSamples p v g p.event_sample_limit.toNat s l s' ∧
      List.Forall₂ (· ∈ ·) l Bs} ∧
    μ {s | ∃ l s', CountedSamples p v g p.event_sample_limit.toNat s l s' ∧ List.Forall₂ (· ∈ ·) l Bs}
      = (Bs.map (countedProb μ p v)).prod := by
  induction Bs with
  | nil =>
    have : {s | ∃ l s', CountedSamples p v g p.event_sample_limit.toNat s l s' ∧
        List.Forall₂ (· ∈ ·) l ([] : List (Set (ℕ × Sample)))} = Set.univ :=
      Set.eq_univ_of_forall fun s => ⟨[], s, .nil s, .nil⟩
    rw [this]
    exact ⟨.univ, by simp⟩
  | cons B Bs ih =>
    have ih := ih fun B hB' => hB B (by simp [hB'])
    have e : {s | ∃ l s', CountedSamples p v g p.event_sample_limit.toNat s l s' ∧
          List.Forall₂ (· ∈ ·) l (B :: Bs)}
        = {s | ∃ k x s', k < p.event_sample_limit.toNat ∧ AcceptedAfter p v g k s x s' ∧ (k, x) ∈ B ∧
          s' ∈ {s | ∃ l s', CountedSamples p v g p.event_sample_limit.toNat s l s' ∧
            List.Forall₂ (· ∈ ·) l Bs}} := by
      ext s
      constructor
      · rintro ⟨l, s', h1, h2⟩
        cases h1 with
        | nil => cases h2
        | cons hk h1 h3 =>
          cases h2 with
          | cons h4 h5 => exact ⟨_, _, _, hk, h1, h4, _, _, h3, h5⟩
      · rintro ⟨k, x, s1, hk, h1, h4, l, s', h3, h5⟩
        exact ⟨(k, x) :: l, s', .cons hk h1 h3, .cons h4 h5⟩
    obtain ⟨h1, h2⟩ := within_prob (p := p) hf p.event_sample_limit.toNat (hB B (by simp)) fun _ => ih.1
    rw [e]
    refine ⟨h1, ?_⟩
    rw [h2, ← Finset.sum_mul, ih.2, List.map_cons, List.prod_cons]
    rfl

/-- The runs that complete with numbers of rejected samples and parameters of the events in `Bs`, and in
whose file these events are found. -/
def countedRuns (p : Pipeline σ) (v : σ → Sample) (g : σ → σ) (zs as : List ℤ) (cs : ℕ) (buf : List ResultRow)
    (Bs : List (Set (ℕ × Sample))) : Set σ :=
  {s | (run_kinematics_pipeline p.runCopy zs as cs Bs.length ⟨s, buf⟩).1 = .ok () ∧
    ∃ l s', CountedSamples p v g p.event_sample_limit.toNat s l s' ∧ List.Forall₂ (· ∈ ·) l Bs ∧
      ∀ i k x, l[i]? = some (k, x) → ∃ rows, eventRows p x = .ok (some rows) ∧
        read_event (run_kinematics_pipeline p.runCopy zs as cs Bs.length ⟨s, buf⟩).2.file cs i
          = .ok (rows, x.vertex)}

/-- **C154.** The joint law of the numbers of rejected samples and of the events of a file: the events are
independent, and the number of rejected samples of each is geometric whatever its parameters are. -/
theorem C154_law (h : RunsOk p) (hf : Fresh μ v g) (hs : ∀ s, p.sample s = .ok (v s, g s))
    (zs as : List ℤ) (cs : ℕ) (hcs : 1 ≤ cs) {buf : List ResultRow}
    (hlen : buf.length = 4 + 2 * p.decays.length) (Bs : List (Set (ℕ × Sample)))
    (hB : ∀ B ∈ Bs, ∀ k, MeasurableSet {x | (k, x) ∈ B}) :
    μ (countedRuns p v g zs as cs buf Bs)
      = (Bs.map fun B => ∑ k ∈ Finset.range p.event_sample_limit.toNat, μ {s | ¬ EnergyAllowed p (v s)} ^ k
          * μ {s | EnergyAllowed p (v s) ∧ (k, v s) ∈ B}).prod := by
  rw [show (fun B => ∑ k ∈ Finset.range p.event_sample_limit.toNat, μ {s | ¬ EnergyAllowed p (v s)} ^ k
    * μ {s | EnergyAllowed p (v s) ∧ (k, v s) ∈ B}) = countedProb μ p v from rfl, ← (counted_prob hf Bs hB).2]
  congr 1
  ext s
  constructor
  · rintro ⟨-, l, s', h1, h2, -⟩
    exact ⟨l, s', h1, h2⟩
  · rintro ⟨l, s', h1, h2⟩
    obtain ⟨i1, i2⟩ := C154_counts h hs zs as cs hcs Bs.length hlen s
    exact ⟨i1.2 ⟨l, s', h1, h2.length_eq⟩, l, s', h1, h2, (i2 l s' h1 h2.length_eq).2.2⟩

/-- **C154.** In the runs that complete, the numbers of rejected samples are independent of the parameters
of the events: asking for numbers in `ks` and parameters in `Bs` has a probability that factorises. -/
theorem C154_independent (h : RunsOk p) (hf : Fresh μ v g) (hs : ∀ s, p.sample s = .ok (v s, g s))
    (zs as : List ℤ) (cs : ℕ) (hcs : 1 ≤ cs) {buf : List ResultRow}
    (hlen : buf.length = 4 + 2 * p.decays.length) (q : List (Set ℕ × Set Sample))
    (hB : ∀ b ∈ q, MeasurableSet b.2) :
    μ (countedRuns p v g zs as cs buf (q.map fun b => b.1 ×ˢ b.2))
        * μ {s | (run_kinematics_pipeline p.runCopy zs as cs q.length ⟨s, buf⟩).1 = .ok ()}
      = μ (countedRuns p v g zs as cs buf (q.map fun b => b.1 ×ˢ Set.univ))
        * μ (countedRuns p v g zs as cs buf (q.map fun b => Set.univ ×ˢ b.2)) := by
  classical
  have hall : {s | (run_kinematics_pipeline p.runCopy zs as cs q.length ⟨s, buf⟩).1 = .ok ()}
      = countedRuns p v g zs as cs buf (q.map fun _ => Set.univ) := by
    ext s
    unfold countedRuns
    simp only [List.length_map, Set.mem_setOf_eq]
    constructor
    · intro hok
      obtain ⟨i1, i2⟩ := C154_counts h hs zs as cs hcs q.length hlen s
      obtain ⟨l, s', j1, j2⟩ := i1.1 hok
      exact ⟨hok, l, s', j1, List.forall₂_iff_get.2 ⟨by simp [j2], fun i _ _ => by simp⟩,
        (i2 l s' j1 j2).2.2⟩
    · exact fun h => h.1
  have hsec : ∀ (K : Set ℕ) (B : Set Sample), MeasurableSet B → ∀ k, MeasurableSet {x | (k, x) ∈ K ×ˢ B} := by
    intro K B hB k
    by_cases hk : k ∈ K
    · simpa [hk] using hB
    · simp [hk]
  rw [hall, C154_law h hf hs zs as cs hcs hlen _ (by
      intro B hB'
      obtain ⟨b, hb, rfl⟩ := List.mem_map.1 hB'
      exact hsec _ _ (hB b hb)),
    C154_law h hf hs zs as cs hcs hlen _ (by
      intro B hB' k
      obtain ⟨b, hb, rfl⟩ := List.mem_map.1 hB'
      simp),
    C154_law h hf hs zs as cs hcs hlen _ (by
      intro B hB'
      obtain ⟨b, hb, rfl⟩ := List.mem_map.1 hB'
      exact hsec _ _ .univ),
    C154_law h hf hs zs as cs hcs hlen _ (by
      intro B hB'
      obtain ⟨b, hb, rfl⟩ := List.mem_map.1 hB'
      exact hsec _ _ (hB b hb))]
  clear hB hall
  induction q with
  | nil => simp
  | cons b q ih =>
    simp only [List.map_cons, List.prod_cons, List.map_map] at ih ⊢
    have e1 : ∀ k, μ {s | EnergyAllowed p (v s) ∧ (k, v s) ∈ b.1 ×ˢ b.2}
        = (if k ∈ b.1 then 1 else 0) * μ {s | EnergyAllowed p (v s) ∧ v s ∈ b.2} := by
      intro k
      by_cases hk : k ∈ b.1 <;> simp [hk]
    have e2 : ∀ k, μ {s | EnergyAllowed p (v s) ∧ (k, v s) ∈ b.1 ×ˢ (Set.univ : Set Sample)}
        = (if k ∈ b.1 then 1 else 0) * μ {s | EnergyAllowed p (v s)} := by
      intro k
      by_cases hk : k ∈ b.1 <;> simp [hk]
    have e3 : ∀ k, μ {s | EnergyAllowed p (v s) ∧ (k, v s) ∈ (Set.univ : Set ℕ) ×ˢ b.2}
        = μ {s | EnergyAllowed p (v s) ∧ v s ∈ b.2} := by
      intro k
      simp
    have e4 : ∀ k, μ {s | EnergyAllowed p (v s) ∧ (k, v s) ∈ (Set.univ : Set (ℕ × Sample))}
        = μ {s | EnergyAllowed p (v s)} := by
      intro k
      simp
    simp only [e1, e2, e3, e4]
    simp only [← mul_assoc (_ ^ _), ← Finset.sum_mul]
    rw [mul_mul_mul_comm, ih]
    ring

/-- **C154.** As long as it is below the limit, the total number of rejected samples of a run of `n + 1`
events follows the negative binomial law. -/
theorem C154_total (h : RunsOk p) (hf : Fresh μ v g) (hs : ∀ s, p.sample s = .ok (v s, g s))
    (zs as : List ℤ) (cs : ℕ) (hcs : 1 ≤ cs) {buf : List ResultRow}
    (hlen : buf.length = 4 + 2 * p.decays.length) (n m : ℕ) (hm : m < p.event_sample_limit.toNat) :
    μ {s | (run_kinematics_pipeline p.runCopy zs as cs (n + 1 : ℕ) ⟨s, buf⟩).1 = .ok () ∧
        draws (EnergyAllowed p) v g p.event_sample_limit.toNat (n + 1) p.event_sample_limit.toNat s
          = m + (n + 1)}
      = ((m + n).choose n : ENNReal) * μ {s | ¬ EnergyAllowed p (v s)} ^ m
        * μ {s | EnergyAllowed p (v s)} ^ (n + 1) := by
  have e : ∀ n m : ℕ, {s | (run_kinematics_pipeline p.runCopy zs as cs n ⟨s, buf⟩).1 = .ok () ∧
        draws (EnergyAllowed p) v g p.event_sample_limit.toNat n p.event_sample_limit.toNat s = m + n}
      = {s | ∃ l s', CountedSamples p v g p.event_sample_limit.toNat s l s' ∧ l.length = n ∧
          (l.map Prod.fst).sum = m} := by
    intro n m
    ext s
    obtain ⟨i1, -⟩ := C154_counts h hs zs as cs hcs n hlen s
    simp only [Set.mem_setOf_eq, i1]
    constructor
    · rintro ⟨⟨l, s', j1, rfl⟩, j2⟩
      exact ⟨l, s', j1, rfl, by rw [counted_draws j1] at j2; omega⟩
    · rintro ⟨l, s', j1, rfl, rfl⟩
      exact ⟨⟨l, s', j1, rfl⟩, counted_draws j1⟩
  rw [e]
  have step : ∀ n m : ℕ, m < p.event_sample_limit.toNat →
      {s | ∃ l s', CountedSamples p v g p.event_sample_limit.toNat s l s' ∧ l.length = n + 1 ∧
        (l.map Prod.fst).sum = m}
      = {s | ∃ k x s', k < m + 1 ∧ AcceptedAfter p v g k s x s' ∧ (k, x) ∈ (Set.univ : Set (ℕ × Sample)) ∧
          s' ∈ {s | ∃ l s', CountedSamples p v g p.event_sample_limit.toNat s l s' ∧ l.length = n ∧
            (l.map Prod.fst).sum = m - k}} := by
    intro n m hm
    ext s
    constructor
    · rintro ⟨l, s', h1, h2, h3⟩
      cases h1 with
      | nil => simp at h2
      | cons hk h1 h4 =>
        simp only [List.map_cons, List.sum_cons, List.length_cons] at h2 h3
        exact ⟨_, _, _, by omega, h1, trivial, _, _, h4, by omega, by omega⟩
    · rintro ⟨k, x, s1, hk, h1, -, l, s', h4, h2, h3⟩
      exact ⟨(k, x) :: l, s', .cons (by omega) h1 h4, by simp [h2], by
        simp only [List.map_cons, List.sum_cons]; omega⟩
  have start : ∀ m : ℕ, {s | ∃ l s', CountedSamples p v g p.event_sample_limit.toNat s l s' ∧ l.length = 0 ∧
      (l.map Prod.fst).sum = m} = if m = 0 then Set.univ else ∅ := by
    intro m
    ext s
    split_ifs with h0
    · simp only [Set.mem_univ, iff_true]
      exact ⟨[], s, .nil s, rfl, by simp [h0]⟩
    · simp only [Set.mem_empty_iff_false, iff_false]
      rintro ⟨l, s', h1, h2, h3⟩
      rw [List.length_eq_zero_iff.1 h2] at h3
      exact h0 (by simpa using h3.symm)
  have meas : ∀ n m : ℕ, m < p.event_sample_limit.toNat →
      MeasurableSet {s | ∃ l s', CountedSamples p v g p.event_sample_limit.toNat s l s' ∧ l.length = n ∧
        (l.map Prod.fst).sum = m} := by
    intro n
    induction n with
    | zero =>
      intro m _
      rw [start]
      split_ifs
      · exact .univ
      · exact .empty
    | succ n ih =>
      intro m hm
      rw [step n m hm]
      exact (within_prob (p := p) hf (m + 1) (fun _ => by simp) fun k => ih (m - k) (by omega)).1
  induction n generalizing m with
  | zero =>
    rw [step 0 m hm, (within_prob (p := p) hf (m + 1) (fun _ => by simp) fun k => meas 0 (m - k) (by omega)).2,
      Finset.sum_eq_single m]
    · rw [start]
      simp
    · intro k hk hne
      rw [start, if_neg (by have := Finset.mem_range.1 hk; omega)]
      simp
    · simp
  | succ n ih =>
    rw [step (n + 1) m hm,
      (within_prob (p := p) hf (m + 1) (fun _ => by simp) fun k => meas (n + 1) (m - k) (by omega)).2]
    have hsum : ∀ k ∈ Finset.range (m + 1), μ {s | ¬ EnergyAllowed p (v s)} ^ k
        * μ {s | EnergyAllowed p (v s) ∧ (k, v s) ∈ (Set.univ : Set (ℕ × Sample))}
        * μ {s | ∃ l s', CountedSamples p v g p.event_sample_limit.toNat s l s' ∧ l.length = n + 1 ∧
            (l.map Prod.fst).sum = m - k}
        = ((m - k + n).choose n : ENNReal) * (μ {s | ¬ EnergyAllowed p (v s)} ^ m
          * μ {s | EnergyAllowed p (v s)} ^ (n + 1 + 1)) := by
      intro k hk
      have hk := Finset.mem_range.1 hk
      rw [ih (m - k) (by omega)]
      have : μ {s | ¬ EnergyAllowed p (v s)} ^ m = μ {s | ¬ EnergyAllowed p (v s)} ^ k
          * μ {s | ¬ EnergyAllowed p (v s)} ^ (m - k) := by rw [← pow_add]; congr 1; omega
      rw [this, pow_succ _ (n + 1)]
      simp only [Set.mem_univ, and_true]
      ring
    rw [Finset.sum_congr rfl hsum, ← Finset.sum_mul]
    have hc : ∑ k ∈ Finset.range (m + 1), ((m - k + n).choose n : ENNReal)
        = ((m + (n + 1)).choose (n + 1) : ENNReal) := by
      have h1 := Finset.sum_range_reflect (fun j => ((j + n).choose n)) (m + 1)
      have h2 := Nat.sum_range_add_choose m n
      rw [← Nat.cast_sum]
      congr 1
      rw [show m + (n + 1) = m + n + 1 by omega, ← h2, ← h1]
      exact Finset.sum_congr rfl fun k hk => by simp
    rw [hc]
    ring

/-! ## An example -/

/-- With half of the samples forbidden and at most three per event, the probability that a run of three
events completes and rejects two samples on the way is `6 / 32`. -/
example : ∃ v g, (∀ s, halfPipe.sample s = .ok (v s, g s)) ∧
    streamMeasure {s | (run_kinematics_pipeline halfPipe.runCopy [] [] 1 (2 + 1 : ℕ)
        ⟨s, List.replicate 4 none⟩).1 = .ok () ∧ draws (EnergyAllowed halfPipe) v g 3 (2 + 1) 3 s = 2 + (2 + 1)}
      = 6 * 2⁻¹ ^ 5 := by
  obtain ⟨v, g, hf, hs⟩ := halfPipe_fresh
  refine ⟨v, g, hs, ?_⟩
  have h1 := C154_total halfPipe_ok hf hs [] [] 1 le_rfl (buf := List.replicate 4 none) rfl 2 2
    (show 2 < 3 by norm_num)
  have h2 := halfPipe_forbidden hs
  have h3 := allowed_add (μ := streamMeasure) (hf.value (measurable_energyAllowed halfPipe))
  simp only [Set.mem_preimage, Set.mem_setOf_eq] at h3
  rw [h2] at h1 h3
  have h4 : streamMeasure {s | EnergyAllowed halfPipe (v s)} = 2⁻¹ := by
    have := ENNReal.eq_sub_of_add_eq (by simp) h3
    rw [show {s | EnergyAllowed halfPipe (v s)} = v ⁻¹' {x | EnergyAllowed halfPipe x} from rfl, this,
      ENNReal.one_sub_inv_two]
  rw [h4] at h1
  refine h1.trans ?_
  have h5 : ((2 + 2 : ℕ).choose 2 : ENNReal) = 6 := by norm_num [Nat.choose]
  rw [h5, mul_assoc, ← pow_add]

end Verif.Props
