import Mathlib.Probability.Moments.SubGaussian
import Mathlib.Probability.Moments.Variance
import Verif.Props.CloudLaw

/-! # C152: the number of events of a run that meet a criterion

An efficiency (of a detector configuration, of a trigger, of an analysis cut) is estimated by simulating a
file of events and counting the events whose point cloud meets a criterion. -/

namespace Verif.Props

open MeasureTheory ProbabilityTheory Verif.Spec Verif.Detector Verif.Kinematics

open Classical in
/-- The number of events, among the first `n`, for which the writer was given a cloud and labels in `A` (an
event for which it was given nothing has an empty cloud). -/
noncomputable def passed (A : Set (List CloudPoint × List ℤ)) (n : ℕ) (log : List Call) : ℕ :=
  ((Finset.range n).filter fun k => writtenAt log k ∈ A).card

/-- The estimate of the efficiency: the fraction of the events that meet the criterion. -/
noncomputable def fraction (A : Set (List CloudPoint × List ℤ)) (n : ℕ) (log : List Call) : ℝ :=
  passed A n log / n

variable {σ τ : Type} [MeasurableSpace σ] {μ : Measure σ} [IsProbabilityMeasure μ]
  {rng : Gen σ} {u z : σ → ℝ} {next skip : σ → σ}

theorem alone_measurable (hr : FreshGen rng μ u z next skip) (env : SimEnv) (config : Config)
    (file : KinFile (List Vec4)) (zs as : List ℤ) (cs : ℕ) (indices : List ℤ) (k : ℕ)
    {A : Set (List CloudPoint × List ℤ)} (hA : MeasurableSet A) :
    MeasurableSet (alone env config file zs as cs indices rng k A) := by
  cases hread : read_event file cs k with
  | error e =>
    have : alone env config file zs as cs indices rng k A = ∅ := by
      ext s
      simp [alone, hread]
    rw [this]
    exact MeasurableSet.empty
  | ok mv =>
    obtain ⟨momenta, vertex⟩ := mv
    have := (simulate_fresh hr env momenta vertex zs as config indices).measurable A Set.univ hA
      MeasurableSet.univ
    convert this using 1
    ext s
    simp only [alone, Set.mem_setOf_eq, hread, Set.mem_univ]
    constructor
    · rintro ⟨m, v, g, r, s', h, hr⟩
      obtain ⟨rfl, rfl⟩ := Prod.mk.inj (Except.ok.inj g)
      exact ⟨r, s', h, hr, trivial⟩
    · rintro ⟨r, s', h, hr, -⟩
      exact ⟨momenta, vertex, rfl, r, s', h, hr⟩

theorem alone_add (hr : FreshGen rng μ u z next skip) (env : SimEnv) (config : Config)
    (file : KinFile (List Vec4)) (zs as : List ℤ) (cs : ℕ) (indices : List ℤ) (k : ℕ)
    {A : Set (List CloudPoint × List ℤ)} (hA : MeasurableSet A) :
    μ (alone env config file zs as cs indices rng k A)
        + μ (alone env config file zs as cs indices rng k Aᶜ)
      = μ (alone env config file zs as cs indices rng k Set.univ) := by
  rw [← measure_union _ (alone_measurable hr env config file zs as cs indices k hA.compl)]
  · congr 1
    ext s
    simp only [alone, Set.mem_union, Set.mem_setOf_eq, Set.mem_univ, and_true, Set.mem_compl_iff]
    constructor
    · rintro (⟨m, v, g, r, s', h, -⟩ | ⟨m, v, g, r, s', h, -⟩) <;> exact ⟨m, v, g, r, s', h⟩
    · rintro ⟨m, v, g, r, s', h⟩
      by_cases hA : r ∈ A
      · exact .inl ⟨m, v, g, r, s', h, hA⟩
      · exact .inr ⟨m, v, g, r, s', h, hA⟩
  · rw [Set.disjoint_left]
    rintro s ⟨m, v, g, r, s', h, hA⟩ ⟨m', v', g', r', s'', h', hA'⟩
    rw [g] at g'
    obtain ⟨rfl, rfl⟩ := Prod.mk.inj (Except.ok.inj g')
    rw [h] at h'
    obtain ⟨rfl, -⟩ := Prod.mk.inj (Except.ok.inj h')
    exact hA' hA

section

variable (hr : FreshGen rng μ u z next skip) (env : SimEnv) (config : Config)
  (file : KinFile (List Vec4)) (W : SimWriter τ)
  (hW : ∀ cloud labels c n w, (W.write cloud labels c n w).1 = .ok ())
  (hW' : ∀ w, (W.close w).1 = .ok ()) (indices : Option (List ℤ)) (w : τ) {zs as : List ℤ} {n : ℤ}
  {cs nc : ℕ} (hz : file.proton_numbers = some zs) (ha : file.mass_numbers = some as)
  (hn : file.n_events = some n) (hcs : file.chunk_size = some cs) (hnc : file.n_chunks = some nc)
  {A : Set (List CloudPoint × List ℤ)} (hA : MeasurableSet A)

include hr hW hW' hz ha hn hcs hnc hA

open Classical in
/-- **C152.** The law of the number of events that meet a criterion: with `p k` and `q k` the probabilities
that event `k`, simulated alone, is simulated without exception and meets or does not meet the criterion, the
probability that the run returns normally and exactly `m` of its `n` events meet it is the sum, over the sets
of `m` events, of the product of `p k` over the events in the set and `q k` over the others. -/
theorem C152_law (m : ℕ) :
    MeasurableSet {s | (run_simulation env config file (logged W) indices rng ⟨s, (w, [])⟩).1 = .ok () ∧
        passed A n.toNat
          (run_simulation env config file (logged W) indices rng ⟨s, (w, [])⟩).2.writer.2 = m} ∧
    μ {s | (run_simulation env config file (logged W) indices rng ⟨s, (w, [])⟩).1 = .ok () ∧
        passed A n.toNat
          (run_simulation env config file (logged W) indices rng ⟨s, (w, [])⟩).2.writer.2 = m}
      = ∑ S ∈ (Finset.range n.toNat).powersetCard m,
          ∏ k ∈ Finset.range n.toNat, if k ∈ S
            then μ (alone env config file zs as cs (indices.getD (default_indices zs.length)) rng k A)
            else μ (alone env config file zs as cs (indices.getD (default_indices zs.length)) rng k Aᶜ) := by
  set I := indices.getD (default_indices zs.length) with hI
  set B : Finset ℕ → ℕ → Set (List CloudPoint × List ℤ) := fun S k => if k ∈ S then A else Aᶜ with hB
  have hBm : ∀ S k, MeasurableSet (B S k) := by
    intro S k
    by_cases hk : k ∈ S
    · simp only [hB, hk, if_true, hA]
    · simp only [hB, hk, if_false, hA.compl]
  set T : Finset ℕ → Set σ := fun S => together env config file zs as cs I rng 0 n.toNat (B S) with hT
  have key : ∀ S s, s ∈ T S ↔
      (run_simulation env config file (logged W) indices rng ⟨s, (w, [])⟩).1 = .ok () ∧
      ∀ k < n.toNat, (writtenAt
        (run_simulation env config file (logged W) indices rng ⟨s, (w, [])⟩).2.writer.2 k ∈ A ↔ k ∈ S) := by
    intro S s
    rw [hT]
    simp only
    rw [← run_set env config file W hW hW' indices w hz ha hn hcs hnc (B S), Set.mem_setOf_eq]
    refine and_congr_right fun _ => forall_congr' fun k => imp_congr_right fun _ => ?_
    by_cases hk : k ∈ S
    · simp only [hB, hk, if_true, iff_true]
    · simp only [hB, hk, if_false, iff_false, Set.mem_compl_iff]
  have hU : {s | (run_simulation env config file (logged W) indices rng ⟨s, (w, [])⟩).1 = .ok () ∧
        passed A n.toNat
          (run_simulation env config file (logged W) indices rng ⟨s, (w, [])⟩).2.writer.2 = m}
      = ⋃ S ∈ (Finset.range n.toNat).powersetCard m, T S := by
    ext s
    simp only [Set.mem_setOf_eq, Set.mem_iUnion, Finset.mem_powersetCard, exists_prop, key]
    constructor
    · rintro ⟨h1, h2⟩
      refine ⟨_, ⟨Finset.filter_subset _ _, h2⟩, h1, fun k hk => ?_⟩
      simp [hk]
    · rintro ⟨S, ⟨hS, hc⟩, h1, h2⟩
      refine ⟨h1, ?_⟩
      rw [← hc]
      unfold passed
      congr 1
      ext k
      simp only [Finset.mem_filter, Finset.mem_range]
      constructor
      · rintro ⟨hk, h⟩; exact (h2 k hk).1 h
      · intro hk
        have := Finset.mem_range.1 (hS hk)
        exact ⟨this, (h2 k this).2 hk⟩
  have hm : ∀ S ∈ (Finset.range n.toNat).powersetCard m, MeasurableSet (T S) := fun S _ =>
    (together_prob hr env config file zs as cs I (B S) (hBm S) n.toNat 0).1
  rw [hU]
  refine ⟨Finset.measurableSet_biUnion _ hm, ?_⟩
  rw [measure_biUnion_finset _ hm]
  · refine Finset.sum_congr rfl fun S _ => ?_
    rw [(together_prob hr env config file zs as cs I (B S) (hBm S) n.toNat 0).2]
    refine Finset.prod_congr rfl fun k _ => ?_
    rw [Nat.zero_add]
    by_cases hk : k ∈ S
    · simp only [hB, hk, if_true]
    · simp only [hB, hk, if_false]
  · intro S hS S' hS' hne
    rw [Function.onFun, Set.disjoint_left]
    intro s h h'
    refine hne (Finset.ext fun k => ?_)
    have g := ((key S s).1 h).2
    have g' := ((key S' s).1 h').2
    have c := (Finset.mem_powersetCard.1 (Finset.mem_coe.1 hS)).1
    have c' := (Finset.mem_powersetCard.1 (Finset.mem_coe.1 hS')).1
    constructor
    · intro hk
      have hk' := Finset.mem_range.1 (c hk)
      exact (g' k hk').1 ((g k hk').2 hk)
    · intro hk
      have hk' := Finset.mem_range.1 (c' hk)
      exact (g k hk').1 ((g' k hk').2 hk)

/-- **C152.** If the probabilities are the same for all events (as for a file with `n` copies of one event),
the number of events that meet the criterion has a binomial distribution. -/
theorem C152_binomial (p q : ENNReal)
    (hp : ∀ k < n.toNat,
      μ (alone env config file zs as cs (indices.getD (default_indices zs.length)) rng k A) = p)
    (hq : ∀ k < n.toNat,
      μ (alone env config file zs as cs (indices.getD (default_indices zs.length)) rng k Aᶜ) = q) (m : ℕ) :
    μ {s | (run_simulation env config file (logged W) indices rng ⟨s, (w, [])⟩).1 = .ok () ∧
        passed A n.toNat
          (run_simulation env config file (logged W) indices rng ⟨s, (w, [])⟩).2.writer.2 = m}
      = n.toNat.choose m * p ^ m * q ^ (n.toNat - m) := by
  classical
  rw [(C152_law hr env config file W hW hW' indices w hz ha hn hcs hnc hA m).2]
  have : ∀ S ∈ (Finset.range n.toNat).powersetCard m, (∏ k ∈ Finset.range n.toNat, if k ∈ S
      then μ (alone env config file zs as cs (indices.getD (default_indices zs.length)) rng k A)
      else μ (alone env config file zs as cs (indices.getD (default_indices zs.length)) rng k Aᶜ))
      = p ^ m * q ^ (n.toNat - m) := by
    intro S hS
    obtain ⟨h1, h2⟩ := Finset.mem_powersetCard.1 hS
    have : ∀ k ∈ Finset.range n.toNat, (if k ∈ S
      then μ (alone env config file zs as cs (indices.getD (default_indices zs.length)) rng k A)
      else μ (alone env config file zs as cs (indices.getD (default_indices zs.length)) rng k Aᶜ))
      = if k ∈ S then p else q := by
      intro k hk
      rw [hp k (Finset.mem_range.1 hk), hq k (Finset.mem_range.1 hk)]
    rw [Finset.prod_congr rfl this, Finset.prod_ite, Finset.prod_const, Finset.prod_const,
      Finset.filter_mem_eq_inter, Finset.inter_eq_right.2 h1, h2]
    have h3 : (Finset.range n.toNat).filter (fun k => k ∉ S) = Finset.range n.toNat \ S := by
      ext k; simp
    rw [h3, Finset.card_sdiff_of_subset h1, Finset.card_range, h2]
  rw [Finset.sum_congr rfl this, Finset.sum_const, Finset.card_powersetCard, Finset.card_range, nsmul_eq_mul,
    mul_assoc]

variable (hsim : ∀ k < n.toNat,
  μ (alone env config file zs as cs (indices.getD (default_indices zs.length)) rng k Set.univ) = 1)
include hsim

theorem all_meet {S : Finset ℕ} (hS : S ⊆ Finset.range n.toNat) :
    MeasurableSet {s | (run_simulation env config file (logged W) indices rng ⟨s, (w, [])⟩).1 = .ok () ∧
        ∀ k ∈ S, writtenAt
          (run_simulation env config file (logged W) indices rng ⟨s, (w, [])⟩).2.writer.2 k ∈ A} ∧
    μ {s | (run_simulation env config file (logged W) indices rng ⟨s, (w, [])⟩).1 = .ok () ∧
        ∀ k ∈ S, writtenAt
          (run_simulation env config file (logged W) indices rng ⟨s, (w, [])⟩).2.writer.2 k ∈ A}
      = ∏ k ∈ S,
        μ (alone env config file zs as cs (indices.getD (default_indices zs.length)) rng k A) := by
  classical
  set I := indices.getD (default_indices zs.length) with hI
  set B : ℕ → Set (List CloudPoint × List ℤ) := fun k => if k ∈ S then A else Set.univ with hB
  have hBm : ∀ k, MeasurableSet (B k) := by
    intro k
    by_cases hk : k ∈ S
    · simp only [hB, hk, if_true, hA]
    · simp only [hB, hk, if_false, MeasurableSet.univ]
  have e : {s | (run_simulation env config file (logged W) indices rng ⟨s, (w, [])⟩).1 = .ok () ∧
        ∀ k ∈ S, writtenAt
          (run_simulation env config file (logged W) indices rng ⟨s, (w, [])⟩).2.writer.2 k ∈ A}
      = together env config file zs as cs I rng 0 n.toNat B := by
    rw [← run_set env config file W hW hW' indices w hz ha hn hcs hnc B]
    ext s
    simp only [Set.mem_setOf_eq]
    refine and_congr_right fun _ => ?_
    constructor
    · intro h k _
      by_cases hk : k ∈ S
      · simp only [hB, hk, if_true, h k hk]
      · simp only [hB, hk, if_false, Set.mem_univ]
    · intro h k hk
      have := h k (Finset.mem_range.1 (hS hk))
      simpa only [hB, hk, if_true] using this
  obtain ⟨h1, h2⟩ := together_prob hr env config file zs as cs I B hBm n.toNat 0
  rw [e]
  refine ⟨h1, ?_⟩
  rw [h2, ← Finset.prod_subset hS]
  · refine Finset.prod_congr rfl fun k hk => ?_
    simp only [Nat.zero_add, hB, hk, if_true]
  · intro k hk hk'
    simp only [Nat.zero_add, hB, hk', if_false]
    exact hsim k (Finset.mem_range.1 hk)

/-- **C152.** If every event of the file is simulated almost surely without exception, then so is the run. -/
theorem C152_completes :
    μ {s | (run_simulation env config file (logged W) indices rng ⟨s, (w, [])⟩).1 = .ok ()} = 1 := by
  have := (all_meet hr env config file W hW hW' indices w hz ha hn hcs hnc hA hsim
    (Finset.empty_subset _)).2
  simpa using this

theorem one_meets (k : ℕ) (hk : k < n.toNat) :
    MeasurableSet {s | (run_simulation env config file (logged W) indices rng ⟨s, (w, [])⟩).1 = .ok () ∧
        writtenAt
          (run_simulation env config file (logged W) indices rng ⟨s, (w, [])⟩).2.writer.2 k ∈ A} ∧
    μ {s | (run_simulation env config file (logged W) indices rng ⟨s, (w, [])⟩).1 = .ok () ∧
        writtenAt
          (run_simulation env config file (logged W) indices rng ⟨s, (w, [])⟩).2.writer.2 k ∈ A}
      = μ (alone env config file zs as cs (indices.getD (default_indices zs.length)) rng k A) := by
  have := all_meet hr env config file W hW hW' indices w hz ha hn hcs hnc hA hsim
    (S := {k}) (by simpa using hk)
  simpa using this

theorem almost_ok :
    ∀ᵐ s ∂μ, (run_simulation env config file (logged W) indices rng ⟨s, (w, [])⟩).1 = .ok () := by
  have h := all_meet hr env config file W hW hW' indices w hz ha hn hcs hnc hA hsim
    (Finset.empty_subset _)
  simp only [Finset.notMem_empty, false_imp_iff, implies_true, and_true, Finset.prod_empty] at h
  rw [ae_iff]
  exact (prob_compl_eq_zero_iff h.1).2 h.2

omit [IsProbabilityMeasure μ] hr hW hW' hz ha hn hcs hnc hA hsim [MeasurableSpace σ] in
theorem passed_sum {R : Type} [AddCommMonoidWithOne R] (N : ℕ) (s : σ)
    (h : (run_simulation env config file (logged W) indices rng ⟨s, (w, [])⟩).1 = .ok ()) :
    (passed A N (run_simulation env config file (logged W) indices rng ⟨s, (w, [])⟩).2.writer.2 : R)
      = ∑ k ∈ Finset.range N, Set.indicator
        {s | (run_simulation env config file (logged W) indices rng ⟨s, (w, [])⟩).1 = .ok () ∧
          writtenAt
            (run_simulation env config file (logged W) indices rng ⟨s, (w, [])⟩).2.writer.2 k ∈ A}
        (fun _ => (1 : R)) s := by
  classical
  simp only [Set.indicator_apply, Set.mem_setOf_eq, h, true_and, Finset.sum_boole]
  unfold passed
  congr

/-- **C152.** The mean of the number of events that meet the criterion is the sum of the probabilities of the
single events. -/
theorem C152_mean :
    ∫⁻ s, (passed A n.toNat
        (run_simulation env config file (logged W) indices rng ⟨s, (w, [])⟩).2.writer.2 : ENNReal) ∂μ
      = ∑ k ∈ Finset.range n.toNat,
        μ (alone env config file zs as cs (indices.getD (default_indices zs.length)) rng k A) := by
  have hok := almost_ok hr env config file W hW hW' indices w hz ha hn hcs hnc hA hsim
  rw [lintegral_congr_ae (hok.mono fun s hs => passed_sum env config file W indices w n.toNat s hs),
    lintegral_finset_sum']
  · refine Finset.sum_congr rfl fun k hk => ?_
    obtain ⟨h1, h2⟩ := one_meets hr env config file W hW hW' indices w hz ha hn hcs hnc hA hsim k
      (Finset.mem_range.1 hk)
    rw [lintegral_indicator_const h1, one_mul, h2]
  · intro k hk
    exact (measurable_const.indicator (one_meets hr env config file W hW hW' indices w hz ha hn hcs hnc hA
      hsim k (Finset.mem_range.1 hk)).1).aemeasurable

theorem meets_indep : iIndepSet (fun k : Fin n.toNat =>
    {s | (run_simulation env config file (logged W) indices rng ⟨s, (w, [])⟩).1 = .ok () ∧ writtenAt
      (run_simulation env config file (logged W) indices rng ⟨s, (w, [])⟩).2.writer.2 k ∈ A}) μ := by
  have hEp := fun k : Fin n.toNat =>
    one_meets hr env config file W hW hW' indices w hz ha hn hcs hnc hA hsim k k.2
  rw [iIndepSet_iff_meas_biInter fun k => (hEp k).1]
  intro S
  rcases S.eq_empty_or_nonempty with rfl | ⟨k₀, hk₀⟩
  · simp
  · have hsub : S.map Fin.valEmbedding ⊆ Finset.range n.toNat := by
      intro k hk
      obtain ⟨i, -, rfl⟩ := Finset.mem_map.1 hk
      exact Finset.mem_range.2 i.2
    have := (all_meet hr env config file W hW hW' indices w hz ha hn hcs hnc hA hsim hsub).2
    rw [Finset.prod_map] at this
    rw [Finset.prod_congr rfl fun k _ => (hEp k).2]
    refine Eq.trans ?_ this
    congr 1
    ext s
    simp only [Set.mem_iInter, Set.mem_setOf_eq, Finset.mem_map, Fin.valEmbedding_apply,
      forall_exists_index, and_imp, forall_apply_eq_imp_iff₂]
    exact ⟨fun h => ⟨(h k₀ hk₀).1, fun k hk => (h k hk).2⟩, fun h k hk => ⟨h.1, h.2 k hk⟩⟩

/-- **C152.** The estimate of the efficiency is close to the mean of the probabilities of the single events:
it is wrong by `ε` or more with probability at most `1 / (4 n ε²)`. -/
theorem C152_deviation (hpos : 0 < n) {ε : ℝ} (hε : 0 < ε) :
    μ {s | ε ≤ |fraction A n.toNat
          (run_simulation env config file (logged W) indices rng ⟨s, (w, [])⟩).2.writer.2
        - (∑ k ∈ Finset.range n.toNat, (μ (alone env config file zs as cs
            (indices.getD (default_indices zs.length)) rng k A)).toReal) / n.toNat|}
      ≤ ENNReal.ofReal (1 / (4 * n * ε ^ 2)) := by
  set N := n.toNat with hN
  have hN0 : 0 < N := by omega
  have hNR : (0 : ℝ) < N := by exact_mod_cast hN0
  have hnN : (n : ℝ) = N := by
    rw [hN]
    exact_mod_cast (Int.toNat_of_nonneg hpos.le).symm
  set E : Fin N → Set σ := fun k =>
    {s | (run_simulation env config file (logged W) indices rng ⟨s, (w, [])⟩).1 = .ok () ∧
      writtenAt (run_simulation env config file (logged W) indices rng ⟨s, (w, [])⟩).2.writer.2 k ∈ A}
    with hE
  set p : ℕ → ENNReal := fun k =>
    μ (alone env config file zs as cs (indices.getD (default_indices zs.length)) rng k A) with hp
  have hEm : ∀ k, MeasurableSet (E k) := fun k =>
    (one_meets hr env config file W hW hW' indices w hz ha hn hcs hnc hA hsim k k.2).1
  have hEp : ∀ k, μ (E k) = p k := fun k =>
    (one_meets hr env config file W hW hW' indices w hz ha hn hcs hnc hA hsim k k.2).2
  have hind : iIndepSet E μ :=
    meets_indep hr env config file W hW hW' indices w hz ha hn hcs hnc hA hsim
  set X : Fin N → σ → ℝ := fun k => (E k).indicator fun _ => (1 : ℝ) with hX
  have hXmem : ∀ k, MemLp (X k) 2 μ := fun k =>
    memLp_indicator_const 2 (hEm k) 1 (.inr (measure_ne_top _ _))
  have hXint : ∀ k, ∫ s, X k s ∂μ = (p k).toReal := by
    intro k
    rw [hX]
    simp only
    rw [integral_indicator_const _ (hEm k), smul_eq_mul, mul_one, Measure.real, hEp]
  have hXvar : ∀ k, Var[X k; μ] ≤ 1 / 4 := by
    intro k
    have h01 : ∀ᵐ s ∂μ, X k s ∈ Set.Icc (0 : ℝ) 1 := by
      refine Filter.Eventually.of_forall fun s => ?_
      by_cases hs : s ∈ E k
      · simp [hX, hs]
      · simp [hX, hs]
    have := variance_le_sq_of_bounded h01 (hXmem k).aemeasurable
    norm_num at this ⊢
    linarith
  set Y : σ → ℝ := ∑ k, X k with hY
  have hYmem : MemLp Y 2 μ := memLp_finset_sum' _ fun k _ => hXmem k
  have hYint : ∫ s, Y s ∂μ = ∑ k ∈ Finset.range N, (p k).toReal := by
    rw [hY]
    simp only [Finset.sum_apply]
    rw [integral_finset_sum _ fun k _ => (hXmem k).integrable one_le_two,
      Finset.sum_congr rfl fun k _ => hXint k, Finset.sum_range]
  have hYvar : Var[Y; μ] ≤ N / 4 := by
    rw [hY, IndepFun.variance_sum (fun k _ => hXmem k) fun i _ j _ hij =>
      hind.iIndepFun_indicator.indepFun hij]
    calc ∑ k, Var[X k; μ] ≤ ∑ _k : Fin N, (1 / 4 : ℝ) := Finset.sum_le_sum fun k _ => hXvar k
      _ = N / 4 := by simp; ring
  have hcheb := meas_ge_le_variance_div_sq hYmem (c := N * ε) (by positivity)
  have hok := almost_ok hr env config file W hW hW' indices w hz ha hn hcs hnc hA hsim
  have hle : ({s | ε ≤ |fraction A N
          (run_simulation env config file (logged W) indices rng ⟨s, (w, [])⟩).2.writer.2
        - (∑ k ∈ Finset.range N, (p k).toReal) / N|} : Set σ)
      ≤ᵐ[μ] {s | N * ε ≤ |Y s - ∫ s, Y s ∂μ|} := by
    filter_upwards [hok] with s hs
    intro h
    change ε ≤ |_| at h
    change N * ε ≤ |_|
    have e : Y s = passed A N
        (run_simulation env config file (logged W) indices rng ⟨s, (w, [])⟩).2.writer.2 := by
      rw [passed_sum env config file W indices w N s hs, Finset.sum_range, hY, Finset.sum_apply]
    rw [e, hYint]
    unfold fraction at h
    rw [← sub_div, abs_div, abs_of_pos hNR, le_div_iff₀ hNR] at h
    linarith
  refine (measure_mono_ae hle).trans (hcheb.trans (ENNReal.ofReal_le_ofReal ?_))
  rw [hnN, div_le_div_iff₀ (by positivity) (by positivity)]
  nlinarith [mul_le_mul_of_nonneg_right hYvar (show (0 : ℝ) ≤ 4 * N * ε ^ 2 by positivity)]

/-- **C152.** The same with an exponential bound, which is the better one for large files: the estimate of
the efficiency is wrong by `ε` or more with probability at most `2 exp (-2 n ε²)`. -/
theorem C152_exponential (hpos : 0 < n) {ε : ℝ} (hε : 0 ≤ ε) :
    μ {s | ε ≤ |fraction A n.toNat
          (run_simulation env config file (logged W) indices rng ⟨s, (w, [])⟩).2.writer.2
        - (∑ k ∈ Finset.range n.toNat, (μ (alone env config file zs as cs
            (indices.getD (default_indices zs.length)) rng k A)).toReal) / n.toNat|}
      ≤ ENNReal.ofReal (2 * Real.exp (-2 * n * ε ^ 2)) := by
  set N := n.toNat with hN
  have hN0 : 0 < N := by omega
  have hNR : (0 : ℝ) < N := by exact_mod_cast hN0
  have hnN : (n : ℝ) = N := by
    rw [hN]
    exact_mod_cast (Int.toNat_of_nonneg hpos.le).symm
  set E : Fin N → Set σ := fun k =>
    {s | (run_simulation env config file (logged W) indices rng ⟨s, (w, [])⟩).1 = .ok () ∧
      writtenAt (run_simulation env config file (logged W) indices rng ⟨s, (w, [])⟩).2.writer.2 k ∈ A}
    with hE
  set p : ℕ → ENNReal := fun k =>
    μ (alone env config file zs as cs (indices.getD (default_indices zs.length)) rng k A) with hp
  have hEm : ∀ k, MeasurableSet (E k) := fun k =>
    (one_meets hr env config file W hW hW' indices w hz ha hn hcs hnc hA hsim k k.2).1
  have hEp : ∀ k, μ (E k) = p k := fun k =>
    (one_meets hr env config file W hW hW' indices w hz ha hn hcs hnc hA hsim k k.2).2
  have hind : iIndepSet E μ :=
    meets_indep hr env config file W hW hW' indices w hz ha hn hcs hnc hA hsim
  set X : Fin N → σ → ℝ := fun k s => (E k).indicator (fun _ => (1 : ℝ)) s - (p k).toReal with hX
  have hXind : iIndepFun X μ :=
    hind.iIndepFun_indicator.comp (fun k (x : ℝ) => x - (p k).toReal) fun k => measurable_id.sub_const _
  have hXsub : ∀ k, HasSubgaussianMGF (X k) ((‖(1 : ℝ) - 0‖₊ / 2) ^ 2) μ := by
    intro k
    have h01 : ∀ᵐ s ∂μ, (E k).indicator (fun _ => (1 : ℝ)) s ∈ Set.Icc (0 : ℝ) 1 := by
      refine Filter.Eventually.of_forall fun s => ?_
      by_cases hs : s ∈ E k
      · simp [hs]
      · simp [hs]
    have := hasSubgaussianMGF_of_mem_Icc (measurable_const.indicator (hEm k)).aemeasurable h01
    rwa [integral_indicator_const _ (hEm k), smul_eq_mul, mul_one, Measure.real, hEp] at this
  have hc : (∑ _k : Fin N, ((‖(1 : ℝ) - 0‖₊ / 2) ^ 2 : NNReal) : NNReal) = (N : ℝ) / 4 := by
    simp
    ring
  have up := HasSubgaussianMGF.measure_sum_ge_le_of_iIndepFun hXind
    (s := Finset.univ) (fun k _ => hXsub k) (ε := N * ε) (by positivity)
  have down := HasSubgaussianMGF.measure_sum_ge_le_of_iIndepFun
    (hXind.comp (fun _ (x : ℝ) => -x) fun _ => measurable_neg)
    (s := Finset.univ) (fun k _ => (hXsub k).neg) (ε := N * ε) (by positivity)
  have hexp : -(N * ε) ^ 2 / (2 * ((N : ℝ) / 4)) = -2 * n * ε ^ 2 := by
    rw [hnN]
    field_simp
    ring
  rw [hc, hexp] at up down
  have hok := almost_ok hr env config file W hW hW' indices w hz ha hn hcs hnc hA hsim
  have hle : ({s | ε ≤ |fraction A N
          (run_simulation env config file (logged W) indices rng ⟨s, (w, [])⟩).2.writer.2
        - (∑ k ∈ Finset.range N, (p k).toReal) / N|} : Set σ)
      ≤ᵐ[μ] ({s | N * ε ≤ ∑ k, X k s} ∪ {s | N * ε ≤ ∑ k, ((fun x : ℝ => -x) ∘ X k) s} : Set σ) := by
    filter_upwards [hok] with s hs
    intro h
    change ε ≤ |_| at h
    have e : ∑ k, X k s = passed A N
        (run_simulation env config file (logged W) indices rng ⟨s, (w, [])⟩).2.writer.2
          - ∑ k ∈ Finset.range N, (p k).toReal := by
      rw [passed_sum env config file W indices w N s hs, Finset.sum_range, Finset.sum_range,
        ← Finset.sum_sub_distrib]
    unfold fraction at h
    rw [← sub_div, abs_div, abs_of_pos hNR, le_div_iff₀ hNR, ← e] at h
    change N * ε ≤ _ ∨ N * ε ≤ _
    rcases le_abs.1 h with h | h
    · left; linarith
    · right
      simp only [Function.comp_apply, Finset.sum_neg_distrib]
      linarith
  refine (measure_mono_ae hle).trans ((measure_union_le _ _).trans ?_)
  rw [two_mul, ENNReal.ofReal_add (by positivity) (by positivity)]
  refine add_le_add ?_ ?_
  · rw [← ofReal_measureReal]
    exact ENNReal.ofReal_le_ofReal up
  · rw [← ofReal_measureReal]
    exact ENNReal.ofReal_le_ofReal down

end

/-! ## Example: half of the events of a file have their first point in the first half of a time bucket -/

/-- The criterion: the first point of the cloud is stored before time 50.5. -/
def exEarly : Set (List CloudPoint × List ℤ) := {r | (r.1.map (·.tb)).getD 0 0 < 50.5}

theorem exEarly_measurable : MeasurableSet exEarly := by
  have h : Measurable fun r : List CloudPoint × List ℤ => (r.1.map (·.tb)).getD 0 0 :=
    (measurable_list_getD 0).comp
      (measurable_fst.comp (measurable_snd.comp (measurable_columns.comp measurable_fst)))
  exact h measurableSet_Iio

theorem exAlone (k : ℕ) (hk : k < 2) (A : Set (List CloudPoint × List ℤ)) :
    alone exEnv (exConfig 100 0) exKinFile [1, 1, 1] [1, 1, 1] 1 [2] pairGen k A
      = {s | (([⟨5, 50 + ((s 2).2 : ℝ), 100⟩], [2]) : List CloudPoint × List ℤ) ∈ A} := by
  have r : read_event exKinFile 1 k = .ok (exMomenta, (0, 0, 0.5)) := by
    interval_cases k <;> rfl
  ext s
  obtain ⟨s', h⟩ := pairSimulate 100 s
  simp only [alone, Set.mem_setOf_eq, r]
  constructor
  · rintro ⟨m, v, g, x, s'', h', hx⟩
    obtain ⟨rfl, rfl⟩ := Prod.mk.inj (Except.ok.inj g)
    rw [h] at h'
    obtain ⟨rfl, -⟩ := Prod.mk.inj (Except.ok.inj h')
    exact_mod_cast hx
  · intro hx
    exact ⟨_, _, rfl, _, s', h, by exact_mod_cast hx⟩

theorem exEarly_half (k : ℕ) (hk : k < 2) :
    pairMeasure (alone exEnv (exConfig 100 0) exKinFile [1, 1, 1] [1, 1, 1] 1 [2] pairGen k exEarly)
      = 1 / 2 := by
  rw [exAlone k hk, ← pair_half]
  congr 1
  ext s
  obtain ⟨s', h⟩ := pairSimulate 100 s
  have hu := (s 2).2.2
  simp only [exEarly, Set.mem_setOf_eq, List.map_cons, List.map_nil, List.getD_cons_zero]
  constructor
  · intro hs
    refine ⟨_, _, s', h, rfl, ?_⟩
    refine List.Forall₂.cons ⟨⟨by norm_num, ?_, by norm_num, rfl⟩, ?_, ?_⟩ .nil
    · rw [show (50 : ℝ) = ((50 : ℤ) : ℝ) by norm_num, Int.floor_intCast_add,
        Int.floor_eq_zero_iff.2 hu]
      rfl
    · have := hu.1
      norm_num
      linarith
    · norm_num at hs ⊢
      linarith
  · rintro ⟨cloud, labels, s'', h', -, hf⟩
    rw [h] at h'
    obtain ⟨⟨rfl, rfl⟩, -⟩ : (_ ∧ _) ∧ _ := by simpa only [Except.ok.injEq, Prod.mk.injEq] using h'
    cases hf with
    | cons q _ =>
      have := q.2.2
      norm_num at this ⊢
      linarith

theorem exSimulated (k : ℕ) (hk : k < 2) :
    pairMeasure (alone exEnv (exConfig 100 0) exKinFile [1, 1, 1] [1, 1, 1] 1 [2] pairGen k Set.univ)
      = 1 := by
  rw [exAlone k hk]
  simp

/-- Exactly one of the two events has an early first point with probability 1/2. -/
example : pairMeasure {s | (run_simulation exEnv (exConfig 100 0) exKinFile (logged exSink) (some [2])
      pairGen ⟨s, ((), [])⟩).1 = .ok () ∧
    passed exEarly 2 (run_simulation exEnv (exConfig 100 0) exKinFile (logged exSink) (some [2])
      pairGen ⟨s, ((), [])⟩).2.writer.2 = 1} = 1 / 2 := by
  have hq : ∀ k < 2, pairMeasure (alone exEnv (exConfig 100 0) exKinFile [1, 1, 1] [1, 1, 1] 1 [2] pairGen
      k exEarlyᶜ) = 1 / 2 := by
    intro k hk
    have := alone_add pairGen_ideal.fresh exEnv (exConfig 100 0) exKinFile [1, 1, 1] [1, 1, 1] 1 [2] k
      exEarly_measurable
    rw [exEarly_half k hk, exSimulated k hk] at this
    have h2 : (1 / 2 : ENNReal) + 1 / 2 = 1 := ENNReal.add_halves 1
    exact (ENNReal.add_right_inj (show (1 / 2 : ENNReal) ≠ ⊤ by simp)).1 (this.trans h2.symm)
  have := C152_binomial pairGen_ideal.fresh exEnv (exConfig 100 0) exKinFile exSink
    (fun _ _ _ _ _ => rfl) (fun _ => rfl) (some [2]) () (zs := [1, 1, 1]) (as := [1, 1, 1]) (n := 2)
    (cs := 1) (nc := 2) rfl rfl rfl rfl rfl exEarly_measurable (1 / 2) (1 / 2)
    (fun k hk => exEarly_half k hk) hq 1
  have e2 : (2 : ℤ).toNat = 2 := rfl
  rw [e2] at this
  rw [this]
  norm_num
  rw [ENNReal.mul_inv_cancel (by norm_num) (by norm_num), one_mul]

/-- The mean number of early events is 1. -/
example : ∫⁻ s, (passed exEarly 2 (run_simulation exEnv (exConfig 100 0) exKinFile (logged exSink) (some [2])
      pairGen ⟨s, ((), [])⟩).2.writer.2 : ENNReal) ∂pairMeasure = 1 := by
  have := C152_mean pairGen_ideal.fresh exEnv (exConfig 100 0) exKinFile exSink
    (fun _ _ _ _ _ => rfl) (fun _ => rfl) (some [2]) () (zs := [1, 1, 1]) (as := [1, 1, 1]) (n := 2)
    (cs := 1) (nc := 2) rfl rfl rfl rfl rfl exEarly_measurable (fun k hk => exSimulated k hk)
  have e2 : (2 : ℤ).toNat = 2 := rfl
  rw [e2] at this
  rw [this, Finset.sum_range_succ, Finset.sum_range_one]
  exact (congrArg₂ (· + ·) (exEarly_half 0 (by norm_num)) (exEarly_half 1 (by norm_num))).trans
    (ENNReal.add_halves 1)

end Verif.Props
