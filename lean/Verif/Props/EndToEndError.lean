import Verif.Proofs.Binomial
import Verif.Props.EndToEndLaw

/-! # C155: the statistical error of an efficiency estimated with the whole chain -/

namespace Verif.Props

open MeasureTheory Verif.Spec Verif.Detector Verif.Kinematics

theorem passed_le (A : Set (List CloudPoint × List ℤ)) (n : ℕ) (log : List Call) : passed A n log ≤ n := by
  classical
  exact (Finset.card_filter_le _ _).trans (Finset.card_range n).le

section

variable {σ σ' τ : Type} [MeasurableSpace σ] {μ : Measure σ} [IsProbabilityMeasure μ] {p : Pipeline σ}
  {v : σ → Sample} {g : σ → σ} [MeasurableSpace σ'] {μ' : Measure σ'} [IsProbabilityMeasure μ']
  {rng : Gen σ'} {u z : σ' → ℝ} {next skip : σ' → σ'}

variable (h : RunsOk p) (hf : Fresh μ v g) (hs : ∀ s, p.sample s = .ok (v s, g s))
  (hr : FreshGen rng μ' u z next skip) (zs as : List ℤ) (cs : ℕ) (hcs : 1 ≤ cs) (n : ℕ)
  {buf : List ResultRow} (hlen : buf.length = 4 + 2 * p.decays.length)
  (env : SimEnv) (config : Config) (W : SimWriter τ)
  (hW : ∀ cloud labels c n w, (W.write cloud labels c n w).1 = .ok ())
  (hW' : ∀ w, (W.close w).1 = .ok ()) (indices : Option (List ℤ)) (w : τ)
  {A : Set (List CloudPoint × List ℤ)} (hA : MeasurableSet A)

include hr hcs hW hW' hA in
omit [MeasurableSpace σ] in
theorem chain_passed_measurable (m : ℕ) (s : σ) :
    MeasurableSet {s' | WholeOk p zs as cs n buf env config W indices rng w s s' ∧
      passed A n (wholeLog p zs as cs n buf env config W indices rng w s s') = m} := by
  unfold WholeOk wholeLog
  rcases hrun : run_kinematics_pipeline p.runCopy zs as cs n ⟨s, buf⟩ with ⟨o, st⟩
  cases o with
  | error e => simp
  | ok _ =>
    obtain ⟨a1, a2, a3, a4, nc, a5⟩ := final_attrs _ zs as cs hcs n _ st hrun
    have := (C152_law hr env config (mapData plainRows st.file) W hW hW' indices w
      (zs := zs) (as := as) (n := n) (cs := cs) (nc := nc) a3 a4 a1 a2 a5 hA m).1
    simpa using this

variable (hm : SampledMeasurable p v (response μ' env config p zs as (indices.getD (default_indices zs.length)) rng A))
  (hm' : SampledMeasurable p v
    (response μ' env config p zs as (indices.getD (default_indices zs.length)) rng Aᶜ))
  {P R : ENNReal} (hP : P = acceptedMean μ p v
    (response μ' env config p zs as (indices.getD (default_indices zs.length)) rng A))
  (hR : R = acceptedMean μ p v
    (response μ' env config p zs as (indices.getD (default_indices zs.length)) rng Set.univ))
  (h0 : R ≠ 0)

include h hf hs hr hcs hlen hW hW' hA hm hm' hP hR h0

/-- **C155.** The probability that both programs complete and that the number of events meeting the criterion
lies in `M` is that of completing times the probability of `M` under the binomial law. -/
theorem C155_counts (M : Set ℕ) [DecidablePred (· ∈ M)] :
    ∫⁻ s, μ' {s' | WholeOk p zs as cs n buf env config W indices rng w s s' ∧
        passed A n (wholeLog p zs as cs n buf env config W indices rng w s s') ∈ M} ∂μ
      = (∫⁻ s, μ' {s' | WholeOk p zs as cs n buf env config W indices rng w s s'} ∂μ)
        * ∑ m ∈ (Finset.range (n + 1)).filter (· ∈ M),
            (n.choose m : ENNReal) * (P / R) ^ m * (1 - P / R) ^ (n - m) := by
  have split : ∀ s, μ' {s' | WholeOk p zs as cs n buf env config W indices rng w s s' ∧
        passed A n (wholeLog p zs as cs n buf env config W indices rng w s s') ∈ M}
      = ∑ m ∈ (Finset.range (n + 1)).filter (· ∈ M),
        μ' {s' | WholeOk p zs as cs n buf env config W indices rng w s s' ∧
          passed A n (wholeLog p zs as cs n buf env config W indices rng w s s') = m} := by
    intro s
    rw [← measure_biUnion_finset]
    · congr 1
      ext s'
      simp only [Set.mem_setOf_eq, Set.mem_iUnion, Finset.mem_filter, Finset.mem_range, exists_prop]
      constructor
      · rintro ⟨h1, h2⟩
        exact ⟨_, ⟨Nat.lt_succ_of_le (passed_le _ _ _), h2⟩, h1, rfl⟩
      · rintro ⟨m, ⟨-, h2⟩, h1, rfl⟩
        exact ⟨h1, h2⟩
    · intro a _ b _ hab
      refine Set.disjoint_left.2 ?_
      rintro s' ⟨-, h1⟩ ⟨-, h2⟩
      exact hab (h1.symm.trans h2)
    · exact fun m _ => chain_passed_measurable hr zs as cs hcs n env config W hW hW' indices w hA m s
  simp only [split]
  rw [lintegral_finset_sum _ fun m _ =>
    (chain_binomial h hf hs hr zs as cs hcs n hlen env config W hW hW' indices w hA hm hm' m).1,
    Finset.mul_sum]
  exact Finset.sum_congr rfl fun m _ =>
    C153_conditional h hf hs hr zs as cs hcs n hlen env config W hW hW' indices w hA hm hm' hP hR h0 m

omit h hs hcs hlen hW hW' hm' in
theorem ratio_le : P / R ≤ 1 := by
  refine ENNReal.div_le_of_le_mul ?_
  rw [one_mul, hP, hR, ← mean_add hf hr zs as env config indices hA hm]
  exact le_self_add

omit h hf hs hr hcs hlen hW hW' hA hm hm' hP hR h0 [IsProbabilityMeasure μ] [IsProbabilityMeasure μ']
  [MeasurableSpace σ] [MeasurableSpace σ'] in
theorem term_ofReal {P R : ENNReal} (h : P / R ≤ 1) (n m : ℕ) :
    (n.choose m : ENNReal) * (P / R) ^ m * (1 - P / R) ^ (n - m)
      = ENNReal.ofReal (binomTerm n (P / R).toReal m) := by
  have ht : P / R ≠ ⊤ := ne_top_of_le_ne_top ENNReal.one_ne_top h
  have h1 : (P / R).toReal ≤ 1 := by simpa using ENNReal.toReal_mono ENNReal.one_ne_top h
  have h2 : 0 ≤ 1 - (P / R).toReal := by linarith
  have e : 1 - P / R = ENNReal.ofReal (1 - (P / R).toReal) := by
    rw [ENNReal.ofReal_sub _ ENNReal.toReal_nonneg, ENNReal.ofReal_one, ENNReal.ofReal_toReal ht]
  unfold binomTerm
  rw [ENNReal.ofReal_mul (by positivity), ENNReal.ofReal_mul (by positivity), ENNReal.ofReal_pow (by positivity),
    ENNReal.ofReal_pow h2, ENNReal.ofReal_toReal ht, ENNReal.ofReal_natCast, ← e]

open Classical in
theorem deviation_of {ε C : ℝ}
    (hC : ∑ m ∈ (Finset.range (n + 1)).filter (fun m : ℕ => ε ≤ |(m : ℝ) / n - (P / R).toReal|),
      binomTerm n (P / R).toReal m ≤ C) :
    ∫⁻ s, μ' {s' | WholeOk p zs as cs n buf env config W indices rng w s s' ∧
        ε ≤ |fraction A n (wholeLog p zs as cs n buf env config W indices rng w s s') - (P / R).toReal|} ∂μ
      ≤ (∫⁻ s, μ' {s' | WholeOk p zs as cs n buf env config W indices rng w s s'} ∂μ)
        * ENNReal.ofReal C := by
  have h1 := C155_counts h hf hs hr zs as cs hcs n hlen env config W hW hW' indices w hA hm hm' hP hR h0
    {m : ℕ | ε ≤ |(m : ℝ) / n - (P / R).toReal|}
  simp only [Set.mem_setOf_eq] at h1
  unfold fraction
  rw [h1]
  refine mul_le_mul_right ?_ _
  have hle := ratio_le hf hr zs as env config indices hA hm hP hR h0
  rw [Finset.sum_congr rfl fun m _ => term_ofReal hle n m, ← ENNReal.ofReal_sum_of_nonneg fun m _ =>
    binomTerm_nonneg ENNReal.toReal_nonneg (by simpa using ENNReal.toReal_mono ENNReal.one_ne_top hle) m]
  exact ENNReal.ofReal_le_ofReal hC

/-- **C155.** Given that both programs complete, the estimated efficiency differs from the true one by `ε`
or more with a probability of at most its variance `r (1 - r) / n` divided by `ε²`. -/
theorem C155_chebyshev (hn : 0 < n) {ε : ℝ} (hε : 0 < ε) :
    ∫⁻ s, μ' {s' | WholeOk p zs as cs n buf env config W indices rng w s s' ∧
        ε ≤ |fraction A n (wholeLog p zs as cs n buf env config W indices rng w s s') - (P / R).toReal|} ∂μ
      ≤ (∫⁻ s, μ' {s' | WholeOk p zs as cs n buf env config W indices rng w s s'} ∂μ)
        * ENNReal.ofReal ((P / R).toReal * (1 - (P / R).toReal) / (n * ε ^ 2)) :=
  deviation_of h hf hs hr zs as cs hcs n hlen env config W hW hW' indices w hA hm hm' hP hR h0
    (binom_chebyshev hn ENNReal.toReal_nonneg (by
      simpa using ENNReal.toReal_mono ENNReal.one_ne_top
        (ratio_le hf hr zs as env config indices hA hm hP hR h0)) hε)

/-- **C155.** The same probability falls exponentially with the number of events. -/
theorem C155_exponential (hn : 0 < n) {ε : ℝ} (hε : 0 ≤ ε) :
    ∫⁻ s, μ' {s' | WholeOk p zs as cs n buf env config W indices rng w s s' ∧
        ε ≤ |fraction A n (wholeLog p zs as cs n buf env config W indices rng w s s') - (P / R).toReal|} ∂μ
      ≤ (∫⁻ s, μ' {s' | WholeOk p zs as cs n buf env config W indices rng w s s'} ∂μ)
        * ENNReal.ofReal (2 * Real.exp (-2 * n * ε ^ 2)) :=
  deviation_of h hf hs hr zs as cs hcs n hlen env config W hW hW' indices w hA hm hm' hP hR h0
    (binom_hoeffding hn ENNReal.toReal_nonneg (by
      simpa using ENNReal.toReal_mono ENNReal.one_ne_top
        (ratio_le hf hr zs as env config indices hA hm hP hR h0)) hε)

/-- **C155.** Given that both programs complete, the number of events meeting the criterion is on average `n`
times the true efficiency: the estimate has no bias. -/
theorem C155_unbiased :
    ∫⁻ s, ∫⁻ s' in {s' | WholeOk p zs as cs n buf env config W indices rng w s s'},
        (passed A n (wholeLog p zs as cs n buf env config W indices rng w s s') : ENNReal) ∂μ' ∂μ
      = (∫⁻ s, μ' {s' | WholeOk p zs as cs n buf env config W indices rng w s s'} ∂μ) * (n * (P / R)) := by
  classical
  have hpm := fun m s => chain_passed_measurable (p := p) (buf := buf) hr zs as cs hcs n env config W hW hW'
    indices w hA m s
  have hok : ∀ s, MeasurableSet {s' | WholeOk p zs as cs n buf env config W indices rng w s s'} := by
    intro s
    have : {s' | WholeOk p zs as cs n buf env config W indices rng w s s'}
        = ⋃ m, {s' | WholeOk p zs as cs n buf env config W indices rng w s s' ∧
          passed A n (wholeLog p zs as cs n buf env config W indices rng w s s') = m} := by
      ext s'
      simp
    rw [this]
    exact MeasurableSet.iUnion fun m => hpm m s
  have inner : ∀ s, ∫⁻ s' in {s' | WholeOk p zs as cs n buf env config W indices rng w s s'},
        (passed A n (wholeLog p zs as cs n buf env config W indices rng w s s') : ENNReal) ∂μ'
      = ∑ m ∈ Finset.range (n + 1), (m : ENNReal)
        * μ' {s' | WholeOk p zs as cs n buf env config W indices rng w s s' ∧
          passed A n (wholeLog p zs as cs n buf env config W indices rng w s s') = m} := by
    intro s
    rw [← lintegral_indicator (hok s)]
    have e : ∀ s', ({s' | WholeOk p zs as cs n buf env config W indices rng w s s'}.indicator fun s' =>
          (passed A n (wholeLog p zs as cs n buf env config W indices rng w s s') : ENNReal)) s'
        = ∑ m ∈ Finset.range (n + 1), ({s' | WholeOk p zs as cs n buf env config W indices rng w s s' ∧
          passed A n (wholeLog p zs as cs n buf env config W indices rng w s s') = m}.indicator
            fun _ => (m : ENNReal)) s' := by
      intro s'
      by_cases hw : WholeOk p zs as cs n buf env config W indices rng w s s'
      · rw [Finset.sum_eq_single (passed A n (wholeLog p zs as cs n buf env config W indices rng w s s'))]
        · simp [hw]
        · intro m _ hne
          simp [hw, Ne.symm hne]
        · intro hnot
          exact absurd (Finset.mem_range.2 (Nat.lt_succ_of_le (passed_le _ _ _))) hnot
      · simp [hw]
    simp only [e]
    rw [lintegral_finset_sum _ fun m _ => measurable_const.indicator (hpm m s)]
    exact Finset.sum_congr rfl fun m _ => lintegral_indicator_const (hpm m s) _
  have hb := fun m => (chain_binomial h hf hs hr zs as cs hcs n hlen env config W hW hW' indices w
    hA hm hm' m).1
  simp only [inner]
  rw [lintegral_finset_sum _ fun m _ => (hb m).const_mul _]
  have hle := ratio_le hf hr zs as env config indices hA hm hP hR h0
  have h1 : (P / R).toReal ≤ 1 := by simpa using ENNReal.toReal_mono ENNReal.one_ne_top hle
  have step : ∀ m ∈ Finset.range (n + 1), ∫⁻ s, (m : ENNReal)
      * μ' {s' | WholeOk p zs as cs n buf env config W indices rng w s s' ∧
        passed A n (wholeLog p zs as cs n buf env config W indices rng w s s') = m} ∂μ
      = (∫⁻ s, μ' {s' | WholeOk p zs as cs n buf env config W indices rng w s s'} ∂μ)
        * ENNReal.ofReal (m * binomTerm n (P / R).toReal m) := by
    intro m _
    rw [lintegral_const_mul _ (hb m),
      C153_conditional h hf hs hr zs as cs hcs n hlen env config W hW hW' indices w hA hm hm' hP hR h0 m,
      term_ofReal hle, ENNReal.ofReal_mul (by positivity), ENNReal.ofReal_natCast]
    ring
  rw [Finset.sum_congr rfl step, ← Finset.mul_sum, ← ENNReal.ofReal_sum_of_nonneg fun m _ =>
    mul_nonneg (Nat.cast_nonneg m) (binomTerm_nonneg ENNReal.toReal_nonneg h1 m), binomTerm_mean,
    ENNReal.ofReal_mul (by positivity), ENNReal.ofReal_natCast,
    ENNReal.ofReal_toReal (ne_top_of_le_ne_top ENNReal.one_ne_top hle)]

end

/-! ## Example -/

/-- The efficiency of the chain of C153 is 1/2. Given that both programs complete, the efficiency estimated
from 1000 events is wrong by 1/10 or more with probability at most 1/40. -/
example : ∫⁻ s, pairMeasure {s' | WholeOk halfPipe [1, 1, 1, 1] [1, 1, 1, 1] 1 1000 (List.replicate 4 none)
      exEnv (exConfig 100 0) exSink (some [2]) pairGen () s s' ∧
      1 / 10 ≤ |fraction exEarly 1000 (wholeLog halfPipe [1, 1, 1, 1] [1, 1, 1, 1] 1 1000
        (List.replicate 4 none) exEnv (exConfig 100 0) exSink (some [2]) pairGen () s s') - 1 / 2|}
      ∂streamMeasure
    ≤ (∫⁻ s, pairMeasure {s' | WholeOk halfPipe [1, 1, 1, 1] [1, 1, 1, 1] 1 1000 (List.replicate 4 none) exEnv
        (exConfig 100 0) exSink (some [2]) pairGen () s s'} ∂streamMeasure) * ENNReal.ofReal (1 / 40) := by
  obtain ⟨v, g, hf, hs⟩ := halfPipe_fresh
  have e1 : pairMeasure {s | (([⟨5, 50 + ((s 2).2 : ℝ), 100⟩], [2]) : List CloudPoint × List ℤ) ∈ exEarly}
      = 2⁻¹ := by
    rw [← exAlone 0 (by norm_num), exEarly_half 0 (by norm_num), one_div]
  have e2 : pairMeasure {s | (([⟨5, 50 + ((s 2).2 : ℝ), 100⟩], [2]) : List CloudPoint × List ℤ) ∈ exEarlyᶜ}
      = 2⁻¹ := by
    have := alone_add pairGen_ideal.fresh exEnv (exConfig 100 0) exKinFile [1, 1, 1] [1, 1, 1] 1 [2] 0
      exEarly_measurable
    rw [exSimulated 0 (by norm_num), exAlone 0 (by norm_num), exAlone 0 (by norm_num), e1,
      ← ENNReal.inv_two_add_inv_two] at this
    exact (ENNReal.add_right_inj (by simp)).1 this
  have hP := exAcceptedMean hf hs e1
  have hR := mean_add hf pairGen_ideal.fresh [1, 1, 1, 1] [1, 1, 1, 1] exEnv (exConfig 100 0) (some [2])
    exEarly_measurable (exMeasurable hs _)
  simp only [Option.getD_some] at hR
  rw [hP, exAcceptedMean hf hs e2] at hR
  have hr : ((7 / 16 : ENNReal) / (7 / 16 + 7 / 16)).toReal = 1 / 2 := by
    rw [ENNReal.toReal_div, ENNReal.toReal_add (by finiteness) (by finiteness)]
    simp
    norm_num
  have := C155_chebyshev halfPipe_ok hf hs pairGen_ideal.fresh [1, 1, 1, 1] [1, 1, 1, 1] 1 le_rfl 1000
    (buf := List.replicate 4 none) rfl exEnv (exConfig 100 0) exSink (fun _ _ _ _ _ => rfl) (fun _ => rfl)
    (some [2]) () exEarly_measurable (exMeasurable hs _) (exMeasurable hs _) hP.symm hR (by simp)
    (by norm_num) (ε := 1 / 10) (by norm_num)
  rw [hr] at this
  refine this.trans (le_of_eq ?_)
  norm_num

end Verif.Props
