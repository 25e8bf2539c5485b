import Verif.Props.CloudLaw
import Verif.Props.MachineStored
import Mathlib.MeasureTheory.Measure.Prod

/-! # C148: the times of an event are almost surely all different, and the files do not depend on how ties are
sorted -/

namespace Verif.Props

open MeasureTheory Verif.Spec Verif.Detector Verif.Kinematics
open Verif.Machine (takeIdx_map_getD getD_lt maskSel_sublist)

variable {σ τ : Type} [MeasurableSpace σ] {μ : Measure σ} [IsProbabilityMeasure μ]
  {rng : Gen σ} {u z : σ → ℝ} {next skip : σ → σ}

/-- No two rows of the cloud have times within `ε` of each other. -/
def TimesApart (ε : ℝ) (cloud : List CloudPoint) : Prop :=
  cloud.Pairwise fun p q => ε < |p.tb - q.tb|

/-! ## Two draws -/

theorem next_preserves (hr : FreshGen rng μ u z next skip) : MeasurePreserving next μ μ := by
  refine ⟨hr.fresh_uniform.state, ?_⟩
  ext A hA
  rw [Measure.map_apply hr.fresh_uniform.state hA]
  have := hr.fresh_uniform.indep Set.univ A MeasurableSet.univ hA
  exact (by simpa using this : μ {s | next s ∈ A} = μ A)

theorem first_and_later (hr : FreshGen rng μ u z next skip) (m : ℕ) :
    μ.map (fun s => (u s, u (next^[m] (next s)))) = (μ.map u).prod (μ.map u) := by
  have hp := (next_preserves hr).iterate m
  have hu := hr.fresh_uniform.value
  have hv : Measurable fun s => u (next^[m] s) := hu.comp hp.measurable
  have e : μ.map (fun s => u (next^[m] s)) = μ.map u := by
    have := Measure.map_map (μ := μ) hu hp.measurable
    rw [hp.map_eq] at this
    exact this.symm
  symm
  refine Measure.prod_eq fun A B hA hB => ?_
  have hf : Measurable fun s => (u s, u (next^[m] (next s))) := hu.prodMk (hv.comp hr.fresh_uniform.state)
  rw [Measure.map_apply hf (hA.prod hB), Measure.map_apply hu hA, ← Measure.map_apply hu hA,
    show (μ.map u) A * (μ.map u) B = (μ.map u) A * (μ.map fun s => u (next^[m] s)) B by rw [e],
    Measure.map_apply hu hA, Measure.map_apply hv hB]
  exact hr.fresh_uniform.indep A _ hA (hv hB)

theorem uniform_strip (a ε : ℝ) : ((volume.restrict (Set.Ico (0 : ℝ) 1)).prod (volume.restrict (Set.Ico (0 : ℝ) 1)))
    {p : ℝ × ℝ | |a + p.1 - p.2| ≤ ε} ≤ ENNReal.ofReal (2 * ε) := by
  have hm : MeasurableSet {p : ℝ × ℝ | |a + p.1 - p.2| ≤ ε} :=
    measurableSet_le (by fun_prop) measurable_const
  rw [Measure.prod_apply hm]
  calc _ ≤ ∫⁻ _, ENNReal.ofReal (2 * ε) ∂(volume.restrict (Set.Ico (0 : ℝ) 1)) := by
        refine lintegral_mono fun x => ?_
        refine (Measure.restrict_apply_le _ _).trans ?_
        have : Prod.mk x ⁻¹' {p : ℝ × ℝ | |a + p.1 - p.2| ≤ ε} ⊆ Set.Icc (a + x - ε) (a + x + ε) := by
          intro y hy
          have := abs_le.1 (show |a + x - y| ≤ ε from hy)
          exact ⟨by linarith [this.2], by linarith [this.1]⟩
        refine (measure_mono this).trans ?_
        rw [Real.volume_Icc]
        exact ENNReal.ofReal_le_ofReal (by linarith)
    _ = ENNReal.ofReal (2 * ε) := by simp

/-- Two draws, one after the other, in given time buckets are nearer than `ε` with probability at most
`2 ε`. -/
theorem two_draws (hr : FreshGen rng μ u z next skip)
    (hu : μ.map u = volume.restrict (Set.Ico (0 : ℝ) 1)) (a b : ℤ) {i j : ℕ} (hij : i < j) (ε : ℝ) :
    μ {s | |a + u (next^[i] s) - (b + u (next^[j] s))| ≤ ε} ≤ ENNReal.ofReal (2 * ε) := by
  obtain ⟨m, rfl⟩ : ∃ m, j = m + 1 + i := ⟨j - i - 1, by omega⟩
  have hi := (next_preserves hr).iterate i
  have hm := (next_preserves hr).iterate m
  have hv := hr.fresh_uniform.value
  have hS : MeasurableSet {p : ℝ × ℝ | |((a : ℝ) - b) + p.1 - p.2| ≤ ε} :=
    measurableSet_le (by fun_prop) measurable_const
  have hf : Measurable fun s => (u s, u (next^[m] (next s))) :=
    hv.prodMk (hv.comp (hm.measurable.comp hr.fresh_uniform.state))
  have e : {s | |a + u (next^[i] s) - (b + u (next^[m + 1 + i] s))| ≤ ε}
      = next^[i] ⁻¹' ((fun s => (u s, u (next^[m] (next s)))) ⁻¹' {p : ℝ × ℝ | |((a : ℝ) - b) + p.1 - p.2| ≤ ε}) := by
    ext s
    simp only [Set.mem_setOf_eq, Set.mem_preimage, Function.iterate_add_apply, Function.iterate_one]
    rw [show (a : ℝ) + u (next^[i] s) - (b + u (next^[m] (next (next^[i] s))))
      = a - b + u (next^[i] s) - u (next^[m] (next (next^[i] s))) by ring]
  rw [e, hi.measure_preimage (hf hS).nullMeasurableSet, ← Measure.map_apply hf hS, first_and_later hr m, hu]
  exact uniform_strip _ ε

/-! ## The rows of one event -/

/-- The time buckets in the window, with the numbers of the draws that they get. -/
def inWindow : Points → ℕ → List (ℤ × ℕ)
  | [], _ => []
  | kd :: ps, k => if 0 ≤ (unpair kd.1).1 ∧ (unpair kd.1).1 < (NUM_TB : ℤ) then
      ((unpair kd.1).1, k) :: inWindow ps (k + 1) else inWindow ps (k + 1)

theorem inWindow_ge : ∀ (ps : Points) (k : ℕ), ∀ x ∈ inWindow ps k, k ≤ x.2
  | [], _, x, hx => by simp [inWindow] at hx
  | kd :: ps, k, x, hx => by
    unfold inWindow at hx
    split at hx
    · rcases List.mem_cons.1 hx with rfl | hx
      · exact le_rfl
      · have := inWindow_ge ps (k + 1) x hx; omega
    · have := inWindow_ge ps (k + 1) x hx; omega

theorem inWindow_increasing : ∀ (ps : Points) (k : ℕ), (inWindow ps k).Pairwise fun x y => x.2 < y.2
  | [], _ => by simp [inWindow]
  | kd :: ps, k => by
    unfold inWindow
    split
    · refine List.Pairwise.cons (fun x hx => ?_) (inWindow_increasing ps (k + 1))
      have := inWindow_ge ps (k + 1) x hx
      simp only; omega
    · exact inWindow_increasing ps (k + 1)

omit [IsProbabilityMeasure μ] in
theorem wiggled_times (hr : FreshGen rng μ u z next skip) (s : σ) : ∀ (ps : Points) (k : ℕ)
    {cloud : List CloudPoint} {labels : List ℤ} {s' : σ},
    wiggled rng ps (next^[k] s) = .ok ((cloud, labels), s') →
    cloud.map (·.tb) = (inWindow ps k).map fun x => (x.1 : ℝ) + u (next^[x.2] s)
  | [], k, cloud, labels, s', h => by
    have e : wiggled rng [] (next^[k] s) = .ok ((([] : List CloudPoint), ([] : List ℤ)), next^[k] s) := rfl
    rw [e] at h
    simp only [Except.ok.injEq, Prod.mk.injEq] at h
    rw [← h.1.1]
    rfl
  | kd :: ps, k, cloud, labels, s', h => by
    rw [wiggled_cons, hr.uniform] at h
    obtain ⟨⟨⟨c, l⟩, s2⟩, h2⟩ : ∃ r, wiggled rng ps (next (next^[k] s)) = .ok r := ⟨_, rfl⟩
    simp only [bind, Except.bind, pure, Except.pure, h2, Except.ok.injEq, Prod.mk.injEq] at h
    rw [← Function.iterate_succ_apply' next k s] at h2
    have ih := wiggled_times hr s ps (k + 1) h2
    have e : (0 : ℝ) + (1 - 0) * u (next^[k] s) = u (next^[k] s) := by ring
    rw [e] at h
    have hw := window_iff (unpair kd.1).1 (hr.range (next^[k] s)).1 (hr.range (next^[k] s)).2
    unfold consRow at h
    unfold inWindow
    by_cases hc : 0 ≤ (unpair kd.1).1 ∧ (unpair kd.1).1 < (NUM_TB : ℤ)
    · rw [if_pos (hw.2 hc)] at h
      rw [if_pos hc, ← (Prod.mk.inj h.1).1, List.map_cons, List.map_cons, ih]
      rfl
    · rw [if_neg (fun h => hc (hw.1 h))] at h
      rw [if_neg hc, ← (Prod.mk.inj h.1).1, ih]

/-- The states from which the draws of the list are not apart. -/
def tied (u : σ → ℝ) (next : σ → σ) (ε : ℝ) (L : List (ℤ × ℕ)) : Set σ :=
  {s | ¬ (L.map fun x => (x.1 : ℝ) + u (next^[x.2] s)).Pairwise fun x y => ε < |x - y|}

omit [MeasurableSpace σ] in
theorem tied_cons (u : σ → ℝ) (next : σ → σ) (ε : ℝ) (x : ℤ × ℕ) (L : List (ℤ × ℕ)) :
    tied u next ε (x :: L)
      = (⋃ y ∈ L, {s | |(x.1 : ℝ) + u (next^[x.2] s) - (y.1 + u (next^[y.2] s))| ≤ ε}) ∪ tied u next ε L := by
  ext s
  simp only [tied, List.map_cons, List.pairwise_cons, Set.mem_setOf_eq, Set.mem_union, Set.mem_iUnion]
  constructor
  · intro h
    by_contra hc
    push Not at hc
    refine h ⟨fun w hw => ?_, hc.2⟩
    obtain ⟨y, hy, rfl⟩ := List.mem_map.1 hw
    exact hc.1 y hy
  · rintro (⟨y, hy, h⟩ | h) ⟨h1, h2⟩
    · exact absurd (h1 _ (List.mem_map_of_mem hy)) (not_lt.2 h)
    · exact h h2

theorem tied_measurable (hr : FreshGen rng μ u z next skip) (ε : ℝ) : ∀ L : List (ℤ × ℕ),
    MeasurableSet (tied u next ε L)
  | [] => by simp [tied]
  | x :: L => by
    rw [tied_cons]
    have hk : ∀ k : ℕ, Measurable fun s => u (next^[k] s) := fun k =>
      hr.fresh_uniform.value.comp ((next_preserves hr).iterate k).measurable
    refine MeasurableSet.union ?_ (tied_measurable hr ε L)
    have hc : ({y | y ∈ L} : Set (ℤ × ℕ)).Countable := Set.to_countable _
    refine MeasurableSet.biUnion hc fun y _ => ?_
    have h1 := hk x.2
    have h2 := hk y.2
    exact measurableSet_le ((h1.const_add _).sub (h2.const_add _)).abs measurable_const

omit [IsProbabilityMeasure μ] in
theorem union_le (f : ℤ × ℕ → Set σ) (c : ENNReal) : ∀ L : List (ℤ × ℕ), (∀ y ∈ L, μ (f y) ≤ c) →
    μ (⋃ y ∈ L, f y) ≤ L.length * c
  | [], _ => by simp
  | x :: L, h => by
    have e : (⋃ y ∈ x :: L, f y) = f x ∪ ⋃ y ∈ L, f y := by
      ext s; simp
    rw [e]
    refine (measure_union_le _ _).trans ?_
    have h1 := union_le f c L fun y hy => h y (by simp [hy])
    have h2 := h x (by simp)
    rw [List.length_cons, Nat.cast_add, Nat.cast_one, add_mul, one_mul, add_comm]
    exact add_le_add h1 h2

theorem tied_prob (hr : FreshGen rng μ u z next skip)
    (hu : μ.map u = volume.restrict (Set.Ico (0 : ℝ) 1)) (ε : ℝ) : ∀ L : List (ℤ × ℕ),
    (L.Pairwise fun x y => x.2 < y.2) →
    μ (tied u next ε L) ≤ (L.length.choose 2 : ℕ) * ENNReal.ofReal (2 * ε)
  | [], _ => by simp [tied]
  | x :: L, h => by
    rw [List.pairwise_cons] at h
    rw [tied_cons]
    refine (measure_union_le _ _).trans ?_
    have h1 := union_le (μ := μ) _ _ L fun y hy => two_draws hr hu x.1 y.1 (h.1 y hy) ε
    have h2 := tied_prob hr hu ε L h.2
    rw [List.length_cons, Nat.choose_succ_succ' L.length 1, Nat.choose_one_right, Nat.cast_add, add_mul]
    exact add_le_add h1 h2

theorem apart_prob (hr : FreshGen rng μ u z next skip)
    (hu : μ.map u = volume.restrict (Set.Ico (0 : ℝ) 1)) (env : SimEnv) (momenta : List Vec4)
    (vertex : ℝ × ℝ × ℝ) (zs as : List ℤ) (config : Config) (indices : List ℤ) (P : ℕ → Prop) {n : ℕ}
    (hP : ∀ j, P j → j ≤ n) (ε : ℝ) :
    μ {s | ∃ cloud labels s',
        simulate env momenta vertex zs as config rng indices s = .ok ((cloud, labels), s') ∧
        P cloud.length ∧ ¬ TimesApart ε cloud}
      ≤ μ {s | ∃ cloud labels s',
          simulate env momenta vertex zs as config rng indices s = .ok ((cloud, labels), s') ∧
          P cloud.length} * (n.choose 2 * ENNReal.ofReal (2 * ε)) := by
  set fold := fun s => indices.foldlM (simulate_nucleus env momenta vertex zs as config rng) (([] : Points), s)
    with hfold
  have hf : FreshResult μ fold := simulate_fold_fresh hr env momenta vertex zs as config indices []
  have split : ∀ Q : List CloudPoint → Prop, {s | ∃ cloud labels s',
      simulate env momenta vertex zs as config rng indices s = .ok ((cloud, labels), s') ∧ Q cloud}
      = ⋃ p : Points, outcomes fold {p} {s | ∃ cloud labels s', wiggled rng p s = .ok ((cloud, labels), s') ∧
          Q cloud} := by
    intro Q
    ext s
    simp only [Set.mem_setOf_eq, Set.mem_iUnion, outcomes, Set.mem_singleton_iff]
    constructor
    · rintro ⟨c, l, s', h, hQ⟩
      rw [simulate_eq, except_bind_ok] at h
      obtain ⟨⟨p, s1⟩, h1, h2⟩ := h
      exact ⟨p, p, s1, h1, rfl, c, l, s', h2, hQ⟩
    · rintro ⟨p, p', s1, h1, rfl, c, l, s', h2, hQ⟩
      refine ⟨c, l, s', ?_, hQ⟩
      rw [simulate_eq, except_bind_ok]
      exact ⟨(p', s1), h1, h2⟩
  have disj : ∀ A : Points → Set σ,
      Pairwise (Function.onFun Disjoint fun p : Points => outcomes fold {p} (A p)) := by
    intro A a a' haa
    rw [Function.onFun, Set.disjoint_left]
    rintro s ⟨x, s1, h1, hx, -⟩ ⟨y, s2, h2, hy, -⟩
    rw [h1] at h2
    simp only [Except.ok.injEq, Prod.mk.injEq] at h2
    exact haa (by rw [← Set.mem_singleton_iff.1 hx, ← Set.mem_singleton_iff.1 hy, h2.1])
  have times : ∀ (p : Points) (s : σ) {cloud : List CloudPoint} {labels : List ℤ} {s' : σ},
      wiggled rng p s = .ok ((cloud, labels), s') →
      cloud.map (·.tb) = (inWindow p 0).map fun x => (x.1 : ℝ) + u (next^[x.2] s) := fun p s _ _ _ h =>
    wiggled_times hr s p 0 h
  have len : ∀ (p : Points) (s : σ) {cloud : List CloudPoint} {labels : List ℤ} {s' : σ},
      wiggled rng p s = .ok ((cloud, labels), s') → cloud.length = (inWindow p 0).length := fun p s _ _ _ h => by
    simpa using congrArg List.length (times p s h)
  have all : ∀ (p : Points) (s : σ), ∃ cloud labels s', wiggled rng p s = .ok ((cloud, labels), s') :=
    fun p s => ⟨_, _, _, rfl⟩
  have e1 : ∀ p : Points, {s | ∃ cloud labels s', wiggled rng p s = .ok ((cloud, labels), s') ∧ P cloud.length}
      = {s | P (inWindow p 0).length} := by
    intro p
    ext s
    simp only [Set.mem_setOf_eq]
    constructor
    · rintro ⟨c, l, s', h, hn⟩
      rw [← len p s h]; exact hn
    · intro hn
      obtain ⟨c, l, s', h⟩ := all p s
      exact ⟨c, l, s', h, by rw [len p s h]; exact hn⟩
  have e2 : ∀ p : Points, {s | ∃ cloud labels s', wiggled rng p s = .ok ((cloud, labels), s') ∧
      P cloud.length ∧ ¬ TimesApart ε cloud} = {s | P (inWindow p 0).length} ∩ tied u next ε (inWindow p 0) := by
    intro p
    ext s
    have key : ∀ {c : List CloudPoint} {l : List ℤ} {s' : σ}, wiggled rng p s = .ok ((c, l), s') →
        (TimesApart ε c ↔ s ∉ tied u next ε (inWindow p 0)) := by
      intro c l s' h
      simp only [tied, Set.mem_setOf_eq, not_not, TimesApart]
      rw [← times p s h, List.pairwise_map]
    simp only [Set.mem_setOf_eq, Set.mem_inter_iff]
    constructor
    · rintro ⟨c, l, s', h, hn, ht⟩
      rw [key h, not_not] at ht
      exact ⟨by rw [← len p s h]; exact hn, ht⟩
    · rintro ⟨hn, ht⟩
      obtain ⟨c, l, s', h⟩ := all p s
      exact ⟨c, l, s', h, by rw [len p s h]; exact hn, by rw [key h, not_not]; exact ht⟩
  have m1 : ∀ p : Points, MeasurableSet {s : σ | P (inWindow p 0).length} := fun p => by by_cases h : P (inWindow p 0).length <;> simp [h]
  have m2 : ∀ p : Points, MeasurableSet ({s | P (inWindow p 0).length} ∩ tied u next ε (inWindow p 0)) := fun p =>
    (m1 p).inter (tied_measurable hr ε _)
  rw [split (fun c => P c.length), split (fun c => P c.length ∧ ¬ TimesApart ε c)]
  simp only [e1, e2]
  rw [measure_iUnion (disj _) (fun p => hf.measurable _ _ MeasurableSet.of_discrete (m2 p)),
    measure_iUnion (disj _) (fun p => hf.measurable _ _ MeasurableSet.of_discrete (m1 p)),
    ← ENNReal.tsum_mul_right]
  refine ENNReal.tsum_le_tsum fun p => ?_
  have h1 := hf.indep {p} _ MeasurableSet.of_discrete (m2 p)
  have h2 := hf.indep {p} _ MeasurableSet.of_discrete (m1 p)
  unfold outcomes
  rw [h1, h2, mul_assoc]
  refine mul_le_mul_right ?_ _
  by_cases hn : P (inWindow p 0).length
  · simp only [hn, Set.setOf_true, Set.univ_inter, measure_univ, one_mul]
    have := tied_prob hr hu ε (inWindow p 0) (inWindow_increasing p 0)
    refine this.trans (mul_le_mul_left ?_ _)
    exact_mod_cast Nat.choose_le_choose 2 (hP _ hn)
  · simp [hn]

/-- **C148.** With an ideal generator, given that a simulated event has `n` rows, the probability that two of
their times are within `ε` of each other is at most `n (n - 1) / 2 · 2 ε`. -/
theorem C148_apart (hr : FreshGen rng μ u z next skip)
    (hu : μ.map u = volume.restrict (Set.Ico (0 : ℝ) 1)) (env : SimEnv) (momenta : List Vec4)
    (vertex : ℝ × ℝ × ℝ) (zs as : List ℤ) (config : Config) (indices : List ℤ) (n : ℕ) (ε : ℝ) :
    μ {s | ∃ cloud labels s',
        simulate env momenta vertex zs as config rng indices s = .ok ((cloud, labels), s') ∧
        cloud.length = n ∧ ¬ TimesApart ε cloud}
      ≤ μ {s | ∃ cloud labels s',
          simulate env momenta vertex zs as config rng indices s = .ok ((cloud, labels), s') ∧
          cloud.length = n} * (n.choose 2 * ENNReal.ofReal (2 * ε)) :=
  apart_prob hr hu env momenta vertex zs as config indices (· = n) (fun _ h => h.le) ε

/-- **C148.** Almost surely, all times of a simulated event are different. -/
theorem C148_distinct (hr : FreshGen rng μ u z next skip)
    (hu : μ.map u = volume.restrict (Set.Ico (0 : ℝ) 1)) (env : SimEnv) (momenta : List Vec4)
    (vertex : ℝ × ℝ × ℝ) (zs as : List ℤ) (config : Config) (indices : List ℤ) :
    ∀ᵐ s ∂μ, ∀ cloud labels s',
      simulate env momenta vertex zs as config rng indices s = .ok ((cloud, labels), s') →
      cloud.Pairwise fun p q => p.tb ≠ q.tb := by
  have h : ∀ n : ℕ, ∀ᵐ s ∂μ, ¬ ∃ cloud labels s',
      simulate env momenta vertex zs as config rng indices s = .ok ((cloud, labels), s') ∧
      cloud.length = n ∧ ¬ TimesApart 0 cloud := by
    intro n
    have := C148_apart hr hu env momenta vertex zs as config indices n 0
    rw [ae_iff]
    simp only [not_not]
    simpa using this
  filter_upwards [ae_all_iff.2 h] with s hs cloud labels s' hsim
  by_contra hc
  refine hs cloud.length ⟨cloud, labels, s', hsim, rfl, fun ha => hc (ha.imp fun {p q} hpq => ?_)⟩
  exact fun e => by rw [e] at hpq; simp at hpq

omit [IsProbabilityMeasure μ] in
theorem pullback_le {f : σ → Except PyErr ((List CloudPoint × List ℤ) × σ)} [IsProbabilityMeasure μ]
    (hf : FreshResult μ f) (D : Set σ) : μ {s | ∃ a s', f s = .ok (a, s') ∧ s' ∈ D} ≤ μ D := by
  calc _ ≤ μ {s | ∃ a s', f s = .ok (a, s') ∧ a ∈ Set.univ ∧ s' ∈ toMeasurable μ D} := by
        refine measure_mono ?_
        rintro s ⟨a, s', h, hs⟩
        exact ⟨a, s', h, trivial, subset_toMeasurable μ D hs⟩
    _ = μ {s | ∃ a s', f s = .ok (a, s') ∧ a ∈ Set.univ} * μ D := by
        rw [hf.indep _ _ MeasurableSet.univ (measurableSet_toMeasurable μ D), measure_toMeasurable]
    _ ≤ 1 * μ D := mul_le_mul_left prob_le_one _
    _ = μ D := one_mul _

/-- **C148.** In a run of `n` events with at most `N` rows each, the probability that two times of the same
event are within `ε` of each other is at most `n · N (N - 1) / 2 · 2 ε`. -/
theorem C148_events (hr : FreshGen rng μ u z next skip)
    (hu : μ.map u = volume.restrict (Set.Ico (0 : ℝ) 1)) (env : SimEnv) (config : Config)
    (file : KinFile (List Vec4)) (zs as : List ℤ) (cs : ℕ) (indices : List ℤ) (N : ℕ) (ε : ℝ) (n : ℕ) : ∀ k : ℕ,
    μ {s | ∃ evs s', Simulated env config file zs as cs indices rng k s evs s' ∧ evs.length = n ∧
        (∀ ev ∈ evs, ev.cloud.length ≤ N) ∧ ∃ ev ∈ evs, ¬ TimesApart ε ev.cloud}
      ≤ n * (N.choose 2 * ENNReal.ofReal (2 * ε)) := by
  induction n with
  | zero =>
    intro k
    refine le_of_eq_of_le ?_ zero_le
    convert measure_empty (μ := μ) using 2
    ext s
    simp only [Set.mem_setOf_eq, Set.mem_empty_iff_false, iff_false]
    rintro ⟨evs, s', -, hl, -, ev, hev, -⟩
    rw [List.length_eq_zero_iff.1 hl] at hev
    simp at hev
  | succ n ih =>
    intro k
    cases hread : read_event file cs k with
    | error e =>
      refine le_of_eq_of_le ?_ zero_le
      convert measure_empty (μ := μ) using 2
      ext s
      simp only [Set.mem_setOf_eq, Set.mem_empty_iff_false, iff_false]
      rintro ⟨evs, s', hS, hl, -⟩
      cases hS with
      | nil => simp at hl
      | cons h1 _ _ => rw [hread] at h1; cases h1
    | ok mv =>
      obtain ⟨momenta, vertex⟩ := mv
      have h1 := apart_prob hr hu env momenta vertex zs as config indices (· ≤ N) (fun _ h => h) ε
      have h2 := pullback_le (simulate_fresh hr env momenta vertex zs as config indices)
        {s | ∃ evs s', Simulated env config file zs as cs indices rng (k + 1) s evs s' ∧ evs.length = n ∧
          (∀ ev ∈ evs, ev.cloud.length ≤ N) ∧ ∃ ev ∈ evs, ¬ TimesApart ε ev.cloud}
      refine (measure_mono (t := {s | ∃ cloud labels s',
          simulate env momenta vertex zs as config rng indices s = .ok ((cloud, labels), s') ∧
          cloud.length ≤ N ∧ ¬ TimesApart ε cloud} ∪ {s | ∃ a s',
          simulate env momenta vertex zs as config rng indices s = .ok (a, s') ∧
          s' ∈ {s | ∃ evs s', Simulated env config file zs as cs indices rng (k + 1) s evs s' ∧
            evs.length = n ∧ (∀ ev ∈ evs, ev.cloud.length ≤ N) ∧ ∃ ev ∈ evs, ¬ TimesApart ε ev.cloud}}) ?_).trans
        ((measure_union_le _ _).trans ?_)
      · rintro s ⟨evs, s', hS, hl, hN, ev, hev, ht⟩
        cases hS with
        | nil => simp at hl
        | @cons _ _ m v cloud labels s1 evs _ g1 g2 g3 =>
          rw [hread] at g1
          obtain ⟨rfl, rfl⟩ := Prod.mk.inj (Except.ok.inj g1)
          rcases List.mem_cons.1 hev with rfl | hev
          · exact .inl ⟨cloud, labels, s1, g2, hN _ List.mem_cons_self, ht⟩
          · exact .inr ⟨_, s1, g2, evs, s', g3, by simpa using hl, fun ev h => hN ev (by simp [h]), ev, hev, ht⟩
      · rw [Nat.cast_add, Nat.cast_one, add_mul, one_mul, add_comm]
        refine add_le_add (h2.trans (ih (k + 1))) (h1.trans ?_)
        exact (mul_le_mul_left prob_le_one _).trans_eq (one_mul _)

/-! ## The order of the stored rows -/

/-- Two ways to sort agree on keys that are all different. -/
theorem argsort_unique {A B : Argsort} (hA : IsArgsort A) (hB : IsArgsort B) {keys : List ℝ}
    (h : keys.Pairwise (· ≠ ·)) : A keys = B keys := by
  have p1 := hA.perm keys
  have p2 := hB.perm keys
  have m1 : ∀ i ∈ A keys, i < keys.length := fun i hi => List.mem_range.1 (p1.subset hi)
  have m2 : ∀ i ∈ B keys, i < keys.length := fun i hi => List.mem_range.1 (p2.subset hi)
  have o1 : (A keys).Pairwise fun i j => keys.getD i 0 ≤ keys.getD j 0 := by
    have := hA.sorted keys
    rwa [takeIdx_map_getD _ m1, List.pairwise_map] at this
  have o2 : (B keys).Pairwise fun i j => keys.getD i 0 ≤ keys.getD j 0 := by
    have := hB.sorted keys
    rwa [takeIdx_map_getD _ m2, List.pairwise_map] at this
  refine List.Perm.eq_of_pairwise (le := fun i j => keys.getD i 0 ≤ keys.getD j 0) ?_ o1 o2 (p1.trans p2.symm)
  intro i j hi hj h1 h2
  have e := le_antisymm h1 h2
  have hi' := m1 i hi
  have hj' := m2 j hj
  rw [getD_lt hi', getD_lt hj'] at e
  rw [List.pairwise_iff_getElem] at h
  by_contra hij
  rcases lt_or_gt_of_ne hij with hlt | hlt
  · exact h i j hi' hj' hlt e
  · exact h j i hj' hi' hlt e.symm

theorem convert_heights {we me : ℤ} {L : ℝ} {response : List ℝ} {pc : List (ℝ × ℝ)} {ps : List ℝ} :
    ∀ {cloud : List CloudPoint} {conv : List SpyralRow},
    convert_to_spyral cloud we me L response pc ps = .ok conv →
    conv.map (·.z) = cloud.map (fun p => ((we : ℝ) - p.tb) / ((we - me : ℤ) : ℝ) * L * 1000) ∧
      (cloud ≠ [] → we - me ≠ 0)
  | [], conv, h => by
    have : conv = [] := (Except.ok.inj h).symm
    subst this
    simp
  | p :: cloud, conv, h => by
    unfold convert_to_spyral at h
    rw [List.mapM_cons, except_bind_ok] at h
    obtain ⟨r, h1, h⟩ := h
    rw [except_bind_ok] at h
    obtain ⟨rs, h2, h⟩ := h
    have : conv = r :: rs := (Except.ok.inj h).symm
    subst this
    have ih := convert_heights (cloud := cloud) (conv := rs) h2
    unfold convert_point at h1
    rw [except_bind_ok] at h1
    obtain ⟨pad, -, h1⟩ := h1
    by_cases h0 : we - me = 0
    · simp only [if_pos h0] at h1
      cases h1
    · simp only [if_neg h0] at h1
      rw [except_bind_ok] at h1
      obtain ⟨size, -, h1⟩ := h1
      have e := Except.ok.inj h1
      rw [List.map_cons, List.map_cons, ih.1, ← e]
      exact ⟨rfl, fun _ => h0⟩

/-- Rows at different times are stored in the same order by any two ways to sort. -/
theorem format_unique {A B : Argsort} (hA : IsArgsort A) (hB : IsArgsort B) (response : List ℝ)
    {cloud : List CloudPoint} (labels : List ℤ) {config : Config} (hL : config.det_params.length ≠ 0)
    (h : cloud.Pairwise fun p q => p.tb ≠ q.tb) :
    format_event A response cloud labels config = format_event B response cloud labels config := by
  unfold format_event
  cases config.pad_centers with
  | none => rfl
  | some pc =>
    simp only
    cases hc : convert_to_spyral cloud config.elec_params.windows_edge config.elec_params.micromegas_edge
      config.det_params.length response pc config.pad_sizes with
    | error e => rfl
    | ok conv =>
      simp only [bind, Except.bind]
      obtain ⟨hz, hne⟩ := convert_heights hc
      have hd : (conv.map (·.z)).Pairwise (· ≠ ·) := by
        rw [hz, List.pairwise_map]
        refine h.imp_of_mem fun {p q} hp _ hpq e => hpq ?_
        have hN : (((config.elec_params.windows_edge - config.elec_params.micromegas_edge : ℤ)) : ℝ) ≠ 0 := by
          exact_mod_cast hne (List.ne_nil_of_mem hp)
        field_simp at e
        linarith
      rw [argsort_unique hA hB]
      refine List.Pairwise.sublist ?_ hd
      exact List.Sublist.map _ (maskSel_sublist _ _)

/-- Writers that do the same with clouds whose times are all different. -/
structure SameOnDistinct (W W' : SimWriter τ) (config : Config) : Prop where
  write : ∀ cloud labels k w, (cloud.Pairwise fun p q : CloudPoint => p.tb ≠ q.tb) →
    W.write cloud labels config k w = W'.write cloud labels config k w
  close : ∀ w, W.close w = W'.close w

theorem writers_same {A B : Argsort} (hA : IsArgsort A) (hB : IsArgsort B) {config : Config}
    (hL : config.det_params.length ≠ 0) : SameOnDistinct (spyralWriter A) (spyralWriter B) config where
  write := by
    intro cloud labels k w h
    simp only [spyralWriter, Writer.write]
    simp only [format_unique hA hB _ labels hL h]
  close := fun w => rfl

omit [IsProbabilityMeasure μ] in
theorem pullback_null {f : σ → Except PyErr ((List CloudPoint × List ℤ) × σ)} (hf : FreshResult μ f) {D : Set σ}
    (hD : μ D = 0) : μ {s | ∃ a s', f s = .ok (a, s') ∧ s' ∈ D} = 0 := by
  refine measure_mono_null (t := {s | ∃ a s', f s = .ok (a, s') ∧ a ∈ Set.univ ∧ s' ∈ toMeasurable μ D}) ?_ ?_
  · rintro s ⟨a, s', h, hs⟩
    exact ⟨a, s', h, trivial, subset_toMeasurable μ D hs⟩
  · rw [hf.indep _ _ MeasurableSet.univ (measurableSet_toMeasurable μ D), measure_toMeasurable, hD, mul_zero]

theorem run_events_unique (hr : FreshGen rng μ u z next skip)
    (hu : μ.map u = volume.restrict (Set.Ico (0 : ℝ) 1)) (env : SimEnv) {config : Config}
    (file : KinFile (List Vec4)) (zs as : List ℤ) (cs : ℕ) (indices : List ℤ) {W W' : SimWriter τ}
    (hW : SameOnDistinct W W' config) (n : ℕ) : ∀ k,
    μ {s | ∃ w, run_events env config file zs as cs indices rng W n k ⟨s, w⟩
      ≠ run_events env config file zs as cs indices rng W' n k ⟨s, w⟩} = 0 := by
  induction n with
  | zero => intro k; simp [run_events]
  | succ n ih =>
    intro k
    cases hread : read_event file cs k with
    | error e =>
      refine measure_mono_null (t := ∅) ?_ measure_empty
      rintro s ⟨w, hw⟩
      refine hw ?_
      simp only [run_events, run_event, hread]
    | ok mv =>
      obtain ⟨momenta, vertex⟩ := mv
      have h1 := C148_distinct hr hu env momenta vertex zs as config indices
      have h2 := pullback_null (simulate_fresh hr env momenta vertex zs as config indices) (ih (k + 1))
      rw [ae_iff] at h1
      refine measure_mono_null ?_ (measure_union_null h1 h2)
      rintro s ⟨w, hw⟩
      by_contra hc
      refine hw ?_
      rw [Set.mem_union, not_or] at hc
      obtain ⟨c1, c2⟩ := hc
      simp only [Set.mem_setOf_eq, not_not] at c1
      simp only [Set.mem_setOf_eq] at c2
      push Not at c2
      cases hsim : simulate env momenta vertex zs as config rng indices s with
      | error e => simp only [run_events, run_event, hread, hsim]
      | ok r =>
        obtain ⟨⟨cloud, labels⟩, s'⟩ := r
        have hd := c1 cloud labels s' hsim
        have hn := c2 _ _ hsim
        have hwr := hW.write cloud labels k w hd
        by_cases h0 : cloud.length = 0
        · simp only [run_events, run_event, hread, hsim, if_pos h0]
          exact hn w
        · generalize hq : W'.write cloud labels config k w = q at hwr
          obtain ⟨res, w'⟩ := q
          simp only [run_events, run_event, hread, hsim, if_neg h0, hwr, hq]
          cases res with
          | error e => rfl
          | ok _ => exact hn w'

/-- **C148.** Almost surely, the result of a run and the contents of its files do not depend on how the
writer's sort orders equal heights: the runs with any two ways to sort, from any state of the writer and the
directory, end with the same exception or none, and leave the same files. -/
theorem C148_run (hr : FreshGen rng μ u z next skip)
    (hu : μ.map u = volume.restrict (Set.Ico (0 : ℝ) 1)) (env : SimEnv) {config : Config}
    (hL : config.det_params.length ≠ 0) (file : KinFile (List Vec4)) (indices : Option (List ℤ))
    {A B : Argsort} (hA : IsArgsort A) (hB : IsArgsort B) :
    ∀ᵐ s ∂μ, ∀ w : Writer, run_simulation env config file (spyralWriter A) indices rng ⟨s, w⟩
      = run_simulation env config file (spyralWriter B) indices rng ⟨s, w⟩ := by
  have hW := writers_same hA hB hL
  cases hz : file.proton_numbers with
  | none => exact .of_forall fun s w => by simp [run_simulation, hz, attr, bind, Except.bind]
  | some zs =>
  cases ha : file.mass_numbers with
  | none => exact .of_forall fun s w => by simp [run_simulation, hz, ha, attr, bind, Except.bind]
  | some as =>
  cases hn : file.n_events with
  | none => exact .of_forall fun s w => by simp [run_simulation, hz, ha, hn, attr, bind, Except.bind]
  | some n =>
  cases hnc : file.n_chunks with
  | none => exact .of_forall fun s w => by simp [run_simulation, hz, ha, hn, hnc, attr, bind, Except.bind]
  | some nc =>
  cases hcs : file.chunk_size with
  | none => exact .of_forall fun s w => by simp [run_simulation, hz, ha, hn, hnc, hcs, attr, bind, Except.bind]
  | some cs =>
    have h := run_events_unique hr hu env file zs as cs (indices.getD (default_indices zs.length)) hW n.toNat 0
    have h' : ∀ᵐ s ∂μ, ¬ ∃ w, run_events env config file zs as cs (indices.getD (default_indices zs.length)) rng
        (spyralWriter A) n.toNat 0 ⟨s, w⟩ ≠ run_events env config file zs as cs
          (indices.getD (default_indices zs.length)) rng (spyralWriter B) n.toNat 0 ⟨s, w⟩ := by
      rw [ae_iff]
      simpa only [not_not] using h
    filter_upwards [h'] with s hs w
    push Not at hs
    rw [run_simulation_eq env config file (spyralWriter A) indices rng _ hz ha hn hcs hnc,
      run_simulation_eq env config file (spyralWriter B) indices rng _ hz ha hn hcs hnc, hs w]
    rfl

/-! ## Example -/

/-- The sort of the example that puts equal keys in reverse order. -/
noncomputable def exArgsortRev : Argsort := fun keys => (List.range keys.length).reverse.foldr (insertKey keys) []

theorem exArgsortRev_ok : IsArgsort exArgsortRev := by
  have hperm : ∀ (keys : List ℝ) (l : List ℕ), (l.foldr (insertKey keys) []).Perm l := by
    intro keys l
    induction l with
    | nil => exact List.Perm.refl _
    | cons a l ih => exact (insertKey_perm keys a _).trans (ih.cons a)
  have hsort : ∀ (keys : List ℝ) (l : List ℕ),
      (l.foldr (insertKey keys) []).Pairwise fun a b => keys.getD a 0 ≤ keys.getD b 0 := by
    intro keys l
    induction l with
    | nil => exact List.Pairwise.nil
    | cons a l ih => exact insertKey_sorted keys a _ ih
  refine ⟨fun keys => (hperm keys _).trans (List.reverse_perm _), fun keys => ?_⟩
  unfold takeIdx
  rw [List.pairwise_filterMap]
  refine (hsort keys (List.range keys.length).reverse).imp ?_
  intro a b hab x hx y hy
  simp only [List.getD_eq_getElem?_getD, hx, hy, Option.getD_some] at hab
  exact hab

/-- The two sorts of the example differ on equal keys. -/
example : exArgsort [0, 0] = [0, 1] ∧ exArgsortRev [0, 0] = [1, 0] := by
  constructor <;> simp [exArgsort, exArgsortRev, insertKey, List.range_succ]

/-- Two rows in time bucket 50 get times within 2e-12 with a probability of at most 4e-12. -/
example : pairMeasure (tied (fun s => ((s 0).2 : ℝ)) dropFirst 2e-12 [(50, 0), (50, 1)])
    ≤ ENNReal.ofReal 4e-12 := by
  have := tied_prob pairGen_ideal.fresh pair_uniform 2e-12 [(50, 0), (50, 1)] (by simp)
  norm_num at this ⊢
  exact this

/-- A run over the example file leaves the same files with both sorts. -/
example : ∀ᵐ s ∂pairMeasure, ∀ w : Writer,
    run_simulation exEnv (exConfig 100 0) exKinFile (spyralWriter exArgsort) none pairGen ⟨s, w⟩
      = run_simulation exEnv (exConfig 100 0) exKinFile (spyralWriter exArgsortRev) none pairGen ⟨s, w⟩ :=
  C148_run pairGen_ideal.fresh pair_uniform exEnv (by norm_num [exConfig, exDet]) exKinFile none exArgsort_ok
    exArgsortRev_ok

end Verif.Props
