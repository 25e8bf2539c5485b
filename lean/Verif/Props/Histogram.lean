import Verif.Props.Unbiased

/-! # C103: the distribution of tabulated polar angles -/

namespace Verif.Props

open Verif.Kinematics Verif.Spec MeasureTheory

variable {σ : Type} [MeasurableSpace σ] {μ : Measure σ} [IsProbabilityMeasure μ]
  {p : Pipeline σ} {rng : Gen σ} {u z : σ → ℝ} {next skip : σ → σ}

/-- The distribution of the histogram with bins `[angle, angle + w)` and the given weights: the sum over
the bins of the weight times the part of the bin which lies in `B`. -/
noncomputable def histogram (w : ℝ) (B : Set ℝ) (S : ℝ) : List ℝ → List ℝ → ENNReal
  | a :: angles, q :: probs => ENNReal.ofReal (q / S) * (volume (B ∩ Set.Ico a (a + w)) / ENNReal.ofReal w)
      + histogram w B S angles probs
  | _, _ => 0

/-- A uniform number in a bin. -/
theorem bin_prob {w a : ℝ} (hw : 0 < w) {B : Set ℝ} (hB : MeasurableSet B) (hu : RandomGen rng μ u) :
    μ {s | a + u s * w ∈ B} = volume (B ∩ Set.Ico a (a + w)) / ENNReal.ofReal w := by
  have hf : Measurable fun y : ℝ => a + y * w := (measurable_id.mul_const _).const_add _
  have e1 : {s | a + u s * w ∈ B} = u ⁻¹' ((fun y : ℝ => a + y * w) ⁻¹' B) := rfl
  rw [e1, ← Measure.map_apply hu.measurable (hf hB), hu.law, Measure.restrict_apply (hf hB)]
  have e2 : (fun y : ℝ => a + y * w) ⁻¹' B ∩ Set.Ico 0 1
      = (fun y : ℝ => y * w) ⁻¹' ((fun y : ℝ => a + y) ⁻¹' (B ∩ Set.Ico a (a + w))) := by
    ext y
    simp only [Set.mem_inter_iff, Set.mem_preimage, Set.mem_Ico]
    refine and_congr_right fun _ => ⟨fun h => ⟨by nlinarith, by nlinarith⟩, fun h => ⟨?_, ?_⟩⟩
    · by_contra hc
      nlinarith
    · by_contra hc
      nlinarith
  rw [e2, Real.volume_preimage_mul_right hw.ne', measure_preimage_add, abs_of_pos (inv_pos.2 hw),
    ENNReal.ofReal_inv_of_pos hw, mul_comm, ENNReal.div_eq_inv_mul, mul_comm]

/-- The bins one after the other: the probability that the first number selects bin `i` or a later one
and the second number lands in `B`. -/
theorem bins_prob (hr : FreshGen rng μ u z next skip) (hu : RandomGen rng μ u) {w S : ℝ} (hw : 0 < w)
    (hS : 0 < S) {B : Set ℝ} (hB : MeasurableSet B) (probs : List ℝ) :
    ∀ (acc : ℝ) (angles : List ℝ), probs.length = angles.length → (∀ x ∈ probs, 0 ≤ x) → 0 ≤ acc →
      acc + probs.sum = S →
      μ {s | acc / S ≤ u s ∧
        angles.getD (searchsortedRight (u s) ((cumsum acc probs).map (· / S))) 0 + u (next s) * w ∈ B}
        = histogram w B S angles probs := by
  induction probs with
  | nil =>
    intro acc angles hl _ _ hsum
    simp only [List.sum_nil, add_zero] at hsum
    have : angles = [] := List.eq_nil_of_length_eq_zero hl.symm
    subst this
    have e : ∀ s, ¬ acc / S ≤ u s := fun s => by
      rw [hsum, div_self hS.ne', not_le]; exact (hu.range s).2
    simp [e, histogram]
  | cons q probs ih =>
    intro acc angles hl hnn hacc hsum
    cases angles with
    | nil => simp at hl
    | cons a angles =>
      have hq : 0 ≤ q := hnn q (by simp)
      have hrest : 0 ≤ probs.sum := List.sum_nonneg fun x hx => hnn x (by simp [hx])
      rw [List.sum_cons] at hsum
      have ih := ih (acc + q) angles (by simpa using hl) (fun x hx => hnn x (by simp [hx]))
        (by linarith) (by rw [← hsum]; ring)
      have hle : acc / S ≤ (acc + q) / S := div_le_div_of_nonneg_right (by linarith) hS.le
      have e : {s | acc / S ≤ u s ∧ (a :: angles).getD
            (searchsortedRight (u s) ((cumsum acc (q :: probs)).map (· / S))) 0 + u (next s) * w ∈ B}
          = {s | u s ∈ Set.Ico (acc / S) ((acc + q) / S) ∧ next s ∈ {s | a + u s * w ∈ B}} ∪
            {s | (acc + q) / S ≤ u s ∧ angles.getD
              (searchsortedRight (u s) ((cumsum (acc + q) probs).map (· / S))) 0 + u (next s) * w ∈ B} := by
        ext s
        simp only [cumsum, List.map_cons, searchsortedRight, Set.mem_setOf_eq, Set.mem_union,
          Set.mem_Ico]
        by_cases hc : (acc + q) / S ≤ u s
        · simp [hc, not_lt.2 hc, hle.trans hc]
        · simp [hc, not_le.1 hc]
      have hm1 : Measurable fun s => u (next s) := hr.fresh_uniform.value.comp hr.fresh_uniform.state
      have m2 : MeasurableSet {s | (acc + q) / S ≤ u s ∧ angles.getD
          (searchsortedRight (u s) ((cumsum (acc + q) probs).map (· / S))) 0 + u (next s) * w ∈ B} := by
        refine (measurableSet_le measurable_const hu.measurable).inter ?_
        have h1 : Measurable fun k : ℕ => angles.getD k 0 := measurable_from_top
        exact ((h1.comp ((measurable_search _).comp hu.measurable)).add (hm1.mul_const _)) hB
      have hmB : MeasurableSet {s | a + u s * w ∈ B} :=
        ((hu.measurable.mul_const _).const_add _) hB
      rw [e, measure_union _ m2, ih, histogram,
        hr.fresh_uniform.indep _ _ measurableSet_Ico hmB, bin_prob hw hB hu]
      · congr 2
        have := hu.prob (a := acc / S) (b := (acc + q) / S) (div_nonneg hacc hS.le)
          ((div_le_one hS).2 (by linarith))
        rw [show {s | u s ∈ Set.Ico (acc / S) ((acc + q) / S)}
          = {s | acc / S ≤ u s ∧ u s < (acc + q) / S} from rfl, this]
        congr 1
        field_simp
        ring
      · rw [Set.disjoint_left]
        rintro s ⟨⟨-, h1⟩, -⟩ ⟨h2, -⟩
        exact absurd h1 (not_lt.2 h2)

/-- **C103.** The angle sampled from a table follows the histogram: a bin is chosen with its weight
divided by the sum of the weights, and the angle is uniformly distributed within the bin. -/
theorem C103_density (hr : FreshGen rng μ u z next skip) (hu : RandomGen rng μ u) {d : PolarArbitrary}
    (h : TableOk d) (hw : 0 < d.angle_width) {B : Set ℝ} (hB : MeasurableSet B) :
    μ {s | ∃ x s', d.sample rng s = .ok (x, s') ∧ x ∈ B}
      = histogram d.angle_width B d.probs.sum d.angles d.probs := by
  rw [← bins_prob hr hu hw h.sum_pos hB d.probs 0 d.angles h.length h.nonneg le_rfl (by ring)]
  congr 1
  ext s
  have hv : 0 ≤ (rng.uniform 0 1 s).1 ∧ (rng.uniform 0 1 s).1 < 1 := by
    have := hr.range s
    simpa [hr.uniform] using this
  obtain ⟨hlt, he⟩ := sample_eq d h s hv
  have hu1 : ∀ s, rng.uniform 0 1 s = (u s, next s) := fun s => by rw [hr.uniform]; ring_nf
  simp only [hu1] at he hlt
  have hg : d.angles.getD (binOf d (u s)) 0 = d.angles[binOf d (u s)] := by
    rw [List.getD_eq_getElem?_getD, List.getElem?_eq_getElem hlt]
    rfl
  simp only [Set.mem_setOf_eq, he, zero_div, (hr.range s).1, true_and, Except.ok.injEq, Prod.mk.injEq]
  rw [show searchsortedRight (u s) (List.map (fun x => x / d.probs.sum) (cumsum 0 d.probs))
    = binOf d (u s) from rfl, hg]
  constructor
  · rintro ⟨x, s', ⟨rfl, -⟩, hx⟩; exact hx
  · intro hx; exact ⟨_, _, ⟨rfl, rfl⟩, hx⟩

/-- **C103.** The same holds for the polar angles of the returned events: the rejection of samples does
not distort the table. -/
theorem C103_returned {d : PolarArbitrary} {es : List (Sampler σ)}
    (hf : FreshPipeline μ p u z next skip (d.sample p.rng) es) (hu : RandomGen p.rng μ u)
    (h : TableOk d) (hw : 0 < d.angle_width) {B : Set ℝ} (hB : MeasurableSet B)
    {buf : List ResultRow} (hlen : buf.length = 4 + 2 * p.decays.length) :
    μ {s | ∃ x, Returns p buf s x ∧ x.reaction_theta ∈ B}
      = histogram d.angle_width B d.probs.sum d.angles d.probs * μ {s | ∃ x, Returns p buf s x} := by
  have key := C102_unbiased hf hB MeasurableSet.univ MeasurableSet.univ MeasurableSet.univ
    (C := Set.univ) MeasurableSet.univ hlen
  obtain ⟨θs, g5, f5, hes⟩ := sampleAll_fresh es fun d' h' =>
    hf.polar_fresh d' (by rw [hf.polar]; simp [h'])
  have w1 : {s | ∃ x s', sampleAll es s = .ok (x, s')} = Set.univ := by
    ext s
    simp [hes]
  simp only [Set.mem_univ, true_and, and_true, Set.setOf_true, measure_univ, mul_one, w1] at key
  rw [key, C103_density hf.gen hu h hw hB]

/-! ## An example -/

/-- A table with three bins, one of them empty. -/
noncomputable def exTable : PolarArbitrary :=
  { angle_width := 1 / 2, probs := [1 / 4, 0, 3 / 4], angles := [0, 1 / 2, 1] }

theorem exTable_ok : TableOk exTable where
  nonempty := by simp [exTable]
  length := rfl
  nonneg := by norm_num [exTable]
  sum := by norm_num [exTable]

/-- C103 applies to it: half of the angles of the third bin and none of the second are in `[1/2, 5/4)`. -/
example : streamMeasure {s | ∃ x s', exTable.sample streamGen s = .ok (x, s') ∧ x ∈ Set.Ico (1 / 2) (5 / 4)}
    = ENNReal.ofReal (3 / 8) := by
  rw [C103_density streamGen_fresh streamGen_random exTable_ok (by norm_num [exTable]) measurableSet_Ico]
  have e1 : Set.Ico (1 / 2 : ℝ) (5 / 4) ∩ Set.Ico 0 (0 + 1 / 2) = ∅ := by
    ext x; simp only [Set.mem_inter_iff, Set.mem_Ico, Set.mem_empty_iff_false, iff_false]
    rintro ⟨⟨h1, -⟩, -, h2⟩; linarith
  have e3 : Set.Ico (1 / 2 : ℝ) (5 / 4) ∩ Set.Ico 1 (1 + 1 / 2) = Set.Ico 1 (5 / 4) := by
    ext x; simp only [Set.mem_inter_iff, Set.mem_Ico]
    exact ⟨fun h => ⟨h.2.1, h.1.2⟩, fun h => ⟨⟨by linarith [h.1], h.2⟩, h.1, by linarith [h.2]⟩⟩
  simp only [exTable, histogram, e1, e3, Real.volume_Ico]
  norm_num
  rw [← ENNReal.ofReal_div_of_pos (by norm_num), ← ENNReal.ofReal_mul (by norm_num)]
  norm_num

/-- The pipeline of C82 with the tabulated polar angles. -/
noncomputable def tablePipe : Pipeline Stream :=
  { halfPipe with polar_dists := [exTable.sample streamGen] }

theorem tablePipe_values {s s' : Stream} {x : Sample} (h : tablePipe.sample s = .ok (x, s')) :
    x.beam_energy = 5 ∧ x.reaction_excitation = 4 * s 0 := by
  obtain ⟨hlt, he⟩ := sample_eq (rng := streamGen) exTable exTable_ok (streamGen.uniform 0 4 s).2
    (by
      obtain ⟨h1, h2⟩ := ((streamGen.uniform 0 4 s).2 0).2
      simp only [streamGen, sub_zero, one_mul, zero_add]
      exact ⟨h1, h2⟩)
  have h4 : ¬ (4 : ℝ) < 0 := by norm_num
  simp only [Pipeline.sample, Pipeline.sample_vertex, tablePipe, halfPipe, sampleHead,
    ExcitationUniform.sample, h4, if_false, sampleAll, List.tail_cons, bind, Except.bind, pure, Except.pure, he,
    Except.ok.injEq, Prod.mk.injEq] at h
  obtain ⟨rfl, -⟩ := h
  exact ⟨rfl, by simp [streamGen]⟩

theorem tablePipe_samples : SamplesOk tablePipe := by
  intro s x s' h
  obtain ⟨h1, h2⟩ := tablePipe_values h
  have := (s 0).2.1
  refine ⟨?_, ?_, by simp [tablePipe, halfPipe]⟩
  · rw [h1]; norm_num [tablePipe, halfPipe, exReaction]
  · rw [h2]
    simp only [tablePipe, halfPipe, exReaction]
    linarith

theorem tablePipe_ok : RunsOk tablePipe where
  built := ⟨rfl, rfl⟩
  lawful := streamGen_lawful
  chain := ⟨halfPipe_ok.chain.target, halfPipe_ok.chain.projectile, halfPipe_ok.chain.ejectile,
    by simp [tablePipe, halfPipe]⟩
  samples := tablePipe_samples
  calculates := by
    intro s x s' h ha
    have hx := tablePipe_samples s x s' h
    obtain ⟨h1, h2⟩ := tablePipe_values h
    rw [h1] at ha ⊢
    obtain ⟨t, b, e, q, h⟩ := C43_partial exReaction_ok (T := 5) (by norm_num) (hx.residual.le) ha
      (by norm_num [exReaction]) (.inl (by norm_num [exReaction])) x.reaction_theta x.reaction_phi
    exact ⟨_, h⟩

/-- C103 applies to it. -/
example : FreshPipeline streamMeasure tablePipe (fun s => (s 0 : ℝ)) (fun s => (s 0 : ℝ)) shift shift
    (exTable.sample tablePipe.rng) [] where
  runs := tablePipe_ok
  gen := streamGen_fresh
  target := by simp [tablePipe, halfPipe]
  excitations := halfPipe_freshPipeline.excitations
  polar := rfl
  polar_fresh := by
    intro d hd
    simp only [tablePipe, List.mem_singleton] at hd
    subst hd
    exact polar_arbitrary_fresh streamGen_fresh exTable_ok

end Verif.Props
