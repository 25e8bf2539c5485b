import Verif.Proofs.VertexLaw
import Verif.Props.Counts
import Verif.Props.Symmetry

/-! # C112: the distribution of the vertex and of the beam energy at the vertex -/

namespace Verif.Props

open Verif.Kinematics Verif.Spec MeasureTheory ProbabilityTheory

variable {σ : Type} [MeasurableSpace σ] {μ : Measure σ} [IsProbabilityMeasure μ] {p : Pipeline σ}
  {t : TargetMaterial} {S : ℝ → ℝ}

/-- The pipelines of C112: an ideal generator, an extended target and independent samplers. -/
structure BeamOk (p : Pipeline σ) (t : TargetMaterial) (μ : Measure σ) : Prop where
  generator : ∃ u z next skip, IdealGen p.rng μ u z next skip ∧
    μ.map u = volume.restrict (Set.Ico (0 : ℝ) 1)
  target : p.target_material = some t
  width : 0 ≤ t.rho_sigma
  range : t.z_range.1 < t.z_range.2
  measurable : Measurable fun z => t.material.get_energy_loss p.reaction.projectile p.beam_energy z
  excitations : p.excitations ≠ [] ∧ ∀ d ∈ p.excitations, FreshSampler μ d
  polar : p.polar_dists ≠ [] ∧ ∀ d ∈ p.polar_dists, FreshSampler μ d

/-- The probability that a sample with beam energy `E` is allowed. -/
noncomputable def acceptance (p : Pipeline σ) (μ : Measure σ) (E : ℝ) : ENNReal :=
  μ {s | ∃ x s', (withoutTarget p E).sample s = .ok (x, s') ∧ EnergyAllowed p x}

/-- A sample with another beam energy. -/
def withEnergy (E : ℝ) (x : Sample) : Sample := { x with beam_energy := E }

/-- A sample with another beam energy and vertex. -/
def placed (a : ℝ × ℝ × ℝ × ℝ) (x : Sample) : Sample := { x with beam_energy := a.1, vertex := a.2 }

/-- The standard distributions of the numbers behind a vertex. -/
noncomputable def numbers : Measure (ℝ × ℝ × ℝ) :=
  (gaussianReal 0 1).prod ((volume.restrict (Set.Ico (0 : ℝ) 1)).prod (volume.restrict (Set.Ico (0 : ℝ) 1)))

/-- The sample of a pipeline: the vertex part and the rest are independent. -/
theorem BeamOk.split (h : BeamOk p t μ) :
    ∃ (v : σ → ℝ × ℝ × ℝ × ℝ) (w : σ → Sample) (g k : σ → σ),
      Fresh μ v g ∧ Fresh μ w k ∧ μ.map v = numbers.map (vertexOf p t) ∧
      (∀ E s, (withoutTarget p E).sample s = .ok (withEnergy E (w s), k s)) ∧
      (∀ s, p.sample s = .ok (placed (v s) (w (g s)), k (g s))) ∧
      Fresh μ (fun s => placed (v s) (w (g s)))
        (fun s => k (g s)) := by
  obtain ⟨u, z, next, skip, hr, hu⟩ := h.generator
  have hm : Measurable (remaining p t) := h.measurable.const_sub _
  obtain ⟨v, g, hv, hvs, hlaw⟩ := vertex_law hr.fresh rfl h.target h.width h.range.le hm
  rw [hr.standard, hu] at hlaw
  obtain ⟨w, k, hw, hws⟩ := sample_fresh hr.fresh (p := withoutTarget p 0) rfl (by simp [withoutTarget])
    h.excitations h.polar
  refine ⟨v, w, g, k, hv, hw, hlaw, fun E s => ?_, fun s => ?_, ?_⟩
  · rw [bare_energy p 0 E, hws]; rfl
  · rw [sample_eq_bare p 0, hvs]
    simp only [bind, Except.bind, hws]
    rfl
  · refine (hv.comp hw).map (k := fun x : (ℝ × ℝ × ℝ × ℝ) × Sample =>
      placed x.1 x.2) ?_
    have hs : Measurable fun x : (ℝ × ℝ × ℝ × ℝ) × Sample => x.2 := measurable_snd
    have hf := measurable_fields.comp hs
    refine measurable_sample ?_ ?_ ?_ ?_ ?_ ?_ ?_ ?_
    · exact measurable_fst.comp measurable_fst
    · exact (measurable_fst.comp measurable_snd).comp hf
    · exact (measurable_fst.comp (measurable_snd.comp measurable_snd)).comp hf
    · exact (measurable_fst.comp (measurable_snd.comp (measurable_snd.comp measurable_snd))).comp hf
    · exact measurable_snd.comp measurable_fst
    · exact (measurable_fst.comp (measurable_snd.comp (measurable_snd.comp (measurable_snd.comp
        (measurable_snd.comp measurable_snd))))).comp hf
    · exact (measurable_fst.comp (measurable_snd.comp (measurable_snd.comp (measurable_snd.comp
        (measurable_snd.comp (measurable_snd.comp measurable_snd)))))).comp hf
    · exact (measurable_snd.comp (measurable_snd.comp (measurable_snd.comp (measurable_snd.comp
        (measurable_snd.comp (measurable_snd.comp measurable_snd)))))).comp hf

instance : IsProbabilityMeasure (volume.restrict (Set.Ico (0 : ℝ) 1)) where
  measure_univ := by simp

instance : IsProbabilityMeasure numbers := by unfold numbers; infer_instance

/-- Averages of functions of the vertex and the energy. -/
theorem BeamOk.lintegral (h : BeamOk p t μ) {v : σ → ℝ × ℝ × ℝ × ℝ} (hv : Measurable v)
    (hlaw : μ.map v = numbers.map (vertexOf p t)) {f : ℝ → ENNReal} (hf : Measurable f) :
    ∫⁻ s, f (v s).1 ∂μ = ENNReal.ofReal (1 / (t.z_range.2 - t.z_range.1))
      * ∫⁻ z in Set.Ico t.z_range.1 t.z_range.2, f (remaining p t z) := by
  have hm : Measurable (remaining p t) := h.measurable.const_sub _
  have hf' : Measurable fun x : ℝ × ℝ × ℝ × ℝ => f x.1 := hf.comp measurable_fst
  have e1 : ∫⁻ s, f (v s).1 ∂μ = ∫⁻ x, f x.1 ∂(μ.map v) := (lintegral_map hf' hv).symm
  rw [e1, hlaw, lintegral_map hf' (measurable_vertexOf hm)]
  unfold numbers vertexOf
  simp only
  have hg : Measurable fun x : ℝ => f (remaining p t (t.z_range.1 + (t.z_range.2 - t.z_range.1) * x)) :=
    hf.comp (hm.comp (by fun_prop))
  have hg1 : Measurable fun x : ℝ × ℝ × ℝ =>
      f (remaining p t (t.z_range.1 + (t.z_range.2 - t.z_range.1) * x.2.2)) :=
    hg.comp (measurable_snd.comp measurable_snd)
  have hg2 : Measurable fun x : ℝ × ℝ =>
      f (remaining p t (t.z_range.1 + (t.z_range.2 - t.z_range.1) * x.2)) := hg.comp measurable_snd
  rw [lintegral_prod _ hg1.aemeasurable]
  simp only [lintegral_const, measure_univ, mul_one]
  rw [lintegral_prod _ hg2.aemeasurable]
  simp only [lintegral_const, measure_univ, mul_one]
  exact uniform_lintegral h.range (hf.comp hm)

/-- The averages over the energies between those at the ends of the z range. -/
theorem BeamOk.energies (h : BeamOk p t μ) (hS : StopsBy p t S) {v : σ → ℝ × ℝ × ℝ × ℝ}
    (hv : Measurable v) (hlaw : μ.map v = numbers.map (vertexOf p t)) {f : ℝ → ENNReal} (hf : Measurable f) :
    ∫⁻ s, f (v s).1 ∂μ = ∫⁻ E in Set.Icc (remaining p t t.z_range.2) (remaining p t t.z_range.1),
      ENNReal.ofReal (1 / (S E * (t.z_range.2 - t.z_range.1))) * f E := by
  have hd : 0 < t.z_range.2 - t.z_range.1 := by linarith [h.range]
  rw [h.lintegral hv hlaw hf, remaining_lintegral hS, ← lintegral_const_mul' _ _ ENNReal.ofReal_ne_top]
  congr 1
  funext E
  rw [← mul_assoc, ← ENNReal.ofReal_mul (by positivity)]
  congr 2
  rw [one_div_mul_one_div, mul_comm]

/-- **C112.** The beam energy at the vertex: if the gas slows the beam down with the stopping power `S`, the
energies are distributed over those of the z range with a density proportional to `1 / S`. -/
theorem C112_energy (h : BeamOk p t μ) (hS : StopsBy p t S) {a b : ℝ}
    (ha : remaining p t t.z_range.2 ≤ a) (hb : b ≤ remaining p t t.z_range.1) :
    μ {s | ∃ x s', p.sample s = .ok (x, s') ∧ a ≤ x.beam_energy ∧ x.beam_energy ≤ b}
      = ∫⁻ E in Set.Icc a b, ENNReal.ofReal (1 / (S E * (t.z_range.2 - t.z_range.1))) := by
  obtain ⟨v, w, g, k, hv, -, hlaw, -, hs, -⟩ := h.split
  have hmv : Measurable fun s => (v s).1 := measurable_fst.comp hv.value
  have e : {s | ∃ x s', p.sample s = .ok (x, s') ∧ a ≤ x.beam_energy ∧ x.beam_energy ≤ b}
      = (fun s => (v s).1) ⁻¹' Set.Icc a b := by
    ext s
    simp only [hs, Set.mem_setOf_eq, Set.mem_preimage, Set.mem_Icc]
    constructor
    · rintro ⟨x, s', h1, h2⟩
      obtain ⟨rfl, -⟩ := Prod.mk.inj (Except.ok.inj h1)
      exact h2
    · intro h2
      exact ⟨_, _, rfl, h2⟩
  have key := h.energies hS hv.value hlaw (f := (Set.Icc a b).indicator 1)
    (measurable_one.indicator measurableSet_Icc)
  have e1 : ∫⁻ s, (Set.Icc a b).indicator (1 : ℝ → ENNReal) (v s).1 ∂μ
      = μ ((fun s => (v s).1) ⁻¹' Set.Icc a b) := by
    rw [← lintegral_indicator_one (hmv measurableSet_Icc)]
    rfl
  rw [e, ← e1, key]
  have e2 : ∀ E, ENNReal.ofReal (1 / (S E * (t.z_range.2 - t.z_range.1)))
        * (Set.Icc a b).indicator (1 : ℝ → ENNReal) E
      = (Set.Icc a b).indicator
        (fun E => ENNReal.ofReal (1 / (S E * (t.z_range.2 - t.z_range.1)))) E := by
    intro E
    by_cases hE : E ∈ Set.Icc a b <;> simp [hE]
  simp only [e2]
  rw [setLIntegral_indicator measurableSet_Icc,
    Set.inter_eq_left.2 (Set.Icc_subset_Icc ha hb)]

theorem measurable_setEnergy : Measurable fun x : ℝ × Sample => withEnergy x.1 x.2 := by
  have hs : Measurable fun x : ℝ × Sample => x.2 := measurable_snd
  have hf := measurable_fields.comp hs
  refine measurable_sample ?_ ?_ ?_ ?_ ?_ ?_ ?_ ?_
  · exact measurable_fst
  · exact (measurable_fst.comp measurable_snd).comp hf
  · exact (measurable_fst.comp (measurable_snd.comp measurable_snd)).comp hf
  · exact (measurable_fst.comp (measurable_snd.comp (measurable_snd.comp measurable_snd))).comp hf
  · exact (measurable_fst.comp (measurable_snd.comp (measurable_snd.comp (measurable_snd.comp
      measurable_snd)))).comp hf
  · exact (measurable_fst.comp (measurable_snd.comp (measurable_snd.comp (measurable_snd.comp
      (measurable_snd.comp measurable_snd))))).comp hf
  · exact (measurable_fst.comp (measurable_snd.comp (measurable_snd.comp (measurable_snd.comp
      (measurable_snd.comp (measurable_snd.comp measurable_snd)))))).comp hf
  · exact (measurable_snd.comp (measurable_snd.comp (measurable_snd.comp (measurable_snd.comp
      (measurable_snd.comp (measurable_snd.comp measurable_snd)))))).comp hf

/-- The acceptance as a function of the energy, and its average. -/
theorem acceptance_average {v : σ → ℝ × ℝ × ℝ × ℝ} {w : σ → Sample} {g k : σ → σ} (hv : Fresh μ v g)
    (hw : Fresh μ w k)
    (hws : ∀ E s, (withoutTarget p E).sample s = .ok (withEnergy E (w s), k s)) :
    Measurable (acceptance p μ) ∧ ∀ {B : Set ℝ}, MeasurableSet B →
      μ {s | EnergyAllowed p (placed (v s) (w (g s))) ∧ (v s).1 ∈ B}
        = ∫⁻ s, B.indicator (acceptance p μ) (v s).1 ∂μ := by
  have hK : MeasurableSet {x : ℝ × Sample | EnergyAllowed p (withEnergy x.1 x.2)} :=
    measurable_setEnergy (measurable_energyAllowed p)
  have i1 : IsProbabilityMeasure (μ.map w) := Measure.isProbabilityMeasure_map hw.value.aemeasurable
  have hv1 : Fresh μ (fun s => (v s).1) g := hv.map measurable_fst
  have i2 : IsProbabilityMeasure (μ.map fun s => (v s).1) :=
    Measure.isProbabilityMeasure_map hv1.value.aemeasurable
  have hacc : ∀ E, acceptance p μ E
      = (μ.map w) (Prod.mk E ⁻¹' {x : ℝ × Sample | EnergyAllowed p (withEnergy x.1 x.2)}) := by
    intro E
    rw [Measure.map_apply hw.value (measurable_prodMk_left hK)]
    unfold acceptance
    congr 1
    ext s
    simp only [hws, Set.mem_setOf_eq, Set.mem_preimage]
    constructor
    · rintro ⟨x, s', h1, h2⟩
      obtain ⟨rfl, -⟩ := Prod.mk.inj (Except.ok.inj h1)
      exact h2
    · intro h2
      exact ⟨_, _, rfl, h2⟩
  have hm : Measurable (acceptance p μ) := by
    have := measurable_measure_prodMk_left (ν := μ.map w) hK
    rwa [← funext hacc] at this
  refine ⟨hm, fun {B} hB => ?_⟩
  have hB' : MeasurableSet {x : ℝ × Sample | x.1 ∈ B} := measurable_fst hB
  have hKB := hK.inter hB'
  have hwg : Measurable fun s => w (g s) := hw.value.comp hv.state
  have e1 : μ {s | EnergyAllowed p (placed (v s) (w (g s))) ∧ (v s).1 ∈ B}
      = (μ.map fun s => ((v s).1, w (g s)))
        ({x : ℝ × Sample | EnergyAllowed p (withEnergy x.1 x.2)} ∩ {x | x.1 ∈ B}) := by
    rw [Measure.map_apply (hv1.value.prodMk hwg) hKB]
    rfl
  rw [e1, hv1.law_comp hw, Measure.prod_apply hKB]
  have hi : Measurable (B.indicator (acceptance p μ)) := hm.indicator hB
  rw [← lintegral_map (f := B.indicator (acceptance p μ)) hi hv1.value]
  congr 1
  funext E
  by_cases hE : E ∈ B
  · rw [Set.indicator_of_mem hE, hacc]
    congr 1
    ext x
    simp [hE]
  · rw [Set.indicator_of_notMem hE]
    have : Prod.mk E ⁻¹' ({x : ℝ × Sample | EnergyAllowed p (withEnergy x.1 x.2)}
        ∩ {x | x.1 ∈ B}) = ∅ := by
      ext x
      simp [hE]
    rw [this, measure_empty]

theorem indicator_energies (hS : StopsBy p t S) {a b : ℝ} (ha : remaining p t t.z_range.2 ≤ a)
    (hb : b ≤ remaining p t t.z_range.1) (A : ℝ → ENNReal) :
    ∫⁻ E in Set.Icc (remaining p t t.z_range.2) (remaining p t t.z_range.1),
      ENNReal.ofReal (1 / (S E * (t.z_range.2 - t.z_range.1))) * (Set.Icc a b).indicator A E
      = ∫⁻ E in Set.Icc a b, ENNReal.ofReal (1 / (S E * (t.z_range.2 - t.z_range.1))) * A E := by
  have e2 : ∀ E, ENNReal.ofReal (1 / (S E * (t.z_range.2 - t.z_range.1)))
        * (Set.Icc a b).indicator A E
      = (Set.Icc a b).indicator
        (fun E => ENNReal.ofReal (1 / (S E * (t.z_range.2 - t.z_range.1))) * A E) E := by
    intro E
    by_cases hE : E ∈ Set.Icc a b <;> simp [hE]
  simp only [e2]
  rw [setLIntegral_indicator measurableSet_Icc,
    Set.inter_eq_left.2 (Set.Icc_subset_Icc ha hb)]

/-- **C112.** The beam energies of the events that `run` returns: their density is that of the sampled energies
times the probability that a sample of this energy is allowed, times the expected number of samples. -/
theorem C112_accepted (h : BeamOk p t μ) (hrun : RunsOk p) (hS : StopsBy p t S) {a b : ℝ}
    (ha : remaining p t t.z_range.2 ≤ a) (hb : b ≤ remaining p t t.z_range.1)
    {buf : List ResultRow} (hlen : buf.length = 4 + 2 * p.decays.length) :
    μ {s | ∃ x st', p.run ⟨s, buf⟩ = (.ok x.vertex, st') ∧ eventRows p x = .ok (some st'.result) ∧
        FirstAllowed p p.event_sample_limit.toNat s x st'.gen ∧ a ≤ x.beam_energy ∧ x.beam_energy ≤ b}
      = (∫⁻ E in Set.Icc a b, ENNReal.ofReal (1 / (S E * (t.z_range.2 - t.z_range.1))) * acceptance p μ E)
        * ∑ k ∈ Finset.range p.event_sample_limit.toNat,
          (1 - ∫⁻ E in Set.Icc (remaining p t t.z_range.2) (remaining p t t.z_range.1),
            ENNReal.ofReal (1 / (S E * (t.z_range.2 - t.z_range.1))) * acceptance p μ E) ^ k := by
  obtain ⟨v, w, g, k, hv, hw, hlaw, hws, hs, hf⟩ := h.split
  obtain ⟨hm, hav⟩ := acceptance_average hv hw hws
  have hB : MeasurableSet {x : Sample | a ≤ x.beam_energy ∧ x.beam_energy ≤ b} :=
    measurable_beam_energy measurableSet_Icc
  have key := C82_accepted hrun hf hs hB hlen
  simp only [Set.mem_setOf_eq] at key
  rw [key]
  have e1 := hav (B := Set.Icc a b) measurableSet_Icc
  rw [h.energies hS hv.value hlaw (hm.indicator measurableSet_Icc), indicator_energies hS ha hb] at e1
  have e2 := hav (B := Set.univ) MeasurableSet.univ
  simp only [Set.mem_univ, and_true, Set.indicator_univ] at e2
  rw [h.energies hS hv.value hlaw hm] at e2
  have e3 : μ {s | ¬ EnergyAllowed p (placed (v s) (w (g s)))}
      = 1 - μ {s | EnergyAllowed p (placed (v s) (w (g s)))} :=
    prob_compl_eq_one_sub (hf.value (measurable_energyAllowed p))
  rw [e3, e2, ← e1]
  rfl

/-- **C112.** The spot of the beam: the distance of the vertex from the axis is the absolute value of a normal
number of standard deviation `rho_sigma`, independent of the uniformly distributed z position. -/
theorem C112_radius (h : BeamOk p t μ) {r c d : ℝ} (hr : 0 ≤ r) (hc : t.z_range.1 ≤ c)
    (hd : d ≤ t.z_range.2) :
    μ {s | ∃ x s', p.sample s = .ok (x, s') ∧ √(x.vertex.1 ^ 2 + x.vertex.2.1 ^ 2) ≤ r ∧
        c ≤ x.vertex.2.2 ∧ x.vertex.2.2 < d}
      = gaussianReal 0 ⟨t.rho_sigma ^ 2, sq_nonneg _⟩ (Set.Icc (-r) r)
        * ENNReal.ofReal ((d - c) / (t.z_range.2 - t.z_range.1)) := by
  obtain ⟨v, w, g, k, hv, -, hlaw, -, hs, -⟩ := h.split
  have hm : Measurable (remaining p t) := h.measurable.const_sub _
  have hL : 0 < t.z_range.2 - t.z_range.1 := by linarith [h.range]
  have hw := h.width
  have hset : MeasurableSet {y : ℝ × ℝ × ℝ × ℝ | √(y.2.1 ^ 2 + y.2.2.1 ^ 2) ≤ r ∧ c ≤ y.2.2.2 ∧ y.2.2.2 < d} :=
    (measurableSet_le (f := fun y : ℝ × ℝ × ℝ × ℝ => √(y.2.1 ^ 2 + y.2.2.1 ^ 2)) (by fun_prop)
      measurable_const).inter
      ((measurableSet_le (g := fun y : ℝ × ℝ × ℝ × ℝ => y.2.2.2) measurable_const (by fun_prop)).inter
        (measurableSet_lt (f := fun y : ℝ × ℝ × ℝ × ℝ => y.2.2.2) (by fun_prop) measurable_const))
  have e : {s | ∃ x s', p.sample s = .ok (x, s') ∧ √(x.vertex.1 ^ 2 + x.vertex.2.1 ^ 2) ≤ r ∧
        c ≤ x.vertex.2.2 ∧ x.vertex.2.2 < d}
      = v ⁻¹' {y : ℝ × ℝ × ℝ × ℝ | √(y.2.1 ^ 2 + y.2.2.1 ^ 2) ≤ r ∧ c ≤ y.2.2.2 ∧ y.2.2.2 < d} := by
    ext s
    simp only [hs, Set.mem_setOf_eq, Set.mem_preimage]
    constructor
    · rintro ⟨x, s', h1, h2⟩
      obtain ⟨rfl, -⟩ := Prod.mk.inj (Except.ok.inj h1)
      exact h2
    · intro h2
      exact ⟨_, _, rfl, h2⟩
  have e2 : vertexOf p t ⁻¹' {y : ℝ × ℝ × ℝ × ℝ | √(y.2.1 ^ 2 + y.2.2.1 ^ 2) ≤ r ∧ c ≤ y.2.2.2 ∧ y.2.2.2 < d}
      = ((t.rho_sigma * ·) ⁻¹' Set.Icc (-r) r) ×ˢ ((Set.univ : Set ℝ) ×ˢ
        Set.Ico ((c - t.z_range.1) / (t.z_range.2 - t.z_range.1))
          ((d - t.z_range.1) / (t.z_range.2 - t.z_range.1))) := by
    ext ⟨n, a, b⟩
    have e3 : (t.rho_sigma * |n| * Real.cos (2 * Real.pi * a)) ^ 2
        + (t.rho_sigma * |n| * Real.sin (2 * Real.pi * a)) ^ 2 = (t.rho_sigma * n) ^ 2 := by
      have := Real.cos_sq_add_sin_sq (2 * Real.pi * a)
      have h2 := sq_abs n
      calc _ = t.rho_sigma ^ 2 * |n| ^ 2 * (Real.cos (2 * Real.pi * a) ^ 2 + Real.sin (2 * Real.pi * a) ^ 2) := by
            ring
        _ = _ := by rw [this, h2]; ring
    simp only [vertexOf, Set.mem_preimage, Set.mem_setOf_eq, e3, Real.sqrt_sq_eq_abs, Set.mem_prod,
      Set.mem_univ, true_and, Set.mem_Icc, Set.mem_Ico, abs_le]
    rw [div_le_iff₀ hL, lt_div_iff₀ hL]
    constructor
    · rintro ⟨h1, h2, h3⟩
      exact ⟨h1, by linarith, by linarith⟩
    · rintro ⟨h1, h2, h3⟩
      exact ⟨h1, by linarith, by linarith⟩
  have hg : gaussianReal 0 1 ((t.rho_sigma * ·) ⁻¹' Set.Icc (-r) r)
      = gaussianReal 0 ⟨t.rho_sigma ^ 2, sq_nonneg _⟩ (Set.Icc (-r) r) := by
    rw [← Measure.map_apply (by fun_prop) measurableSet_Icc, gaussianReal_map_const_mul, mul_zero, mul_one]
    rfl
  rw [e, ← Measure.map_apply hv.value hset, hlaw, Measure.map_apply (measurable_vertexOf hm) hset, e2]
  unfold numbers
  rw [Measure.prod_prod, Measure.prod_prod, hg, measure_univ, one_mul, Measure.restrict_apply measurableSet_Ico,
    Set.inter_eq_left.2 (Set.Ico_subset_Ico (div_nonneg (by linarith) hL.le)
      ((div_le_one hL).2 (by linarith))), Real.volume_Ico, ← sub_div]
  congr 3
  ring

theorem gaussian_sq : ∫ n, n ^ 2 ∂(gaussianReal 0 1) = 1 := by
  have h := variance_fun_id_gaussianReal (μ := 0) (v := 1)
  rw [variance_eq_integral (by fun_prop)] at h
  simpa using h

theorem unit_integral (f : ℝ → ℝ) : ∫ x in Set.Ico (0 : ℝ) 1, f x = ∫ x in (0 : ℝ)..1, f x := by
  rw [integral_Ico_eq_integral_Ioc, intervalIntegral.integral_of_le zero_le_one]

theorem turn_integral (f : ℝ → ℝ) : ∫ x in Set.Ico (0 : ℝ) 1, f (2 * Real.pi * x)
    = (2 * Real.pi)⁻¹ * ∫ x in (0 : ℝ)..(2 * Real.pi), f x := by
  rw [unit_integral, intervalIntegral.integral_comp_mul_left _ (by positivity)]
  simp

/-- **C112.** The first and second moments of the spot: it is centred on the axis, `x` and `y` have the standard
deviation `rho_sigma / √2` and are uncorrelated; `z` has the mean and variance of a uniform number. -/
theorem C112_spot (h : BeamOk p t μ) {x : σ → Sample} {g' : σ → σ} (hx : ∀ s, p.sample s = .ok (x s, g' s)) :
    Integrable (fun s => (x s).vertex.1 ^ 2 + (x s).vertex.2.1 ^ 2) μ ∧
      ∫ s, (x s).vertex.1 ∂μ = 0 ∧ ∫ s, (x s).vertex.2.1 ∂μ = 0 ∧
      ∫ s, (x s).vertex.1 ^ 2 ∂μ = t.rho_sigma ^ 2 / 2 ∧ ∫ s, (x s).vertex.2.1 ^ 2 ∂μ = t.rho_sigma ^ 2 / 2 ∧
      ∫ s, (x s).vertex.1 * (x s).vertex.2.1 ∂μ = 0 ∧
      ∫ s, (x s).vertex.2.2 ∂μ = (t.z_range.1 + t.z_range.2) / 2 ∧
      ∫ s, ((x s).vertex.2.2 - (t.z_range.1 + t.z_range.2) / 2) ^ 2 ∂μ
        = (t.z_range.2 - t.z_range.1) ^ 2 / 12 := by
  obtain ⟨v, w, g, k, hv, -, hlaw, -, hs, -⟩ := h.split
  have hm : Measurable (remaining p t) := h.measurable.const_sub _
  have hvert : ∀ s, (x s).vertex = (v s).2 := by
    intro s
    have := (hx s).symm.trans (hs s)
    rw [(Prod.mk.inj (Except.ok.inj this)).1]
    rfl
  have key : ∀ f : ℝ × ℝ × ℝ × ℝ → ℝ, Measurable f → ∫ s, f (v s) ∂μ = ∫ y, f (vertexOf p t y) ∂numbers := by
    intro f hf
    rw [← integral_map hv.value.aemeasurable hf.aestronglyMeasurable, hlaw,
      integral_map (measurable_vertexOf hm).aemeasurable hf.aestronglyMeasurable]
  have prod1 : ∀ f k : ℝ → ℝ, ∫ y, f y.1 * k y.2.1 ∂numbers
      = (∫ n, f n ∂(gaussianReal 0 1)) * ∫ a in Set.Ico (0 : ℝ) 1, k a := by
    intro f k
    unfold numbers
    rw [integral_prod_mul f (fun y : ℝ × ℝ => k y.1), integral_fun_fst]
    simp
  have prod2 : ∀ k : ℝ → ℝ, ∫ y, k y.2.2 ∂numbers = ∫ a in Set.Ico (0 : ℝ) 1, k a := by
    intro k
    unfold numbers
    rw [integral_fun_snd (f := fun y : ℝ × ℝ => k y.2), integral_fun_snd]
    simp
  simp only [hvert]
  refine ⟨?_, ?_, ?_, ?_, ?_, ?_, ?_, ?_⟩
  · have hf : Measurable fun y : ℝ × ℝ × ℝ × ℝ => y.2.1 ^ 2 + y.2.2.1 ^ 2 := by fun_prop
    refine (integrable_map_measure hf.aestronglyMeasurable hv.value.aemeasurable).1 ?_
    rw [hlaw, integrable_map_measure hf.aestronglyMeasurable (measurable_vertexOf hm).aemeasurable]
    have e : (fun y : ℝ × ℝ × ℝ × ℝ => y.2.1 ^ 2 + y.2.2.1 ^ 2) ∘ vertexOf p t
        = fun y : ℝ × ℝ × ℝ => t.rho_sigma ^ 2 * y.1 ^ 2 := by
      funext y
      simp only [vertexOf, Function.comp, mul_pow, sq_abs]
      rw [← mul_add, Real.cos_sq_add_sin_sq, mul_one]
    rw [e]
    have hi : Integrable (fun n : ℝ => n ^ 2) (gaussianReal 0 1) := by
      have := (memLp_id_gaussianReal (μ := 0) (v := 1) 2).integrable_sq
      simpa using this
    unfold numbers
    exact (hi.const_mul (t.rho_sigma ^ 2)).comp_fst _
  · rw [key (fun y => y.2.1) (by fun_prop)]
    simp only [vertexOf]
    rw [prod1 (fun n => t.rho_sigma * |n|) fun a => Real.cos (2 * Real.pi * a), turn_integral]
    simp
  · rw [key (fun y => y.2.2.1) (by fun_prop)]
    simp only [vertexOf]
    rw [prod1 (fun n => t.rho_sigma * |n|) fun a => Real.sin (2 * Real.pi * a), turn_integral]
    simp
  · rw [key (fun y => y.2.1 ^ 2) (by fun_prop)]
    simp only [vertexOf, mul_pow, sq_abs]
    rw [prod1 (fun n => t.rho_sigma ^ 2 * n ^ 2) fun a => Real.cos (2 * Real.pi * a) ^ 2,
      turn_integral (fun a => Real.cos a ^ 2), integral_const_mul, gaussian_sq, integral_cos_sq]
    simp only [Real.cos_two_pi, Real.sin_two_pi, Real.cos_zero, Real.sin_zero]
    field_simp
    ring
  · rw [key (fun y => y.2.2.1 ^ 2) (by fun_prop)]
    simp only [vertexOf, mul_pow, sq_abs]
    rw [prod1 (fun n => t.rho_sigma ^ 2 * n ^ 2) fun a => Real.sin (2 * Real.pi * a) ^ 2,
      turn_integral (fun a => Real.sin a ^ 2), integral_const_mul, gaussian_sq, integral_sin_sq]
    simp only [Real.cos_two_pi, Real.sin_two_pi, Real.cos_zero, Real.sin_zero]
    field_simp
    ring
  · rw [key (fun y => y.2.1 * y.2.2.1) (by fun_prop)]
    simp only [vertexOf]
    have e : ∀ y : ℝ × ℝ × ℝ, t.rho_sigma * |y.1| * Real.cos (2 * Real.pi * y.2.1)
        * (t.rho_sigma * |y.1| * Real.sin (2 * Real.pi * y.2.1))
        = (t.rho_sigma ^ 2 * |y.1| ^ 2) * (Real.sin (2 * Real.pi * y.2.1) * Real.cos (2 * Real.pi * y.2.1)) :=
      fun y => by ring
    simp only [e]
    rw [prod1 (fun n => t.rho_sigma ^ 2 * |n| ^ 2) fun a => Real.sin (2 * Real.pi * a) * Real.cos (2 * Real.pi * a),
      turn_integral (fun a => Real.sin a * Real.cos a), integral_sin_mul_cos₁]
    simp
  · rw [key (fun y => y.2.2.2) (by fun_prop)]
    simp only [vertexOf]
    rw [prod2 (fun a => t.z_range.1 + (t.z_range.2 - t.z_range.1) * a), unit_integral]
    rw [intervalIntegral.integral_add (Continuous.intervalIntegrable (by fun_prop) _ _)
      (Continuous.intervalIntegrable (by fun_prop) _ _), intervalIntegral.integral_const_mul,
      integral_id]
    simp
    ring
  · rw [key (fun y => (y.2.2.2 - (t.z_range.1 + t.z_range.2) / 2) ^ 2) (by fun_prop)]
    simp only [vertexOf]
    rw [prod2 (fun a => (t.z_range.1 + (t.z_range.2 - t.z_range.1) * a - (t.z_range.1 + t.z_range.2) / 2) ^ 2),
      unit_integral]
    have e : ∀ a : ℝ, (t.z_range.1 + (t.z_range.2 - t.z_range.1) * a - (t.z_range.1 + t.z_range.2) / 2) ^ 2
        = (t.z_range.2 - t.z_range.1) ^ 2 * (a ^ 2 - a + 1 / 4) := fun a => by ring
    simp only [e]
    rw [intervalIntegral.integral_const_mul, intervalIntegral.integral_add
      (Continuous.intervalIntegrable (by fun_prop) _ _) (Continuous.intervalIntegrable (by fun_prop) _ _),
      intervalIntegral.integral_sub (Continuous.intervalIntegrable (by fun_prop) _ _)
        (Continuous.intervalIntegrable (by fun_prop) _ _), integral_id, integral_pow]
    norm_num
    ring

/-- The normal distribution near its centre. -/
theorem gaussian_core {q : ℝ} (hq0 : 0 ≤ q) (hq : q ≤ 1) :
    ENNReal.ofReal (2 * q * gaussianPDFReal 0 1 1) ≤ gaussianReal 0 1 (Set.Icc (-q) q) := by
  rw [gaussianReal_apply _ one_ne_zero]
  calc ENNReal.ofReal (2 * q * gaussianPDFReal 0 1 1)
      = ∫⁻ _ in Set.Icc (-q) q, gaussianPDF 0 1 1 := by
        rw [setLIntegral_const, Real.volume_Icc]
        unfold gaussianPDF
        rw [← ENNReal.ofReal_mul (gaussianPDFReal_nonneg _ _ _)]
        congr 1
        ring
    _ ≤ _ := by
        refine setLIntegral_mono' measurableSet_Icc fun x hx => ?_
        unfold gaussianPDF
        apply ENNReal.ofReal_le_ofReal
        unfold gaussianPDFReal
        apply mul_le_mul_of_nonneg_left _ (by positivity)
        apply Real.exp_le_exp.2
        have : x ^ 2 ≤ 1 := by nlinarith [hx.1, hx.2]
        simp only [NNReal.coe_one, sub_zero, mul_one]
        linarith

/-- **C112.** The spot is not a round Gaussian one: whatever width one compares with, the
distances from the axis are not distributed like those of a two-dimensional normal distribution. -/
theorem C112_not_gaussian (h : BeamOk p t μ) (hρ : 0 < t.rho_sigma) : ¬ ∃ w : ℝ, 0 < w ∧ ∀ r : ℝ, 0 ≤ r →
    μ {s | ∃ x s', p.sample s = .ok (x, s') ∧ √(x.vertex.1 ^ 2 + x.vertex.2.1 ^ 2) ≤ r}
      = ENNReal.ofReal (1 - Real.exp (-(r ^ 2) / (2 * w ^ 2))) := by
  rintro ⟨w, hw, h1⟩
  have hφ : 0 < gaussianPDFReal 0 1 1 := gaussianPDFReal_pos _ _ _ one_ne_zero
  have hL : 0 < t.z_range.2 - t.z_range.1 := by linarith [h.range]
  have key : ∀ q : ℝ, 0 < q → q ≤ 1 →
      2 * q * gaussianPDFReal 0 1 1 ≤ (t.rho_sigma * q) ^ 2 / (2 * w ^ 2) := by
    intro q hq0 hq
    have e := C112_radius h (r := t.rho_sigma * q) (by positivity) le_rfl le_rfl
    rw [div_self hL.ne', ENNReal.ofReal_one, mul_one] at e
    have hsub : μ {s | ∃ x s', p.sample s = .ok (x, s') ∧
          √(x.vertex.1 ^ 2 + x.vertex.2.1 ^ 2) ≤ t.rho_sigma * q ∧
          t.z_range.1 ≤ x.vertex.2.2 ∧ x.vertex.2.2 < t.z_range.2}
        ≤ μ {s | ∃ x s', p.sample s = .ok (x, s') ∧
          √(x.vertex.1 ^ 2 + x.vertex.2.1 ^ 2) ≤ t.rho_sigma * q} :=
      measure_mono fun s ⟨x, s', a1, a2, _⟩ => ⟨x, s', a1, a2⟩
    have hg : gaussianReal 0 1 (Set.Icc (-q) q)
        = gaussianReal 0 ⟨t.rho_sigma ^ 2, sq_nonneg _⟩ (Set.Icc (-(t.rho_sigma * q)) (t.rho_sigma * q)) := by
      have e2 : gaussianReal 0 ⟨t.rho_sigma ^ 2, sq_nonneg _⟩ = (gaussianReal 0 1).map (t.rho_sigma * ·) := by
        rw [gaussianReal_map_const_mul, mul_zero, mul_one]
        rfl
      rw [e2, Measure.map_apply (by fun_prop) measurableSet_Icc]
      congr 1
      ext x
      simp only [Set.mem_Icc, Set.mem_preimage]
      rw [← mul_neg]
      constructor
      · rintro ⟨a1, a2⟩
        exact ⟨mul_le_mul_of_nonneg_left a1 hρ.le, mul_le_mul_of_nonneg_left a2 hρ.le⟩
      · rintro ⟨a1, a2⟩
        exact ⟨le_of_mul_le_mul_left a1 hρ, le_of_mul_le_mul_left a2 hρ⟩
    have h2 := gaussian_core hq0.le hq
    rw [hg, ← e] at h2
    have h3 := h2.trans hsub
    rw [h1 _ (by positivity)] at h3
    have h4 := Real.add_one_le_exp (-((t.rho_sigma * q) ^ 2) / (2 * w ^ 2))
    have h6 : 0 ≤ (t.rho_sigma * q) ^ 2 / (2 * w ^ 2) := by positivity
    have h5 : Real.exp (-((t.rho_sigma * q) ^ 2) / (2 * w ^ 2)) ≤ 1 := by
      apply Real.exp_le_one_iff.2
      rw [neg_div]
      linarith
    have := (ENNReal.ofReal_le_ofReal_iff (by linarith)).1 h3
    rw [neg_div] at h4
    rw [neg_div] at this
    linarith
  -- a distance small enough
  have hpos : 0 < gaussianPDFReal 0 1 1 * (2 * w ^ 2) / t.rho_sigma ^ 2 := by positivity
  have hq1 := min_le_left 1 (gaussianPDFReal 0 1 1 * (2 * w ^ 2) / t.rho_sigma ^ 2)
  have hq2 := min_le_right 1 (gaussianPDFReal 0 1 1 * (2 * w ^ 2) / t.rho_sigma ^ 2)
  have hq0 : 0 < min 1 (gaussianPDFReal 0 1 1 * (2 * w ^ 2) / t.rho_sigma ^ 2) := lt_min one_pos hpos
  generalize min 1 (gaussianPDFReal 0 1 1 * (2 * w ^ 2) / t.rho_sigma ^ 2) = q at hq0 hq1 hq2
  have := key q hq0 hq1
  rw [le_div_iff₀ (by positivity)] at this hq2
  have h8 : q * (q * t.rho_sigma ^ 2) ≤ q * (gaussianPDFReal 0 1 1 * (2 * w ^ 2)) :=
    mul_le_mul_of_nonneg_left hq2 hq0.le
  have h9 : 0 < q * (gaussianPDFReal 0 1 1 * (2 * w ^ 2)) := by positivity
  nlinarith

/-! ## Example -/

theorem pairGen_lawful : LawfulGen pairGen where
  uniform_ge := fun a b s h => by
    have := mul_nonneg (sub_nonneg.2 h) (s 0).2.2.1
    simp only [pairGen]
    linarith
  uniform_lt := fun a b s h => by
    have := mul_lt_mul_of_pos_left (s 0).2.2.2 (sub_pos.2 h)
    simp only [pairGen]
    linarith
  uniform_eq := fun a s => by simp [pairGen]
  normal_zero := fun m s => by simp [pairGen]

theorem pair_uniform : pairMeasure.map (fun s => ((s 0).2 : ℝ)) = volume.restrict (Set.Ico (0 : ℝ) 1) := by
  have h1 : pairMeasure.map (fun s => s 0) = (gaussianReal 0 1).prod unitMeasure := by
    unfold pairMeasure
    exact Measure.infinitePi_map_eval _ 0
  have h2 : (fun s : ℕ → ℝ × Set.Ico (0 : ℝ) 1 => ((s 0).2 : ℝ))
      = (fun x : Set.Ico (0 : ℝ) 1 => (x : ℝ)) ∘ Prod.snd ∘ fun s => s 0 := rfl
  rw [h2, ← Measure.map_map measurable_subtype_coe (measurable_snd.comp (measurable_pi_apply 0)),
    ← Measure.map_map measurable_snd (measurable_pi_apply 0), h1, Measure.map_snd_prod, measure_univ, one_smul]
  unfold unitMeasure
  rw [map_comap_subtype_coe measurableSet_Ico]

/-- A target of length 1 m in which the beam loses 4 MeV/m. -/
noncomputable def slowTarget : TargetMaterial :=
  { material := { density := 1, get_dedx := fun _ _ => 4, get_energy_loss := fun _ _ z => 4 * z },
    z_range := (0, 1), rho_sigma := 0.005 }

/-- A beam of 5 MeV; the residual nucleus is always excited by 1 MeV. -/
noncomputable def slowPipe : Pipeline (ℕ → ℝ × Set.Ico (0 : ℝ) 1) :=
  { reaction := exReaction, decays := [],
    excitations := [(⟨1, 1⟩ : ExcitationUniform).sample pairGen],
    polar_dists := [(mkPolarUniform 0 Real.pi).sample pairGen],
    beam_energy := 5, target_material := some slowTarget, event_sample_limit := 3, rng := pairGen }

theorem slowPipe_beam : BeamOk slowPipe slowTarget pairMeasure where
  generator := ⟨_, _, _, _, pairGen_ideal, pair_uniform⟩
  target := rfl
  width := by norm_num [slowTarget]
  range := by norm_num [slowTarget]
  measurable := by
    simp only [slowTarget]
    fun_prop
  excitations := ⟨by simp [slowPipe], fun d hd => by
    simp only [slowPipe, List.mem_singleton] at hd
    subst hd
    exact excitation_uniform_fresh pairGen_ideal.fresh _ le_rfl⟩
  polar := ⟨by simp [slowPipe], fun d hd => by
    simp only [slowPipe, List.mem_singleton] at hd
    subst hd
    exact polar_uniform_fresh pairGen_ideal.fresh _ (by simp [mkPolarUniform])⟩

theorem slowPipe_remaining (z : ℝ) : remaining slowPipe slowTarget z = 5 - 4 * z := rfl

theorem slowPipe_stops : StopsBy slowPipe slowTarget fun _ => 4 where
  range := by norm_num [slowTarget]
  pos := fun _ _ => by norm_num
  deriv := fun z _ => by
    have : remaining slowPipe slowTarget = fun z => 5 - 4 * z := rfl
    rw [this]
    exact (((hasDerivAt_id z).const_mul 4).const_sub 5).hasDerivWithinAt.congr_deriv (by simp)

/-- Example: half of the reactions take place with more than half the energy lost. -/
example : pairMeasure {s | ∃ x s', slowPipe.sample s = .ok (x, s') ∧ 1 ≤ x.beam_energy ∧ x.beam_energy ≤ 3}
    = ENNReal.ofReal (1 / 2) := by
  rw [C112_energy slowPipe_beam slowPipe_stops (by rw [slowPipe_remaining]; norm_num [slowTarget])
    (by rw [slowPipe_remaining]; norm_num [slowTarget]), setLIntegral_const, Real.volume_Icc,
    ← ENNReal.ofReal_mul (by norm_num [slowTarget])]
  norm_num [slowTarget]

theorem slowPipe_values {s s'} {x : Sample} (h : slowPipe.sample s = .ok (x, s')) :
    1 < x.beam_energy ∧ x.beam_energy ≤ 5 ∧ x.reaction_excitation = 1 := by
  have h0 : ¬ (0.005 : ℝ) < 0 := by norm_num
  have h1 : ¬ (1 : ℝ) < -1 := by norm_num
  have h2 : ¬ (1 : ℝ) < 0 := by norm_num
  simp only [Pipeline.sample, Pipeline.sample_vertex, slowPipe, slowTarget, sampleHead,
    ExcitationUniform.sample, h0, h1, h2, lt_self_iff_false, if_false,
    PolarUniform.sample, mkPolarUniform, Real.cos_zero, Real.cos_pi, sampleAll, pairGen, List.tail_cons, bind, Except.bind, pure, Except.pure,
    Except.ok.injEq, Prod.mk.injEq] at h
  obtain ⟨rfl, -⟩ := h
  have h1 := ((dropFirst (dropFirst s)) 0).2.2.1
  have h2 := ((dropFirst (dropFirst s)) 0).2.2.2
  refine ⟨?_, ?_, by simp⟩ <;> simp only <;> linarith

theorem slowPipe_samples : SamplesOk slowPipe := by
  intro s x s' h
  obtain ⟨h1, h2, h3⟩ := slowPipe_values h
  refine ⟨?_, ?_, by simp [slowPipe]⟩
  · simp only [slowPipe, exReaction]; linarith
  · rw [h3]; norm_num [slowPipe, exReaction]

theorem slowPipe_ok : RunsOk slowPipe where
  built := ⟨rfl, rfl⟩
  lawful := pairGen_lawful
  chain := ⟨by norm_num [slowPipe, exReaction], by norm_num [slowPipe, exReaction],
    by norm_num [slowPipe, exReaction], by simp [slowPipe]⟩
  samples := slowPipe_samples
  calculates := by
    intro s x s' h ha
    have hx := slowPipe_samples s x s' h
    obtain ⟨h1, -, -⟩ := slowPipe_values h
    obtain ⟨t, b, e, q, h⟩ := C43_partial exReaction_ok (T := x.beam_energy) (by linarith) (hx.residual.le) ha
      (by norm_num [exReaction]) (.inl (by norm_num [exReaction])) x.reaction_theta x.reaction_phi
    exact ⟨_, h⟩

theorem slowPipe_acceptance (E : ℝ) (hE : 0 ≤ E) :
    acceptance slowPipe pairMeasure E = if 9 / 4 < E then 1 else 0 := by
  have hx : ∀ s, ∃ x s', (withoutTarget slowPipe E).sample s = .ok (x, s') ∧ x.beam_energy = E ∧
      x.reaction_excitation = 1 := by
    intro s
    have h1 : ¬ (1 : ℝ) < -1 := by norm_num
    simp only [withoutTarget, slowPipe, Pipeline.sample, Pipeline.sample_vertex, sampleHead,
      ExcitationUniform.sample, lt_self_iff_false, h1, if_false, PolarUniform.sample, mkPolarUniform,
      Real.cos_zero, Real.cos_pi, sampleAll, List.tail_cons, bind, Except.bind, pure, Except.pure]
    refine ⟨_, _, rfl, rfl, ?_⟩
    simp [pairGen]
  have hiff : ∀ x : Sample, x.beam_energy = E → x.reaction_excitation = 1 →
      (EnergyAllowed slowPipe x ↔ 9 / 4 < E) := by
    intro x h1 h2
    unfold EnergyAllowed
    rw [h1, h2]
    simp only [slowPipe, exReaction, DecaysAllowed, and_true]
    rw [Real.lt_sqrt (by norm_num)]
    constructor
    · rintro ⟨-, h⟩; linarith
    · intro h; exact ⟨hE, by linarith⟩
  unfold acceptance
  split_ifs with h
  · rw [← measure_univ (μ := pairMeasure)]
    congr 1
    ext s
    obtain ⟨x, s', h1, h2, h3⟩ := hx s
    simp only [Set.mem_setOf_eq, Set.mem_univ, iff_true]
    exact ⟨x, s', h1, (hiff x h2 h3).2 h⟩
  · rw [← measure_empty (μ := pairMeasure)]
    congr 1
    ext s
    obtain ⟨x, s', h1, h2, h3⟩ := hx s
    simp only [Set.mem_setOf_eq, Set.mem_empty_iff_false, iff_false, not_exists, not_and]
    intro x' s1 h4 h5
    obtain ⟨rfl, -⟩ := Prod.mk.inj (Except.ok.inj (h1.symm.trans h4))
    exact h ((hiff x h2 h3).1 h5)

/-- Example: the reaction needs 9/4 MeV, so that 5 samples of 16 are rejected; an event with 3 MeV or more is
returned with probability 361/512. -/
example : pairMeasure {s | ∃ x st', slowPipe.run ⟨s, List.replicate 4 none⟩ = (.ok x.vertex, st') ∧
      eventRows slowPipe x = .ok (some st'.result) ∧ FirstAllowed slowPipe 3 s x st'.gen ∧
      3 ≤ x.beam_energy ∧ x.beam_energy ≤ 5}
    = ENNReal.ofReal (361 / 512) := by
  have key := C112_accepted slowPipe_beam slowPipe_ok slowPipe_stops (a := 3) (b := 5)
    (by rw [slowPipe_remaining]; norm_num [slowTarget]) (by rw [slowPipe_remaining]; norm_num [slowTarget])
    (buf := List.replicate 4 none) rfl
  have e0 : slowPipe.event_sample_limit.toNat = 3 := rfl
  rw [e0] at key
  rw [key]
  have e1 : ∫⁻ E in Set.Icc (3 : ℝ) 5, ENNReal.ofReal (1 / (4 * (slowTarget.z_range.2 - slowTarget.z_range.1)))
      * acceptance slowPipe pairMeasure E = ENNReal.ofReal (1 / 2) := by
    have : ∀ E ∈ Set.Icc (3 : ℝ) 5,
        ENNReal.ofReal (1 / (4 * (slowTarget.z_range.2 - slowTarget.z_range.1)))
          * acceptance slowPipe pairMeasure E = ENNReal.ofReal (1 / 4) := by
      intro E hE
      rw [slowPipe_acceptance E (by linarith [hE.1]), if_pos (by linarith [hE.1]), mul_one]
      norm_num [slowTarget]
    rw [setLIntegral_congr_fun measurableSet_Icc this, setLIntegral_const, Real.volume_Icc,
      ← ENNReal.ofReal_mul (by norm_num)]
    norm_num
  have e2 : ∫⁻ E in Set.Icc (remaining slowPipe slowTarget slowTarget.z_range.2)
        (remaining slowPipe slowTarget slowTarget.z_range.1),
      ENNReal.ofReal (1 / (4 * (slowTarget.z_range.2 - slowTarget.z_range.1)))
      * acceptance slowPipe pairMeasure E = ENNReal.ofReal (11 / 16) := by
    rw [slowPipe_remaining, slowPipe_remaining]
    have : ∀ E ∈ Set.Icc (5 - 4 * slowTarget.z_range.2) (5 - 4 * slowTarget.z_range.1),
        ENNReal.ofReal (1 / (4 * (slowTarget.z_range.2 - slowTarget.z_range.1)))
          * acceptance slowPipe pairMeasure E
        = (Set.Ioi (9 / 4 : ℝ)).indicator (fun _ => ENNReal.ofReal (1 / 4)) E := by
      intro E hE
      have : 1 ≤ E := by
        have := hE.1
        simp only [slowTarget] at this
        linarith
      rw [slowPipe_acceptance E (by linarith)]
      by_cases h : 9 / 4 < E
      · rw [if_pos h, mul_one, Set.indicator_of_mem (Set.mem_Ioi.2 h)]
        norm_num [slowTarget]
      · rw [if_neg h, mul_zero, Set.indicator_of_notMem (by simpa using h)]
    rw [setLIntegral_congr_fun measurableSet_Icc this, setLIntegral_indicator measurableSet_Ioi,
      setLIntegral_const]
    have : Set.Ioi (9 / 4 : ℝ) ∩ Set.Icc (5 - 4 * slowTarget.z_range.2) (5 - 4 * slowTarget.z_range.1)
        = Set.Ioc (9 / 4) 5 := by
      ext E
      simp only [slowTarget, Set.mem_inter_iff, Set.mem_Ioi, Set.mem_Icc, Set.mem_Ioc]
      constructor
      · rintro ⟨h1, -, h3⟩; exact ⟨h1, by linarith⟩
      · rintro ⟨h1, h3⟩; exact ⟨h1, by linarith, by linarith⟩
    rw [this, Real.volume_Ioc, ← ENNReal.ofReal_mul (by norm_num)]
    norm_num
  rw [e1, e2, show (1 : ENNReal) - ENNReal.ofReal (11 / 16) = ENNReal.ofReal (5 / 16) by
    rw [← ENNReal.ofReal_one, ← ENNReal.ofReal_sub _ (by norm_num)]; norm_num]
  simp only [← ENNReal.ofReal_pow (show (0 : ℝ) ≤ 5 / 16 by norm_num)]
  rw [← ENNReal.ofReal_sum_of_nonneg (fun _ _ => by positivity), ← ENNReal.ofReal_mul (by norm_num)]
  norm_num [Finset.sum_range_succ]

end Verif.Props
