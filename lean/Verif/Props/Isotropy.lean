import Verif.Props.Pipeline
import Verif.Props.Distributions
import Mathlib.Probability.ProductMeasure

/-! # C73: isotropic emission and the distribution of vertices -/

namespace Verif.Props

open Verif.Kinematics MeasureTheory
open Verif.Detector (except_bind_ok)

variable {σ : Type}

/-- A generator of independent numbers in a random state: every draw of a uniform number advances the
state by `next`, the states are stationary, the standard uniform numbers of different draws are
independent and uniformly distributed, and a normal draw leaves a state with the same distribution. -/
structure IidGen [MeasurableSpace σ] (rng : Gen σ) (μ : Measure σ) (u : σ → ℝ) (next skip : σ → σ) :
    Prop where
  affine : ∀ a b s, rng.uniform a b s = (a + (b - a) * u s, next s)
  range : ∀ s, 0 ≤ u s ∧ u s < 1
  measurable : Measurable u
  next_preserving : MeasurePreserving next μ μ
  normal : ∀ m sd s, (rng.normal m sd s).2 = skip s
  skip_preserving : MeasurePreserving skip μ μ
  pair : ∀ i j : ℕ, i < j → ∀ a b c d : ℝ, 0 ≤ a → b ≤ 1 → 0 ≤ c → d ≤ 1 →
    μ {s | (a ≤ u (next^[i] s) ∧ u (next^[i] s) < b) ∧ c ≤ u (next^[j] s) ∧ u (next^[j] s) < d}
      = ENNReal.ofReal (b - a) * ENNReal.ofReal (d - c)

/-- A sampler that always succeeds and leaves the generator in a state with the same distribution. -/
def Steady [MeasurableSpace σ] (μ : Measure σ) (d : Sampler σ) : Prop :=
  ∃ g : σ → σ, MeasurePreserving g μ μ ∧ ∀ s, ∃ x, d s = .ok (x, g s)

theorem sampleAll_steady [MeasurableSpace σ] {μ : Measure σ} (ds : List (Sampler σ))
    (h : ∀ d ∈ ds, Steady μ d) :
    ∃ g : σ → σ, MeasurePreserving g μ μ ∧ ∀ s, ∃ xs, sampleAll ds s = .ok (xs, g s) := by
  induction ds with
  | nil => exact ⟨id, .id μ, fun s => ⟨[], rfl⟩⟩
  | cons d ds ih =>
    obtain ⟨g1, h1, h1'⟩ := h d (by simp)
    obtain ⟨g2, h2, h2'⟩ := ih fun d' hd' => h d' (by simp [hd'])
    refine ⟨g2 ∘ g1, h2.comp h1, fun s => ?_⟩
    obtain ⟨x, hx⟩ := h1' s
    obtain ⟨xs, hxs⟩ := h2' (g1 s)
    refine ⟨x :: xs, ?_⟩
    simp only [sampleAll, hx, bind, Except.bind, hxs]
    rfl

section

variable [MeasurableSpace σ] {rng : Gen σ} {μ : Measure σ} {u : σ → ℝ} {next skip : σ → σ}

/-- The samplers of uniform distributions are steady. -/
theorem steady_uniform (hr : IidGen rng μ u next skip) (d : ExcitationUniform)
    (hd : d.min_value ≤ d.max_value) : Steady μ (d.sample rng) :=
  ⟨next, hr.next_preserving, fun s => ⟨_, by
    unfold ExcitationUniform.sample
    rw [if_neg (not_lt.2 hd), hr.affine]⟩⟩

/-- The samplers of normal distributions are steady. -/
theorem steady_gaussian (hr : IidGen rng μ u next skip) (centroid : ℝ) {width : ℝ} (hw : 0 ≤ width) :
    Steady μ ((mkExcitationGaussian centroid width).sample rng) := by
  refine ⟨skip, hr.skip_preserving, fun s => ⟨(rng.normal centroid (width / 2.355) s).1, ?_⟩⟩
  unfold ExcitationGaussian.sample mkExcitationGaussian
  simp only
  rw [if_neg (not_lt.2 (by positivity)), ← hr.normal centroid (width / 2.355) s]

theorem polar_draw (hr : IidGen rng μ u next skip) (s : σ) :
    (mkPolarUniform 0 Real.pi).sample rng s = .ok (Real.arccos (2 * u s - 1), next s) := by
  unfold PolarUniform.sample mkPolarUniform
  simp only [hr.affine, Real.cos_zero, Real.cos_pi]
  rw [if_neg (by norm_num)]
  congr 3
  ring

theorem polar_draws (hr : IidGen rng μ u next skip) (n : ℕ) : ∀ s : σ,
    sampleAll (List.replicate n ((mkPolarUniform 0 Real.pi).sample rng)) s
      = .ok ((List.range n).map fun (k : ℕ) => Real.arccos (2 * u (next^[k] s) - 1), next^[n] s) := by
  induction n with
  | zero => intro s; rfl
  | succ n ih =>
    intro s
    simp only [List.replicate_succ, sampleAll, polar_draw hr, bind, Except.bind, ih]
    simp only [pure, Except.pure, Except.ok.injEq, Prod.mk.injEq]
    refine ⟨?_, rfl⟩
    rw [List.range_succ_eq_map, List.map_cons, List.map_map]
    rfl

theorem azimuth_draws (hr : IidGen rng μ u next skip) (n : ℕ) : ∀ s : σ,
    rng.uniformN 0 (Real.pi * 2) n s
      = ((List.range n).map fun (k : ℕ) => Real.pi * 2 * u (next^[k] s), next^[n] s) := by
  induction n with
  | zero => intro s; rfl
  | succ n ih =>
    intro s
    simp only [Gen.uniformN, hr.affine, ih]
    refine Prod.ext ?_ rfl
    rw [List.range_succ_eq_map, List.map_cons, List.map_map]
    simp only [Function.iterate_zero, id_eq, zero_add, sub_zero]
    rfl

/-- The draws before the polar angle leave a state with the same distribution. -/
theorem vertex_steady (hr : IidGen rng μ u next skip) {p : Pipeline σ} (hp : p.rng = rng)
    (ht : ∀ t, p.target_material = some t → 0 ≤ t.rho_sigma ∧ t.z_range.1 ≤ t.z_range.2) :
    ∃ g : σ → σ, MeasurePreserving g μ μ ∧ ∀ s, ∃ tv, p.sample_vertex s = .ok (tv, g s) := by
  unfold Pipeline.sample_vertex
  cases h : p.target_material with
  | none => exact ⟨id, .id μ, fun s => ⟨_, rfl⟩⟩
  | some t =>
    refine ⟨next ∘ next ∘ skip,
      hr.next_preserving.comp (hr.next_preserving.comp hr.skip_preserving), fun s => ?_⟩
    simp only [not_lt.2 (ht t h).1, not_lt.2 (ht t h).2, if_false, hp, hr.affine, hr.normal, Function.comp_apply]
    exact ⟨_, rfl⟩

/-- The rectangle of draws that belongs to a range of directions. -/
theorem direction_iff {v w a b c d : ℝ} (hv : 0 ≤ v ∧ v < 1) :
    ((a ≤ Real.cos (Real.arccos (2 * v - 1)) ∧ Real.cos (Real.arccos (2 * v - 1)) < b) ∧
      c ≤ Real.pi * 2 * w ∧ Real.pi * 2 * w < d) ↔
    (((a + 1) / 2 ≤ v ∧ v < (b + 1) / 2) ∧ c / (2 * Real.pi) ≤ w ∧ w < d / (2 * Real.pi)) := by
  have hpi : 0 < 2 * Real.pi := by positivity
  rw [Real.cos_arccos (by linarith) (by linarith), div_le_iff₀ hpi, lt_div_iff₀ hpi,
    div_le_iff₀ two_pos, lt_div_iff₀ two_pos]
  constructor
  · rintro ⟨⟨h1, h2⟩, h3, h4⟩
    exact ⟨⟨by linarith, by linarith⟩, by linarith, by linarith⟩
  · rintro ⟨⟨h1, h2⟩, h3, h4⟩
    exact ⟨⟨by linarith, by linarith⟩, by linarith, by linarith⟩

/-- The probability of a range of directions when polar angle and azimuth come from draws `i` and `j`
after a steady beginning. -/
theorem direction_prob (hr : IidGen rng μ u next skip) {g : σ → σ} (hg : MeasurePreserving g μ μ)
    {i j : ℕ} (hij : i < j) {a b c d : ℝ} (ha : -1 ≤ a) (hab : a ≤ b) (hb : b ≤ 1) (hc : 0 ≤ c)
    (hcd : c ≤ d) (hd : d ≤ 2 * Real.pi) :
    μ {s | (a ≤ Real.cos (Real.arccos (2 * u (next^[i] (g s)) - 1)) ∧
        Real.cos (Real.arccos (2 * u (next^[i] (g s)) - 1)) < b) ∧
      c ≤ Real.pi * 2 * u (next^[j] (g s)) ∧ Real.pi * 2 * u (next^[j] (g s)) < d}
      = ENNReal.ofReal ((b - a) / 2 * ((d - c) / (2 * Real.pi))) := by
  have hpi : 0 < 2 * Real.pi := by positivity
  simp only [direction_iff (hr.range _)]
  have hm : ∀ k : ℕ, Measurable fun s => u (next^[k] s) := fun k =>
    hr.measurable.comp (hr.next_preserving.measurable.iterate k)
  have hset := hg.measure_preimage (s := {s | ((a + 1) / 2 ≤ u (next^[i] s) ∧
      u (next^[i] s) < (b + 1) / 2) ∧ c / (2 * Real.pi) ≤ u (next^[j] s) ∧
      u (next^[j] s) < d / (2 * Real.pi)}) (by
    apply MeasurableSet.nullMeasurableSet
    apply MeasurableSet.inter
    · exact (measurableSet_le measurable_const (hm i)).inter
        (measurableSet_lt (hm i) measurable_const)
    · exact (measurableSet_le measurable_const (hm j)).inter
        (measurableSet_lt (hm j) measurable_const))
  rw [Set.preimage_setOf_eq] at hset
  rw [hset, hr.pair i j hij _ _ _ _ (by linarith) (by linarith) (by positivity)
    ((div_le_one hpi).2 hd), ← ENNReal.ofReal_mul (by linarith)]
  congr 1
  field_simp
  ring

/-- The pipelines of C73: all polar angles are drawn from `PolarUniform(0, π)`. -/
structure IsotropicPipeline (p : Pipeline σ) (rng : Gen σ) (μ : Measure σ) : Prop where
  rng_eq : p.rng = rng
  target : ∀ t, p.target_material = some t → 0 ≤ t.rho_sigma ∧ t.z_range.1 ≤ t.z_range.2
  excitations : ∃ d ds, p.excitations = d :: ds ∧ Steady μ d ∧ ∀ d' ∈ ds, Steady μ d'
  polar : p.polar_dists = List.replicate (p.decays.length + 1) ((mkPolarUniform 0 Real.pi).sample rng)

/-- The angles of a sample in terms of the draws. -/
theorem sample_draws (hr : IidGen rng μ u next skip) {p : Pipeline σ}
    (hp : IsotropicPipeline p rng μ) :
    ∃ g1 g2 : σ → σ, MeasurePreserving g1 μ μ ∧ MeasurePreserving g2 μ μ ∧
      ∀ s, ∃ x s', p.sample s = .ok (x, s') ∧
        x.reaction_theta = Real.arccos (2 * u (next^[0] (g1 s)) - 1) ∧
        x.reaction_phi = Real.pi * 2 * u (next^[1] (g1 s)) ∧
        (x.decay_thetas = (List.range p.decays.length).map fun (k : ℕ) =>
          Real.arccos (2 * u (next^[k] (g2 s)) - 1)) ∧
        (x.decay_phis = (List.range p.decays.length).map fun (k : ℕ) =>
          Real.pi * 2 * u (next^[k + p.decays.length] (g2 s))) := by
  obtain ⟨hrng, ht, ⟨d, ds, hex, hd, hds⟩, hpol⟩ := hp
  obtain ⟨gv, hgv, hv⟩ := vertex_steady hr hrng ht
  obtain ⟨ge, hge, he⟩ := hd
  obtain ⟨gs, hgs, hs⟩ := sampleAll_steady ds hds
  refine ⟨ge ∘ gv, gs ∘ next ∘ next ∘ ge ∘ gv, hge.comp hgv,
    hgs.comp (hr.next_preserving.comp (hr.next_preserving.comp (hge.comp hgv))), fun s => ?_⟩
  obtain ⟨⟨T, v⟩, hv⟩ := hv s
  obtain ⟨ex, he⟩ := he (gv s)
  obtain ⟨exs, hs⟩ := hs (next (next (ge (gv s))))
  have hphis := azimuth_draws hr p.decays.length
    (next^[p.decays.length] (gs (next (next (ge (gv s))))))
  have hthetas := polar_draws hr p.decays.length (gs (next (next (ge (gv s)))))
  unfold Pipeline.sample
  simp only [hv, bind, Except.bind, hex, sampleHead, he, hpol, List.replicate_succ, polar_draw hr,
    List.tail_cons, hrng, hr.affine, hs, hthetas, hphis]
  refine ⟨_, _, rfl, rfl, ?_, rfl, ?_⟩
  · simp
  · apply List.map_congr_left
    intro k _
    rw [← Function.iterate_add_apply]
    rfl

/-- **C73.** The direction of the ejectile in the centre-of-mass frame is uniformly distributed over the
sphere: `cos θ` and `φ` have probability (area of the range)/4π for every range. -/
theorem C73_reaction (hr : IidGen rng μ u next skip) {p : Pipeline σ}
    (hp : IsotropicPipeline p rng μ) {a b c d : ℝ} (ha : -1 ≤ a) (hab : a ≤ b) (hb : b ≤ 1)
    (hc : 0 ≤ c) (hcd : c ≤ d) (hd : d ≤ 2 * Real.pi) :
    μ {s | ∃ x s', p.sample s = .ok (x, s') ∧
      (a ≤ Real.cos x.reaction_theta ∧ Real.cos x.reaction_theta < b) ∧
      c ≤ x.reaction_phi ∧ x.reaction_phi < d}
      = ENNReal.ofReal ((b - a) * (d - c) / (4 * Real.pi)) := by
  obtain ⟨g, g2, hg, hg2, h⟩ := sample_draws hr hp
  rw [show (b - a) * (d - c) / (4 * Real.pi) = (b - a) / 2 * ((d - c) / (2 * Real.pi)) by
    field_simp; norm_num, ← direction_prob hr hg (i := 0) (j := 1) (by norm_num) ha hab hb hc hcd hd]
  congr 1
  ext s
  obtain ⟨x, s', h1, h2, h3, -⟩ := h s
  simp only [Set.mem_setOf_eq]
  constructor
  · rintro ⟨x', s1, g1, g2⟩
    rw [h1] at g1
    simp only [Except.ok.injEq, Prod.mk.injEq] at g1
    obtain ⟨rfl, -⟩ := g1
    rw [← h2, ← h3]
    exact g2
  · intro g2
    rw [← h2, ← h3] at g2
    exact ⟨x, s', h1, g2⟩

/-- **C73.** The same for the first product of every decay. -/
theorem C73_decay (hr : IidGen rng μ u next skip) {p : Pipeline σ}
    (hp : IsotropicPipeline p rng μ) (k : ℕ) (hk : k < p.decays.length) {a b c d : ℝ} (ha : -1 ≤ a)
    (hab : a ≤ b) (hb : b ≤ 1) (hc : 0 ≤ c) (hcd : c ≤ d) (hd : d ≤ 2 * Real.pi) :
    μ {s | ∃ x s' θ φ, p.sample s = .ok (x, s') ∧ x.decay_thetas[k]? = some θ ∧
      x.decay_phis[k]? = some φ ∧ (a ≤ Real.cos θ ∧ Real.cos θ < b) ∧ c ≤ φ ∧ φ < d}
      = ENNReal.ofReal ((b - a) * (d - c) / (4 * Real.pi)) := by
  obtain ⟨g1, g, hg1, hg, h⟩ := sample_draws hr hp
  rw [show (b - a) * (d - c) / (4 * Real.pi) = (b - a) / 2 * ((d - c) / (2 * Real.pi)) by
    field_simp; norm_num, ← direction_prob hr hg (i := k) (j := k + p.decays.length) (by omega) ha hab
      hb hc hcd hd]
  congr 1
  ext s
  obtain ⟨x, s', h1, -, -, h2, h3⟩ := h s
  have e2 : x.decay_thetas[k]? = some (Real.arccos (2 * u (next^[k] (g s)) - 1)) := by
    rw [h2, List.getElem?_map, List.getElem?_range hk]; rfl
  have e3 : x.decay_phis[k]? = some (Real.pi * 2 * u (next^[k + p.decays.length] (g s))) := by
    rw [h3, List.getElem?_map, List.getElem?_range hk]; rfl
  simp only [Set.mem_setOf_eq]
  constructor
  · rintro ⟨x', s1, θ, φ, g1, g2, g3, g4⟩
    rw [h1] at g1
    simp only [Except.ok.injEq, Prod.mk.injEq] at g1
    obtain ⟨rfl, -⟩ := g1
    rw [e2] at g2
    rw [e3] at g3
    simp only [Option.some.injEq] at g2 g3
    rw [g2, g3]
    exact g4
  · intro g2
    exact ⟨x, s', _, _, h1, e2, e3, g2⟩

/-- **C73.** Vertices: the azimuth around the beam axis and the z position of the vertex are independent,
uniform in `[0, 2π)` and in the z range; the distance from the axis is the absolute value of a normal
number with standard deviation `rho_sigma`. -/
theorem C73_vertex (hr : IidGen rng μ u next skip) {p : Pipeline σ} (hp : p.rng = rng)
    {t : TargetMaterial} (ht : p.target_material = some t) (hz : t.z_range.1 < t.z_range.2) :
    ∃ φ z : σ → ℝ,
      (∀ s x s', p.sample s = .ok (x, s') → x.vertex =
        (|(rng.normal 0 t.rho_sigma s).1| * Real.cos (φ s),
         |(rng.normal 0 t.rho_sigma s).1| * Real.sin (φ s), z s)) ∧
      ∀ a b c d : ℝ, 0 ≤ a → a ≤ b → b ≤ 2 * Real.pi → t.z_range.1 ≤ c → c ≤ d → d ≤ t.z_range.2 →
        μ {s | (a ≤ φ s ∧ φ s < b) ∧ c ≤ z s ∧ z s < d}
          = ENNReal.ofReal ((b - a) / (2 * Real.pi) * ((d - c) / (t.z_range.2 - t.z_range.1))) := by
  refine ⟨fun s => 2 * Real.pi * u (next^[0] (skip s)),
    fun s => t.z_range.1 + (t.z_range.2 - t.z_range.1) * u (next^[1] (skip s)), ?_, ?_⟩
  · intro s x s' h
    obtain ⟨s1, h⟩ := sample_vertex_of h
    unfold Pipeline.sample_vertex at h
    rw [ht] at h
    simp only at h
    split_ifs at h with hneg
    simp only [Except.ok.injEq, Prod.mk.injEq, hp, hr.affine, hr.normal] at h
    obtain ⟨⟨-, hv⟩, -⟩ := h
    rw [← hv]
    simp
  · intro a b c d ha hab hb hc hcd hd
    have hpi : 0 < 2 * Real.pi := by positivity
    have hzz : 0 < t.z_range.2 - t.z_range.1 := by linarith
    have hm : ∀ k : ℕ, Measurable fun s => u (next^[k] s) := fun k =>
      hr.measurable.comp (hr.next_preserving.measurable.iterate k)
    have hset := hr.skip_preserving.measure_preimage (s := {s | (a / (2 * Real.pi) ≤ u (next^[0] s) ∧
        u (next^[0] s) < b / (2 * Real.pi)) ∧
        (c - t.z_range.1) / (t.z_range.2 - t.z_range.1) ≤ u (next^[1] s) ∧
        u (next^[1] s) < (d - t.z_range.1) / (t.z_range.2 - t.z_range.1)}) (by
      apply MeasurableSet.nullMeasurableSet
      apply MeasurableSet.inter
      · exact (measurableSet_le measurable_const (hm 0)).inter
          (measurableSet_lt (hm 0) measurable_const)
      · exact (measurableSet_le measurable_const (hm 1)).inter
          (measurableSet_lt (hm 1) measurable_const))
    rw [Set.preimage_setOf_eq] at hset
    have e : {s | (a ≤ 2 * Real.pi * u (next^[0] (skip s)) ∧ 2 * Real.pi * u (next^[0] (skip s)) < b) ∧
        c ≤ t.z_range.1 + (t.z_range.2 - t.z_range.1) * u (next^[1] (skip s)) ∧
        t.z_range.1 + (t.z_range.2 - t.z_range.1) * u (next^[1] (skip s)) < d}
        = {s | (a / (2 * Real.pi) ≤ u (next^[0] (skip s)) ∧
          u (next^[0] (skip s)) < b / (2 * Real.pi)) ∧
          (c - t.z_range.1) / (t.z_range.2 - t.z_range.1) ≤ u (next^[1] (skip s)) ∧
          u (next^[1] (skip s)) < (d - t.z_range.1) / (t.z_range.2 - t.z_range.1)} := by
      ext s
      simp only [Set.mem_setOf_eq]
      rw [div_le_iff₀ hpi, lt_div_iff₀ hpi, div_le_iff₀ hzz, lt_div_iff₀ hzz]
      constructor
      · rintro ⟨⟨h1, h2⟩, h3, h4⟩
        exact ⟨⟨by linarith, by linarith⟩, by linarith, by linarith⟩
      · rintro ⟨⟨h1, h2⟩, h3, h4⟩
        exact ⟨⟨by linarith, by linarith⟩, by linarith, by linarith⟩
    simp only
    rw [e, hset, hr.pair 0 1 (by norm_num) _ _ _ _ (by positivity) ((div_le_one hpi).2 hb)
      (div_nonneg (by linarith) hzz.le) ((div_le_one hzz).2 (by linarith)),
      ← ENNReal.ofReal_mul (by rw [← sub_div]; exact div_nonneg (by linarith) hpi.le)]
    congr 1
    field_simp
    ring

end

/-! ## Example -/

/-- The uniform distribution on `[0, 1)`. -/
noncomputable def unitMeasure : Measure (Set.Ico (0 : ℝ) 1) := volume.comap ((↑) : Set.Ico (0 : ℝ) 1 → ℝ)

theorem unitMeasure_Ico {a b : ℝ} (ha : 0 ≤ a) (hb : b ≤ 1) :
    unitMeasure {x | a ≤ (x : ℝ) ∧ (x : ℝ) < b} = ENNReal.ofReal (b - a) :=
  unitGen_random.prob ha hb

instance : IsProbabilityMeasure unitMeasure where
  measure_univ := by
    have := unitMeasure_Ico (a := 0) (b := 1) le_rfl le_rfl
    rw [show {x : Set.Ico (0 : ℝ) 1 | (0 : ℝ) ≤ x ∧ (x : ℝ) < 1} = Set.univ from
      Set.eq_univ_of_forall fun x => x.2] at this
    rw [this]
    norm_num

/-- A stream of independent uniform numbers. -/
abbrev Stream := ℕ → Set.Ico (0 : ℝ) 1

/-- The generator that reads its numbers from a stream. -/
noncomputable def streamGen : Gen Stream :=
  { normal := fun m sd s => (m + sd * s 0, fun k => s (k + 1)),
    uniform := fun a b s => (a + (b - a) * s 0, fun k => s (k + 1)) }

/-- The distribution of streams. -/
noncomputable def streamMeasure : Measure Stream := Measure.infinitePi fun _ => unitMeasure

/-- Dropping the first number. -/
def shift (s : Stream) : Stream := fun k => s (k + 1)

theorem shift_iterate (k : ℕ) (s : Stream) : shift^[k] s = fun i => s (i + k) := by
  induction k generalizing s with
  | zero => rfl
  | succ k ih =>
    rw [Function.iterate_succ_apply, ih]
    funext i
    show s (i + k + 1) = _
    congr 1

theorem shift_preserving : MeasurePreserving shift streamMeasure streamMeasure := by
  have hm : Measurable shift := measurable_pi_lambda _ fun k => measurable_pi_apply (k + 1)
  refine ⟨hm, ?_⟩
  apply Measure.eq_infinitePi
  intro F t ht
  rw [Measure.map_apply hm (MeasurableSet.pi F.countable_toSet fun i _ => ht i)]
  have : shift ⁻¹' (Set.pi F t)
      = Set.pi (F.map ⟨Nat.succ, Nat.succ_injective⟩) fun i => t (i - 1) := by
    ext s
    simp [Set.mem_pi, shift]
  rw [this]
  unfold streamMeasure
  rw [Measure.infinitePi_pi _ fun i _ => ht _, Finset.prod_map]
  simp

/-- C73 applies to the stream generator. -/
theorem streamGen_iid : IidGen streamGen streamMeasure (fun s => (s 0 : ℝ)) shift shift where
  affine := fun _ _ _ => rfl
  range := fun s => (s 0).2
  measurable := measurable_subtype_coe.comp (measurable_pi_apply 0)
  next_preserving := shift_preserving
  normal := fun _ _ _ => rfl
  skip_preserving := shift_preserving
  pair := by
    intro i j hij a b c d ha hb hc hd
    have hset : {s : Stream | (a ≤ ((shift^[i] s) 0 : ℝ) ∧ ((shift^[i] s) 0 : ℝ) < b) ∧
        c ≤ ((shift^[j] s) 0 : ℝ) ∧ ((shift^[j] s) 0 : ℝ) < d}
        = Set.pi ({i, j} : Finset ℕ) fun k => if k = i
            then {x : Set.Ico (0 : ℝ) 1 | a ≤ (x : ℝ) ∧ (x : ℝ) < b}
            else {x : Set.Ico (0 : ℝ) 1 | c ≤ (x : ℝ) ∧ (x : ℝ) < d} := by
      ext s
      have hne : j ≠ i := by omega
      simp [Set.mem_pi, shift_iterate, hne]
    have hmeas : ∀ x y : ℝ, MeasurableSet {v : Set.Ico (0 : ℝ) 1 | x ≤ (v : ℝ) ∧ (v : ℝ) < y} :=
      fun x y => measurable_subtype_coe measurableSet_Ico
    rw [hset]
    unfold streamMeasure
    rw [Measure.infinitePi_pi _ fun k _ => by split_ifs <;> exact hmeas _ _,
      Finset.prod_pair (by omega)]
    have hne : j ≠ i := by omega
    rw [if_pos rfl, if_neg hne, unitMeasure_Ico ha hb, unitMeasure_Ico hc hd]

/-- A reaction and a decay with isotropic angles in a gas cell one metre long. -/
noncomputable def isoPipe : Pipeline Stream :=
  { reaction := exReaction, decays := [exDecay],
    excitations := [(⟨0, 1⟩ : ExcitationUniform).sample streamGen,
      (mkExcitationGaussian 2 1).sample streamGen],
    polar_dists := [(mkPolarUniform 0 Real.pi).sample streamGen,
      (mkPolarUniform 0 Real.pi).sample streamGen],
    beam_energy := 5,
    target_material := some ⟨⟨1, fun _ _ => 0, fun _ _ _ => 0⟩, (0, 1), 1 / 100⟩,
    event_sample_limit := 1000, rng := streamGen }

/-- C73 applies to it. -/
theorem isoPipe_isotropic : IsotropicPipeline isoPipe streamGen streamMeasure where
  rng_eq := rfl
  target := by
    intro t ht
    simp only [isoPipe, Option.some.injEq] at ht
    subst ht
    norm_num
  excitations := ⟨_, _, rfl, steady_uniform streamGen_iid _ (by norm_num), by
    intro d hd
    simp only [List.mem_singleton] at hd
    subst hd
    exact steady_gaussian streamGen_iid 2 (by norm_num)⟩
  polar := rfl

/-- The ejectile is emitted forward and with azimuth below π with probability one quarter. -/
example : streamMeasure {s | ∃ x s', isoPipe.sample s = .ok (x, s') ∧
    (0 ≤ Real.cos x.reaction_theta ∧ Real.cos x.reaction_theta < 1) ∧
    0 ≤ x.reaction_phi ∧ x.reaction_phi < Real.pi} = ENNReal.ofReal (1 / 4) := by
  have hpi := Real.pi_pos
  rw [C73_reaction streamGen_iid isoPipe_isotropic (by norm_num) (by norm_num) le_rfl le_rfl hpi.le
    (by linarith)]
  congr 1
  field_simp
  norm_num

end Verif.Props
