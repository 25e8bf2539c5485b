import Verif.Proofs.Emission
import Verif.Props.Unbiased

/-! # C104: the energies of decay products -/

namespace Verif.Props

open Verif.Kinematics Verif.Spec MeasureTheory

variable {σ : Type} [MeasurableSpace σ] {μ : Measure σ} [IsProbabilityMeasure μ]
  {p : Pipeline σ} {rng : Gen σ} {u z : σ → ℝ} {next skip : σ → σ}

/-- Magnitude of the momentum. -/
noncomputable def momentum (q : Vec4) : ℝ := Real.sqrt (q.px ^ 2 + q.py ^ 2 + q.pz ^ 2)

/-- Energy of the product of mass `m1` in the rest frame of a nucleus of mass `m`, recoiling against the
mass `m2`. -/
noncomputable def restEnergy (m m1 m2 : ℝ) : ℝ := (m ^ 2 + m1 ^ 2 - m2 ^ 2) / (2 * m)

/-- Momentum of the two products in the rest frame of a nucleus of mass `m`. -/
noncomputable def restMomentum (m m1 m2 : ℝ) : ℝ := Real.sqrt (restEnergy m m1 m2 ^ 2 - m1 ^ 2)

/-- The lowest energy of the product, for backward emission: the Lorentz transformation from the rest
frame of the parent with four-momentum `q`. -/
noncomputable def lowestEnergy (q : Vec4) (m1 m2 : ℝ) : ℝ :=
  (q.E * restEnergy q.M m1 m2 - momentum q * restMomentum q.M m1 m2) / q.M

/-- The highest energy, for forward emission. -/
noncomputable def highestEnergy (q : Vec4) (m1 m2 : ℝ) : ℝ :=
  (q.E * restEnergy q.M m1 m2 + momentum q * restMomentum q.M m1 m2) / q.M

/-- Direction of a momentum. -/
noncomputable def direction (q : Vec4) : ℝ × ℝ × ℝ :=
  (q.px / momentum q, q.py / momentum q, q.pz / momentum q)

theorem direction_unit {q : Vec4} (h : 0 < momentum q) :
    (direction q).1 ^ 2 + (direction q).2.1 ^ 2 + (direction q).2.2 ^ 2 = 1 := by
  have hs : momentum q ^ 2 = q.px ^ 2 + q.py ^ 2 + q.pz ^ 2 := Real.sq_sqrt (by positivity)
  simp only [direction, div_pow]
  rw [← add_div, ← add_div, ← hs, div_self (by positivity)]

@[fun_prop] theorem measurable_momentum : Measurable momentum := by
  unfold momentum
  fun_prop

theorem dotDir_direction {q : Vec4} (h : 0 < momentum q) (θ φ : ℝ) :
    Sphere.dotDir (q.px, q.py, q.pz) θ φ = momentum q * Sphere.dotDir (direction q) θ φ := by
  unfold Sphere.dotDir direction
  simp only
  field_simp

/-- The projection of the direction of emission on the momentum of the parent, from 0 for backward to 1
for forward emission. -/
noncomputable def forward (q : Vec4) (θ φ : ℝ) : ℝ := (1 + Sphere.dotDir (direction q) θ φ) / 2

theorem restMomentum_pos {m m1 m2 : ℝ} (h1 : 0 ≤ m1) (h2 : 0 < m2) (h : m1 + m2 < m) :
    0 < restMomentum m m1 m2 := by
  unfold restMomentum restEnergy
  have hm : 0 < m := by linarith
  apply Real.sqrt_pos.2
  have e : ((m ^ 2 + m1 ^ 2 - m2 ^ 2) / (2 * m)) ^ 2 - m1 ^ 2
      = ((m ^ 2 - (m1 + m2) ^ 2) * (m ^ 2 - (m1 - m2) ^ 2)) / (4 * m ^ 2) := by
    field_simp; ring
  rw [e]
  have a1 : 0 < m ^ 2 - (m1 + m2) ^ 2 := by nlinarith
  have a2 : 0 < m ^ 2 - (m1 - m2) ^ 2 := by nlinarith
  positivity

/-- The energy of the product is as far from the lowest to the highest as its direction from backward to
forward. -/
theorem emitted_fraction {q : Vec4} (hq : q.Massive) (hp : 0 < momentum q) {m1 m2 : ℝ} (h1 : 0 ≤ m1)
    (h2 : 0 < m2) (hlt : m1 + m2 < q.M) (θ φ : ℝ) :
    lowestEnergy q m1 m2 < highestEnergy q m1 m2 ∧
    (emitted m1 m2 q θ φ).E = lowestEnergy q m1 m2
      + forward q θ φ * (highestEnergy q m1 m2 - lowestEnergy q m1 m2) := by
  have hM := hq.M_pos
  have hr := restMomentum_pos h1 h2 hlt
  constructor
  · unfold lowestEnergy highestEnergy
    rw [div_lt_div_iff_of_pos_right hM]
    have : 0 < momentum q * restMomentum q.M m1 m2 := mul_pos hp hr
    linarith
  · rw [emitted_E hq, dotDir_direction hp]
    unfold forward lowestEnergy highestEnergy restMomentum restEnergy
    rw [show m1 ^ 2 - m2 ^ 2 + q.M ^ 2 = q.M ^ 2 + m1 ^ 2 - m2 ^ 2 by ring]
    field_simp
    ring

/-- The nucleus that undergoes decay number `k`. -/
noncomputable def decayParent {σ : Type} (p : Pipeline σ) (k : ℕ) (x : Sample) : Vec4 :=
  parentAt x.decay_excitations x.decay_thetas x.decay_phis k 0 p.decays (residualOf p.reaction x)

theorem measurable_residualOf (r : Reaction) {V : Type} [MeasurableSpace V] {x : V → Sample}
    (h1 : Measurable fun w => (x w).beam_energy) (h2 : Measurable fun w => (x w).reaction_excitation)
    (h3 : Measurable fun w => (x w).reaction_theta) (h4 : Measurable fun w => (x w).reaction_phi) :
    Measurable fun w => residualOf r (x w) := by
  have hq : Measurable fun w => targetVec r + beamVec r (x w).beam_energy := by
    apply measurable_vec4 <;> simp only [Vec4.add_px, Vec4.add_py, Vec4.add_pz, Vec4.add_E, targetVec,
      beamVec] <;> fun_prop
  exact measurable_sub hq (measurable_emitted measurable_const (h2.const_add _) hq h3 h4)

theorem measurable_decayParent (k : ℕ) : Measurable (decayParent p k) :=
  measurable_parentAt measurable_decay_excitations measurable_decay_thetas measurable_decay_phis k 0
    p.decays (measurable_residualOf _ measurable_beam_energy measurable_reaction_excitation
      measurable_reaction_theta measurable_reaction_phi)

theorem measurable_forward {V : Type} [MeasurableSpace V] {q : V → Vec4} {θ φ : V → ℝ}
    (hq : Measurable q) (h1 : Measurable θ) (h2 : Measurable φ) :
    Measurable fun w => forward (q w) (θ w) (φ w) := by
  unfold forward Sphere.dotDir direction
  fun_prop

/-- A direction drawn uniformly in solid angle is uniformly distributed between backward and forward. -/
theorem forward_uniform (hr : FreshGen rng μ u z next skip) (hu : RandomGen rng μ u) {q : Vec4}
    (hq : 0 < momentum q) {lo hi : ℝ} (hlo : 0 ≤ lo) (hhi : hi ≤ 1) :
    ((μ.map fun s => Real.arccos (2 * u s - 1)).prod (μ.map fun s => Real.pi * 2 * u s))
      {y | lo ≤ forward q y.1 y.2 ∧ forward q y.1 y.2 < hi} = ENNReal.ofReal (hi - lo) := by
  have hum := hu.measurable
  have h1 : (fun s => Real.arccos (2 * u s - 1)) = (fun v => Real.arccos (2 * v - 1)) ∘ u := rfl
  have h2 : (fun s => Real.pi * 2 * u s) = (fun v => Real.pi * 2 * v) ∘ u := rfl
  have m1 : Measurable fun v : ℝ => Real.arccos (2 * v - 1) := by fun_prop
  have m2 : Measurable fun v : ℝ => Real.pi * 2 * v := by fun_prop
  have hS : MeasurableSet {y : ℝ × ℝ | lo ≤ forward q y.1 y.2 ∧ forward q y.1 y.2 < hi} := by
    have : Measurable fun y : ℝ × ℝ => forward q y.1 y.2 :=
      measurable_forward measurable_const measurable_fst measurable_snd
    exact (measurableSet_le measurable_const this).inter (measurableSet_lt this measurable_const)
  rw [h1, h2, ← Measure.map_map m1 hum, ← Measure.map_map m2 hum, hu.law,
    Measure.map_prod_map _ _ m1 m2, Measure.map_apply (m1.prodMap m2) hS]
  have hB : MeasurableSet {t : ℝ | lo ≤ (1 + t) / 2 ∧ (1 + t) / 2 < hi} :=
    (measurableSet_le (f := fun _ : ℝ => lo) (g := fun t : ℝ => (1 + t) / 2) (by fun_prop)
      (by fun_prop)).inter (measurableSet_lt (f := fun t : ℝ => (1 + t) / 2) (g := fun _ : ℝ => hi)
      (by fun_prop) (by fun_prop))
  have := Sphere.isotropic_dot (direction_unit hq) hB
  refine Eq.trans this ?_
  rw [show {v : ℝ | 2 * v - 1 ∈ {t : ℝ | lo ≤ (1 + t) / 2 ∧ (1 + t) / 2 < hi}} = Set.Ico lo hi by
    ext v
    simp only [Set.mem_setOf_eq, Set.mem_Ico]
    rw [show (1 + (2 * v - 1)) / 2 = v by ring],
    Measure.restrict_apply measurableSet_Ico, Set.inter_eq_left.2 (Set.Ico_subset_Ico hlo hhi),
    Real.volume_Ico]

/-- What is drawn before the polar angle of a decay: beam energy, vertex, excitation; angles of the
ejectile; excitations of the decays, polar angles of the decays before. -/
abbrev Before : Type := ((ℝ × ℝ × ℝ × ℝ) × ℝ) × (ℝ × ℝ) × List ℝ × List ℝ

/-- The part of a sample that the decay does not take part in; `b` are the later polar angles and the
earlier azimuths. -/
def partialSample (a : Before) (b : List ℝ × List ℝ) : Sample :=
  ⟨a.1.1.1, a.1.2, a.2.1.1, a.2.1.2, a.1.1.2, a.2.2.1, a.2.2.2, b.2⟩

/-- The direction of an isotropic decay, relative to the momentum of the parent, is independent of
whether the sample is allowed, and uniform. -/
theorem forward_prob {e : Sampler σ} {es : List (Sampler σ)}
    (h : FreshPipeline μ p u z next skip e es) (hu : RandomGen p.rng μ u) {k : ℕ}
    (hk : p.polar_dists[k + 1]? = some ((mkPolarUniform 0 Real.pi).sample p.rng)) {lo hi : ℝ}
    (hlo : 0 ≤ lo) (hhi : hi ≤ 1) {v : σ → Sample} {g : σ → σ} (hf : Fresh μ v g)
    (hv : ∀ s, p.sample s = .ok (v s, g s)) :
    μ {s | EnergyAllowed p (v s) ∧ 0 < momentum (decayParent p k (v s)) ∧
        lo ≤ forward (decayParent p k (v s)) ((v s).decay_thetas.getD k 0) ((v s).decay_phis.getD k 0) ∧
        forward (decayParent p k (v s)) ((v s).decay_thetas.getD k 0) ((v s).decay_phis.getD k 0) < hi}
      = ENNReal.ofReal (hi - lo)
        * μ {s | EnergyAllowed p (v s) ∧ 0 < momentum (decayParent p k (v s))} := by
  have hne : p.excitations ≠ [] := by
    intro h0
    have := h.runs.built.excitations
    rw [h0] at this
    simp at this
  obtain ⟨a, g1, θ, g2, r, g4, θs, g5, g6, f1, f2, f4, f5, f3, f6, he, hes, hs⟩ :=
    sample_parts h.gen rfl h.target ⟨hne, h.excitations⟩ h.polar h.polar_fresh
  have hvs : ∀ s, v s = ⟨(a s).1.1, (a s).2, θ (g1 s),
      (p.rng.uniform 0 (Real.pi * 2) (g2 (g1 s))).1, (a s).1.2, r (next (g2 (g1 s))),
      θs (g4 (next (g2 (g1 s)))),
      (p.rng.uniformN 0 (Real.pi * 2) p.decays.length (g5 (g4 (next (g2 (g1 s)))))).1⟩ := fun s => by
    have h1 := hv s
    rw [hs s] at h1
    simp only [Except.ok.injEq, Prod.mk.injEq] at h1
    exact h1.1.symm
  -- the polar angles before, at and after number `k`
  have hlt : k < p.decays.length := by
    have h1 := h.runs.built.polar
    have h2 := (List.getElem?_eq_some_iff.1 hk).1
    omega
  have hke : es[k]? = some ((mkPolarUniform 0 Real.pi).sample p.rng) := by
    rw [h.polar, List.getElem?_cons_succ] at hk
    exact hk
  obtain ⟨hk1, hk2⟩ := List.getElem?_eq_some_iff.1 hke
  have hsplit : es = es.take k ++ (mkPolarUniform 0 Real.pi).sample p.rng :: es.drop (k + 1) := by
    rw [← hk2, ← List.drop_eq_getElem_cons hk1, List.take_append_drop]
  have hesf : ∀ d ∈ es, FreshSampler μ d := fun d hd => h.polar_fresh d (by rw [h.polar]; simp [hd])
  obtain ⟨l1, j1, fl1, hl1⟩ := sampleAll_fresh (es.take k) fun d hd => hesf d (List.mem_of_mem_take hd)
  obtain ⟨l2, j2, fl2, hl2⟩ := sampleAll_fresh (es.drop (k + 1))
    fun d hd => hesf d (List.mem_of_mem_drop hd)
  have hmid : ∀ s, (mkPolarUniform 0 Real.pi).sample p.rng s
      = .ok (Real.arccos (2 * u s - 1), next s) := by
    intro s
    have : (mkPolarUniform 0 Real.pi).sample p.rng s
        = .ok (Real.arccos (p.rng.uniform (Real.cos Real.pi) (Real.cos 0) s).1,
          (p.rng.uniform (Real.cos Real.pi) (Real.cos 0) s).2) :=
      polar_uniform_sample p.rng (d := mkPolarUniform 0 Real.pi) (by simp [mkPolarUniform]) s
    rw [this, h.gen.uniform, Real.cos_pi, Real.cos_zero]
    simp only
    congr 3
    ring
  have hl2' : ∀ s, sampleAll ((mkPolarUniform 0 Real.pi).sample p.rng :: es.drop (k + 1)) s
      = .ok (Real.arccos (2 * u s - 1) :: l2 (next s), j2 (next s)) := by
    intro s
    simp only [sampleAll, bind, Except.bind, hmid, hl2, pure, Except.pure]
  have hθs : ∀ s, θs s = l1 s ++ Real.arccos (2 * u (j1 s) - 1) :: l2 (next (j1 s)) ∧
      g5 s = j2 (next (j1 s)) := by
    intro s
    have h1 := sampleAll_append hl2' hl1 s
    rw [← hsplit, hes s] at h1
    simpa only [Except.ok.injEq, Prod.mk.injEq] using h1
  have hl1len : ∀ s, (l1 s).length = k := fun s => by
    rw [Spec.sampleAll_length _ (hl1 s), List.length_take]
    omega
  -- the azimuths
  obtain ⟨p1, j3, fp1, hp1⟩ := uniformN_fresh h.gen 0 (Real.pi * 2) k
  have hp1 : ∀ s, p.rng.uniformN 0 (Real.pi * 2) k s = (p1 s, j3 s) := fun s => by simpa using hp1 s
  have hp1len : ∀ s, (p1 s).length = k := fun s => by
    have := Spec.uniformN_length p.rng 0 (Real.pi * 2) k s
    rwa [hp1] at this
  have hφs : ∀ s, ∃ rest, (p.rng.uniformN 0 (Real.pi * 2) p.decays.length s).1
      = p1 s ++ (Real.pi * 2 * u (j3 s)) :: rest := by
    intro s
    obtain ⟨n, hn⟩ : ∃ n, p.decays.length = k + (n + 1) := ⟨p.decays.length - k - 1, by omega⟩
    rw [hn, uniformN_append, hp1]
    refine ⟨(p.rng.uniformN 0 (Real.pi * 2) n (next (j3 s))).1, ?_⟩
    simp only [Gen.uniformN, h.gen.uniform]
    congr 2
    ring
  -- the parts
  have F1 := f1.comp ((f2.comp f3).comp (f4.comp fl1))
  have fu : Fresh μ (fun s => Real.arccos (2 * u s - 1)) next := h.gen.fresh_uniform.map
    (k := fun x => Real.arccos (2 * x - 1)) (by fun_prop)
  have F3 := fl2.comp fp1
  have hy : Measurable fun s => Real.pi * 2 * u s := h.gen.fresh_uniform.value.const_mul _
  let q : Before × (List ℝ × List ℝ) → Vec4 := fun d => decayParent p k (partialSample d.1 d.2)
  have hq : Measurable q := by
    refine measurable_parentAt ?_ ?_ ?_ k 0 p.decays (measurable_residualOf p.reaction ?_ ?_ ?_ ?_) <;>
      simp only [partialSample] <;> fun_prop
  let D : Set (Before × (List ℝ × List ℝ)) :=
    {d | EnergyAllowed p (partialSample d.1 d.2) ∧ 0 < momentum (q d)}
  have hD : MeasurableSet D := by
    refine MeasurableSet.inter ?_ (measurableSet_lt measurable_const (measurable_momentum.comp hq))
    refine (?_ : Measurable fun d : Before × (List ℝ × List ℝ) => partialSample d.1 d.2)
      (measurable_energyAllowed p)
    apply measurable_sample <;> simp only [partialSample] <;> fun_prop
  have main := fun {T : Set ((Before × (List ℝ × List ℝ)) × ℝ × ℝ)} {c : ENNReal} (hT : MeasurableSet T)
    (hc : ∀ d, ((μ.map fun s => Real.arccos (2 * u s - 1)).prod (μ.map fun s => Real.pi * 2 * u s))
      (Prod.mk d ⁻¹' T) = D.indicator (fun _ => c) d) => F1.interleaved fu F3 hy hT hD hc
  have i2 : IsProbabilityMeasure (μ.map fun s => Real.arccos (2 * u s - 1)) :=
    Measure.isProbabilityMeasure_map fu.value.aemeasurable
  have i4 : IsProbabilityMeasure (μ.map fun s => Real.pi * 2 * u s) :=
    Measure.isProbabilityMeasure_map hy.aemeasurable
  let T : Set ((Before × (List ℝ × List ℝ)) × ℝ × ℝ) :=
    {t | t.1 ∈ D ∧ lo ≤ forward (q t.1) t.2.1 t.2.2 ∧ forward (q t.1) t.2.1 t.2.2 < hi}
  have hT : MeasurableSet T := by
    have hm : Measurable fun t : (Before × (List ℝ × List ℝ)) × ℝ × ℝ => forward (q t.1) t.2.1 t.2.2 :=
      measurable_forward (hq.comp measurable_fst) (by fun_prop) (by fun_prop)
    exact (measurable_fst hD).inter ((measurableSet_le measurable_const hm).inter
      (measurableSet_lt hm measurable_const))
  have r1 := main (T := T) (c := ENNReal.ofReal (hi - lo)) hT (by
    intro d
    by_cases hd : d ∈ D
    · rw [Set.indicator_of_mem hd, ← forward_uniform h.gen hu hd.2 hlo hhi]
      congr 1
      ext y
      simp only [T, Set.mem_preimage, Set.mem_setOf_eq, hd, true_and]
    · rw [Set.indicator_of_notMem hd, show Prod.mk d ⁻¹' T = ∅ by
        ext y
        simp only [T, Set.mem_preimage, Set.mem_setOf_eq, hd, false_and, Set.mem_empty_iff_false],
        measure_empty])
  have r2 := main (T := Prod.fst ⁻¹' D) (c := 1) (measurable_fst hD) (by
    intro d
    by_cases hd : d ∈ D
    · rw [Set.indicator_of_mem hd, show Prod.mk d ⁻¹' (Prod.fst ⁻¹' D) = Set.univ by
        ext y
        simp [hd], measure_univ]
    · rw [Set.indicator_of_notMem hd, show Prod.mk d ⁻¹' (Prod.fst ⁻¹' D) = ∅ by
        ext y
        simp [hd], measure_empty])
  rw [one_mul] at r2
  rw [← r2] at r1
  -- the samples in terms of the parts
  have hgd : ∀ (l m : List ℝ) (y : ℝ), l.length = k → (l ++ y :: m).getD k 0 = y ∧
      ∀ j < k, (l ++ y :: m).getD j 0 = l.getD j 0 := by
    intro l m y hl
    refine ⟨?_, fun j hj => ?_⟩
    · rw [List.getD_eq_getElem?_getD, List.getElem?_append_right (by omega), hl]
      simp
    · rw [List.getD_eq_getElem?_getD, List.getElem?_append_left (by omega), List.getD_eq_getElem?_getD]
  have hval : ∀ s, (v s).decay_thetas.getD k 0 = Real.arccos (2 * u (j1 (g4 (next (g2 (g1 s))))) - 1) ∧
      (v s).decay_phis.getD k 0 = Real.pi * 2 * u (j3 (j2 (next (j1 (g4 (next (g2 (g1 s)))))))) ∧
      decayParent p k (v s) = q ((a s, (θ (g1 s), (p.rng.uniform 0 (Real.pi * 2) (g2 (g1 s))).1),
        r (next (g2 (g1 s))), l1 (g4 (next (g2 (g1 s))))), l2 (next (j1 (g4 (next (g2 (g1 s)))))),
        p1 (j2 (next (j1 (g4 (next (g2 (g1 s)))))))) := by
    intro s
    obtain ⟨e1, e2⟩ := hθs (g4 (next (g2 (g1 s))))
    obtain ⟨rest, e3⟩ := hφs (g5 (g4 (next (g2 (g1 s)))))
    rw [e2] at e3
    have t1 := hgd _ (l2 (next (j1 (g4 (next (g2 (g1 s)))))))
      (Real.arccos (2 * u (j1 (g4 (next (g2 (g1 s))))) - 1)) (hl1len (g4 (next (g2 (g1 s)))))
    have t2 := hgd _ rest (Real.pi * 2 * u (j3 (j2 (next (j1 (g4 (next (g2 (g1 s)))))))))
      (hp1len (j2 (next (j1 (g4 (next (g2 (g1 s))))))))
    rw [hvs s, e1, e2, e3]
    refine ⟨t1.1, t2.1, ?_⟩
    exact parentAt_congr k 0 p.decays _ (fun j hj => t1.2 j (by omega)) fun j hj => t2.2 j (by omega)
  have hallow : ∀ s b, EnergyAllowed p (v s) ↔ EnergyAllowed p (partialSample (a s, (θ (g1 s),
      (p.rng.uniform 0 (Real.pi * 2) (g2 (g1 s))).1), r (next (g2 (g1 s))),
      l1 (g4 (next (g2 (g1 s))))) b) := by
    intro s b
    rw [hvs s]
    rfl
  refine Eq.trans (congrArg μ ?_) (r1.trans (congrArg (fun A => ENNReal.ofReal (hi - lo) * μ A) ?_))
  · ext s
    obtain ⟨e1, e2, e3⟩ := hval s
    simp only [T, D, Set.mem_setOf_eq]
    rw [e1, e2, e3, hallow s (l2 (next (j1 (g4 (next (g2 (g1 s)))))),
        p1 (j2 (next (j1 (g4 (next (g2 (g1 s))))))))]
    tauto
  · ext s
    obtain ⟨e1, e2, e3⟩ := hval s
    simp only [D, Set.mem_setOf_eq, Set.mem_preimage]
    rw [e3, hallow s (l2 (next (j1 (g4 (next (g2 (g1 s)))))),
        p1 (j2 (next (j1 (g4 (next (g2 (g1 s))))))))]

/-- The rows of decay number `k` in a returned event. -/
theorem returns_decay (h : RunsOk p) {buf : List ResultRow} {s : σ} {x : Sample}
    (hx : Returns p buf s x) {k : ℕ} (hk : k < p.decays.length) :
    ∃ (st : PipeState σ) (rows : List Vec4) (a : Vec4), p.run ⟨s, buf⟩ = (.ok x.vertex, st) ∧
      st.result = rows.map some ∧ rows[3 + 2 * k]? = some (decayParent p k x) ∧
      rows[4 + 2 * k]? = some a ∧ rows[5 + 2 * k]? = some (decayParent p k x - a) ∧
      a = emitted a.M (decayParent p k x - a).M (decayParent p k x) (x.decay_thetas.getD k 0)
        (x.decay_phis.getD k 0) ∧
      (decayParent p k x).Massive ∧ 0 ≤ a.M ∧ 0 < (decayParent p k x - a).M ∧
      a.M + (decayParent p k x - a).M < (decayParent p k x).M := by
  obtain ⟨st, h1, h2, k', hk', s1, h3, h4, h5⟩ := hx
  have hr : ReactionOk p.reaction := ⟨h.chain.target, h.chain.projectile, h.chain.ejectile⟩
  have hok := h.samples _ _ _ h4
  obtain ⟨-, t, b, e, r, rs, i1, i2⟩ := eventRows_some h.chain hok h2
  have ha := (reaction_allowed_iff h.chain hok).2 ⟨h5.1, h5.2.1⟩
  unfold eventRows at h2
  simp only [ha, Bool.not_true, Bool.false_eq_true, if_false] at h2
  obtain ⟨res, hres⟩ := h.calculates _ _ _ h4 ha
  obtain ⟨hq, hm⟩ := residualOf_massive hr h5.1 hok.residual ha hres
  obtain ⟨t', b', e', r', rfl, -⟩ := C40_reaction hr h5.1 hok.residual.le ha _ _ hres
  simp only [Option.some.injEq] at hq
  subst hq
  rw [hres] at h2
  simp only at h2
  cases hd : decayRows x 0 p.decays (some (residualOf p.reaction x)) with
  | error e => rw [hd] at h2; simp at h2
  | ok o =>
    cases o with
    | none => rw [hd] at h2; simp at h2
    | some rows' =>
      obtain ⟨q, a, c1, c2, c3, c4, c5, c6, c7, c8, c9, c10, c11⟩ := decayRows_closed x p.decays 0 _ hm
        h.chain.decays (by simpa using hok.decays) _ hd k hk
      have hqd : decayParent p k x = q := c1.symm
      rw [hqd]
      rw [hd, i1] at h2
      simp only [List.map_cons, Except.ok.injEq, Option.some.injEq, List.cons.injEq] at h2
      obtain ⟨-, -, -, hr', hrs⟩ := h2
      have hall : (some (residualOf p.reaction x) :: rows') = (r :: rs).map some := by
        rw [hr', hrs, List.map_cons]
      rw [hall] at c9 c10 c11
      have hget : ∀ {j : ℕ} {w : Vec4}, ((r :: rs).map some)[j]? = some (some w) →
          (t :: b :: e :: r :: rs)[j + 3]? = some w := by
        intro j w hw
        rw [List.getElem?_map] at hw
        simp only [List.getElem?_cons_succ]
        cases hj : (r :: rs)[j]? with
        | none => rw [hj] at hw; simp at hw
        | some w' => rw [hj] at hw; simpa using hw
      refine ⟨st, t :: b :: e :: r :: rs, a, h1, i1, ?_, ?_, ?_, ?_, c3, c4, c5, c6⟩
      · rw [Nat.add_comm]; exact hget c9
      · rw [show 4 + 2 * k = 2 * k + 1 + 3 by ring]; exact hget c10
      · rw [show 5 + 2 * k = 2 * k + 2 + 3 by ring]; exact hget c11
      · rw [c7, c8]
        simpa only [Nat.zero_add] using c2

/-- **C104.** When the polar distribution of decay number `k` covers the full solid angle, the
laboratory energy of the first product of the decay is, in the returned events in which the parent
moves, uniformly distributed between its lowest and its highest value, whatever the direction and the
energy of the parent are: the part of the way from the one to the other lies in `[lo, hi)` with
probability `hi - lo`. -/
theorem C104_spectrum {e : Sampler σ} {es : List (Sampler σ)}
    (h : FreshPipeline μ p u z next skip e es) (hu : RandomGen p.rng μ u) {k : ℕ}
    (hk : p.polar_dists[k + 1]? = some ((mkPolarUniform 0 Real.pi).sample p.rng)) {lo hi : ℝ}
    (hlo : 0 ≤ lo) (hhi : hi ≤ 1) {buf : List ResultRow} (hlen : buf.length = 4 + 2 * p.decays.length) :
    μ {s | ∃ vertex st, ∃ rows : List Vec4, ∃ q a b, p.run ⟨s, buf⟩ = (.ok vertex, st) ∧
        st.result = rows.map some ∧ rows[3 + 2 * k]? = some q ∧ rows[4 + 2 * k]? = some a ∧
        rows[5 + 2 * k]? = some b ∧ 0 < momentum q ∧
        lowestEnergy q a.M b.M + lo * (highestEnergy q a.M b.M - lowestEnergy q a.M b.M) ≤ a.E ∧
        a.E < lowestEnergy q a.M b.M + hi * (highestEnergy q a.M b.M - lowestEnergy q a.M b.M)}
      = ENNReal.ofReal (hi - lo) * μ {s | ∃ vertex st, ∃ rows : List Vec4, ∃ q,
          p.run ⟨s, buf⟩ = (.ok vertex, st) ∧ st.result = rows.map some ∧
          rows[3 + 2 * k]? = some q ∧ 0 < momentum q} := by
  have hlt : k < p.decays.length := by
    have h1 := h.runs.built.polar
    have h2 := (List.getElem?_eq_some_iff.1 hk).1
    omega
  have hne : p.excitations ≠ [] := by
    intro h0
    have := h.runs.built.excitations
    rw [h0] at this
    simp at this
  obtain ⟨v, g, hf, hv⟩ := sample_fresh h.gen rfl h.target ⟨hne, h.excitations⟩
    ⟨by rw [h.polar]; simp, h.polar_fresh⟩
  have key := forward_prob h hu hk hlo hhi hf hv
  let Mv : Set Sample := {x | 0 < momentum (decayParent p k x)}
  let S : Set Sample := {x | 0 < momentum (decayParent p k x) ∧
    lo ≤ forward (decayParent p k x) (x.decay_thetas.getD k 0) (x.decay_phis.getD k 0) ∧
    forward (decayParent p k x) (x.decay_thetas.getD k 0) (x.decay_phis.getD k 0) < hi}
  have hM : MeasurableSet Mv :=
    measurableSet_lt measurable_const (measurable_momentum.comp (measurable_decayParent k))
  have hS : MeasurableSet S := by
    have := measurable_forward (measurable_decayParent (p := p) k)
      ((measurable_list_getD k).comp measurable_decay_thetas)
      ((measurable_list_getD k).comp measurable_decay_phis)
    exact hM.inter ((measurableSet_le measurable_const this).inter (measurableSet_lt this measurable_const))
  have hset : ∀ S : Set Sample, {s | ∃ x, Returns p buf s x ∧ x ∈ S}
      = {s | ∃ x st', p.run ⟨s, buf⟩ = (.ok x.vertex, st') ∧ eventRows p x = .ok (some st'.result) ∧
        FirstAllowed p p.event_sample_limit.toNat s x st'.gen ∧ x ∈ S} := by
    intro S
    ext s
    constructor
    · rintro ⟨x, ⟨st', h1, h2, h3⟩, h4⟩; exact ⟨x, st', h1, h2, h3, h4⟩
    · rintro ⟨x, st', h1, h2, h3, h4⟩; exact ⟨x, ⟨st', h1, h2, h3⟩, h4⟩
  have e1 := C82_accepted h.runs hf hv hS hlen
  have e2 := C82_accepted h.runs hf hv hM hlen
  rw [← hset] at e1 e2
  have hret : ∀ s, (∃ vertex st, p.run ⟨s, buf⟩ = (.ok vertex, st)) → ∃ x, Returns p buf s x := by
    rintro s ⟨vertex, st', hrun⟩
    obtain ⟨k, hk, s1, x, i1, i2, i3, rfl, -⟩ :=
      C49_first_allowed h.runs.built h.runs.lawful h.runs.chain h.runs.samples hlen hrun
    have hfa : FirstAllowed p p.event_sample_limit.toNat s x st'.gen :=
      ⟨k, by omega, s1, i1, i2, i3⟩
    obtain ⟨st2, j1, -, j3⟩ := run_of_firstAllowed h.runs (st := ⟨s, buf⟩) hlen hfa
    rw [hrun] at j1
    simp only [Prod.mk.injEq, true_and] at j1
    subst j1
    exact ⟨x, st', hrun, j3, hfa⟩
  have hfrac : ∀ {q a : Vec4} {θ φ : ℝ}, q.Massive → 0 ≤ a.M → 0 < (q - a).M → a.M + (q - a).M < q.M →
      a = emitted a.M (q - a).M q θ φ → 0 < momentum q →
      (lowestEnergy q a.M (q - a).M + lo * (highestEnergy q a.M (q - a).M - lowestEnergy q a.M (q - a).M)
          ≤ a.E ∧
        a.E < lowestEnergy q a.M (q - a).M
          + hi * (highestEnergy q a.M (q - a).M - lowestEnergy q a.M (q - a).M) ↔
        lo ≤ forward q θ φ ∧ forward q θ φ < hi) := by
    intro q a θ φ c1 c2 c3 c4 c5 c6
    obtain ⟨d1, d2⟩ := emitted_fraction c1 c6 c2 c3 c4 θ φ
    rw [← c5] at d2
    rw [d2]
    have hd : 0 < highestEnergy q a.M (q - a).M - lowestEnergy q a.M (q - a).M := by linarith
    rw [add_le_add_iff_left, add_lt_add_iff_left, mul_le_mul_iff_left₀ hd, mul_lt_mul_iff_left₀ hd]
  have w1 : {s | ∃ vertex st, ∃ rows : List Vec4, ∃ q a b, p.run ⟨s, buf⟩ = (.ok vertex, st) ∧
        st.result = rows.map some ∧ rows[3 + 2 * k]? = some q ∧ rows[4 + 2 * k]? = some a ∧
        rows[5 + 2 * k]? = some b ∧ 0 < momentum q ∧
        lowestEnergy q a.M b.M + lo * (highestEnergy q a.M b.M - lowestEnergy q a.M b.M) ≤ a.E ∧
        a.E < lowestEnergy q a.M b.M + hi * (highestEnergy q a.M b.M - lowestEnergy q a.M b.M)}
      = {s | ∃ x, Returns p buf s x ∧ x ∈ S} := by
    ext s
    simp only [Set.mem_setOf_eq]
    constructor
    · rintro ⟨vertex, st, rows, q, a, b, h1, h2, h3, h4, h5, h6, h7⟩
      obtain ⟨x, hx⟩ := hret s ⟨_, _, h1⟩
      obtain ⟨st', rows', a', k1, k2, k3, k4, k5, k6, k7, k8, k9, k10⟩ := returns_decay h.runs hx hlt
      rw [h1] at k1
      simp only [Prod.mk.injEq, Except.ok.injEq] at k1
      obtain ⟨-, rfl⟩ := k1
      have : rows' = rows := by
        rw [h2] at k2
        exact (List.map_injective_iff.2 (Option.some_injective _) k2).symm
      subst this
      rw [h3] at k3
      rw [h4] at k4
      rw [h5] at k5
      simp only [Option.some.injEq] at k3 k4 k5
      subst k3 k4 k5
      exact ⟨x, hx, h6, (hfrac k7 k8 k9 k10 k6 h6).1 h7⟩
    · rintro ⟨x, hx, c1, c2⟩
      obtain ⟨st', rows', a', k1, k2, k3, k4, k5, k6, k7, k8, k9, k10⟩ := returns_decay h.runs hx hlt
      exact ⟨_, st', rows', _, a', _, k1, k2, k3, k4, k5, c1, (hfrac k7 k8 k9 k10 k6 c1).2 c2⟩
  have w2 : {s | ∃ vertex st, ∃ rows : List Vec4, ∃ q,
          p.run ⟨s, buf⟩ = (.ok vertex, st) ∧ st.result = rows.map some ∧
          rows[3 + 2 * k]? = some q ∧ 0 < momentum q}
      = {s | ∃ x, Returns p buf s x ∧ x ∈ Mv} := by
    ext s
    simp only [Set.mem_setOf_eq]
    constructor
    · rintro ⟨vertex, st, rows, q, h1, h2, h3, h6⟩
      obtain ⟨x, hx⟩ := hret s ⟨_, _, h1⟩
      obtain ⟨st', rows', a', k1, k2, k3, -⟩ := returns_decay h.runs hx hlt
      rw [h1] at k1
      simp only [Prod.mk.injEq, Except.ok.injEq] at k1
      obtain ⟨-, rfl⟩ := k1
      have : rows' = rows := by
        rw [h2] at k2
        exact (List.map_injective_iff.2 (Option.some_injective _) k2).symm
      subst this
      rw [h3] at k3
      simp only [Option.some.injEq] at k3
      subst k3
      exact ⟨x, hx, h6⟩
    · rintro ⟨x, hx, c1⟩
      obtain ⟨st', rows', a', k1, k2, k3, -⟩ := returns_decay h.runs hx hlt
      exact ⟨_, st', rows', _, k1, k2, k3, c1⟩
  rw [w1, w2, e1, e2, ← mul_assoc]
  exact congrArg (· * ∑ k ∈ Finset.range p.event_sample_limit.toNat, μ {s | ¬EnergyAllowed p (v s)} ^ k)
    key

/-! ## An example -/

/-- The pipeline of C82 whose residual decays isotropically. -/
noncomputable def decayPipe : Pipeline Stream :=
  { halfPipe with
    decays := [exDecay],
    excitations := [(⟨0, 4⟩ : ExcitationUniform).sample streamGen,
      (⟨0, 1⟩ : ExcitationUniform).sample streamGen],
    polar_dists := [(mkPolarUniform 0 Real.pi).sample streamGen,
      (mkPolarUniform 0 Real.pi).sample streamGen] }

theorem decayPipe_values {s s' : Stream} {x : Sample} (h : decayPipe.sample s = .ok (x, s')) :
    x.beam_energy = 5 ∧ x.reaction_excitation = 4 * s 0 ∧ ∃ ex, 0 ≤ ex ∧ x.decay_excitations = [ex] := by
  have h4 : ¬ (4 : ℝ) < 0 := by norm_num
  have h1 : ¬ (1 : ℝ) < 0 := by norm_num
  have hc : ¬ (1 : ℝ) < -1 := by norm_num
  simp only [Pipeline.sample, Pipeline.sample_vertex, decayPipe, halfPipe, sampleHead,
    ExcitationUniform.sample, PolarUniform.sample, mkPolarUniform, Real.cos_zero, Real.cos_pi, h4, h1,
    hc, if_false, sampleAll, streamGen, List.tail_cons, bind, Except.bind,
    pure, Except.pure, Except.ok.injEq, Prod.mk.injEq] at h
  obtain ⟨rfl, -⟩ := h
  refine ⟨rfl, by simp, _, ?_, rfl⟩
  have := (s 3).2.1
  simpa using this

theorem decayPipe_samples : SamplesOk decayPipe := by
  intro s x s' h
  obtain ⟨h1, h2, ex, h3, h4⟩ := decayPipe_values h
  have := (s 0).2.1
  refine ⟨?_, ?_, ?_⟩
  · rw [h1]; norm_num [decayPipe, halfPipe, exReaction]
  · rw [h2]
    simp only [decayPipe, halfPipe, exReaction]
    linarith
  · intro de hde
    simp only [decayPipe, h4, List.zip_cons_cons, List.zip_nil_left, List.mem_singleton] at hde
    subst hde
    simp only [exDecay]
    linarith

/-- C104 applies to it. -/
theorem decayPipe_freshPipeline : FreshPipeline streamMeasure decayPipe (fun s => (s 0 : ℝ))
    (fun s => (s 0 : ℝ)) shift shift ((mkPolarUniform 0 Real.pi).sample decayPipe.rng)
    [(mkPolarUniform 0 Real.pi).sample decayPipe.rng] where
  runs := {
    built := ⟨rfl, rfl⟩
    lawful := streamGen_lawful
    chain := ⟨halfPipe_ok.chain.target, halfPipe_ok.chain.projectile, halfPipe_ok.chain.ejectile,
      by simp [decayPipe, exDecay]⟩
    samples := decayPipe_samples
    calculates := by
      intro s x s' h ha
      have hx := decayPipe_samples s x s' h
      obtain ⟨h1, -⟩ := decayPipe_values h
      rw [h1] at ha ⊢
      obtain ⟨t, b, e, q, h⟩ := C43_partial exReaction_ok (T := 5) (by norm_num) (hx.residual.le) ha
        (by norm_num [exReaction]) (.inl (by norm_num [exReaction])) x.reaction_theta x.reaction_phi
      exact ⟨_, h⟩ }
  gen := streamGen_fresh
  target := by simp [decayPipe, halfPipe]
  excitations := by
    intro d hd
    simp only [decayPipe, List.mem_cons, List.not_mem_nil, or_false] at hd
    rcases hd with rfl | rfl <;> exact excitation_uniform_fresh streamGen_fresh _ (by norm_num)
  polar := rfl
  polar_fresh := by
    intro d hd
    simp only [decayPipe, List.mem_cons, List.not_mem_nil, or_false] at hd
    rcases hd with rfl | rfl <;> exact polar_uniform_fresh streamGen_fresh _ (by simp [mkPolarUniform])

/-- A quarter of the products of its moving residuals have energies in the upper quarter. -/
example := C104_spectrum decayPipe_freshPipeline streamGen_random (k := 0) rfl (lo := 3 / 4) (hi := 1)
  (by norm_num) le_rfl (buf := List.replicate 6 none) rfl

end Verif.Props
