import Verif.Spec.Sampling
import Verif.Detector.Simulator
import Verif.Kinematics.Pipeline
import Mathlib.MeasureTheory.Measure.Prod
import Mathlib.MeasureTheory.Function.SpecialFunctions.Basic

/-! # Composition of fresh random procedures; rejection sampling -/

namespace Verif.Spec

open Verif.Kinematics MeasureTheory

variable {σ V W : Type} [MeasurableSpace σ] [MeasurableSpace V] [MeasurableSpace W] {μ : Measure σ}

theorem fresh_iff [IsProbabilityMeasure μ] {v : σ → V} {g : σ → σ} (hv : Measurable v)
    (hg : Measurable g) :
    Fresh μ v g ↔ μ.map (fun s => (v s, g s)) = (μ.map v).prod μ := by
  have hm : Measurable fun s => (v s, g s) := hv.prodMk hg
  have : IsProbabilityMeasure (μ.map v) := Measure.isProbabilityMeasure_map hv.aemeasurable
  constructor
  · intro h
    symm
    apply Measure.prod_eq
    intro B A hB hA
    rw [Measure.map_apply hm (hB.prod hA), Measure.map_apply hv hB]
    exact h.indep B A hB hA
  · intro h
    refine ⟨hv, hg, fun B A hB hA => ?_⟩
    have := congrArg (fun m => m (B ×ˢ A)) h
    simp only [Measure.prod_prod] at this
    rw [Measure.map_apply hm (hB.prod hA), Measure.map_apply hv hB] at this
    exact this

/-- Two fresh procedures one after the other. -/
theorem Fresh.comp [IsProbabilityMeasure μ] {v : σ → V} {g : σ → σ} {w : σ → W} {h : σ → σ}
    (h1 : Fresh μ v g) (h2 : Fresh μ w h) : Fresh μ (fun s => (v s, w (g s))) (fun s => h (g s)) := by
  have hv := h1.value
  have hg := h1.state
  have hw := h2.value
  have hh := h2.state
  have hwg : Measurable fun s => w (g s) := hw.comp hg
  have i1 : IsProbabilityMeasure (μ.map v) := Measure.isProbabilityMeasure_map hv.aemeasurable
  have i2 : IsProbabilityMeasure (μ.map w) := Measure.isProbabilityMeasure_map hw.aemeasurable
  have e1 := (fresh_iff hv hg).1 h1
  have e2 := (fresh_iff hw hh).1 h2
  have hhg : Measurable fun s => h (g s) := hh.comp hg
  rw [fresh_iff (hv.prodMk hwg) hhg]
  -- the joint distribution of all three
  have e3 : μ.map (fun s => (v s, (w (g s), h (g s)))) = (μ.map v).prod ((μ.map w).prod μ) := by
    have : (fun s => (v s, (w (g s), h (g s))))
        = (Prod.map id fun s => (w s, h s)) ∘ fun s => (v s, g s) := rfl
    rw [this, ← Measure.map_map (measurable_id.prodMap (hw.prodMk hh)) (hv.prodMk hg), e1,
      ← Measure.map_prod_map _ _ measurable_id (hw.prodMk hh), Measure.map_id, e2]
  have e4 : μ.map (fun s => (v s, w (g s))) = (μ.map v).prod (μ.map w) := by
    have hfst : (fun s => (v s, w (g s)))
        = (Prod.map id Prod.fst) ∘ fun s => (v s, (w (g s), h (g s))) := rfl
    rw [hfst, ← Measure.map_map (measurable_id.prodMap measurable_fst)
      (hv.prodMk (hwg.prodMk hhg)), e3,
      ← Measure.map_prod_map _ _ measurable_id measurable_fst, Measure.map_id]
    congr 1
    exact Measure.fst_prod
  rw [e4]
  have hassoc : (fun s => ((v s, w (g s)), h (g s)))
      = MeasurableEquiv.prodAssoc.symm ∘ fun s => (v s, (w (g s), h (g s))) := rfl
  rw [hassoc, ← Measure.map_map MeasurableEquiv.prodAssoc.symm.measurable
    (hv.prodMk (hwg.prodMk hhg)), e3]
  have := Measure.prodAssoc_prod (μ := μ.map v) (ν := μ.map w) (τ := μ)
  rw [← this, Measure.map_map MeasurableEquiv.prodAssoc.symm.measurable
    MeasurableEquiv.prodAssoc.measurable]
  simp

/-- A procedure without randomness. -/
theorem Fresh.const [IsProbabilityMeasure μ] : Fresh μ (fun _ : σ => ()) id :=
  ⟨measurable_const, measurable_id, fun B A _ _ => by
    by_cases h : () ∈ B
    · simp [h]
    · simp [h]⟩

/-- A function of a fresh value is fresh. -/
theorem Fresh.map {v : σ → V} {g : σ → σ} (h : Fresh μ v g) {k : V → W} (hk : Measurable k) :
    Fresh μ (fun s => k (v s)) g :=
  ⟨hk.comp h.value, h.state, fun _ A hB hA => h.indep _ A (hk hB) hA⟩

/-! ## Measurable lists and samples -/

theorem measurable_list {f : V → List ℝ} (hl : Measurable fun w => (f w).length)
    (he : ∀ k : ℕ, Measurable fun w => (f w).getD k 0) : Measurable f := by
  rintro _ ⟨B, hB, rfl⟩
  exact (hl.prodMk (measurable_pi_lambda (fun w (k : ℕ) => (f w).getD k 0) he)) hB

theorem measurable_list_length : Measurable (List.length : List ℝ → ℕ) := fun B hB =>
  ⟨Prod.fst ⁻¹' B, measurable_fst hB, rfl⟩

theorem measurable_list_getD (k : ℕ) : Measurable fun l : List ℝ => l.getD k 0 := fun B hB =>
  ⟨(fun x => x.2 k) ⁻¹' B, ((measurable_pi_apply k).comp measurable_snd) hB, rfl⟩

theorem measurable_cons : Measurable fun x : ℝ × List ℝ => x.1 :: x.2 := by
  apply measurable_list
  · simp only [List.length_cons]
    exact (measurable_list_length.comp measurable_snd).add_const 1
  · intro k
    cases k with
    | zero => exact measurable_fst
    | succ k =>
      simp only [List.getD_cons_succ]
      exact (measurable_list_getD k).comp measurable_snd

theorem measurable_tail : Measurable (List.tail : List ℝ → List ℝ) := by
  apply measurable_list
  · simp only [List.length_tail]
    exact (measurable_from_top (f := fun n : ℕ => n - 1)).comp measurable_list_length
  · intro k
    have : (fun w : List ℝ => w.tail.getD k 0) = fun w => w.getD (k + 1) 0 := by
      funext w
      cases w <;> simp
    rw [this]
    exact measurable_list_getD _

theorem measurable_sample {f : V → Sample} (h1 : Measurable fun w => (f w).beam_energy)
    (h2 : Measurable fun w => (f w).reaction_excitation) (h3 : Measurable fun w => (f w).reaction_theta)
    (h4 : Measurable fun w => (f w).reaction_phi) (h5 : Measurable fun w => (f w).vertex)
    (h6 : Measurable fun w => (f w).decay_excitations) (h7 : Measurable fun w => (f w).decay_thetas)
    (h8 : Measurable fun w => (f w).decay_phis) : Measurable f := by
  rintro _ ⟨B, hB, rfl⟩
  exact (h1.prodMk (h2.prodMk (h3.prodMk (h4.prodMk (h5.prodMk (h6.prodMk (h7.prodMk h8))))))) hB

theorem measurable_fields : Measurable fun x : Sample => (x.beam_energy, x.reaction_excitation,
    x.reaction_theta, x.reaction_phi, x.vertex, x.decay_excitations, x.decay_thetas, x.decay_phis) :=
  comap_measurable _

theorem measurable_beam_energy : Measurable Sample.beam_energy := measurable_fst.comp measurable_fields

theorem measurable_reaction_excitation : Measurable Sample.reaction_excitation :=
  (measurable_fst.comp measurable_snd).comp measurable_fields

theorem measurable_decay_excitations : Measurable Sample.decay_excitations :=
  (measurable_fst.comp (measurable_snd.comp (measurable_snd.comp (measurable_snd.comp
    (measurable_snd.comp measurable_snd))))).comp measurable_fields

theorem measurable_vertex : Measurable Sample.vertex :=
  (measurable_fst.comp (measurable_snd.comp (measurable_snd.comp (measurable_snd.comp
    measurable_snd)))).comp measurable_fields

theorem measurable_decaysAllowed (ds : List Decay) :
    ∀ {m : V → ℝ} {es : V → List ℝ}, Measurable m → Measurable es →
      MeasurableSet {w | DecaysAllowed (m w) ds (es w)} := by
  induction ds with
  | nil => intro m es _ _; simp [DecaysAllowed]
  | cons d ds ih =>
    intro m es hm hes
    have : {w | DecaysAllowed (m w) (d :: ds) (es w)}
        = {w | (es w).length ≠ 0} ∩ ({w | d.residual_1.mass + d.residual_2.mass + (es w).getD 0 0 < m w}
          ∩ {w | DecaysAllowed (d.residual_2.mass + (es w).getD 0 0) ds (es w).tail}) := by
      ext w
      cases h : es w with
      | nil => simp [DecaysAllowed, h]
      | cons a l => simp [DecaysAllowed, h]
    rw [this]
    have h0 : Measurable fun w => (es w).getD 0 0 := (measurable_list_getD 0).comp hes
    exact ((measurable_list_length.comp hes) (t := {0}ᶜ) (MeasurableSet.of_discrete)).inter
      ((measurableSet_lt (h0.const_add _) hm).inter
        (ih (h0.const_add _) (measurable_tail.comp hes)))

/-- The allowed samples form a measurable set. -/
theorem measurable_energyAllowed (p : Pipeline σ) : MeasurableSet {x | EnergyAllowed p x} := by
  have hb := measurable_beam_energy
  have he := measurable_reaction_excitation
  exact (measurableSet_le measurable_const hb).inter
    ((measurableSet_lt (he.const_add _) ((((hb.const_mul _).const_add _)).sqrt)).inter
      (measurable_decaysAllowed p.decays (he.const_add _) measurable_decay_excitations))

/-! ## Samplers -/

theorem FreshSampler.pure [IsProbabilityMeasure μ] {α : Type} [MeasurableSpace α] (a : α) :
    FreshSampler μ (fun s : σ => (.ok (a, s) : Except PyErr (α × σ))) :=
  ⟨_, _, Fresh.const.map (measurable_const (a := a)), fun _ => rfl⟩

/-- Two samplers one after the other. -/
theorem FreshSampler.seq [IsProbabilityMeasure μ] {α β γ : Type} [MeasurableSpace α] [MeasurableSpace β]
    [MeasurableSpace γ] {d : σ → Except PyErr (α × σ)}
    {e : σ → Except PyErr (β × σ)} (h1 : FreshSampler μ d) (h2 : FreshSampler μ e) (k : α → β → γ)
    (hk : Measurable fun x : α × β => k x.1 x.2) :
    FreshSampler μ (fun s => do
      let (a, s) ← d s
      let (b, s) ← e s
      return (k a b, s)) := by
  obtain ⟨v, g, hf, hd⟩ := h1
  obtain ⟨w, h, hf', he⟩ := h2
  refine ⟨_, _, (hf.comp hf').map hk, fun s => ?_⟩
  simp only [hd, he, bind, Except.bind]
  rfl

theorem FreshSampler.pair [IsProbabilityMeasure μ] {α β : Type} [MeasurableSpace α] [MeasurableSpace β]
    {d : σ → Except PyErr (α × σ)} {e : σ → Except PyErr (β × σ)} (h1 : FreshSampler μ d)
    (h2 : FreshSampler μ e) :
    FreshSampler μ (fun s => do
      let (a, s) ← d s
      let (b, s) ← e s
      return (Prod.mk a b, s)) :=
  h1.seq h2 Prod.mk measurable_id

theorem FreshSampler.map {α β : Type} [MeasurableSpace α] [MeasurableSpace β]
    {d : σ → Except PyErr (α × σ)}
    {e : σ → Except PyErr (β × σ)} (h : FreshSampler μ d) {k : α → β} (hk : Measurable k)
    (he : ∀ s a s', d s = .ok (a, s') → e s = .ok (k a, s')) : FreshSampler μ e := by
  obtain ⟨v, g, hf, hd⟩ := h
  exact ⟨_, g, hf.map hk, fun s => he s _ _ (hd s)⟩

theorem sampleAll_fresh [IsProbabilityMeasure μ] (ds : List (Sampler σ))
    (h : ∀ d ∈ ds, FreshSampler μ d) : FreshSampler μ (sampleAll ds) := by
  induction ds with
  | nil => exact .pure []
  | cons d ds ih =>
    exact (h d (by simp)).seq (ih fun d' hd' => h d' (by simp [hd'])) List.cons measurable_cons

variable {rng : Gen σ} {u z : σ → ℝ} {next skip : σ → σ}

theorem uniform_fresh (hr : FreshGen rng μ u z next skip) (a b : ℝ) :
    FreshSampler μ (fun s => (.ok (rng.uniform a b s) : Except PyErr (ℝ × σ))) :=
  ⟨_, next, hr.fresh_uniform.map (k := fun x => a + (b - a) * x)
    ((measurable_id.const_mul _).const_add _), fun s => by simp only [hr.uniform]⟩

theorem normal_fresh (hr : FreshGen rng μ u z next skip) (m sd : ℝ) :
    FreshSampler μ (fun s => (.ok (rng.normal m sd s) : Except PyErr (ℝ × σ))) :=
  ⟨_, skip, hr.fresh_normal.map (k := fun x => m + sd * x)
    ((measurable_id.const_mul _).const_add _), fun s => by simp only [hr.normal]⟩

theorem uniformN_fresh [IsProbabilityMeasure μ] (hr : FreshGen rng μ u z next skip) (a b : ℝ) (n : ℕ) :
    FreshSampler μ (fun s => (.ok (rng.uniformN a b n s) : Except PyErr (List ℝ × σ))) := by
  induction n with
  | zero => exact .pure []
  | succ n ih => exact (uniform_fresh hr a b).seq ih List.cons measurable_cons

/-- The excitation distributions and polar distributions of the package. -/
theorem excitation_uniform_fresh (hr : FreshGen rng μ u z next skip) (d : ExcitationUniform)
    (h : d.min_value ≤ d.max_value) : FreshSampler μ (d.sample rng) := by
  unfold ExcitationUniform.sample
  simp only [not_lt.2 h, if_false]
  exact uniform_fresh hr _ _

theorem excitation_gaussian_fresh (hr : FreshGen rng μ u z next skip) (d : ExcitationGaussian)
    (h : 0 ≤ d.sigma) : FreshSampler μ (d.sample rng) := by
  unfold ExcitationGaussian.sample
  simp only [not_lt.2 h, if_false]
  exact normal_fresh hr _ _

theorem polar_uniform_fresh (hr : FreshGen rng μ u z next skip)
    (d : PolarUniform) (hd : d.cos_angle_min ≤ d.cos_angle_max) : FreshSampler μ (d.sample rng) :=
  (uniform_fresh hr d.cos_angle_min d.cos_angle_max).map Real.continuous_arccos.measurable
    fun s a s' h => by
      unfold PolarUniform.sample
      simp only [Except.ok.injEq] at h
      simp only [h, not_lt.2 hd, if_false]

theorem sample_vertex_fresh [IsProbabilityMeasure μ] (hr : FreshGen rng μ u z next skip)
    {p : Pipeline σ} (hp : p.rng = rng) (ht : ∀ t, p.target_material = some t → 0 ≤ t.rho_sigma ∧
      t.z_range.1 ≤ t.z_range.2 ∧
      Measurable fun z => t.material.get_energy_loss p.reaction.projectile p.beam_energy z) :
    FreshSampler μ p.sample_vertex := by
  unfold Pipeline.sample_vertex
  cases h : p.target_material with
  | none => exact .pure _
  | some t =>
    obtain ⟨h1, h0, h2⟩ := ht t h
    simp only [not_lt.2 h1, not_lt.2 h0, if_false, hp]
    refine (normal_fresh hr 0 t.rho_sigma).seq
      ((uniform_fresh hr 0 (2 * Real.pi)).pair (uniform_fresh hr t.z_range.1 t.z_range.2))
      (fun n x => (p.beam_energy - t.material.get_energy_loss p.reaction.projectile p.beam_energy x.2,
        (|n| * Real.cos x.1, |n| * Real.sin x.1, x.2))) ?_
    have hn : Measurable fun x : ℝ × ℝ × ℝ => |x.1| := continuous_abs.measurable.comp measurable_fst
    have ht : Measurable fun x : ℝ × ℝ × ℝ => x.2.1 := measurable_fst.comp measurable_snd
    have hz : Measurable fun x : ℝ × ℝ × ℝ => x.2.2 := measurable_snd.comp measurable_snd
    exact ((h2.comp hz).const_sub _).prodMk ((hn.mul (Real.measurable_cos.comp ht)).prodMk
      ((hn.mul (Real.measurable_sin.comp ht)).prodMk hz))

/-- A sample of a pipeline is fresh. -/
theorem sample_fresh [IsProbabilityMeasure μ] (hr : FreshGen rng μ u z next skip)
    {p : Pipeline σ} (hp : p.rng = rng) (ht : ∀ t, p.target_material = some t → 0 ≤ t.rho_sigma ∧
      t.z_range.1 ≤ t.z_range.2 ∧
      Measurable fun z => t.material.get_energy_loss p.reaction.projectile p.beam_energy z)
    (hex : p.excitations ≠ [] ∧ ∀ d ∈ p.excitations, FreshSampler μ d)
    (hpol : p.polar_dists ≠ [] ∧ ∀ d ∈ p.polar_dists, FreshSampler μ d) :
    FreshSampler μ p.sample := by
  obtain ⟨d, ds, hd⟩ := List.exists_cons_of_ne_nil hex.1
  obtain ⟨e, es, he⟩ := List.exists_cons_of_ne_nil hpol.1
  have hex := hex.2
  have hpol := hpol.2
  rw [hd] at hex
  rw [he] at hpol
  have hds := sampleAll_fresh ds fun d' h => hex d' (by simp [h])
  have hes := sampleAll_fresh es fun d' h => hpol d' (by simp [h])
  have hphi := uniformN_fresh hr 0 (Real.pi * 2) p.decays.length
  have key := (sample_vertex_fresh hr hp ht).seq
    ((hex d (by simp)).pair ((hpol e (by simp)).pair ((uniform_fresh hr 0 (Real.pi * 2)).pair
      (hds.pair (hes.pair hphi)))))
    (fun a b => Sample.mk a.1 b.1 b.2.1 b.2.2.1 a.2 b.2.2.2.1 b.2.2.2.2.1 b.2.2.2.2.2)
    (by apply measurable_sample <;> fun_prop)
  refine key.map measurable_id fun s a s' h => ?_
  unfold Pipeline.sample
  simp only [hd, he, sampleHead, List.tail_cons, hp, id] at h ⊢
  rw [← h]
  simp only [bind, Except.bind]
  cases p.sample_vertex s with
  | error _ => rfl
  | ok r1 =>
  simp only
  cases d r1.2 with
  | error _ => rfl
  | ok r2 =>
  simp only
  cases e r2.2 with
  | error _ => rfl
  | ok r3 =>
  simp only
  cases sampleAll ds (rng.uniform 0 (Real.pi * 2) r3.2).2 with
  | error _ => rfl
  | ok r4 =>
  simp only
  cases sampleAll es r4.2 with
  | error _ => rfl
  | ok r5 => rfl

/-! ## Rejection sampling -/

section

variable [IsProbabilityMeasure μ] {p : Pipeline σ} {v : σ → Sample} {g : σ → σ}

/-- Generator states from which the first `n` samples are forbidden and leave a state in `A`. -/
theorem skipped_prob (hf : Fresh μ v g) (hs : ∀ s, p.sample s = .ok (v s, g s))
    (n : ℕ) {A : Set σ} (hA : MeasurableSet A) :
    MeasurableSet {s | ∃ s', SkippedBy (fun y => ¬ EnergyAllowed p y) p n s s' ∧ s' ∈ A} ∧
    μ {s | ∃ s', SkippedBy (fun y => ¬ EnergyAllowed p y) p n s s' ∧ s' ∈ A}
      = μ {s | ¬ EnergyAllowed p (v s)} ^ n * μ A := by
  have hm := measurable_energyAllowed p
  induction n with
  | zero =>
    have : {s | ∃ s', SkippedBy (fun y => ¬ EnergyAllowed p y) p 0 s s' ∧ s' ∈ A} = A := by
      ext s
      constructor
      · rintro ⟨s', h, hA⟩; cases h; exact hA
      · intro h; exact ⟨s, .zero s, h⟩
    rw [this]
    exact ⟨hA, by simp⟩
  | succ n ih =>
    have : {s | ∃ s', SkippedBy (fun y => ¬ EnergyAllowed p y) p (n + 1) s s' ∧ s' ∈ A}
        = {s | v s ∈ {w | EnergyAllowed p w}ᶜ ∧
            g s ∈ {s | ∃ s', SkippedBy (fun y => ¬ EnergyAllowed p y) p n s s' ∧ s' ∈ A}} := by
      ext s
      constructor
      · rintro ⟨s', h, hA⟩
        cases h with
        | succ h1 h2 h3 =>
          rw [hs] at h1
          simp only [Except.ok.injEq, Prod.mk.injEq] at h1
          obtain ⟨rfl, rfl⟩ := h1
          exact ⟨h2, s', h3, hA⟩
      · rintro ⟨h1, s', h2, hA⟩
        exact ⟨s', .succ (hs s) h1 h2, hA⟩
    rw [this]
    refine ⟨(hf.value hm.compl).inter (hf.state ih.1), ?_⟩
    rw [hf.indep _ _ hm.compl ih.1, ih.2, pow_succ']
    simp only [Set.mem_compl_iff, Set.mem_setOf_eq]
    ring

/-- The probability that the first allowed sample comes within the limit and lies in `B`, and that the
generator is then in `A`. -/
theorem firstAllowed_prob (hf : Fresh μ v g) (hs : ∀ s, p.sample s = .ok (v s, g s))
    (n : ℕ) {B : Set Sample}
    (hB : MeasurableSet B) {A : Set σ} (hA : MeasurableSet A) :
    MeasurableSet {s | ∃ x s', FirstAllowed p n s x s' ∧ x ∈ B ∧ s' ∈ A} ∧
    μ {s | ∃ x s', FirstAllowed p n s x s' ∧ x ∈ B ∧ s' ∈ A}
      = μ {s | EnergyAllowed p (v s) ∧ v s ∈ B}
        * (∑ k ∈ Finset.range n, μ {s | ¬ EnergyAllowed p (v s)} ^ k) * μ A := by
  have hm := measurable_energyAllowed p
  induction n with
  | zero =>
    have : {s | ∃ x s', FirstAllowed p 0 s x s' ∧ x ∈ B ∧ s' ∈ A} = ∅ := by
      ext s
      simp [FirstAllowed]
    rw [this]
    exact ⟨.empty, by simp⟩
  | succ n ih =>
    have e : {s | ∃ x s', FirstAllowed p (n + 1) s x s' ∧ x ∈ B ∧ s' ∈ A}
        = {s | v s ∈ {w | EnergyAllowed p w} ∩ B ∧ g s ∈ A} ∪
          {s | v s ∈ {w | EnergyAllowed p w}ᶜ ∧
            g s ∈ {s | ∃ x s', FirstAllowed p n s x s' ∧ x ∈ B ∧ s' ∈ A}} := by
      ext s
      constructor
      · rintro ⟨x, s', ⟨k, hk, s1, h1, h2, h3⟩, hxB, hA⟩
        cases h1 with
        | zero =>
          left
          rw [hs] at h2
          simp only [Except.ok.injEq, Prod.mk.injEq] at h2
          obtain ⟨rfl, rfl⟩ := h2
          exact ⟨⟨h3, hxB⟩, hA⟩
        | succ g1 g2 g3 =>
          right
          rw [hs] at g1
          simp only [Except.ok.injEq, Prod.mk.injEq] at g1
          obtain ⟨rfl, rfl⟩ := g1
          exact ⟨g2, x, s', ⟨_, by omega, s1, g3, h2, h3⟩, hxB, hA⟩
      · rintro (⟨⟨h1, h2⟩, h3⟩ | ⟨h1, x, s', ⟨k, hk, s1, g1, g2, g3⟩, hxB, hA⟩)
        · exact ⟨_, _, ⟨0, by omega, s, .zero s, hs s, h1⟩, h2, h3⟩
        · exact ⟨x, s', ⟨k + 1, by omega, s1, .succ (hs s) h1 g1, g2, g3⟩, hxB, hA⟩
    have hmB := hm.inter hB
    have m1 : MeasurableSet {s | v s ∈ {w | EnergyAllowed p w} ∩ B ∧ g s ∈ A} :=
      (hf.value hmB).inter (hf.state hA)
    have m2 : MeasurableSet {s | v s ∈ {w | EnergyAllowed p w}ᶜ ∧
        g s ∈ {s | ∃ x s', FirstAllowed p n s x s' ∧ x ∈ B ∧ s' ∈ A}} :=
      (hf.value hm.compl).inter (hf.state ih.1)
    rw [e]
    refine ⟨m1.union m2, ?_⟩
    rw [measure_union _ m2, hf.indep _ _ hmB hA, hf.indep _ _ hm.compl ih.1, ih.2,
      Finset.sum_range_succ']
    · simp only [Set.mem_compl_iff, Set.mem_setOf_eq, Set.mem_inter_iff, Set.mem_preimage,
        pow_zero, pow_succ, ← Finset.sum_mul]
      ring
    · rw [Set.disjoint_left]
      rintro s ⟨⟨h1, -⟩, -⟩ ⟨h2, -⟩
      exact h2 h1

/-- The same for several accepted samples in a row: they are independent. -/
theorem accepted_prob (hf : Fresh μ v g) (hs : ∀ s, p.sample s = .ok (v s, g s))
    (n : ℕ) {A : Set σ} (hA : MeasurableSet A)
    (Bs : List (Set Sample)) (hB : ∀ B ∈ Bs, MeasurableSet B) :
    MeasurableSet {s | ∃ xs s', AcceptedSamples p n s xs s' ∧ List.Forall₂ (· ∈ ·) xs Bs ∧ s' ∈ A} ∧
    μ {s | ∃ xs s', AcceptedSamples p n s xs s' ∧ List.Forall₂ (· ∈ ·) xs Bs ∧ s' ∈ A}
      = (Bs.map fun B => μ {s | ∃ x s', FirstAllowed p n s x s' ∧ x ∈ B}).prod * μ A := by
  induction Bs with
  | nil =>
    have : {s | ∃ xs s', AcceptedSamples p n s xs s' ∧
        List.Forall₂ (· ∈ ·) xs ([] : List (Set Sample)) ∧ s' ∈ A} = A := by
      ext s
      constructor
      · rintro ⟨xs, s', h1, h2, h3⟩; cases h2; cases h1; exact h3
      · intro h; exact ⟨[], s, .nil s, .nil, h⟩
    rw [this]
    exact ⟨hA, by simp⟩
  | cons B Bs ih =>
    have ih := ih fun B hB' => hB B (by simp [hB'])
    have hB := hB B (by simp)
    have e : {s | ∃ xs s', AcceptedSamples p n s xs s' ∧ List.Forall₂ (· ∈ ·) xs (B :: Bs) ∧ s' ∈ A}
        = {s | ∃ x s', FirstAllowed p n s x s' ∧ x ∈ B ∧ s' ∈
          {s | ∃ xs s', AcceptedSamples p n s xs s' ∧ List.Forall₂ (· ∈ ·) xs Bs ∧ s' ∈ A}} := by
      ext s
      constructor
      · rintro ⟨xs, s', h1, h2, h3⟩
        cases h2 with
        | cons g1 g2 =>
          cases h1 with
          | cons f1 f2 => exact ⟨_, _, f1, g1, _, s', f2, g2, h3⟩
      · rintro ⟨x, s1, f1, g1, xs, s', f2, g2, h3⟩
        exact ⟨x :: xs, s', .cons f1 f2, .cons g1 g2, h3⟩
    have h1 := firstAllowed_prob hf hs n hB ih.1
    have h2 := firstAllowed_prob hf hs n hB MeasurableSet.univ
    simp only [Set.mem_univ, and_true, measure_univ, mul_one] at h2
    rw [e]
    refine ⟨h1.1, ?_⟩
    rw [h1.2, ih.2, List.map_cons, List.prod_cons, h2.2]
    ring

end

end Verif.Spec
