import Verif.Proofs.Sampling
import Mathlib.MeasureTheory.Integral.Lebesgue.Basic

/-! # Independence of the angles and the energies of a sample -/

namespace Verif.Spec

open Verif.Kinematics MeasureTheory

variable {σ V W X : Type} [MeasurableSpace σ] [MeasurableSpace V] [MeasurableSpace W]
  [MeasurableSpace X] {μ : Measure σ} [IsProbabilityMeasure μ]

/-- The joint distribution of two fresh values. -/
theorem Fresh.law {v : σ → V} {g : σ → σ} {w : σ → W} (h1 : Fresh μ v g) (hw : Measurable w) :
    μ.map (fun s => (v s, w (g s))) = (μ.map v).prod (μ.map w) := by
  have hv := h1.value
  have hg := h1.state
  have i1 : IsProbabilityMeasure (μ.map v) := Measure.isProbabilityMeasure_map hv.aemeasurable
  have e1 := (fresh_iff hv hg).1 h1
  have : (fun s => (v s, w (g s))) = (Prod.map id w) ∘ fun s => (v s, g s) := rfl
  rw [this, ← Measure.map_map (measurable_id.prodMap hw) (hv.prodMk hg), e1,
    ← Measure.map_prod_map _ _ measurable_id hw, Measure.map_id]

/-- The value in the middle is independent of the values before and after it together. -/
theorem Fresh.middle {v : σ → V} {g : σ → σ} {w : σ → W} {h : σ → σ} {x : σ → X}
    (h1 : Fresh μ v g) (h2 : Fresh μ w h) (hx : Measurable x) {B : Set W} (hB : MeasurableSet B)
    {C : Set (V × X)} (hC : MeasurableSet C) :
    μ {s | w (g s) ∈ B ∧ (v s, x (h (g s))) ∈ C}
      = μ {s | w s ∈ B} * μ {s | (v s, x (h (g s))) ∈ C} := by
  have hv := h1.value
  have hg := h1.state
  have hw := h2.value
  have hh := h2.state
  have i1 : IsProbabilityMeasure (μ.map v) := Measure.isProbabilityMeasure_map hv.aemeasurable
  have i2 : IsProbabilityMeasure (μ.map w) := Measure.isProbabilityMeasure_map hw.aemeasurable
  have i3 : IsProbabilityMeasure (μ.map x) := Measure.isProbabilityMeasure_map hx.aemeasurable
  have hwx : Measurable fun s => (w s, x (h s)) := hw.prodMk (hx.comp hh)
  have e := h1.law hwx
  rw [h2.law hx] at e
  have hmeas : Measurable fun s => (v s, (w (g s), x (h (g s)))) := hv.prodMk (hwx.comp hg)
  have key : ∀ {B : Set W}, MeasurableSet B → μ {s | w (g s) ∈ B ∧ (v s, x (h (g s))) ∈ C}
      = μ {s | w s ∈ B} * ((μ.map v).prod (μ.map x)) C := by
    intro B hB
    have hS : MeasurableSet {y : V × W × X | y.2.1 ∈ B ∧ (y.1, y.2.2) ∈ C} :=
      ((measurable_fst.comp measurable_snd) hB).inter
        ((measurable_fst.prodMk (measurable_snd.comp measurable_snd)) hC)
    have e2 := congrArg (fun m => m {y : V × W × X | y.2.1 ∈ B ∧ (y.1, y.2.2) ∈ C}) e
    simp only [Measure.map_apply hmeas hS, Measure.prod_apply hS] at e2
    have e3 : ∀ a, Prod.mk a ⁻¹' {y : V × W × X | y.2.1 ∈ B ∧ (y.1, y.2.2) ∈ C}
        = B ×ˢ (Prod.mk a ⁻¹' C) := fun a => rfl
    simp only [e3, Measure.prod_prod] at e2
    rw [lintegral_const_mul _ (measurable_measure_prodMk_left hC), ← Measure.prod_apply hC,
      Measure.map_apply hw hB] at e2
    exact e2
  have hu := key (B := Set.univ) .univ
  simp only [Set.mem_univ, true_and, Set.setOf_true, measure_univ, one_mul] at hu
  rw [key hB, hu]

/-- Two values drawn after `v` and after `x`: together they are independent of `v` and `x`. -/
theorem Fresh.interleaved {v : σ → V} {g : σ → σ} {w : σ → ℝ} {h : σ → σ} {x : σ → X} {k : σ → σ}
    {y : σ → ℝ} (h1 : Fresh μ v g) (h2 : Fresh μ w h) (h3 : Fresh μ x k) (hy : Measurable y)
    {T : Set ((V × X) × ℝ × ℝ)} (hT : MeasurableSet T) {D : Set (V × X)} (hD : MeasurableSet D)
    {c : ENNReal}
    (hc : ∀ d, ((μ.map w).prod (μ.map y)) (Prod.mk d ⁻¹' T) = D.indicator (fun _ => c) d) :
    μ {s | ((v s, x (h (g s))), w (g s), y (k (h (g s)))) ∈ T}
      = c * ((μ.map v).prod (μ.map x)) D := by
  have hv := h1.value
  have hg := h1.state
  have hw := h2.value
  have hh := h2.state
  have hx := h3.value
  have hk := h3.state
  have i1 : IsProbabilityMeasure (μ.map v) := Measure.isProbabilityMeasure_map hv.aemeasurable
  have i2 : IsProbabilityMeasure (μ.map w) := Measure.isProbabilityMeasure_map hw.aemeasurable
  have i3 : IsProbabilityMeasure (μ.map x) := Measure.isProbabilityMeasure_map hx.aemeasurable
  have i4 : IsProbabilityMeasure (μ.map y) := Measure.isProbabilityMeasure_map hy.aemeasurable
  have hxy : Measurable fun s => (x s, y (k s)) := hx.prodMk (hy.comp hk)
  have hwxy : Measurable fun s => (w s, x (h s), y (k (h s))) := hw.prodMk (hxy.comp hh)
  have e := h1.law hwxy
  rw [h2.law hxy, h3.law hy] at e
  have hre : Measurable fun a : V × ℝ × X × ℝ => ((a.1, a.2.2.1), a.2.1, a.2.2.2) := by fun_prop
  have hS : MeasurableSet {a : V × ℝ × X × ℝ | ((a.1, a.2.2.1), a.2.1, a.2.2.2) ∈ T} := hre hT
  have e2 := congrArg (fun m => m {a : V × ℝ × X × ℝ | ((a.1, a.2.2.1), a.2.1, a.2.2.2) ∈ T}) e
  have hall : Measurable fun s => (v s, w (g s), x (h (g s)), y (k (h (g s)))) := hv.prodMk (hwxy.comp hg)
  simp only [Measure.map_apply hall hS, Measure.prod_apply hS] at e2
  rw [show {s | ((v s, x (h (g s))), w (g s), y (k (h (g s)))) ∈ T}
    = (fun s => (v s, w (g s), x (h (g s)), y (k (h (g s))))) ⁻¹'
      {a : V × ℝ × X × ℝ | ((a.1, a.2.2.1), a.2.1, a.2.2.2) ∈ T} from rfl, e2, Measure.prod_apply hD,
    ← lintegral_const_mul _ (measurable_measure_prodMk_left hD)]
  refine lintegral_congr fun a => ?_
  have hSa : MeasurableSet (Prod.mk a ⁻¹' {a : V × ℝ × X × ℝ | ((a.1, a.2.2.1), a.2.1, a.2.2.2) ∈ T}) :=
    measurable_prodMk_left hS
  rw [Measure.prod_apply hSa]
  have e3 : ∀ t, ((μ.map x).prod (μ.map y)) (Prod.mk t ⁻¹' (Prod.mk a ⁻¹'
      {a : V × ℝ × X × ℝ | ((a.1, a.2.2.1), a.2.1, a.2.2.2) ∈ T}))
      = ∫⁻ b, (μ.map y) {r | ((a, b), t, r) ∈ T} ∂(μ.map x) := by
    intro t
    rw [Measure.prod_apply (measurable_prodMk_left hSa)]
    rfl
  simp only [e3]
  have hmeas : Measurable fun z : ℝ × X => (μ.map y) {r | ((a, z.2), z.1, r) ∈ T} := by
    have : MeasurableSet {z : (ℝ × X) × ℝ | ((a, z.1.2), z.1.1, z.2) ∈ T} :=
      (by fun_prop : Measurable fun z : (ℝ × X) × ℝ => ((a, z.1.2), z.1.1, z.2)) hT
    exact measurable_measure_prodMk_left this
  rw [lintegral_lintegral_swap hmeas.aemeasurable]
  have e4 : ∀ b, ∫⁻ t, (μ.map y) {r | ((a, b), t, r) ∈ T} ∂(μ.map w)
      = D.indicator (fun _ => c) (a, b) := by
    intro b
    rw [← hc, Measure.prod_apply (measurable_prodMk_left hT)]
    rfl
  simp only [e4]
  have e5 : (fun b => D.indicator (fun _ => c) (a, b)) = (Prod.mk a ⁻¹' D).indicator fun _ => c := rfl
  rw [e5, lintegral_indicator (measurable_prodMk_left hD), lintegral_const,
    Measure.restrict_apply MeasurableSet.univ, Set.univ_inter]

variable {rng : Gen σ} {u z : σ → ℝ} {next skip : σ → σ}

omit [MeasurableSpace σ] in
theorem sampleAll_append {l1 l2 : List (Sampler σ)} {v1 v2 : σ → List ℝ} {g1 g2 : σ → σ}
    (h2 : ∀ s, sampleAll l2 s = .ok (v2 s, g2 s)) :
    (∀ s, sampleAll l1 s = .ok (v1 s, g1 s)) →
    ∀ s, sampleAll (l1 ++ l2) s = .ok (v1 s ++ v2 (g1 s), g2 (g1 s)) := by
  have key : ∀ (l : List (Sampler σ)) s a s', sampleAll l s = .ok (a, s') →
      sampleAll (l ++ l2) s = .ok (a ++ v2 s', g2 s') := by
    intro l
    induction l with
    | nil =>
      intro s a s' h
      simp only [sampleAll, Except.ok.injEq, Prod.mk.injEq] at h
      obtain ⟨rfl, rfl⟩ := h
      exact h2 s
    | cons d l ih =>
      intro s a s' h
      simp only [sampleAll, bind, Except.bind, List.cons_append] at h ⊢
      cases hd : d s with
      | error e => rw [hd] at h; simp at h
      | ok r =>
        rw [hd] at h
        simp only at h ⊢
        cases hl : sampleAll l r.2 with
        | error e => rw [hl] at h; simp at h
        | ok r' =>
          rw [hl] at h
          simp only [pure, Except.pure, Except.ok.injEq, Prod.mk.injEq] at h
          obtain ⟨rfl, rfl⟩ := h
          rw [ih _ _ _ hl]
          rfl
  exact fun h1 s => key _ _ _ _ (h1 s)

omit [MeasurableSpace σ] in
theorem sampleAll_length (l : List (Sampler σ)) : ∀ {s : σ} {a : List ℝ} {s' : σ},
    sampleAll l s = .ok (a, s') → a.length = l.length := by
  induction l with
  | nil =>
    intro s a s' h
    simp only [sampleAll, Except.ok.injEq, Prod.mk.injEq] at h
    rw [← h.1]
    rfl
  | cons d l ih =>
    intro s a s' h
    simp only [sampleAll, bind, Except.bind] at h
    cases hd : d s with
    | error e => rw [hd] at h; simp at h
    | ok r =>
      rw [hd] at h
      simp only at h
      cases hl : sampleAll l r.2 with
      | error e => rw [hl] at h; simp at h
      | ok r' =>
        rw [hl] at h
        simp only [pure, Except.pure, Except.ok.injEq, Prod.mk.injEq] at h
        rw [← h.1, List.length_cons, List.length_cons, ih hl]

omit [MeasurableSpace σ] in
theorem uniformN_append (rng : Gen σ) (a b : ℝ) (m n : ℕ) : ∀ s, rng.uniformN a b (m + n) s
    = ((rng.uniformN a b m s).1 ++ (rng.uniformN a b n (rng.uniformN a b m s).2).1,
        (rng.uniformN a b n (rng.uniformN a b m s).2).2) := by
  induction m with
  | zero => intro s; simp [Gen.uniformN]
  | succ m ih =>
    intro s
    rw [show m + 1 + n = (m + n) + 1 by omega]
    simp only [Gen.uniformN, ih, List.cons_append]

omit [MeasurableSpace σ] in
theorem uniformN_length (rng : Gen σ) (a b : ℝ) (n : ℕ) : ∀ s, (rng.uniformN a b n s).1.length = n := by
  induction n with
  | zero => intro s; rfl
  | succ n ih => intro s; simp [Gen.uniformN, ih]

/-- The parts of a sample which are drawn one after the other: beam energy, vertex and excitation; the
direction of the ejectile; the excitations in the decays; the directions in the decays. -/
theorem sample_parts (hr : FreshGen rng μ u z next skip)
    {p : Pipeline σ} (hp : p.rng = rng) (ht : ∀ t, p.target_material = some t → 0 ≤ t.rho_sigma ∧
      t.z_range.1 ≤ t.z_range.2 ∧
      Measurable fun z => t.material.get_energy_loss p.reaction.projectile p.beam_energy z)
    (hex : p.excitations ≠ [] ∧ ∀ d ∈ p.excitations, FreshSampler μ d)
    {e : Sampler σ} {es : List (Sampler σ)} (he : p.polar_dists = e :: es)
    (hpol : ∀ d ∈ p.polar_dists, FreshSampler μ d) :
    ∃ (a : σ → (ℝ × ℝ × ℝ × ℝ) × ℝ) (g1 : σ → σ) (θ : σ → ℝ) (g2 : σ → σ) (r : σ → List ℝ)
      (g4 : σ → σ) (θs : σ → List ℝ) (g5 : σ → σ) (g6 : σ → σ),
      Fresh μ a g1 ∧ Fresh μ θ g2 ∧ Fresh μ r g4 ∧ Fresh μ θs g5 ∧
      Fresh μ (fun s => (rng.uniform 0 (Real.pi * 2) s).1) next ∧
      Fresh μ (fun s => (rng.uniformN 0 (Real.pi * 2) p.decays.length s).1) g6 ∧
      (∀ s, e s = .ok (θ s, g2 s)) ∧ (∀ s, sampleAll es s = .ok (θs s, g5 s)) ∧
      ∀ s, p.sample s = .ok (⟨(a s).1.1, (a s).2, θ (g1 s),
        (rng.uniform 0 (Real.pi * 2) (g2 (g1 s))).1, (a s).1.2, r (next (g2 (g1 s))),
        θs (g4 (next (g2 (g1 s)))),
        (rng.uniformN 0 (Real.pi * 2) p.decays.length (g5 (g4 (next (g2 (g1 s)))))).1⟩,
        g6 (g5 (g4 (next (g2 (g1 s)))))) := by
  obtain ⟨d, ds, hd⟩ := List.exists_cons_of_ne_nil hex.1
  have hex := hex.2
  rw [hd] at hex
  rw [he] at hpol
  obtain ⟨r, g4, f4, hds⟩ := sampleAll_fresh ds fun d' h => hex d' (by simp [h])
  obtain ⟨θs, g5, f5, hes⟩ := sampleAll_fresh es fun d' h => hpol d' (by simp [h])
  obtain ⟨φs, g6, f6, hphi⟩ := uniformN_fresh hr 0 (Real.pi * 2) p.decays.length
  obtain ⟨a, g1, f1, ha⟩ := (sample_vertex_fresh hr hp ht).pair (hex d (by simp))
  obtain ⟨θ, g2, f2, h2⟩ := hpol e (by simp)
  have e6 : ∀ s, (rng.uniformN 0 (Real.pi * 2) p.decays.length s) = (φs s, g6 s) := fun s => by
    simpa using hphi s
  have e3 : ∀ s, (rng.uniform 0 (Real.pi * 2) s).2 = next s := fun s => by rw [hr.uniform]
  refine ⟨a, g1, θ, g2, r, g4, θs, g5, g6, f1, f2, f4, f5, ?_, ?_, h2, hes, fun s => ?_⟩
  · have := hr.fresh_uniform.map (k := fun x => 0 + (Real.pi * 2 - 0) * x)
      ((measurable_id.const_mul _).const_add _)
    simpa only [hr.uniform] using this
  · simpa only [e6] using f6
  · have has := ha s
    simp only [bind, Except.bind] at has
    unfold Pipeline.sample
    simp only [bind, Except.bind]
    cases hv : p.sample_vertex s with
    | error er => rw [hv] at has; simp at has
    | ok r1 =>
      rw [hv] at has
      simp only at has
      cases hx : d r1.2 with
      | error er => rw [hx] at has; simp at has
      | ok r2 =>
        rw [hx] at has
        simp only [pure, Except.pure, Except.ok.injEq, Prod.mk.injEq] at has
        obtain ⟨h3, h4⟩ := has
        simp only [hd, he, sampleHead, List.tail_cons, hp, hx, h4, h2, e3, hds, hes, e6, ← h3, pure,
          Except.pure]

end Verif.Spec
