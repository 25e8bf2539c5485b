import Verif.Proofs.Unbiased
import Verif.Props.Sampling
import Verif.Props.LabKinematics
import Verif.Props.Symmetry

/-! # C102: the angles of the accepted events -/

namespace Verif.Props

open Verif.Kinematics Verif.Spec MeasureTheory

variable {σ : Type} [MeasurableSpace σ] {μ : Measure σ} [IsProbabilityMeasure μ]
  {p : Pipeline σ} {rng : Gen σ} {u z : σ → ℝ} {next skip : σ → σ}

/-- `run`, started with generator state `s`, returns the event of the sample `x`. -/
def Returns {σ : Type} (p : Pipeline σ) (buf : List ResultRow) (s : σ) (x : Sample) : Prop :=
  ∃ st', p.run ⟨s, buf⟩ = (.ok x.vertex, st') ∧ eventRows p x = .ok (some st'.result) ∧
    FirstAllowed p p.event_sample_limit.toNat s x st'.gen

/-- The parts of a sample other than the angles. -/
def energies (x : Sample) : ℝ × ℝ × (ℝ × ℝ × ℝ) × List ℝ :=
  (x.beam_energy, x.reaction_excitation, x.vertex, x.decay_excitations)

/-- The pipelines of C102: a pipeline of C82 with an ideal generator and fresh distributions, the first
polar distribution being `e`, the others `es`. -/
structure FreshPipeline {σ : Type} [MeasurableSpace σ] (μ : Measure σ) (p : Pipeline σ) (u z : σ → ℝ)
    (next skip : σ → σ) (e : Sampler σ) (es : List (Sampler σ)) : Prop where
  runs : RunsOk p
  gen : FreshGen p.rng μ u z next skip
  target : ∀ t, p.target_material = some t → 0 ≤ t.rho_sigma ∧
      t.z_range.1 ≤ t.z_range.2 ∧
    Measurable fun z => t.material.get_energy_loss p.reaction.projectile p.beam_energy z
  excitations : ∀ d ∈ p.excitations, FreshSampler μ d
  polar : p.polar_dists = e :: es
  polar_fresh : ∀ d ∈ p.polar_dists, FreshSampler μ d

theorem measurable_energies : Measurable energies :=
  measurable_beam_energy.prodMk (measurable_reaction_excitation.prodMk
    (measurable_vertex.prodMk measurable_decay_excitations))

theorem measurable_reaction_theta : Measurable Sample.reaction_theta :=
  (measurable_fst.comp (measurable_snd.comp measurable_snd)).comp measurable_fields

theorem measurable_reaction_phi : Measurable Sample.reaction_phi :=
  (measurable_fst.comp (measurable_snd.comp (measurable_snd.comp measurable_snd))).comp
    measurable_fields

theorem measurable_decay_thetas : Measurable Sample.decay_thetas :=
  (measurable_fst.comp (measurable_snd.comp (measurable_snd.comp (measurable_snd.comp
    (measurable_snd.comp (measurable_snd.comp measurable_snd)))))).comp measurable_fields

theorem measurable_decay_phis : Measurable Sample.decay_phis :=
  (measurable_snd.comp (measurable_snd.comp (measurable_snd.comp (measurable_snd.comp
    (measurable_snd.comp (measurable_snd.comp measurable_snd)))))).comp measurable_fields

/-- **C102.** The rejection of samples does not bias the angles: among the returned events, all polar and
azimuthal angles are independent, distributed as they are drawn, and independent of the beam energy, the
vertex and the excitations. -/
theorem C102_unbiased {e : Sampler σ} {es : List (Sampler σ)}
    (h : FreshPipeline μ p u z next skip e es) {A B : Set ℝ} {As Bs : Set (List ℝ)}
    {C : Set (ℝ × ℝ × (ℝ × ℝ × ℝ) × List ℝ)} (hA : MeasurableSet A) (hB : MeasurableSet B)
    (hAs : MeasurableSet As) (hBs : MeasurableSet Bs) (hC : MeasurableSet C)
    {buf : List ResultRow} (hlen : buf.length = 4 + 2 * p.decays.length) :
    μ {s | ∃ x, Returns p buf s x ∧ x.reaction_theta ∈ A ∧ x.reaction_phi ∈ B ∧
        x.decay_thetas ∈ As ∧ x.decay_phis ∈ Bs ∧ energies x ∈ C}
      = μ {s | ∃ θ s', e s = .ok (θ, s') ∧ θ ∈ A}
        * μ {s | (p.rng.uniform 0 (Real.pi * 2) s).1 ∈ B}
        * μ {s | ∃ θs s', sampleAll es s = .ok (θs, s') ∧ θs ∈ As}
        * μ {s | (p.rng.uniformN 0 (Real.pi * 2) p.decays.length s).1 ∈ Bs}
        * μ {s | ∃ x, Returns p buf s x ∧ energies x ∈ C} := by
  have hne : p.excitations ≠ [] := by
    intro h0
    have := h.runs.built.excitations
    rw [h0] at this
    simp at this
  obtain ⟨a, g1, θ, g2, r, g4, θs, g5, g6, f1, f2, f4, f5, f3, f6, he, hes, hs⟩ :=
    sample_parts h.gen rfl h.target ⟨hne, h.excitations⟩ h.polar h.polar_fresh
  obtain ⟨v, g, hf, hv⟩ := sample_fresh h.gen rfl h.target ⟨hne, h.excitations⟩
    ⟨by rw [h.polar]; simp, h.polar_fresh⟩
  have hvs : ∀ s, v s = ⟨(a s).1.1, (a s).2, θ (g1 s),
      (p.rng.uniform 0 (Real.pi * 2) (g2 (g1 s))).1, (a s).1.2, r (next (g2 (g1 s))),
      θs (g4 (next (g2 (g1 s)))),
      (p.rng.uniformN 0 (Real.pi * 2) p.decays.length (g5 (g4 (next (g2 (g1 s)))))).1⟩ := fun s => by
    have h1 := hv s
    rw [hs s] at h1
    simp only [Except.ok.injEq, Prod.mk.injEq] at h1
    exact h1.1.symm
  -- both sides in terms of a single sample
  have hset : ∀ S : Set Sample, {s | ∃ x, Returns p buf s x ∧ x ∈ S}
      = {s | ∃ x st', p.run ⟨s, buf⟩ = (.ok x.vertex, st') ∧ eventRows p x = .ok (some st'.result) ∧
        FirstAllowed p p.event_sample_limit.toNat s x st'.gen ∧ x ∈ S} := by
    intro S
    ext s
    constructor
    · rintro ⟨x, ⟨st', h1, h2, h3⟩, h4⟩; exact ⟨x, st', h1, h2, h3, h4⟩
    · rintro ⟨x, st', h1, h2, h3, h4⟩; exact ⟨x, ⟨st', h1, h2, h3⟩, h4⟩
  let S : Set Sample := {x | x.reaction_theta ∈ A ∧ x.reaction_phi ∈ B ∧
    x.decay_thetas ∈ As ∧ x.decay_phis ∈ Bs ∧ energies x ∈ C}
  have hS : MeasurableSet S := (measurable_reaction_theta hA).inter ((measurable_reaction_phi hB).inter
    ((measurable_decay_thetas hAs).inter ((measurable_decay_phis hBs).inter (measurable_energies hC))))
  have e1 := C82_accepted h.runs hf hv hS hlen
  have e2 := C82_accepted h.runs hf hv (B := energies ⁻¹' C) (measurable_energies hC) hlen
  rw [← hset] at e1 e2
  rw [show {s | ∃ x, Returns p buf s x ∧ x.reaction_theta ∈ A ∧ x.reaction_phi ∈ B ∧
        x.decay_thetas ∈ As ∧ x.decay_phis ∈ Bs ∧ energies x ∈ C}
      = {s | ∃ x, Returns p buf s x ∧ x ∈ S} from rfl,
    show {s | ∃ x, Returns p buf s x ∧ energies x ∈ C}
      = {s | ∃ x, Returns p buf s x ∧ x ∈ energies ⁻¹' C} from rfl, e1, e2, ← mul_assoc]
  congr 1
  -- the condition on the energies
  let D : Set (((ℝ × ℝ × ℝ × ℝ) × ℝ) × List ℝ) :=
    {y | EnergyAllowed p ⟨y.1.1.1, y.1.2, 0, 0, y.1.1.2, y.2, [], []⟩ ∧
      (y.1.1.1, y.1.2, y.1.1.2, y.2) ∈ C}
  have hD : MeasurableSet D := by
    refine MeasurableSet.inter ?_ ?_
    · refine (?_ : Measurable fun y : ((ℝ × ℝ × ℝ × ℝ) × ℝ) × List ℝ =>
        (⟨y.1.1.1, y.1.2, 0, 0, y.1.1.2, y.2, [], []⟩ : Sample)) (measurable_energyAllowed p)
      apply measurable_sample <;> fun_prop
    · exact (by fun_prop : Measurable fun y : ((ℝ × ℝ × ℝ × ℝ) × ℝ) × List ℝ =>
        (y.1.1.1, y.1.2, y.1.1.2, y.2)) hC
  have F3 := f2.comp f3
  have F4 := f1.comp (F3.comp f4)
  have F5 := F4.comp f5
  -- the azimuths of the decays
  have s1 := F5.indep {y | (y.1.2.1.1 ∈ A ∧ y.1.2.1.2 ∈ B) ∧ (y.1.1, y.1.2.2) ∈ D ∧ y.2 ∈ As}
    {s | (p.rng.uniformN 0 (Real.pi * 2) p.decays.length s).1 ∈ Bs}
    (by
      refine MeasurableSet.inter (MeasurableSet.inter ?_ ?_) (MeasurableSet.inter ?_ ?_)
      · exact (by fun_prop : Measurable fun y : (((ℝ × ℝ × ℝ × ℝ) × ℝ) × (ℝ × ℝ) × List ℝ) × List ℝ =>
          y.1.2.1.1) hA
      · exact (by fun_prop : Measurable fun y : (((ℝ × ℝ × ℝ × ℝ) × ℝ) × (ℝ × ℝ) × List ℝ) × List ℝ =>
          y.1.2.1.2) hB
      · exact (by fun_prop : Measurable fun y : (((ℝ × ℝ × ℝ × ℝ) × ℝ) × (ℝ × ℝ) × List ℝ) × List ℝ =>
          (y.1.1, y.1.2.2)) hD
      · exact measurable_snd hAs)
    (f6.value hBs)
  -- the polar angles of the decays
  have s2 := F4.indep {y | (y.2.1.1 ∈ A ∧ y.2.1.2 ∈ B) ∧ (y.1, y.2.2) ∈ D} {s | θs s ∈ As}
    (by
      refine MeasurableSet.inter (MeasurableSet.inter ?_ ?_) ?_
      · exact (by fun_prop : Measurable fun y : ((ℝ × ℝ × ℝ × ℝ) × ℝ) × (ℝ × ℝ) × List ℝ => y.2.1.1) hA
      · exact (by fun_prop : Measurable fun y : ((ℝ × ℝ × ℝ × ℝ) × ℝ) × (ℝ × ℝ) × List ℝ => y.2.1.2) hB
      · exact (by fun_prop : Measurable fun y : ((ℝ × ℝ × ℝ × ℝ) × ℝ) × (ℝ × ℝ) × List ℝ =>
          (y.1, y.2.2)) hD)
    (f5.value hAs)
  have s3 := f1.middle F3 f4.value (hA.prod hB) hD
  have s4 := f2.indep A {s | (p.rng.uniform 0 (Real.pi * 2) s).1 ∈ B} hA (f3.value hB)
  simp only [Set.mem_setOf_eq, Set.mem_prod] at s1 s2 s3 s4
  have w1 : {s | EnergyAllowed p (v s) ∧ v s ∈ S} = {s | (((θ (g1 s) ∈ A ∧
      (p.rng.uniform 0 (Real.pi * 2) (g2 (g1 s))).1 ∈ B) ∧ (a s, r (next (g2 (g1 s)))) ∈ D ∧
      θs (g4 (next (g2 (g1 s)))) ∈ As)) ∧
      (p.rng.uniformN 0 (Real.pi * 2) p.decays.length (g5 (g4 (next (g2 (g1 s)))))).1 ∈ Bs} := by
    ext s
    simp only [Set.mem_setOf_eq, hvs, S, D, energies, EnergyAllowed]
    tauto
  have w2 : {s | EnergyAllowed p (v s) ∧ v s ∈ energies ⁻¹' C}
      = {s | (a s, r (next (g2 (g1 s)))) ∈ D} := by
    ext s
    simp only [Set.mem_setOf_eq, hvs, D, energies, EnergyAllowed, Set.mem_preimage]
  have w3 : {s | ∃ x s', e s = .ok (x, s') ∧ x ∈ A} = {s | θ s ∈ A} := by
    ext s
    simp [he]
  have w4 : {s | ∃ x s', sampleAll es s = .ok (x, s') ∧ x ∈ As} = {s | θs s ∈ As} := by
    ext s
    simp [hes]
  have s2' : {s | ((θ (g1 s) ∈ A ∧ (p.rng.uniform 0 (Real.pi * 2) (g2 (g1 s))).1 ∈ B) ∧
      (a s, r (next (g2 (g1 s)))) ∈ D ∧ θs (g4 (next (g2 (g1 s)))) ∈ As)}
      = {s | ((θ (g1 s) ∈ A ∧ (p.rng.uniform 0 (Real.pi * 2) (g2 (g1 s))).1 ∈ B) ∧
      (a s, r (next (g2 (g1 s)))) ∈ D) ∧ θs (g4 (next (g2 (g1 s)))) ∈ As} := by
    ext s
    simp only [Set.mem_setOf_eq]
    tauto
  rw [w1, w2, w3, w4, s1, s2', s2, s3, s4]
  ring

/-- The laboratory energy of an ejectile emitted at the polar angle `θ` in the centre of mass. -/
noncomputable def energyAt (k : TwoBody) (θ : ℝ) : ℝ :=
  k.gamma * k.eStar + k.gammaBeta * k.pStar * Real.cos θ

omit [MeasurableSpace σ] in
/-- The rows of a returned event determine beam energy and excitation; the energy of the ejectile is
that of two-body kinematics. -/
theorem returns_rows (h : RunsOk p) {buf : List ResultRow} {s : σ} {x : Sample}
    (hx : Returns p buf s x) :
    ∃ (st : PipeState σ) (t b e r : Vec4) (rs : List Vec4), p.run ⟨s, buf⟩ = (.ok x.vertex, st) ∧
      st.result = (t :: b :: e :: r :: rs).map some ∧
      b.E - p.reaction.projectile.mass = x.beam_energy ∧
      r.M - p.reaction.residual.mass = x.reaction_excitation ∧
      e.E = energyAt (Reaction.twoBody p.reaction x.beam_energy x.reaction_excitation)
        x.reaction_theta ∧
      0 ≤ x.beam_energy ∧ 0 < (Reaction.twoBody p.reaction x.beam_energy x.reaction_excitation).pStar := by
  obtain ⟨st, h1, h2, k, hk, s1, h3, h4, h5⟩ := hx
  have hr : ReactionOk p.reaction := ⟨h.chain.target, h.chain.projectile, h.chain.ejectile⟩
  have hok := h.samples _ _ _ h4
  obtain ⟨-, t, b, e, r, rs, i1, i2⟩ := eventRows_some h.chain hok h2
  have ha := (reaction_allowed_iff h.chain hok).2 ⟨h5.1, h5.2.1⟩
  refine ⟨st, t, b, e, r, rs, h1, i1, by rw [i2.beam_E]; ring, by rw [i2.residual_M]; ring, ?_, h5.1,
    pStar_pos hr h5.1 hok.residual.le ha⟩
  unfold eventRows at h2
  simp only [ha, Bool.not_true, Bool.false_eq_true, if_false] at h2
  obtain ⟨res, hres⟩ := h.calculates _ _ _ h4 ha
  obtain ⟨t', b', e', r', rfl, -⟩ := C40_reaction hr h5.1 hok.residual.le ha _ _ hres
  rw [hres] at h2
  simp only at h2
  cases hd : decayRows x 0 p.decays (some r') with
  | error e => rw [hd] at h2; simp at h2
  | ok o =>
    cases o with
    | none => rw [hd] at h2; simp at h2
    | some rows' =>
      rw [hd, i1] at h2
      simp only [List.map_cons, Except.ok.injEq, Option.some.injEq, List.cons.injEq] at h2
      obtain ⟨-, -, rfl, -⟩ := h2
      rw [(C81_closed_form hr h5.1 hok.residual.le ha _ _ hres).1]
      unfold energyAt
      simp only
      ring

/-- **C102.** With a polar distribution uniform in solid angle, between the angles `a` and `b`, the
laboratory energy of the ejectile of a returned event is uniformly distributed between the energies that
belong to `b` and to `a`: the part of the way from the one to the other lies in `[lo, hi)` with
probability `hi - lo`. -/
theorem C102_spectrum {a b : ℝ} {es : List (Sampler σ)}
    (h : FreshPipeline μ p u z next skip ((mkPolarUniform a b).sample p.rng) es)
    (hu : RandomGen p.rng μ u) (ha : 0 ≤ a) (hab : a < b) (hb : b ≤ Real.pi)
    (hT : ∀ s x s', p.sample s = .ok (x, s') → x.beam_energy ≠ 0) {lo hi : ℝ} (hlo : 0 ≤ lo)
    (hhi : hi ≤ 1) {buf : List ResultRow} (hlen : buf.length = 4 + 2 * p.decays.length) :
    μ {s | ∃ vertex st t bm e r rs, p.run ⟨s, buf⟩ = (.ok vertex, st) ∧
        st.result = (t :: bm :: e :: r :: rs : List Vec4).map some ∧
        let k := Reaction.twoBody p.reaction (bm.E - p.reaction.projectile.mass)
          (r.M - p.reaction.residual.mass)
        energyAt k b + lo * (energyAt k a - energyAt k b) ≤ e.E ∧
          e.E < energyAt k b + hi * (energyAt k a - energyAt k b)}
      = ENNReal.ofReal (hi - lo) * μ {s | ∃ vertex st, p.run ⟨s, buf⟩ = (.ok vertex, st)} := by
  have hcos : Real.cos b < Real.cos a := Real.cos_lt_cos_of_nonneg_of_le_pi ha hb hab
  have hd : 0 < Real.cos a - Real.cos b := by linarith
  let A : Set ℝ := {θ | Real.cos b + lo * (Real.cos a - Real.cos b) ≤ Real.cos θ ∧
    Real.cos θ < Real.cos b + hi * (Real.cos a - Real.cos b)}
  have hA : MeasurableSet A := (measurableSet_le measurable_const Real.measurable_cos).inter
    (measurableSet_lt Real.measurable_cos measurable_const)
  have key := C102_unbiased h hA MeasurableSet.univ MeasurableSet.univ MeasurableSet.univ
    (C := Set.univ) MeasurableSet.univ hlen
  obtain ⟨θs, g5, f5, hes⟩ := sampleAll_fresh es fun d' h' => h.polar_fresh d' (by rw [h.polar]; simp [h'])
  have w1 : {s | ∃ x s', sampleAll es s = .ok (x, s')} = Set.univ := by
    ext s
    simp [hes]
  simp only [Set.mem_univ, true_and, and_true, Set.setOf_true, measure_univ, mul_one, w1] at key
  -- the probability of the angle
  have w2 : {s | ∃ θ s', (mkPolarUniform a b).sample p.rng s = .ok (θ, s') ∧ θ ∈ A}
      = {s | lo ≤ u s ∧ u s < hi} := by
    ext s
    have h0 := hu.range s
    have hs : (mkPolarUniform a b).sample p.rng s
        = .ok (Real.arccos (Real.cos b + (Real.cos a - Real.cos b) * u s),
            (p.rng.uniform (Real.cos b) (Real.cos a) s).2) := by
      rw [← hu.affine]
      exact polar_uniform_sample p.rng (d := mkPolarUniform a b) hcos.le s
    have h1 := Real.neg_one_le_cos b
    have h2 := Real.cos_le_one a
    have hca : Real.cos (Real.arccos (Real.cos b + (Real.cos a - Real.cos b) * u s))
        = Real.cos b + (Real.cos a - Real.cos b) * u s := by
      apply Real.cos_arccos
      · nlinarith [h0.1]
      · nlinarith [h0.2]
    simp only [Set.mem_setOf_eq, hs, Except.ok.injEq, Prod.mk.injEq]
    constructor
    · rintro ⟨θ, s', ⟨rfl, -⟩, h3, h4⟩
      rw [hca] at h3 h4
      exact ⟨le_of_mul_le_mul_left (by linarith) hd, lt_of_mul_lt_mul_left (by linarith) hd.le⟩
    · rintro ⟨h3, h4⟩
      refine ⟨_, _, ⟨rfl, rfl⟩, ?_, ?_⟩
      · rw [hca]; nlinarith
      · rw [hca]; nlinarith
  rw [w2, hu.prob hlo hhi] at key
  -- the events
  have hret : ∀ s, (∃ vertex st, p.run ⟨s, buf⟩ = (.ok vertex, st)) ↔ ∃ x, Returns p buf s x := by
    intro s
    constructor
    · rintro ⟨vertex, st', hrun⟩
      obtain ⟨k, hk, s1, x, i1, i2, i3, rfl, -⟩ :=
        C49_first_allowed h.runs.built h.runs.lawful h.runs.chain h.runs.samples hlen hrun
      have hfa : FirstAllowed p p.event_sample_limit.toNat s x st'.gen :=
        ⟨k, by omega, s1, i1, i2, i3⟩
      obtain ⟨st2, j1, -, j3⟩ := run_of_firstAllowed h.runs (st := ⟨s, buf⟩) hlen hfa
      rw [hrun] at j1
      simp only [Prod.mk.injEq, true_and] at j1
      subst j1
      exact ⟨x, st', hrun, j3, hfa⟩
    · rintro ⟨x, st, hrun, -⟩
      exact ⟨_, st, hrun⟩
  simp only [hret]
  rw [← key]
  congr 1
  ext s
  -- an event has an energy in the interval exactly when its angle is in `A`
  have hiff : ∀ x, Returns p buf s x → ∀ k,
      k = Reaction.twoBody p.reaction x.beam_energy x.reaction_excitation →
      (energyAt k b + lo * (energyAt k a - energyAt k b) ≤ energyAt k x.reaction_theta ∧
        energyAt k x.reaction_theta < energyAt k b + hi * (energyAt k a - energyAt k b) ↔
        x.reaction_theta ∈ A) := by
    rintro x hx k rfl
    obtain ⟨st, t, bm, e, r, rs, h1, h2, h3, h4, h5, h6, h7⟩ := returns_rows h.runs hx
    obtain ⟨_, -, -, _, -, s1, -, hsx, -⟩ := hx
    have hT0 : 0 < x.beam_energy := lt_of_le_of_ne h6 (hT _ _ _ hsx).symm
    have hm := h.runs.chain.projectile
    have hmt := h.runs.chain.target
    have hg : 0 < (Reaction.twoBody p.reaction x.beam_energy x.reaction_excitation).gammaBeta := by
      unfold TwoBody.gammaBeta TwoBody.s Reaction.twoBody
      simp only
      positivity
    have hw : 0 < (Reaction.twoBody p.reaction x.beam_energy x.reaction_excitation).gammaBeta
        * (Reaction.twoBody p.reaction x.beam_energy x.reaction_excitation).pStar := mul_pos hg h7
    unfold energyAt
    generalize (Reaction.twoBody p.reaction x.beam_energy x.reaction_excitation).gammaBeta
        * (Reaction.twoBody p.reaction x.beam_energy x.reaction_excitation).pStar = w at hw
    simp only [A, Set.mem_setOf_eq]
    constructor
    · rintro ⟨g1, g2⟩
      exact ⟨le_of_mul_le_mul_left (by linarith) hw, lt_of_mul_lt_mul_left (by linarith) hw.le⟩
    · rintro ⟨g1, g2⟩
      have g1 := mul_le_mul_of_nonneg_left g1 hw.le
      have g2 := mul_lt_mul_of_pos_left g2 hw
      exact ⟨by linarith, by linarith⟩
  simp only [Set.mem_setOf_eq]
  constructor
  · rintro ⟨vertex, st, t, bm, e, r, rs, h1, h2, h3⟩
    obtain ⟨x, hx⟩ := (hret s).1 ⟨_, _, h1⟩
    obtain ⟨st', t', bm', e', r', rs', i1, i2, i3, i4, i5, -⟩ := returns_rows h.runs hx
    rw [h1] at i1
    simp only [Prod.mk.injEq, Except.ok.injEq] at i1
    obtain ⟨-, rfl⟩ := i1
    rw [h2] at i2
    simp only [List.map_cons, List.cons.injEq, Option.some.injEq] at i2
    obtain ⟨rfl, rfl, rfl, rfl, -⟩ := i2
    rw [i3, i4, i5] at h3
    exact ⟨x, hx, (hiff x hx _ rfl).1 h3⟩
  · rintro ⟨x, hx, hxA⟩
    obtain ⟨st', t', bm', e', r', rs', i1, i2, i3, i4, i5, -⟩ := returns_rows h.runs hx
    refine ⟨_, st', t', bm', e', r', rs', i1, i2, ?_⟩
    rw [i3, i4, i5]
    exact (hiff x hx _ rfl).2 hxA

/-! ## An example -/

/-- The pipeline of which half of the samples are rejected. -/
theorem halfPipe_freshPipeline : FreshPipeline streamMeasure halfPipe (fun s => (s 0 : ℝ))
    (fun s => (s 0 : ℝ)) shift shift ((mkPolarUniform 0 Real.pi).sample halfPipe.rng) [] where
  runs := halfPipe_ok
  gen := streamGen_fresh
  target := by simp [halfPipe]
  excitations := by
    intro d hd
    simp only [halfPipe, List.mem_singleton] at hd
    subst hd
    exact excitation_uniform_fresh streamGen_fresh _ (by norm_num)
  polar := rfl
  polar_fresh := by
    intro d hd
    simp only [halfPipe, List.mem_singleton] at hd
    subst hd
    exact polar_uniform_fresh streamGen_fresh _ (by simp [mkPolarUniform])

theorem streamGen_random : RandomGen streamGen streamMeasure fun s => (s 0 : ℝ) where
  affine := fun _ _ _ => rfl
  range := fun s => (s 0).2
  measurable := measurable_subtype_coe.comp (measurable_pi_apply 0)
  law := stream_uniform

/-- C102 applies to it: a quarter of its ejectiles have energies in the upper quarter. -/
example : streamMeasure {s | ∃ vertex st t bm e r rs,
      halfPipe.run ⟨s, List.replicate 4 none⟩ = (.ok vertex, st) ∧
      st.result = (t :: bm :: e :: r :: rs : List Vec4).map some ∧
      let k := Reaction.twoBody halfPipe.reaction (bm.E - halfPipe.reaction.projectile.mass)
        (r.M - halfPipe.reaction.residual.mass)
      energyAt k Real.pi + 3 / 4 * (energyAt k 0 - energyAt k Real.pi) ≤ e.E ∧
        e.E < energyAt k Real.pi + 1 * (energyAt k 0 - energyAt k Real.pi)}
    = ENNReal.ofReal (1 - 3 / 4) * streamMeasure {s | ∃ vertex st,
        halfPipe.run ⟨s, List.replicate 4 none⟩ = (.ok vertex, st)} :=
  C102_spectrum halfPipe_freshPipeline streamGen_random le_rfl Real.pi_pos le_rfl
    (fun s x s' h => by rw [(halfPipe_values h).1]; norm_num) (by norm_num) le_rfl rfl

end Verif.Props
