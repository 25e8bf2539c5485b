import Verif.Proofs.Chain
import Verif.Props.KinFile
import Verif.Proofs.Simulate

/-! # C46–C53: the kinematics pipeline -/

namespace Verif.Props

open Verif.Kinematics Verif.Spec
open Verif.Detector (except_bind_ok)

variable {σ : Type}

/-! ## C48: validation -/

/-- The residual of a step, of which the next step is a decay. -/
def Step.out : Step → Nucleus
  | .reaction r => r.residual
  | .decay d => d.residual_2

/-- Each step is a decay of the residual of the step before. -/
def Linked : Step → List Step → Prop
  | _, [] => True
  | prev, cur :: rest => (∃ d, cur = .decay d ∧
      (Step.out prev).isotopic_symbol = d.parent.isotopic_symbol) ∧ Linked cur rest

theorem check_chain_decay (prev : Step) (d : Decay) (rest : List Step) :
    check_chain prev (.decay d :: rest) =
      if (Step.out prev).isotopic_symbol ≠ d.parent.isotopic_symbol then .error .pipelineError
      else match check_chain (.decay d) rest with
        | .error e => .error e
        | .ok ds => .ok (d :: ds) := by
  cases prev <;> rfl

theorem check_chain_iff (rest : List Step) : ∀ (prev : Step),
    ((∃ ds, check_chain prev rest = .ok ds) ↔ Linked prev rest) ∧
    (∀ ds, check_chain prev rest = .ok ds → rest = ds.map .decay) ∧
    (∀ e, check_chain prev rest = .error e → e = .pipelineError) := by
  induction rest with
  | nil => intro prev; simp [check_chain, Linked]
  | cons cur rest ih =>
    intro prev
    cases cur with
    | reaction r => simp [check_chain, Linked]
    | decay d =>
      obtain ⟨i1, i2, i3⟩ := ih (.decay d)
      rw [check_chain_decay]
      simp only [Linked]
      by_cases h : (Step.out prev).isotopic_symbol = d.parent.isotopic_symbol
      · simp only [h, ne_eq, not_true_eq_false, if_false, Step.decay.injEq, ← i1]
        cases hc : check_chain (.decay d) rest with
        | error e =>
          refine ⟨by simp, by simp, ?_⟩
          intro e' h'
          simp only [Except.error.injEq] at h'
          rw [← h']
          exact i3 e hc
        | ok ds =>
          refine ⟨?_, ?_, by simp⟩
          · constructor
            · intro _; exact ⟨⟨d, rfl, rfl⟩, ds, rfl⟩
            · intro _; exact ⟨_, rfl⟩
          · intro ds' h'
            simp only [Except.ok.injEq] at h'
            rw [← h', i2 ds hc]
            rfl
      · simp [h]

/-- The conditions under which a pipeline is well formed. -/
structure ValidSteps (steps : List Step) (nExcitations nPolar : ℕ) : Prop where
  excitations : nExcitations = steps.length
  polar : nPolar = steps.length
  chain : ∃ r rest, steps = .reaction r :: rest ∧ Linked (.reaction r) rest

/-- **C48.** The constructor succeeds exactly when there is at least one step, there are as many
excitations and polar distributions as steps, the first step is a reaction, and every other one is a
decay of the residual of the step before. Otherwise it raises PipelineError. -/
theorem C48_valid (rng : Gen σ) (gen : σ) (uninit : ℕ → ResultRow) (steps : List Step)
    (exs polar : List (Sampler σ)) (E : ℝ) (tm : Option TargetMaterial) (limit : ℤ) :
    ((∃ res, mkPipeline rng gen uninit steps exs polar E tm limit = .ok res) ↔
      ValidSteps steps exs.length polar.length) ∧
    ∀ e, mkPipeline rng gen uninit steps exs polar E tm limit = .error e → e = .pipelineError := by
  unfold mkPipeline
  cases steps with
  | nil =>
    refine ⟨?_, by simp⟩
    constructor
    · simp
    · rintro ⟨-, -, r, rest, h, -⟩; simp at h
  | cons first rest =>
    simp only
    by_cases h1 : (first :: rest).length = exs.length
    · by_cases h2 : (first :: rest).length = polar.length
      · rw [if_neg (by simpa using h1), if_neg (by simpa using h2)]
        cases first with
        | decay d =>
          refine ⟨?_, by simp⟩
          constructor
          · simp
          · rintro ⟨-, -, r, rest, h, -⟩; simp at h
        | reaction r =>
          obtain ⟨i1, -, i3⟩ := check_chain_iff rest (.reaction r)
          simp only
          constructor
          · constructor
            · rintro ⟨res, h⟩
              refine ⟨h1.symm, by omega, r, rest, rfl, i1.1 ?_⟩
              cases hc : check_chain (.reaction r) rest with
              | error e => rw [hc] at h; simp at h
              | ok ds => exact ⟨ds, rfl⟩
            · rintro ⟨-, -, r', rest', h, hl⟩
              simp only [List.cons.injEq, Step.reaction.injEq] at h
              obtain ⟨rfl, rfl⟩ := h
              obtain ⟨ds, hds⟩ := i1.2 hl
              rw [hds]
              exact ⟨_, rfl⟩
          · intro e h
            cases hc : check_chain (.reaction r) rest with
            | error e' =>
              rw [hc] at h
              simp only [Except.error.injEq] at h
              rw [← h]; exact i3 _ hc
            | ok ds => rw [hc] at h; simp at h
      · rw [if_neg (by simpa using h1), if_pos (by simpa using h2)]
        refine ⟨?_, by simp⟩
        constructor
        · simp
        · rintro ⟨-, hp, -⟩; exact absurd hp.symm h2
    · rw [if_pos (by simpa using h1)]
      refine ⟨?_, by simp⟩
      constructor
      · simp
      · rintro ⟨he, -, -⟩; exact absurd he.symm h1

/-- What the constructor establishes. -/
structure Built (p : Pipeline σ) : Prop where
  excitations : p.excitations.length = p.decays.length + 1
  polar : p.polar_dists.length = p.decays.length + 1

/-- **C48.** A constructed pipeline holds the given steps in their order, and has one result row for
each nucleus of the chain. -/
theorem C48_built {rng : Gen σ} {gen : σ} {uninit : ℕ → ResultRow} {steps : List Step}
    {exs polar : List (Sampler σ)} {E : ℝ} {tm : Option TargetMaterial} {limit : ℤ}
    {p : Pipeline σ} {st : PipeState σ}
    (h : mkPipeline rng gen uninit steps exs polar E tm limit = .ok (p, st)) :
    steps = .reaction p.reaction :: p.decays.map .decay ∧ p.excitations = exs ∧
    p.polar_dists = polar ∧ p.beam_energy = E ∧ p.target_material = tm ∧
    p.event_sample_limit = limit ∧ p.rng = rng ∧ Built p ∧ st.gen = gen ∧
    st.result.length = 4 + 2 * p.decays.length ∧
    Linked (.reaction p.reaction) (p.decays.map .decay) := by
  unfold mkPipeline at h
  cases steps with
  | nil => simp at h
  | cons first rest =>
    simp only at h
    split_ifs at h with h1 h2
    cases first with
    | decay d => simp at h
    | reaction r =>
      simp only at h
      obtain ⟨i1, i2, -⟩ := check_chain_iff rest (.reaction r)
      cases hc : check_chain (.reaction r) rest with
      | error e => rw [hc] at h; simp at h
      | ok ds =>
        rw [hc] at h
        simp only [Except.ok.injEq, Prod.mk.injEq] at h
        obtain ⟨rfl, rfl⟩ := h
        have hds := i2 ds hc
        have hlen : rest.length = ds.length := by rw [hds]; simp
        simp only [List.length_cons, ne_eq, not_not] at h1 h2
        refine ⟨by rw [hds], rfl, rfl, rfl, rfl, rfl, rfl, ⟨?_, ?_⟩, rfl, ?_, ?_⟩
        · simp only; omega
        · simp only; omega
        · simp [hlen]; ring
        · rw [← hds]; exact i1.1 ⟨ds, hc⟩

/-! ## C52: samples -/

theorem sampleAll_length (ds : List (Sampler σ)) : ∀ (s s' : σ) (xs : List ℝ),
    sampleAll ds s = .ok (xs, s') → xs.length = ds.length := by
  induction ds with
  | nil => intro s s' xs h; simp [sampleAll] at h; simp [← h.1]
  | cons d ds ih =>
    intro s s' xs h
    simp only [sampleAll] at h
    rw [except_bind_ok] at h
    obtain ⟨⟨x, s1⟩, -, h⟩ := h
    rw [except_bind_ok] at h
    obtain ⟨⟨ys, s2⟩, h2, h⟩ := h
    simp only [pure, Except.pure, Except.ok.injEq, Prod.mk.injEq] at h
    rw [← h.1]
    simp [ih _ _ _ h2]

theorem uniformN_range {g : Gen σ} (hg : LawfulGen g) {a b : ℝ} (hab : a < b) (n : ℕ) : ∀ (s : σ),
    (g.uniformN a b n s).1.length = n ∧ ∀ y ∈ (g.uniformN a b n s).1, a ≤ y ∧ y < b := by
  induction n with
  | zero => intro s; simp [Gen.uniformN]
  | succ n ih =>
    intro s
    have := ih (g.uniform a b s).2
    simp only [Gen.uniformN, List.length_cons, this.1, List.mem_cons, true_and]
    rintro y (rfl | hy)
    · exact ⟨hg.uniform_ge _ _ _ hab.le, hg.uniform_lt _ _ _ hab⟩
    · exact this.2 y hy

/-- **C52.** One excitation, polar angle and azimuth per decay; azimuths lie in `[0, 2π)`; the
excitation and polar angle of the reaction come from the first distributions. -/
theorem C52_sample {p : Pipeline σ} (hb : Built p) (hg : LawfulGen p.rng) {s s' : σ} {x : Sample}
    (h : p.sample s = .ok (x, s')) :
    x.decay_excitations.length = p.decays.length ∧ x.decay_thetas.length = p.decays.length ∧
    x.decay_phis.length = p.decays.length ∧
    (0 ≤ x.reaction_phi ∧ x.reaction_phi < 2 * Real.pi) ∧
    (∀ phi ∈ x.decay_phis, 0 ≤ phi ∧ phi < 2 * Real.pi) ∧
    (∃ d ds s1 s2, p.excitations = d :: ds ∧ d s1 = .ok (x.reaction_excitation, s2)) ∧
    (∃ d ds s1 s2, p.polar_dists = d :: ds ∧ d s1 = .ok (x.reaction_theta, s2)) := by
  have h1 := hb.excitations
  have h2 := hb.polar
  have hpi : (0 : ℝ) < Real.pi * 2 := by positivity
  unfold Pipeline.sample at h
  rw [except_bind_ok] at h
  obtain ⟨⟨⟨T, v⟩, s1⟩, -, h⟩ := h
  rw [except_bind_ok] at h
  obtain ⟨⟨ex, s2⟩, hex, h⟩ := h
  rw [except_bind_ok] at h
  obtain ⟨⟨th, s3⟩, hth, h⟩ := h
  simp only at h
  rw [except_bind_ok] at h
  obtain ⟨⟨exs, s4⟩, hexs, h⟩ := h
  rw [except_bind_ok] at h
  obtain ⟨⟨ths, s5⟩, hths, h⟩ := h
  simp only [pure, Except.pure, Except.ok.injEq, Prod.mk.injEq] at h
  obtain ⟨rfl, -⟩ := h
  have hphi := uniformN_range hg hpi p.decays.length s5
  refine ⟨?_, ?_, hphi.1, ⟨hg.uniform_ge _ _ _ hpi.le, ?_⟩, ?_, ?_, ?_⟩
  · rw [sampleAll_length _ _ _ _ hexs]; simp [h1]
  · rw [sampleAll_length _ _ _ _ hths]; simp [h2]
  · rw [mul_comm 2]; exact hg.uniform_lt _ _ _ hpi
  · intro phi hm
    rw [mul_comm 2]
    exact hphi.2 phi hm
  · cases he : p.excitations with
    | nil => rw [he] at h1; simp at h1
    | cons d ds =>
      rw [he] at hex
      exact ⟨d, ds, s1, s2, rfl, hex⟩
  · cases he : p.polar_dists with
    | nil => rw [he] at h2; simp at h2
    | cons d ds =>
      rw [he] at hth
      exact ⟨d, ds, s2, s3, rfl, hth⟩

theorem sample_vertex_of {p : Pipeline σ} {s s' : σ} {x : Sample} (h : p.sample s = .ok (x, s')) :
    ∃ s1, p.sample_vertex s = .ok ((x.beam_energy, x.vertex), s1) := by
  unfold Pipeline.sample at h
  rw [except_bind_ok] at h
  obtain ⟨⟨⟨T, v⟩, s1⟩, hv, h⟩ := h
  rw [except_bind_ok] at h
  obtain ⟨⟨ex, s2⟩, hex, h⟩ := h
  rw [except_bind_ok] at h
  obtain ⟨⟨th, s3⟩, hth, h⟩ := h
  simp only at h
  rw [except_bind_ok] at h
  obtain ⟨⟨exs, s4⟩, hexs, h⟩ := h
  rw [except_bind_ok] at h
  obtain ⟨⟨ths, s5⟩, hths, h⟩ := h
  simp only [pure, Except.pure, Except.ok.injEq, Prod.mk.injEq] at h
  obtain ⟨rfl, -⟩ := h
  exact ⟨s1, hv⟩

/-- **C52.** Without a target the vertex is the origin and the beam energy is that of the pipeline. -/
theorem C52_no_target {p : Pipeline σ} (ht : p.target_material = none) {s s' : σ} {x : Sample}
    (h : p.sample s = .ok (x, s')) : x.vertex = (0, 0, 0) ∧ x.beam_energy = p.beam_energy := by
  obtain ⟨s1, h⟩ := sample_vertex_of h
  unfold Pipeline.sample_vertex at h
  rw [ht] at h
  simp only [Except.ok.injEq, Prod.mk.injEq] at h
  exact ⟨by rw [← h.1.2], h.1.1.symm⟩

/-- **C52.** With a target the vertex is inside the z range, at a distance from the beam axis that is
the absolute value of one normal draw, and the beam has lost the energy that belongs to that z. -/
theorem C52_vertex {p : Pipeline σ} (hg : LawfulGen p.rng) {t : TargetMaterial}
    (ht : p.target_material = some t) {s s' : σ} {x : Sample} (h : p.sample s = .ok (x, s')) :
    (t.z_range.1 ≤ x.vertex.2.2 ∧ x.vertex.2.2 ≤ t.z_range.2) ∧
    (t.z_range.1 < t.z_range.2 → x.vertex.2.2 < t.z_range.2) ∧
    (x.vertex.1 ^ 2 + x.vertex.2.1 ^ 2 = (p.rng.normal 0 t.rho_sigma s).1 ^ 2) ∧
    (t.rho_sigma = 0 → x.vertex.1 = 0 ∧ x.vertex.2.1 = 0) ∧ 0 ≤ t.rho_sigma ∧
    x.beam_energy = p.beam_energy
      - t.material.get_energy_loss p.reaction.projectile p.beam_energy x.vertex.2.2 := by
  obtain ⟨s1, h⟩ := sample_vertex_of h
  unfold Pipeline.sample_vertex at h
  rw [ht] at h
  simp only at h
  split_ifs at h with hneg hord
  simp only [Except.ok.injEq, Prod.mk.injEq] at h
  obtain ⟨⟨hE, hv⟩, -⟩ := h
  have hz := not_lt.1 hord
  rw [← hv, ← hE]
  refine ⟨?_, ?_, ?_, ?_, not_lt.1 hneg, rfl⟩
  · refine ⟨hg.uniform_ge _ _ _ hz, ?_⟩
    rcases hz.eq_or_lt with he | hl
    · rw [← he]; exact (hg.uniform_eq _ _).le
    · exact (hg.uniform_lt _ _ _ hl).le
  · intro hz; exact hg.uniform_lt _ _ _ hz
  · simp only
    rw [mul_pow, mul_pow, ← mul_add, add_comm (Real.cos _ ^ 2), Real.sin_sq_add_cos_sq, mul_one, sq_abs]
  · intro h0
    rw [h0, hg.normal_zero]
    simp

/-! ## C49 and C50: resampling -/

/-- Every sample that the pipeline can draw is physical. -/
def SamplesOk (p : Pipeline σ) : Prop := ∀ s x s', p.sample s = .ok (x, s') → SampleOk p x

theorem Skipped_mono {P Q : Sample → Prop} {p : Pipeline σ}
    (h : ∀ s x s', p.sample s = .ok (x, s') → P x → Q x) {n : ℕ} {s s' : σ}
    (hk : SkippedBy P p n s s') : SkippedBy Q p n s s' := by
  induction hk with
  | zero => exact .zero _
  | succ hs hP _ ih => exact .succ hs (h _ _ _ hs hP) ih

theorem enough {p : Pipeline σ} (hb : Built p) (hg : LawfulGen p.rng) {s s' : σ} {x : Sample}
    (h : p.sample s = .ok (x, s')) : Enough p x := by
  obtain ⟨h1, h2, h3, -⟩ := C52_sample hb hg h
  exact ⟨h1.ge, h2.ge, h3.ge⟩

/-- **C49.** When `run` returns an event, it is that of the first energetically allowed sample of the
random stream, after fewer than `event_sample_limit` forbidden ones. -/
theorem C49_first_allowed {p : Pipeline σ} (hb : Built p) (hg : LawfulGen p.rng) (hc : ChainOk p)
    (hs : SamplesOk p) {st st' : PipeState σ} (hlen : st.result.length = 4 + 2 * p.decays.length)
    {v : ℝ × ℝ × ℝ} (h : p.run st = (.ok v, st')) :
    ∃ k : ℕ, (k : ℤ) < p.event_sample_limit ∧
    ∃ s x, SkippedBy (fun x => ¬ EnergyAllowed p x) p k st.gen s ∧ p.sample s = .ok (x, st'.gen) ∧
      EnergyAllowed p x ∧ v = x.vertex ∧
      ∃ t b e r rows, st'.result = (t :: b :: e :: r :: rows : List Vec4).map some ∧
        EventOk p x t b e r rows := by
  obtain ⟨-, h2⟩ := runLoop_spec p p.event_sample_limit.toNat st hlen
  unfold Pipeline.run at h
  rw [h] at h2
  obtain ⟨k, hk, s, x, g1, g2, g3, g4⟩ := h2
  obtain ⟨i1, i2⟩ := eventRows_some hc (hs _ _ _ g2) g3
  refine ⟨k, by omega, s, x, Skipped_mono ?_ g1, g2, i1, g4, i2⟩
  intro s x s' hx hn
  exact eventRows_none hc (hs _ _ _ hx) (enough hb hg hx) hn

theorem attempt_error {p : Pipeline σ} (hc : ChainOk p) {x : Sample} (hx : SampleOk p x)
    (hn : Enough p x) {e : PyErr} (h : eventRows p x = .error e) :
    e = .valueError ∨ e = .zeroDivision := by
  obtain ⟨ha, hcalc⟩ := (eventRows_cases hc hx hn).2 e h
  have hr : ReactionOk p.reaction := ⟨hc.target, hc.projectile, hc.ejectile⟩
  rw [reaction_calculate hr ((reaction_allowed_iff hc hx).1 ha).1] at hcalc
  split_ifs at hcalc
  · right; simpa using hcalc.symm
  · left; simpa using hcalc.symm
  · cases hcm : cmVector p.reaction.ejectile.mass (p.reaction.residual.mass + x.reaction_excitation)
        (cmEnergy p.reaction x.beam_energy) x.reaction_theta x.reaction_phi with
    | none => rw [hcm] at hcalc; simp at hcalc
    | some v => rw [hcm] at hcalc; simp at hcalc

theorem Skipped_det {P : Sample → Prop} {p : Pipeline σ} {n : ℕ} {s s1 s2 : σ}
    (h1 : SkippedBy P p n s s1) (h2 : SkippedBy P p n s s2) : s1 = s2 := by
  induction h1 with
  | zero => cases h2; rfl
  | succ ha _ _ ih =>
    cases h2 with
    | succ hb _ hc =>
      rw [ha] at hb
      simp only [Except.ok.injEq, Prod.mk.injEq] at hb
      obtain ⟨-, rfl⟩ := hb
      exact ih hc

/-- Two ways to skip samples agree: a longer one passes through the state that a shorter one ends in,
and continues with a sample satisfying `P`. -/
theorem Skipped_prefix {P Q : Sample → Prop} {p : Pipeline σ} {k n : ℕ} {s s1 s2 : σ} (hk : k < n)
    (h1 : SkippedBy Q p k s s1) (h2 : SkippedBy P p n s s2) : ∃ x s3, p.sample s1 = .ok (x, s3) ∧ P x := by
  induction h1 generalizing n with
  | zero =>
    cases h2 with
    | zero => omega
    | succ ha hP _ => exact ⟨_, _, ha, hP⟩
  | succ ha _ _ ih =>
    cases h2 with
    | zero => omega
    | succ hb _ hc =>
      rw [ha] at hb
      simp only [Except.ok.injEq, Prod.mk.injEq] at hb
      obtain ⟨-, rfl⟩ := hb
      exact ih (by omega) hc

/-- **C49.** `run` raises PipelineError exactly when the first `event_sample_limit` samples are all
forbidden. (The samplers themselves must not raise PipelineError, which those of the package never
do. When `calculate` wrongly rejects an allowed sample, see C43, a ValueError is raised, so the
sampling ends there.) -/
theorem C49_limit {p : Pipeline σ} (hb : Built p) (hg : LawfulGen p.rng) (hc : ChainOk p)
    (hs : SamplesOk p) (hne : ∀ s, p.sample s ≠ .error .pipelineError) {st : PipeState σ}
    (hlen : st.result.length = 4 + 2 * p.decays.length) :
    ((p.run st).1 = .error .pipelineError →
      ∃ s', SkippedBy (fun x => ¬ EnergyAllowed p x) p p.event_sample_limit.toNat st.gen s') ∧
    ((∀ s x s', p.sample s = .ok (x, s') →
        p.reaction.is_excitation_allowed x.beam_energy x.reaction_excitation = true →
        ∃ res, p.reaction.calculate x.beam_energy x.reaction_theta x.reaction_phi
          x.reaction_excitation = .ok res) →
      (∃ s', SkippedBy (fun x => ¬ EnergyAllowed p x) p p.event_sample_limit.toNat st.gen s') →
      (p.run st).1 = .error .pipelineError) := by
  have hmono : ∀ s x s', p.sample s = .ok (x, s') → eventRows p x = .ok none → ¬ EnergyAllowed p x :=
    fun s x s' hx hn => eventRows_none hc (hs _ _ _ hx) (enough hb hg hx) hn
  obtain ⟨-, h2⟩ := runLoop_spec p p.event_sample_limit.toNat st hlen
  unfold Pipeline.run
  rcases hrun : p.runLoop p.event_sample_limit.toNat st with ⟨o, st'⟩
  rw [hrun] at h2
  constructor
  · intro h
    simp only at h
    subst h
    rcases h2 with ⟨g1, -⟩ | ⟨k, hk, s, g1, g2⟩ | ⟨k, hk, s, x, g1, g2, g3⟩
    · exact ⟨_, Skipped_mono hmono g1⟩
    · exact absurd g2 (hne s)
    · rcases attempt_error hc (hs _ _ _ g2) (enough hb hg g2) g3 with h | h <;> simp at h
  · rintro hcalc ⟨s', hsk⟩
    cases o with
    | ok v =>
      obtain ⟨k, hk, s, x, g1, g2, g3, -⟩ := h2
      obtain ⟨x', s3, g2', hx'⟩ := Skipped_prefix hk g1 hsk
      rw [g2] at g2'
      simp only [Except.ok.injEq, Prod.mk.injEq] at g2'
      obtain ⟨rfl, -⟩ := g2'
      exact absurd (eventRows_some hc (hs _ _ _ g2) g3).1 hx'
    | error e =>
      rcases h2 with ⟨-, rfl⟩ | ⟨k, hk, s, g1, g2⟩ | ⟨k, hk, s, x, g1, g2, g3⟩
      · rfl
      · obtain ⟨x', s3, g2', -⟩ := Skipped_prefix hk g1 hsk
        rw [g2] at g2'
        simp at g2'
      · obtain ⟨ha, he⟩ := (eventRows_cases hc (hs _ _ _ g2) (enough hb hg g2)).2 e g3
        obtain ⟨res, hres⟩ := hcalc _ _ _ g2 ha
        rw [hres] at he
        simp at he

/-- **C49, the converse of `C49_first_allowed`.** If the first allowed sample comes within the limit
and `calculate` accepts the allowed reactions of the stream (false in general: C43), `run` returns its
event. -/
theorem C49_returns_partial {p : Pipeline σ} (hb : Built p) (hg : LawfulGen p.rng) (hc : ChainOk p)
    (hs : SamplesOk p) {st : PipeState σ} (hlen : st.result.length = 4 + 2 * p.decays.length)
    (hcalc : ∀ s x s', p.sample s = .ok (x, s') →
        p.reaction.is_excitation_allowed x.beam_energy x.reaction_excitation = true →
        ∃ res, p.reaction.calculate x.beam_energy x.reaction_theta x.reaction_phi
          x.reaction_excitation = .ok res)
    {k : ℕ} (hk : (k : ℤ) < p.event_sample_limit) {s s' : σ} {x : Sample}
    (hskip : SkippedBy (fun x => ¬ EnergyAllowed p x) p k st.gen s) (hx : p.sample s = .ok (x, s'))
    (hE : EnergyAllowed p x) :
    ∃ st', p.run st = (.ok x.vertex, st') ∧ st'.gen = s' ∧ eventRows p x = .ok (some st'.result) := by
  have hsome : ∀ {x' s1 s2}, p.sample s1 = .ok (x', s2) → EnergyAllowed p x' →
      ∃ rows, eventRows p x' = .ok (some rows) := by
    intro x' s1 s2 hx' hE'
    exact (eventRows_cases hc (hs _ _ _ hx') (enough hb hg hx')).1 hE'
      (hcalc _ _ _ hx' ((reaction_allowed_iff hc (hs _ _ _ hx')).2 ⟨hE'.1, hE'.2.1⟩))
  have hnone : ∀ {x' s1 s2}, p.sample s1 = .ok (x', s2) → ¬ EnergyAllowed p x' →
      eventRows p x' = .ok none := by
    intro x' s1 s2 hx' hE'
    cases he : eventRows p x' with
    | error e =>
      obtain ⟨ha, h2⟩ := (eventRows_cases hc (hs _ _ _ hx') (enough hb hg hx')).2 e he
      obtain ⟨res, hres⟩ := hcalc _ _ _ hx' ha
      rw [hres] at h2; simp at h2
    | ok o =>
      cases o with
      | none => rfl
      | some rows => exact absurd (eventRows_some hc (hs _ _ _ hx') he).1 hE'
  obtain ⟨rows, hrows⟩ := hsome hx hE
  have key : ∀ (n k : ℕ) (st : PipeState σ), st.result.length = 4 + 2 * p.decays.length → k < n →
      SkippedBy (fun x => ¬ EnergyAllowed p x) p k st.gen s →
      p.runLoop n st = (.ok x.vertex, { gen := s', result := rows }) := by
    intro n
    induction n with
    | zero => intro k st _ hk; omega
    | succ n ih =>
      intro k st hl hk hsk
      unfold Pipeline.runLoop
      cases hsk with
      | zero =>
        rw [hx]
        obtain ⟨-, a2⟩ := attempt_rows p x st.result hl
        rw [hrows] at a2
        simp only at a2 ⊢
        rw [a2]
      | succ hs1 hn hrest =>
        rename_i k' x1 s1
        rw [hs1]
        obtain ⟨a1, a2⟩ := attempt_rows p x1 st.result hl
        rw [hnone hs1 hn] at a2
        simp only at a2 ⊢
        rcases hat : p.attempt x1 st.result with ⟨o, buf⟩
        rw [hat] at a1 a2
        simp only at a1 a2
        subst a2
        simp only
        exact ih k' ⟨s1, buf⟩ (by rw [← hl]; exact a1) (by omega) hrest
  refine ⟨_, key p.event_sample_limit.toNat k st hlen (by omega) hskip, rfl, hrows⟩

/-- **C50.** Whatever the buffer holds, `run` returns the same event, with the same number of samples
drawn: nothing of earlier events or rejected samples survives. -/
theorem C50_independent (p : Pipeline σ) (st1 st2 : PipeState σ) (hgen : st1.gen = st2.gen)
    (h1 : st1.result.length = 4 + 2 * p.decays.length)
    (h2 : st2.result.length = 4 + 2 * p.decays.length) :
    (p.run st1).1 = (p.run st2).1 ∧ (p.run st1).2.gen = (p.run st2).2.gen ∧
    ∀ v, (p.run st1).1 = .ok v → (p.run st1).2.result = (p.run st2).2.result := by
  unfold Pipeline.run
  generalize p.event_sample_limit.toNat = n
  induction n generalizing st1 st2 with
  | zero => exact ⟨rfl, hgen, by intro v h; simp [Pipeline.runLoop] at h⟩
  | succ n ih =>
    unfold Pipeline.runLoop
    rw [← hgen]
    cases hs : p.sample st1.gen with
    | error e => exact ⟨rfl, hgen, by simp⟩
    | ok res =>
      obtain ⟨x, s⟩ := res
      simp only
      obtain ⟨a1, a2⟩ := attempt_rows p x st1.result h1
      obtain ⟨b1, b2⟩ := attempt_rows p x st2.result h2
      rcases hat : p.attempt x st1.result with ⟨o, buf⟩
      rcases hbt : p.attempt x st2.result with ⟨o', buf'⟩
      rw [hat] at a1 a2
      rw [hbt] at b1 b2
      cases he : eventRows p x with
      | error e =>
        rw [he] at a2 b2
        simp only at a2 b2
        subst a2 b2
        exact ⟨rfl, rfl, by simp⟩
      | ok r =>
        cases r with
        | none =>
          rw [he] at a2 b2
          simp only at a2 b2 a1 b1
          subst a2 b2
          exact ih _ _ rfl (by rw [← h1]; exact a1) (by rw [← h2]; exact b1)
        | some rows =>
          rw [he] at a2 b2
          simp only [Prod.mk.injEq] at a2 b2
          obtain ⟨rfl, rfl⟩ := a2
          obtain ⟨rfl, rfl⟩ := b2
          exact ⟨rfl, rfl, fun _ _ => rfl⟩

/-- **C50.** The rows of a returned event are those that the accepted sample alone would produce in any
buffer. -/
theorem C50_accepted (p : Pipeline σ) {st st' : PipeState σ}
    (hlen : st.result.length = 4 + 2 * p.decays.length) {v : ℝ × ℝ × ℝ}
    (h : p.run st = (.ok v, st')) :
    ∃ s x, p.sample s = .ok (x, st'.gen) ∧ ∀ buf : List ResultRow,
      buf.length = 4 + 2 * p.decays.length → p.attempt x buf = (.ok true, st'.result) := by
  obtain ⟨-, h2⟩ := runLoop_spec p p.event_sample_limit.toNat st hlen
  unfold Pipeline.run at h
  rw [h] at h2
  obtain ⟨k, -, s, x, -, g2, g3, -⟩ := h2
  refine ⟨s, x, g2, fun buf hb => ?_⟩
  have := (attempt_rows p x buf hb).2
  rw [g3] at this
  exact this

/-- The buffer keeps its length. -/
theorem run_length (p : Pipeline σ) {st : PipeState σ}
    (hlen : st.result.length = 4 + 2 * p.decays.length) :
    (p.run st).2.result.length = 4 + 2 * p.decays.length :=
  (runLoop_spec p _ st hlen).1.trans hlen

/-! ## C46: conservation along the chain -/

/-- **C46.** In every returned event no row is NaN, the target is at rest and the beam along z, energy
and momentum are conserved in the reaction and in each decay, every nucleus has the mass of its
species plus its sampled excitation, and the final products add up to beam plus target. -/
theorem C46_conservation {p : Pipeline σ} (hc : ChainOk p) (hs : SamplesOk p) {st st' : PipeState σ}
    (hlen : st.result.length = 4 + 2 * p.decays.length) {v : ℝ × ℝ × ℝ}
    (h : p.run st = (.ok v, st')) :
    ∃ s x, p.sample s = .ok (x, st'.gen) ∧ v = x.vertex ∧
    ∃ t b e r rows, st'.result = (t :: b :: e :: r :: rows : List Vec4).map some ∧
      rows.length = 2 * p.decays.length ∧ EventOk p x t b e r rows ∧
      sumVec (finals (e :: r :: rows)) = t + b := by
  obtain ⟨-, h2⟩ := runLoop_spec p p.event_sample_limit.toNat st hlen
  unfold Pipeline.run at h
  rw [h] at h2
  obtain ⟨k, hk, s, x, g1, g2, g3, g4⟩ := h2
  obtain ⟨-, t, b, e, r, rows, i1, i2⟩ := eventRows_some hc (hs _ _ _ g2) g3
  exact ⟨s, x, g2, g4, t, b, e, r, rows, i1, DecaysOk_length i2.decays, i2,
    by rw [sum_finals i2.decays, i2.conserved]⟩

/-! ## C47: proton and mass numbers -/

/-- **C47.** `Reaction.__init__` raises ValueError when the residual would have a negative proton or
mass number; otherwise it asks the nuclear map for the nucleus with the remaining numbers. -/
theorem C47_reaction (get_data : NuclearMap) (t p e : Nucleus) :
    (p.Z + t.Z < e.Z ∨ p.A + t.A < e.A → mkReaction get_data t p e = .error .valueError) ∧
    (∀ r, mkReaction get_data t p e = .ok r → e.Z ≤ p.Z + t.Z ∧ e.A ≤ p.A + t.A ∧
      r.target = t ∧ r.projectile = p ∧ r.ejectile = e ∧
      get_data (p.Z + t.Z - e.Z) (p.A + t.A - e.A) = .ok r.residual) := by
  unfold mkReaction
  simp only
  constructor
  · rintro (h | h)
    · rw [if_pos (by omega)]
    · by_cases hz : p.Z + t.Z - e.Z < 0
      · rw [if_pos hz]
      · rw [if_neg hz, if_pos (by omega)]
  · intro r h
    split_ifs at h with h1 h2
    cases hg : get_data (p.Z + t.Z - e.Z) (p.A + t.A - e.A) with
    | error e => rw [hg] at h; simp at h
    | ok n =>
      rw [hg] at h
      simp only [Except.ok.injEq] at h
      subst h
      exact ⟨by omega, by omega, rfl, rfl, rfl, rfl⟩

/-- **C47.** The same for `Decay.__init__`. -/
theorem C47_decay (get_data : NuclearMap) (parent r1 : Nucleus) :
    (parent.Z < r1.Z ∨ parent.A < r1.A → mkDecay get_data parent r1 = .error .valueError) ∧
    (∀ d, mkDecay get_data parent r1 = .ok d → r1.Z ≤ parent.Z ∧ r1.A ≤ parent.A ∧
      d.parent = parent ∧ d.residual_1 = r1 ∧
      get_data (parent.Z - r1.Z) (parent.A - r1.A) = .ok d.residual_2) := by
  unfold mkDecay
  simp only
  constructor
  · rintro (h | h)
    · rw [if_pos (by omega)]
    · by_cases hz : parent.Z - r1.Z < 0
      · rw [if_pos hz]
      · rw [if_neg hz, if_pos (by omega)]
  · intro r h
    split_ifs at h with h1 h2
    cases hg : get_data (parent.Z - r1.Z) (parent.A - r1.A) with
    | error e => rw [hg] at h; simp at h
    | ok n =>
      rw [hg] at h
      simp only [Except.ok.injEq] at h
      subst h
      exact ⟨by omega, by omega, rfl, rfl, rfl⟩

/-- A nuclear map returns the nucleus it was asked for. -/
def Faithful (get_data : NuclearMap) : Prop :=
  ∀ z a n, get_data z a = .ok n → n.Z = z ∧ n.A = a

/-- The nuclei that steps are built from: symbols identify them, and their numbers are not negative. -/
structure Species (S : Set Nucleus) : Prop where
  symbol : ∀ n ∈ S, ∀ m ∈ S, n.isotopic_symbol = m.isotopic_symbol → n.Z = m.Z ∧ n.A = m.A
  Z_nonneg : ∀ n ∈ S, 0 ≤ n.Z
  A_nonneg : ∀ n ∈ S, 0 ≤ n.A

/-- A step made by the constructors from nuclei in `S`. -/
def MadeFrom (get_data : NuclearMap) (S : Set Nucleus) : Step → Prop
  | .reaction r => r.target ∈ S ∧ r.projectile ∈ S ∧ r.ejectile ∈ S ∧ r.residual ∈ S ∧
      mkReaction get_data r.target r.projectile r.ejectile = .ok r
  | .decay d => d.parent ∈ S ∧ d.residual_1 ∈ S ∧ d.residual_2 ∈ S ∧
      mkDecay get_data d.parent d.residual_1 = .ok d

theorem finals_sum_numbers (f : Nucleus → ℤ) (ds : List Decay) : ∀ (prev : Step) (a : ℤ),
    Linked prev (ds.map .decay) →
    (∀ d ∈ ds, f d.residual_1 + f d.residual_2 = f d.parent) →
    (∀ d ∈ ds, ∀ n, n = Step.out prev ∨ (∃ d' ∈ ds, n = d'.residual_2) →
      n.isotopic_symbol = d.parent.isotopic_symbol → f n = f d.parent) →
    (finals (a :: f (Step.out prev) :: ds.flatMap fun d => [f d.residual_1, f d.residual_2])).sum
      = a + f (Step.out prev) := by
  induction ds with
  | nil => intro prev a _ _ _; simp [finals]
  | cons d ds ih =>
    intro prev a hl hcons hsym
    obtain ⟨⟨d', hd', hs⟩, hl⟩ := hl
    simp only [Step.decay.injEq] at hd'
    subst hd'
    have := ih (.decay d) (f d.residual_1) hl (fun d' h' => hcons d' (by simp [h']))
      (fun d' h' n hn hs' => hsym d' (by simp [h']) n
        (by rcases hn with rfl | ⟨d'', h'', rfl⟩
            · exact .inr ⟨d, by simp, rfl⟩
            · exact .inr ⟨d'', by simp [h''], rfl⟩) hs')
    simp only [List.flatMap_cons, List.cons_append, List.nil_append, finals, List.sum_cons]
    simp only [Step.out] at this
    rw [this, hcons d (by simp), hsym d (by simp) _ (.inl rfl) hs]

/-- **C47.** For a pipeline accepted by the constructor, with steps made by the `Reaction` and `Decay`
constructors, the proton numbers and the mass numbers of the final products add up to those of target
and projectile, and none is negative. -/
theorem C47_conserved {get_data : NuclearMap} (hf : Faithful get_data) {S : Set Nucleus}
    (hS : Species S) {rng : Gen σ} {gen : σ} {uninit : ℕ → ResultRow} {steps : List Step}
    {exs polar : List (Sampler σ)} {E : ℝ} {tm : Option TargetMaterial} {limit : ℤ}
    {p : Pipeline σ} {st : PipeState σ} (hmade : ∀ s ∈ steps, MadeFrom get_data S s)
    (h : mkPipeline rng gen uninit steps exs polar E tm limit = .ok (p, st)) :
    (finals (p.get_proton_numbers.drop 2)).sum = p.reaction.target.Z + p.reaction.projectile.Z ∧
    (finals (p.get_mass_numbers.drop 2)).sum = p.reaction.target.A + p.reaction.projectile.A ∧
    (∀ z ∈ p.get_proton_numbers, 0 ≤ z) ∧ (∀ a ∈ p.get_mass_numbers, 0 ≤ a) := by
  obtain ⟨hsteps, -, -, -, -, -, -, -, -, -, hlink⟩ := C48_built h
  have hr : MadeFrom get_data S (.reaction p.reaction) := hmade _ (by rw [hsteps]; simp)
  have hd : ∀ d ∈ p.decays, MadeFrom get_data S (.decay d) := fun d hd => hmade _ (by
    rw [hsteps]; simp [hd])
  obtain ⟨r1, r2, r3, r4, r5⟩ := hr
  obtain ⟨-, -, -, -, -, hres⟩ := (C47_reaction get_data _ _ _).2 _ r5
  obtain ⟨hrz, hra⟩ := hf _ _ _ hres
  have hdec : ∀ d ∈ p.decays, d.residual_1.Z + d.residual_2.Z = d.parent.Z ∧
      d.residual_1.A + d.residual_2.A = d.parent.A := by
    intro d hd'
    obtain ⟨-, -, -, d4⟩ := hd d hd'
    obtain ⟨-, -, -, -, hres⟩ := (C47_decay get_data _ _).2 _ d4
    obtain ⟨hz, ha⟩ := hf _ _ _ hres
    omega
  have hsym : ∀ d ∈ p.decays, ∀ n, n = Step.out (.reaction p.reaction) ∨
      (∃ d' ∈ p.decays, n = d'.residual_2) → n.isotopic_symbol = d.parent.isotopic_symbol →
      n.Z = d.parent.Z ∧ n.A = d.parent.A := by
    intro d hd' n hn hs
    refine hS.symbol n ?_ d.parent (hd d hd').1 hs
    rcases hn with rfl | ⟨d', h', rfl⟩
    · exact r4
    · exact (hd d' h').2.2.1
  refine ⟨?_, ?_, ?_, ?_⟩
  · have := finals_sum_numbers (·.Z) p.decays (.reaction p.reaction) p.reaction.ejectile.Z hlink
      (fun d h => (hdec d h).1) (fun d h n hn hs => (hsym d h n hn hs).1)
    simp only [Step.out] at this
    simp only [Pipeline.get_proton_numbers, List.cons_append, List.nil_append, List.drop_succ_cons,
      List.drop_zero]
    rw [this, hrz]; ring
  · have := finals_sum_numbers (·.A) p.decays (.reaction p.reaction) p.reaction.ejectile.A hlink
      (fun d h => (hdec d h).2) (fun d h n hn hs => (hsym d h n hn hs).2)
    simp only [Step.out] at this
    simp only [Pipeline.get_mass_numbers, List.cons_append, List.nil_append, List.drop_succ_cons,
      List.drop_zero]
    rw [this, hra]; ring
  · intro z hz
    simp only [Pipeline.get_proton_numbers, List.cons_append, List.nil_append, List.mem_cons,
      List.mem_flatMap, List.not_mem_nil, or_false] at hz
    rcases hz with rfl | rfl | rfl | rfl | ⟨d, hd', rfl | rfl⟩
    · exact hS.Z_nonneg _ r1
    · exact hS.Z_nonneg _ r2
    · exact hS.Z_nonneg _ r3
    · exact hS.Z_nonneg _ r4
    · exact hS.Z_nonneg _ (hd d hd').2.1
    · exact hS.Z_nonneg _ (hd d hd').2.2.1
  · intro z hz
    simp only [Pipeline.get_mass_numbers, List.cons_append, List.nil_append, List.mem_cons,
      List.mem_flatMap, List.not_mem_nil, or_false] at hz
    rcases hz with rfl | rfl | rfl | rfl | ⟨d, hd', rfl | rfl⟩
    · exact hS.A_nonneg _ r1
    · exact hS.A_nonneg _ r2
    · exact hS.A_nonneg _ r3
    · exact hS.A_nonneg _ r4
    · exact hS.A_nonneg _ (hd d hd').2.1
    · exact hS.A_nonneg _ (hd d hd').2.2.1

end Verif.Props
