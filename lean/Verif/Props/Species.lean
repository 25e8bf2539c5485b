import Verif.Spec.Species
import Verif.Props.PipelineRuns
import Verif.Props.Distributions

/-! # C71 and C75: the nuclei of a chain, and the kinematics file end to end -/

namespace Verif.Props

open Verif.Kinematics Verif.Spec
open Verif.Detector (read_event except_bind_ok lookupName)

variable {σ : Type}

theorem chainNuclei_built {p : Pipeline σ} {steps : List Step}
    (h : steps = .reaction p.reaction :: p.decays.map .decay) :
    chainNuclei steps = [p.reaction.target, p.reaction.projectile, p.reaction.ejectile,
      p.reaction.residual] ++ p.decays.flatMap fun d => [d.residual_1, d.residual_2] := by
  subst h
  unfold chainNuclei
  rw [List.flatMap_cons, List.flatMap_map]
  rfl

/-- **C71.** The proton numbers and mass numbers stored with the events are those of the nuclei of the
steps given to the constructor, in their order. -/
theorem C71_numbers {rng : Gen σ} {gen : σ} {uninit : ℕ → ResultRow} {steps : List Step}
    {exs polar : List (Sampler σ)} {E : ℝ} {tm : Option TargetMaterial} {limit : ℤ}
    {p : Pipeline σ} {st : PipeState σ}
    (h : mkPipeline rng gen uninit steps exs polar E tm limit = .ok (p, st)) :
    p.get_proton_numbers = (chainNuclei steps).map (·.Z) ∧
    p.get_mass_numbers = (chainNuclei steps).map (·.A) ∧
    st.result.length = (chainNuclei steps).length := by
  obtain ⟨hsteps, -, -, -, -, -, -, -, -, hlen, -⟩ := C48_built h
  rw [chainNuclei_built hsteps]
  refine ⟨?_, ?_, ?_⟩
  · simp [Pipeline.get_proton_numbers, List.map_flatMap]
  · simp [Pipeline.get_mass_numbers, List.map_flatMap]
  · rw [hlen]
    simp
    ring

theorem DecaysOk_masses {q : Vec4} {ds : List Decay} {exs : List ℝ} {rows : List Vec4}
    (h : DecaysOk q ds exs rows) :
    rows.map Vec4.M = List.zipWith (fun (n : Nucleus) ex => n.mass + ex)
      (ds.flatMap fun d => [d.residual_1, d.residual_2]) (exs.flatMap fun ex => [0, ex]) := by
  induction h with
  | nil => simp
  | cons _ h1 h2 _ _ _ ih => simp [ih, h1, h2]

theorem EventOk_masses {p : Pipeline σ} (hc : ChainOk p) {x : Sample} {t b e r : Vec4}
    {rows : List Vec4} (h : EventOk p x t b e r rows) {steps : List Step}
    (hsteps : steps = .reaction p.reaction :: p.decays.map .decay) :
    (t :: b :: e :: r :: rows).map Vec4.M = List.zipWith (fun (n : Nucleus) ex => n.mass + ex)
      (chainNuclei steps) (chainExcitations x) := by
  rw [chainNuclei_built hsteps]
  have ht : t.M = p.reaction.target.mass := by
    apply Vec4.M_of_M2 hc.target.le
    rw [h.target]
    simp [Vec4.M2]
  simp [chainExcitations, ht, h.beam_M, h.ejectile_M, h.residual_M, DecaysOk_masses h.decays]

/-- **C71.** Row `i` of every returned event is a four-momentum of the `i`-th nucleus of the chain: its
invariant mass is the mass of that nucleus plus the sampled excitation, which is 0 except for the
residuals. -/
theorem C71_masses {rng : Gen σ} {gen : σ} {uninit : ℕ → ResultRow} {steps : List Step}
    {exs polar : List (Sampler σ)} {E : ℝ} {tm : Option TargetMaterial} {limit : ℤ}
    {p : Pipeline σ} {st0 : PipeState σ}
    (hmk : mkPipeline rng gen uninit steps exs polar E tm limit = .ok (p, st0))
    (hc : ChainOk p) (hs : SamplesOk p) {st st' : PipeState σ}
    (hlen : st.result.length = st0.result.length) {v : ℝ × ℝ × ℝ}
    (h : p.run st = (.ok v, st')) :
    ∃ (s : σ) (x : Sample) (vecs : List Vec4), p.sample s = .ok (x, st'.gen) ∧ st'.result = vecs.map some ∧
      vecs.map Vec4.M = List.zipWith (fun (n : Nucleus) ex => n.mass + ex)
        (chainNuclei steps) (chainExcitations x) := by
  obtain ⟨hsteps, -, -, -, -, -, -, -, -, hl, -⟩ := C48_built hmk
  obtain ⟨s, x, h1, -, t, b, e, r, rows, h2, -, h3, -⟩ := C46_conservation hc hs (hlen.trans hl) h
  exact ⟨s, x, _, h1, h2, EventOk_masses hc h3 hsteps⟩

/-! ## C75 -/

theorem lookup_map {α β : Type} (f : α → β) (l : List (String × α)) (n : String) :
    (l.map fun na => (na.1, f na.2)).lookup n = (l.lookup n).map f := by
  induction l with
  | nil => rfl
  | cons a l ih =>
    obtain ⟨m, a⟩ := a
    simp only [List.map_cons, List.lookup_cons]
    by_cases h : n = m
    · simp [h]
    · have : (n == m) = false := by simpa using h
      simp [this, ih]

theorem read_mapData {ρ ρ' : Type} (f : ρ → ρ') (file : KinFile ρ) (cs k : ℕ) :
    read_event (mapData f file) cs k
      = (read_event file cs k).map fun dv => (f dv.1, dv.2) := by
  unfold read_event
  unfold lookupName mapData
  simp only
  have e1 := lookup_map (fun g : ChunkGroup ρ =>
      ({ min_event := g.min_event, max_event := g.max_event,
         events := g.events.map fun ne => (ne.1,
          ({ data := f ne.2.data, vertex_x := ne.2.vertex_x, vertex_y := ne.2.vertex_y,
             vertex_z := ne.2.vertex_z } : EventDset ρ')) } : ChunkGroup ρ'))
    file.chunks (chunk_name (k / cs))
  rw [e1]
  cases file.chunks.lookup (chunk_name (k / cs)) with
  | none => rfl
  | some g =>
    simp only [Option.map_some, bind, Except.bind]
    have e2 := lookup_map (fun d : EventDset ρ =>
      ({ data := f d.data, vertex_x := d.vertex_x, vertex_y := d.vertex_y,
         vertex_z := d.vertex_z } : EventDset ρ')) g.events (event_name k)
    rw [e2]
    cases g.events.lookup (event_name k) with
    | none => rfl
    | some d =>
      obtain ⟨data, vx, vy, vz⟩ := d
      simp only [Option.map_some]
      cases vx <;> cases vy <;> cases vz <;> rfl

theorem plainRows_map (vecs : List Vec4) : plainRows (vecs.map some) = vecs := by
  unfold plainRows
  rw [List.filterMap_map]
  exact List.filterMap_some

/-- **C75.** Every event that the detector simulation reads from a finished kinematics file has a row
for each nucleus of the chain (with the stored proton and mass numbers), free of NaN, with the mass of
that nucleus plus its excitation; the target is at rest, the beam moves along z, and the momenta of the
final products add up to those of beam and target. -/
theorem C75_conservation {rng : Gen σ} {gen : σ} {uninit : ℕ → ResultRow} {steps : List Step}
    {exs polar : List (Sampler σ)} {E : ℝ} {tm : Option TargetMaterial} {limit : ℤ}
    {p : Pipeline σ} {st0 : PipeState σ}
    (hmk : mkPipeline rng gen uninit steps exs polar E tm limit = .ok (p, st0))
    (hc : ChainOk p) (hs : SamplesOk p) (cs : ℕ) (hcs : 1 ≤ cs) (n : ℤ)
    (st : KinRun (List ResultRow) (PipeState σ))
    (h : run_kinematics_pipeline p.runCopy p.get_proton_numbers p.get_mass_numbers cs n st0
      = (.ok (), st)) :
    st.file.proton_numbers = some ((chainNuclei steps).map (·.Z)) ∧
    st.file.mass_numbers = some ((chainNuclei steps).map (·.A)) ∧
    ∀ k < n.toNat, ∃ s x s' t b products,
      p.sample s = .ok (x, s') ∧
      read_event st.file cs k = .ok ((t :: b :: products).map some, x.vertex) ∧
      read_event (mapData plainRows st.file) cs k = .ok (t :: b :: products, x.vertex) ∧
      (t :: b :: products).length = (chainNuclei steps).length ∧
      (t :: b :: products).map Vec4.M = List.zipWith (fun (n : Nucleus) ex => n.mass + ex)
        (chainNuclei steps) (chainExcitations x) ∧
      (t.px = 0 ∧ t.py = 0 ∧ t.pz = 0) ∧ (b.px = 0 ∧ b.py = 0 ∧ 0 ≤ b.pz) ∧
      b.E = x.beam_energy + p.reaction.projectile.mass ∧
      sumVec (finals products) = t + b := by
  obtain ⟨hsteps, -, -, -, -, -, -, -, -, hl0, -⟩ := C48_built hmk
  obtain ⟨hZ, hA, hlenN⟩ := C71_numbers hmk
  obtain ⟨evs, hp, hl, -, -, hz, ha, -⟩ := C37_round_trip _ _ _ cs hcs n st0 st h
  obtain ⟨states, h1, h2, h3⟩ := C51_partial p cs hcs n st0 st h
  refine ⟨by rw [hz, hZ], by rw [ha, hA], fun k hk => ?_⟩
  have hlens : ∀ k ≤ n.toNat, ∃ a, states[k]? = some a ∧
      a.result.length = 4 + 2 * p.decays.length := by
    intro k
    induction k with
    | zero => intro _; exact ⟨st0, h2, hl0⟩
    | succ k ih =>
      intro hk
      obtain ⟨a, ha, hla⟩ := ih (by omega)
      obtain ⟨a', b, v, i1, i2, i3, -⟩ := h3 k (by omega)
      rw [i1] at ha
      simp only [Option.some.injEq] at ha
      subst ha
      have := run_length p hla
      rw [i3] at this
      exact ⟨b, i2, this⟩
  obtain ⟨a, b', v, i1, i2, i3, i4⟩ := h3 k hk
  obtain ⟨a', ha', hla⟩ := hlens k hk.le
  rw [i1] at ha'
  simp only [Option.some.injEq] at ha'
  subst ha'
  obtain ⟨s, x, j1, rfl, t, b, e, r, rows, j2, j3, j4, j5⟩ := C46_conservation hc hs hla i3
  refine ⟨s, x, _, t, b, e :: r :: rows, j1, by rw [i4, j2], ?_, ?_,
    EventOk_masses hc j4 hsteps, ?_, ⟨j4.beam_px, j4.beam_py, j4.beam_pz⟩, j4.beam_E, j5⟩
  · rw [read_mapData, i4, j2]
    simp only [Except.map, plainRows_map]
  · rw [← hlenN, hl0]
    simp [j3]
    ring
  · rw [j4.target]
    exact ⟨rfl, rfl, rfl⟩

/-- A sampler whose excitations keep a nucleus of mass `m` massive. -/
def KeepsMass (m : ℝ) (d : Sampler σ) : Prop := ∀ s x s', d s = .ok (x, s') → 0 < m + x

theorem keeps_uniform {rng : Gen σ} (hg : LawfulGen rng) {m : ℝ} (hm : 0 < m) (d : ExcitationUniform)
    (h0 : 0 ≤ d.min_value) (h1 : d.min_value ≤ d.max_value) : KeepsMass m (d.sample rng) := by
  intro s x s' h
  obtain ⟨y, s1, h2, h3, h4⟩ := (C56_uniform hg d s).1 h1
  rw [h2] at h
  simp only [Except.ok.injEq, Prod.mk.injEq] at h
  obtain ⟨rfl, -⟩ := h
  rcases h1.eq_or_lt with he | hl
  · rw [h4 he]; linarith
  · linarith [(h3 hl).1]

theorem keeps_gaussian {rng : Gen σ} (hg : LawfulGen rng) {m : ℝ} (hm : 0 < m) {centroid : ℝ}
    (h0 : 0 ≤ centroid) : KeepsMass m ((mkExcitationGaussian centroid 0).sample rng) := by
  intro s x s' h
  obtain ⟨s1, h1⟩ := (C56_gaussian hg centroid s).1
  rw [h1] at h
  simp only [Except.ok.injEq, Prod.mk.injEq] at h
  obtain ⟨rfl, -⟩ := h
  linarith

theorem keeps_breit_wigner {rvs : BreitWignerRvs σ}
    (hpos : ∀ rho scale s, 0 < rho → 0 < scale → 0 < (rvs rho scale s).1)
    (d : ExcitationBreitWigner) : KeepsMass d.rest_mass (d.sample rvs) := by
  intro s x s' h
  by_cases hd : 0 < d.width ∧ 0 < d.rest_mass + d.centroid
  · obtain ⟨y, s1, h1, h2⟩ := (C56_breit_wigner hpos d s).1 hd
    rw [h1] at h
    simp only [Except.ok.injEq, Prod.mk.injEq] at h
    obtain ⟨rfl, -⟩ := h
    linarith
  · obtain ⟨e, he⟩ := (C56_breit_wigner hpos d s).2 hd
    rw [he] at h
    simp at h

theorem sampleAll_forall {R : ℝ → ℝ → Prop} : ∀ (ds : List (Sampler σ)) (ms : List ℝ),
    List.Forall₂ (fun m (d : Sampler σ) => ∀ s x s', d s = .ok (x, s') → R m x) ms ds →
    ∀ s xs s', sampleAll ds s = .ok (xs, s') → ∀ mx ∈ ms.zip xs, R mx.1 mx.2 := by
  intro ds
  induction ds with
  | nil => intro ms h s xs s' _; cases h; simp
  | cons d ds ih =>
    intro ms h s xs s' hs
    cases h with
    | cons h1 h2 =>
      simp only [sampleAll] at hs
      rw [except_bind_ok] at hs
      obtain ⟨⟨x, s1⟩, g1, hs⟩ := hs
      rw [except_bind_ok] at hs
      obtain ⟨⟨ys, s2⟩, g2, hs⟩ := hs
      simp only [pure, Except.pure, Except.ok.injEq, Prod.mk.injEq] at hs
      obtain ⟨rfl, -⟩ := hs
      intro mx hmx
      simp only [List.zip_cons_cons, List.mem_cons] at hmx
      rcases hmx with rfl | hmx
      · exact h1 _ _ _ g1
      · exact ih _ h2 _ _ _ g2 mx hmx

/-- **C75.** The hypothesis on the samples holds for the excitation distributions of the package: it is
enough that each of them keeps its nucleus massive (uniform distributions of non-negative energies,
fixed non-negative energies, Breit-Wigner distributions with the mass of the nucleus), and that the
beam is not stopped before the vertex. -/
theorem C75_samples {p : Pipeline σ} (hb : Built p) (hg : LawfulGen p.rng)
    (hmass : 0 < p.reaction.projectile.mass)
    (hex : List.Forall₂ KeepsMass
      (p.reaction.residual.mass :: p.decays.map fun d => d.residual_2.mass) p.excitations)
    (hbeam : 0 ≤ p.beam_energy)
    (hloss : ∀ t, p.target_material = some t → ∀ z, t.z_range.1 ≤ z → z ≤ t.z_range.2 →
      t.material.get_energy_loss p.reaction.projectile p.beam_energy z ≤ p.beam_energy) :
    SamplesOk p := by
  intro s x s' h
  constructor
  · cases ht : p.target_material with
    | none => rw [(C52_no_target ht h).2]; linarith
    | some t =>
      have hl := hloss t ht
      obtain ⟨h1, -, -, -, -, h2⟩ := C52_vertex hg ht h
      rw [h2]
      have := hl _ h1.1 h1.2
      linarith
  · obtain ⟨-, -, -, -, -, ⟨d, ds, s1, s2, h1, h2⟩, -⟩ := C52_sample hb hg h
    rw [h1] at hex
    cases hex with
    | cons h3 _ => exact h3 _ _ _ h2
  · unfold Pipeline.sample at h
    rw [except_bind_ok] at h
    obtain ⟨⟨⟨T, v⟩, s1⟩, -, h⟩ := h
    rw [except_bind_ok] at h
    obtain ⟨⟨ex, s2⟩, -, h⟩ := h
    rw [except_bind_ok] at h
    obtain ⟨⟨th, s3⟩, -, h⟩ := h
    simp only at h
    rw [except_bind_ok] at h
    obtain ⟨⟨exs, s4⟩, hexs, h⟩ := h
    rw [except_bind_ok] at h
    obtain ⟨⟨ths, s5⟩, -, h⟩ := h
    simp only [pure, Except.pure, Except.ok.injEq, Prod.mk.injEq] at h
    obtain ⟨rfl, -⟩ := h
    simp only
    cases hp : p.excitations with
    | nil => rw [hp] at hex; cases hex
    | cons d ds =>
      rw [hp] at hex hexs
      cases hex with
      | cons _ h3 =>
        have := sampleAll_forall (R := fun m x => 0 < m + x) ds _ h3 _ _ _ hexs
        intro de hde
        apply this (de.1.residual_2.mass, de.2)
        rw [List.zip_map_left]
        exact List.mem_map.2 ⟨de, hde, rfl⟩

/-- C71 and C75 apply to the example chain: its nuclei are those of the reaction and the decay. -/
example : (chainNuclei [.reaction exReaction, .decay exDecay]).map (·.A) = [2, 2, 1, 3, 1, 2] := rfl

/-- A run of two events of the example pipeline succeeds, and C75 describes its file. -/
example : ∃ st0 st, mkPipeline countGen 0 (fun _ => none)
      [.reaction exReaction, .decay exDecay] exPipe.excitations exPipe.polar_dists 5 none 3
        = .ok (exPipe, st0) ∧
    run_kinematics_pipeline exPipe.runCopy exPipe.get_proton_numbers exPipe.get_mass_numbers 1 2 st0
      = (.ok (), st) := by
  obtain ⟨st0, h0, hg, hl⟩ := exPipe_built
  obtain ⟨st1, h1, g1, r1⟩ := exPipe_first st0.result hl
  have hl1 : st1.result.length = 6 := by
    have := run_length exPipe (st := ⟨0, st0.result⟩) hl
    rw [h1] at this; exact this
  obtain ⟨st2, h2, g2, r2⟩ := exPipe_second st1.result hl1
  have he0 : st0 = ⟨0, st0.result⟩ := by rw [← hg]
  have he1 : st1 = ⟨12, st1.result⟩ := by rw [← g1]
  rw [← he0] at h1
  rw [← he1] at h2
  have c1 : exPipe.runCopy st0 = (.ok ((0, 0, 0), st1.result), st1) := by
    simp [Pipeline.runCopy, h1]
  have c2 : exPipe.runCopy st1 = (.ok ((0, 0, 0), st2.result), st2) := by
    simp [Pipeline.runCopy, h2]
  have key := (C37_succeeds exPipe.runCopy exPipe.get_proton_numbers exPipe.get_mass_numbers 1 le_rfl
    2 st0).2 ⟨_, st2, .cons c1 (.cons c2 (.nil _)), rfl⟩
  exact ⟨st0, _, h0, Prod.ext key rfl⟩

end Verif.Props
