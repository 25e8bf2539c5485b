import Verif.Props.Pipeline

/-! # C49, C51, C53: refutations and examples for the kinematics pipeline -/

namespace Verif.Props

open Verif.Kinematics Verif.Spec
open Verif.Detector (read_event)

/-! ## An example pipeline -/

/-- A generator that counts its draws; `uniform` returns the lower end. -/
def countGen : Gen ℕ :=
  { normal := fun m _ s => (m, s + 1), uniform := fun a _ s => (a, s + 1) }

theorem countGen_lawful : LawfulGen countGen where
  uniform_ge := fun _ _ _ _ => le_rfl
  uniform_lt := fun _ _ _ h => h
  uniform_eq := fun _ _ => rfl
  normal_zero := fun _ _ => rfl

/-- The excitation of the residual: forbidden in the first sample, then 1.9, then 1.8. -/
noncomputable def exExcitation (s : ℕ) : ℝ := if s = 0 then 5 else if s = 6 then 19 / 10 else 18 / 10

/-- A reaction followed by a decay of its residual. -/
noncomputable def exPipe : Pipeline ℕ :=
  { reaction := exReaction, decays := [exDecay],
    excitations := [fun s => .ok (exExcitation s, s + 1), fun s => .ok (17 / 10, s + 1)],
    polar_dists := [fun s => .ok (1 / 2, s + 1), fun s => .ok (1 / 3, s + 1)],
    beam_energy := 5, target_material := none, event_sample_limit := 3, rng := countGen }

/-- The sample drawn in generator state `s`. -/
noncomputable def exSample (s : ℕ) : Sample :=
  { beam_energy := 5, reaction_excitation := exExcitation s, reaction_theta := 1 / 2,
    reaction_phi := 0, vertex := (0, 0, 0), decay_excitations := [17 / 10],
    decay_thetas := [1 / 3], decay_phis := [0] }

theorem exPipe_sample (s : ℕ) : exPipe.sample s = .ok (exSample s, s + 6) := rfl

/-- The constructor accepts the example chain. -/
theorem exPipe_built : ∃ st, mkPipeline countGen 0 (fun _ => none)
    [.reaction exReaction, .decay exDecay] exPipe.excitations exPipe.polar_dists 5 none 3
      = .ok (exPipe, st) ∧ st.gen = 0 ∧ st.result.length = 6 :=
  ⟨_, rfl, rfl, rfl⟩

theorem exPipe_Built : Built exPipe := ⟨rfl, rfl⟩

theorem exPipe_chain : ChainOk exPipe where
  target := by norm_num [exPipe, exReaction]
  projectile := by norm_num [exPipe, exReaction]
  ejectile := by norm_num [exPipe, exReaction]
  decays := by
    intro d hd
    simp only [exPipe, List.mem_singleton] at hd
    subst hd
    norm_num [exDecay]

theorem exExcitation_pos (s : ℕ) : 0 < exExcitation s := by
  unfold exExcitation; split_ifs <;> norm_num

theorem exPipe_samples : SamplesOk exPipe := by
  intro s x s' h
  rw [exPipe_sample] at h
  simp only [Except.ok.injEq, Prod.mk.injEq] at h
  obtain ⟨rfl, -⟩ := h
  have := exExcitation_pos s
  refine ⟨by norm_num [exPipe, exReaction, exSample], ?_, ?_⟩
  · simp only [exPipe, exReaction, exSample]; linarith
  · intro de hde
    simp only [exPipe, exSample, List.zip_cons_cons, List.zip_nil_right, List.mem_singleton] at hde
    subst hde
    norm_num [exDecay]

theorem exPipe_allowed (s : ℕ) (hs : s ≠ 0) : EnergyAllowed exPipe (exSample s) := by
  have hW := exReaction_cm
  unfold cmEnergy at hW
  refine ⟨by norm_num [exSample], ?_, ?_, trivial⟩
  · simp only [exPipe, exSample]
    rw [hW]
    unfold exExcitation
    rw [if_neg hs]
    split_ifs <;> norm_num [exReaction]
  · simp only [exPipe, exSample, exDecay, exReaction]
    unfold exExcitation
    rw [if_neg hs]
    split_ifs <;> norm_num

theorem exPipe_forbidden : ¬ EnergyAllowed exPipe (exSample 0) := by
  have hW := exReaction_cm
  unfold cmEnergy at hW
  rintro ⟨-, h, -⟩
  simp only [exPipe, exSample] at h
  rw [hW] at h
  norm_num [exReaction, exExcitation] at h

theorem exPipe_accepts (s : ℕ) (x : Sample) (s' : ℕ) (h : exPipe.sample s = .ok (x, s'))
    (ha : exPipe.reaction.is_excitation_allowed x.beam_energy x.reaction_excitation = true) :
    ∃ res, exPipe.reaction.calculate x.beam_energy x.reaction_theta x.reaction_phi
      x.reaction_excitation = .ok res := by
  have hx := exPipe_samples s x s' h
  rw [exPipe_sample] at h
  simp only [Except.ok.injEq, Prod.mk.injEq] at h
  obtain ⟨rfl, -⟩ := h
  obtain ⟨t, b, e, q, h⟩ := C43_partial exReaction_ok (T := 5) (by norm_num) (hx.residual.le) ha
    (by norm_num [exReaction]) (.inl (by norm_num [exReaction])) (1 / 2) 0
  exact ⟨_, h⟩

/-- C46, C49 and C50 apply: starting in generator state 0, the first sample of the example pipeline is
forbidden and the second one is returned. -/
theorem exPipe_first (buf : List ResultRow) (hb : buf.length = 6) :
    ∃ st', exPipe.run ⟨0, buf⟩ = (.ok (0, 0, 0), st') ∧ st'.gen = 12 ∧
      eventRows exPipe (exSample 6) = .ok (some st'.result) :=
  C49_returns_partial exPipe_Built countGen_lawful exPipe_chain exPipe_samples (st := ⟨0, buf⟩)
    (by simpa [exPipe] using hb) exPipe_accepts (k := 1) (by norm_num [exPipe])
    (.succ (exPipe_sample 0) exPipe_forbidden (.zero _)) (exPipe_sample 6)
    (exPipe_allowed 6 (by norm_num))

theorem exPipe_second (buf : List ResultRow) (hb : buf.length = 6) :
    ∃ st', exPipe.run ⟨12, buf⟩ = (.ok (0, 0, 0), st') ∧ st'.gen = 18 ∧
      eventRows exPipe (exSample 12) = .ok (some st'.result) :=
  C49_returns_partial exPipe_Built countGen_lawful exPipe_chain exPipe_samples (st := ⟨12, buf⟩)
    (by simpa [exPipe] using hb) exPipe_accepts (k := 0) (by norm_num [exPipe])
    (.zero _) (exPipe_sample 12) (exPipe_allowed 12 (by norm_num))

/-- C49_limit applies to the example pipeline with a limit of one sample. -/
example : ({ exPipe with event_sample_limit := 1 }.run ⟨0, List.replicate 6 none⟩).1
    = .error .pipelineError := by
  let p : Pipeline ℕ := { exPipe with event_sample_limit := 1 }
  have hp : ∀ s, p.sample s = .ok (exSample s, s + 6) := fun s => rfl
  refine (C49_limit (p := p) ⟨rfl, rfl⟩ countGen_lawful
    ⟨exPipe_chain.target, exPipe_chain.projectile, exPipe_chain.ejectile, exPipe_chain.decays⟩
    ?_ ?_ rfl).2 exPipe_accepts ⟨6, .succ (hp 0) exPipe_forbidden (.zero _)⟩
  · intro s x s' h
    have := exPipe_samples s x s' h
    exact ⟨this.beam, this.residual, this.decays⟩
  · intro s; rw [hp]; simp

/-- C47 applies to the example chain. -/
example : ∃ (get_data : NuclearMap) (S : Set Nucleus), Faithful get_data ∧ Species S ∧
    ∀ s ∈ [Step.reaction exReaction, .decay exDecay], MadeFrom get_data S s := by
  refine ⟨fun z a => if z = 1 ∧ a = 3 then .ok ⟨1, 3, 3, "3H"⟩
    else if z = 1 ∧ a = 2 then .ok ⟨1, 2, 2, "2H"⟩ else .error .keyError,
    {⟨1, 2, 2, "2H"⟩, ⟨1, 1, 1, "1H"⟩, ⟨1, 3, 3, "3H"⟩, ⟨0, 1, 1, "1n"⟩}, ?_, ?_, ?_⟩
  · intro z a n h
    beta_reduce at h
    split_ifs at h with h1 h2
    · simp only [Except.ok.injEq] at h; subst h; exact ⟨h1.1.symm, h1.2.symm⟩
    · simp only [Except.ok.injEq] at h; subst h; exact ⟨h2.1.symm, h2.2.symm⟩
  · constructor
    · intro n hn m hm h
      simp only [Set.mem_insert_iff, Set.mem_singleton_iff] at hn hm
      rcases hn with rfl | rfl | rfl | rfl <;> rcases hm with rfl | rfl | rfl | rfl <;>
        first | exact ⟨rfl, rfl⟩ | (exfalso; revert h; decide)
    · intro n hn
      simp only [Set.mem_insert_iff, Set.mem_singleton_iff] at hn
      rcases hn with rfl | rfl | rfl | rfl <;> simp
    · intro n hn
      simp only [Set.mem_insert_iff, Set.mem_singleton_iff] at hn
      rcases hn with rfl | rfl | rfl | rfl <;> simp
  · intro s hs
    simp only [List.mem_cons, List.not_mem_nil, or_false] at hs
    rcases hs with rfl | rfl
    · simp [MadeFrom, exReaction, mkReaction]
    · simp [MadeFrom, exDecay, mkDecay]

/-! ## C49: the sampling loop can end with ValueError -/

/-- A pipeline with the exothermic reaction of `C43_refuted`. -/
noncomputable def exoPipe : Pipeline ℕ :=
  { reaction := exExothermic, decays := [], excitations := [fun s => .ok (10.1, s + 1)],
    polar_dists := [fun s => .ok (1 / 2, s + 1)], beam_energy := 0.852, target_material := none,
    event_sample_limit := 1000, rng := countGen }

/-- **C49 is false in one respect.** For a well-formed pipeline whose very first sample is energetically
allowed, `run` raises ValueError instead of returning its event, because `calculate` uses a wrong
threshold (C43). -/
theorem C49_refuted : Built exoPipe ∧ ChainOk exoPipe ∧ SamplesOk exoPipe ∧
    (∃ x, exoPipe.sample 0 = .ok (x, 3) ∧ EnergyAllowed exoPipe x) ∧
    (exoPipe.run ⟨0, List.replicate 4 none⟩).1 = .error .valueError := by
  obtain ⟨hok, ha, hcalc⟩ := C43_refuted
  have hchain : ChainOk exoPipe := ⟨hok.target, hok.projectile, hok.ejectile, by simp [exoPipe]⟩
  let x : Sample := ⟨0.852, 10.1, 1 / 2, 0, (0, 0, 0), [], [], []⟩
  have hs : ∀ s, exoPipe.sample s = .ok (x, s + 3) := fun s => rfl
  have hsamp : SamplesOk exoPipe := by
    intro s y s' h
    rw [hs] at h
    simp only [Except.ok.injEq, Prod.mk.injEq] at h
    obtain ⟨rfl, -⟩ := h
    exact ⟨by norm_num [exoPipe, exExothermic, x], by norm_num [exoPipe, exExothermic, x],
      by simp [exoPipe]⟩
  have hall := (reaction_allowed_iff hchain (hsamp 0 x 3 (hs 0))).1 ha
  refine ⟨⟨rfl, rfl⟩, hchain, hsamp, ⟨x, hs 0, hall.1, hall.2, trivial⟩, ?_⟩
  have hat : ∀ buf, exoPipe.attempt x buf = (.error .valueError, buf) := by
    intro buf
    have ha' : exoPipe.reaction.is_excitation_allowed x.beam_energy x.reaction_excitation = true := ha
    have hc' : exoPipe.reaction.calculate x.beam_energy x.reaction_theta x.reaction_phi
        x.reaction_excitation = .error .valueError := hcalc _ _
    unfold Pipeline.attempt
    rw [ha', hc']
    rfl
  show (exoPipe.runLoop (999 + 1) _).1 = _
  unfold Pipeline.runLoop
  simp only [hs, hat]

/-! ## C51: aliasing -/

/-- **C51 is false for `run`.** The array returned by one call is overwritten by the next call: for the
example pipeline, the caller's array has other contents after the second call. -/
theorem C51_refuted : ∃ st0 v1 st1 v2 st2, exPipe.run st0 = (.ok v1, st1) ∧
    exPipe.run st1 = (.ok v2, st2) ∧ st1.returned_array ≠ st2.returned_array := by
  obtain ⟨st1, h1, g1, r1⟩ := exPipe_first (List.replicate 6 none) rfl
  have hl1 : st1.result.length = 6 := by
    have := run_length exPipe (st := ⟨0, List.replicate 6 none⟩) rfl
    rw [h1] at this; exact this
  obtain ⟨st2, h2, g2, r2⟩ := exPipe_second st1.result hl1
  have he : st1 = ⟨12, st1.result⟩ := by rw [← g1]
  rw [← he] at h2
  refine ⟨_, _, st1, _, st2, h1, h2, ?_⟩
  intro heq
  obtain ⟨-, t, b, e, r, rs, i1, i2⟩ := eventRows_some exPipe_chain
    (exPipe_samples 6 _ _ (exPipe_sample 6)) r1
  obtain ⟨-, t', b', e', r', rs', j1, j2⟩ := eventRows_some exPipe_chain
    (exPipe_samples 12 _ _ (exPipe_sample 12)) r2
  unfold PipeState.returned_array at heq
  rw [i1, j1] at heq
  simp only [List.map_cons, List.cons.injEq, Option.some.injEq] at heq
  obtain ⟨-, -, -, rfl, -⟩ := heq
  have := i2.residual_M.symm.trans j2.residual_M
  norm_num [exSample, exExcitation] at this

variable {σ : Type}

/-- The pipeline states visited by successive runs. -/
theorem Produced_states {p : Pipeline σ} {st st' : PipeState σ} {evs : List (Event (List ResultRow))}
    (h : Produced p.runCopy st evs st') :
    ∃ states : List (PipeState σ), states.length = evs.length + 1 ∧ states[0]? = some st ∧
      ∀ k (hk : k < evs.length), ∃ a b, states[k]? = some a ∧ states[k + 1]? = some b ∧
        p.run a = (.ok evs[k].1, b) ∧ evs[k].2 = b.result := by
  induction h with
  | nil st => exact ⟨[st], rfl, rfl, by intro k hk; simp at hk⟩
  | cons hrun _ ih =>
    rename_i st0 e st1 evs st2 _
    obtain ⟨states, hl, h0, hk⟩ := ih
    refine ⟨st0 :: states, by simp [hl], rfl, ?_⟩
    intro k hk'
    cases k with
    | zero =>
      unfold Pipeline.runCopy at hrun
      rcases hr : p.run st0 with ⟨o, b⟩
      rw [hr] at hrun
      cases o with
      | error e => simp at hrun
      | ok v =>
        simp only [Prod.mk.injEq, Except.ok.injEq] at hrun
        obtain ⟨rfl, rfl⟩ := hrun
        exact ⟨st0, b, rfl, by simpa using h0, hr, rfl⟩
    | succ k =>
      obtain ⟨a, b, i1, i2, i3, i4⟩ := hk k (by simpa using hk')
      exact ⟨a, b, by simpa using i1, by simpa using i2, by simpa using i3, by simpa using i4⟩

/-- **C51, the part that holds.** The events in the kinematics file are snapshots: event `k` of the
finished file is the array as it was right after run `k`, whatever later runs wrote. -/
theorem C51_partial (p : Pipeline σ) (cs : ℕ) (hcs : 1 ≤ cs) (n : ℤ) (st0 : PipeState σ)
    (st : KinRun (List ResultRow) (PipeState σ))
    (h : run_kinematics_pipeline p.runCopy p.get_proton_numbers p.get_mass_numbers cs n st0
      = (.ok (), st)) :
    ∃ states : List (PipeState σ), states.length = n.toNat + 1 ∧ states[0]? = some st0 ∧
      ∀ k < n.toNat, ∃ a b v, states[k]? = some a ∧ states[k + 1]? = some b ∧
        p.run a = (.ok v, b) ∧ read_event st.file cs k = .ok (b.result, v) := by
  obtain ⟨evs, hp, hl, -, -, -, -, hread⟩ := C37_round_trip _ _ _ cs hcs n st0 st h
  obtain ⟨states, h1, h2, h3⟩ := Produced_states hp
  refine ⟨states, by rw [h1, hl], h2, fun k hk => ?_⟩
  obtain ⟨a, b, i1, i2, i3, i4⟩ := h3 k (by omega)
  exact ⟨a, b, _, i1, i2, i3, by rw [hread k (by omega), i4]⟩

/-! ## C53 -/

/-- **C53 is false.** The example pipeline returns an event with excitations 1.9 and 1.7, for which
`check_excitations_allowed` returns False: it never adds back the mass of the decaying nucleus. -/
theorem C53_refuted : (∃ st st', exPipe.run st = (.ok (0, 0, 0), st') ∧
      eventRows exPipe (exSample 6) = .ok (some st'.result)) ∧
    exPipe.check_excitations_allowed (exSample 6).beam_energy
      ((exSample 6).reaction_excitation :: (exSample 6).decay_excitations) = .ok false := by
  obtain ⟨st', h, -, h'⟩ := exPipe_first (List.replicate 6 none) rfl
  refine ⟨⟨_, st', h, h'⟩, ?_⟩
  norm_num [Pipeline.check_excitations_allowed, exPipe, exSample, exReaction, exDecay, exExcitation]

/-- **C53, the part that holds.** For a pipeline without decays, `check_excitations_allowed` returns
True for every sample that `run` accepts. -/
theorem C53_partial {p : Pipeline σ} (hd : p.decays = []) (hc : ChainOk p) {x : Sample}
    (hE : EnergyAllowed p x) :
    p.check_excitations_allowed x.beam_energy [x.reaction_excitation] = .ok true := by
  obtain ⟨hT, hE, -⟩ := hE
  have ht := hc.target
  have hp := hc.projectile
  have hle : Real.sqrt ((p.reaction.target.mass + p.reaction.projectile.mass) ^ 2
        + 2 * p.reaction.target.mass * x.beam_energy)
      ≤ p.reaction.projectile.mass + x.beam_energy + p.reaction.target.mass := by
    apply Real.sqrt_le_iff.2
    constructor
    · positivity
    · nlinarith [mul_nonneg hT hp]
  unfold Pipeline.check_excitations_allowed
  simp only [hd, List.length_nil, lt_irrefl, if_false, List.zip_nil_left, List.foldl_nil]
  rw [decide_eq_true (by linarith)]

/-- For decays the check compares the wrong energy: it is True exactly when the beam energy plus the
masses of target and projectile exceed the masses and excitations of *all* products, including the
decayed ones. -/
theorem check_excitations_value (p : Pipeline σ) (T ex0 : ℝ) (exs : List ℝ)
    (hl : p.decays.length ≤ exs.length) :
    p.check_excitations_allowed T (ex0 :: exs) = .ok (decide
      (p.reaction.ejectile.mass + p.reaction.residual.mass + ex0
        + ((p.decays.zip exs).map fun de =>
            de.1.residual_1.mass + de.1.residual_2.mass + de.2).sum
        ≤ p.reaction.projectile.mass + T + p.reaction.target.mass)) := by
  have key : ∀ (l : List (Decay × ℝ)) (q : ℝ), l.foldl (fun q de =>
      q + -1 * (de.1.residual_1.mass + de.1.residual_2.mass + de.2)) q
      = q - (l.map fun de => de.1.residual_1.mass + de.1.residual_2.mass + de.2).sum := by
    intro l
    induction l with
    | nil => intro q; simp
    | cons a l ih =>
      intro q
      rw [List.foldl_cons, ih, List.map_cons, List.sum_cons]
      ring
  unfold Pipeline.check_excitations_allowed
  simp only [not_lt.2 hl, if_false, key]
  congr 1
  apply decide_eq_decide.2
  constructor <;> intro h <;> linarith

/-- **C53 is false for every pipeline with a decay.** Whatever the excitations, the check returns False
unless the beam energy plus the Q-value of the reaction exceeds the rest masses of the products of the
first decay, an energy of the order of the mass of a whole nucleus. -/
theorem C53_decays_refuted {p : Pipeline σ} {d : Decay} {ds : List Decay} (hd : p.decays = d :: ds)
    (hm : ∀ d ∈ ds, 0 ≤ d.residual_1.mass + d.residual_2.mass) {T ex0 : ℝ} {exs : List ℝ}
    (hl : p.decays.length ≤ exs.length) (hex0 : 0 ≤ ex0) (hex : ∀ e ∈ exs, 0 ≤ e)
    (hT : T + (p.reaction.projectile.mass + p.reaction.target.mass - p.reaction.ejectile.mass
      - p.reaction.residual.mass) < d.residual_1.mass + d.residual_2.mass) :
    p.check_excitations_allowed T (ex0 :: exs) = .ok false := by
  rw [check_excitations_value p T ex0 exs hl, decide_eq_false]
  rw [hd] at hl ⊢
  cases exs with
  | nil => simp at hl
  | cons e exs =>
    have h1 : 0 ≤ ((ds.zip exs).map fun de =>
        de.1.residual_1.mass + de.1.residual_2.mass + de.2).sum := by
      apply List.sum_nonneg
      intro x hx
      obtain ⟨de, hde, rfl⟩ := List.mem_map.1 hx
      have i1 := hm _ (List.of_mem_zip hde).1
      have i2 := hex _ (List.mem_cons_of_mem _ (List.of_mem_zip hde).2)
      linarith
    have h2 := hex e (by simp)
    simp only [List.zip_cons_cons, List.map_cons, List.sum_cons]
    linarith

/-- The example chain, with decay products of total mass 3, is rejected at beam energy 2 even in its
ground states, although the masses balance. -/
example (ex0 ex1 : ℝ) (h0 : 0 ≤ ex0) (h1 : 0 ≤ ex1) :
    exPipe.check_excitations_allowed 2 [ex0, ex1] = .ok false :=
  C53_decays_refuted (d := exDecay) (ds := []) rfl (by simp) (le_refl _) h0 (by simpa using h1)
    (by norm_num [exPipe, exReaction, exDecay])

end Verif.Props
