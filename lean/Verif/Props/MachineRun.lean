import Verif.Machine.Run
import Verif.Props.KinFile
import Verif.Props.MachineChain

/-! # C142: the sampling loop in machine arithmetic -/

namespace Verif.Machine

open Verif.Kinematics Verif.Spec Verif.Props
open Verif.Detector (read_event)

/-- Beam energy and excitation of the residual lie in the range in which rounding has been bounded. -/
structure Regular {σ : Type} (p : Pipeline σ) (x : Sample) : Prop where
  energy : 1e-6 ≤ x.beam_energy ∧ x.beam_energy ≤ p.reaction.target.mass + p.reaction.projectile.mass
  excitation : 0 ≤ x.reaction_excitation ∧ x.reaction_excitation ≤ 1e6

/-- The reaction is safely above its threshold, and the threshold in line 131 of kinematics/reaction.py is met. -/
structure Above {σ : Type} (k : Kin64) (p : Pipeline σ) (x : Sample) : Prop where
  margin : 1e-12 * cmEnergy p.reaction x.beam_energy ^ 3
    ≤ (cmEnergy p.reaction x.beam_energy - outMass p.reaction x.reaction_excitation)
      * (p.reaction.ejectile.mass * (p.reaction.residual.mass + x.reaction_excitation))
  threshold : ∀ err, reaction_calculate64 k p.reaction x.beam_energy x.reaction_theta x.reaction_phi
    x.reaction_excitation ≠ .error err

/-- A sample which is not within rounding of being on the other side of one of the thresholds. -/
inductive Decisive {σ : Type} (k : Kin64) (p : Pipeline σ) (x : Sample) : Prop where
  /-- There is too little energy for the reaction. -/
  | below : Regular p x → cmEnergy p.reaction x.beam_energy * (1 + 1e-14) < outMass p.reaction x.reaction_excitation →
      Decisive k p x
  /-- There is too little energy for one of the decays. -/
  | rejected {t b e r : Vec4} : Regular p x → Above k p x →
      p.reaction.calculate x.beam_energy x.reaction_theta x.reaction_phi x.reaction_excitation
        = .ok (t, some b, some e, some r) →
      Rejected x 0 (reactionError p.reaction x.beam_energy x.reaction_excitation) p.decays r → Decisive k p x
  /-- There is enough energy for everything. -/
  | accepted {t b e r : Vec4} {rows : List Vec4} : Regular p x → Above k p x →
      ChainMargin (p.reaction.residual.mass + x.reaction_excitation)
        (reactionError p.reaction x.beam_energy x.reaction_excitation) p.decays x.decay_excitations →
      p.attempt x (List.replicate (4 + 2 * p.decays.length) none) = (.ok true, (t :: b :: e :: r :: rows).map some) →
      SlowParents r rows → Decisive k p x

/-- The computed event is near the exact one. -/
def EventNear {σ : Type} (p : Pipeline σ) (x : Sample) : List Vec4 → List Vec4 → Prop
  | t :: b :: e :: r :: rows, t0 :: b0 :: e0 :: r0 :: rows0 => t = t0 ∧
      Near (1e-15 * cmEnergy p.reaction x.beam_energy) b b0 ∧
      Near (reactionError p.reaction x.beam_energy x.reaction_excitation) e e0 ∧
      Near (reactionError p.reaction x.beam_energy x.reaction_excitation) r r0 ∧
      RowsNear (p.reaction.residual.mass + x.reaction_excitation)
        (reactionError p.reaction x.beam_energy x.reaction_excitation) p.decays x.decay_excitations rows rows0
  | _, _ => False

variable {σ : Type} {k : Kin64} {p : Pipeline σ}

/-- **C142.** A decisive sample is rejected by both arithmetics, or accepted by both with nearly the same event. -/
theorem C142_sample (hk : k.Accurate) (hm : MassesOk p.reaction) {x : Sample} (h : Decisive k p x) :
    (attempt64 k p x = .ok none ∧ ∀ buf : List ResultRow, buf.length = 4 + 2 * p.decays.length →
      (p.attempt x buf).1 = .ok false) ∨
    ∃ rows rows0, attempt64 k p x = .ok (some rows) ∧ (∀ buf : List ResultRow, buf.length = 4 + 2 * p.decays.length →
      p.attempt x buf = (.ok true, rows0.map some)) ∧ EventNear p x rows rows0 := by
  cases h with
  | below hr hlt =>
    left
    have T0 : 0 ≤ x.beam_energy := le_trans (by norm_num) hr.energy.1
    have hro : ReactionOk p.reaction :=
      ⟨by linarith [hm.target.1], by linarith [hm.projectile.1], by linarith [hm.ejectile.1]⟩
    constructor
    · unfold attempt64
      rw [(C136_allowed hk.rounding hm hr.energy.1 hr.energy.2 hr.excitation.1 hr.excitation.2).2 hlt]
      rfl
    · intro buf hb
      have : p.reaction.is_excitation_allowed x.beam_energy x.reaction_excitation = false := by
        rw [Bool.eq_false_iff, ne_eq, C42_reaction hro T0, parent_M hro T0]
        have hc : Verif.Props.cmEnergy p.reaction x.beam_energy = cmEnergy p.reaction x.beam_energy := rfl
        rw [hc]
        have : 0 ≤ cmEnergy p.reaction x.beam_energy := Real.sqrt_nonneg _
        unfold outMass at hlt
        norm_num at hlt ⊢
        linarith
      unfold Pipeline.attempt
      rw [this]
      rfl
  | rejected hr ha hc hj =>
    left
    exact ⟨(C141_rejected hk hm hr.energy.1 hr.energy.2 hr.excitation.1 hr.excitation.2 ha.margin ha.threshold hc hj
      (buf := List.replicate (4 + 2 * p.decays.length) none) (by simp)).1, fun buf hb =>
      (C141_rejected hk hm hr.energy.1 hr.energy.2 hr.excitation.1 hr.excitation.2 ha.margin ha.threshold hc hj hb).2⟩
  | accepted hr ha hc h0 hs =>
    right
    rename_i t0 b0 e0 r0 rows0
    obtain ⟨b, e, r, rows, h1, h2, h3, h4, h5⟩ := C141_event hk hm hr.energy.1 hr.energy.2 hr.excitation.1
      hr.excitation.2 ha.margin ha.threshold hc (by simp) h0 hs
    refine ⟨_, t0 :: b0 :: e0 :: r0 :: rows0, h1, fun buf hb => ?_, rfl, h2, h3, h4, h5⟩
    have := (attempt_rows p x buf hb).2
    rw [attempt_event (by simp) h0] at this
    exact this

/-- The outcomes of a run in float64 and in exact arithmetic: the same exception, or the event of the same sample. The
random numbers used are the same. -/
def SameRun (p : Pipeline σ) (a : Except PyErr ((ℝ × ℝ × ℝ) × List ResultRow) × σ)
    (b : Except PyErr (ℝ × ℝ × ℝ) × PipeState σ) : Prop :=
  a.2 = b.2.gen ∧ ((∃ e, a.1 = .error e ∧ b.1 = .error e) ∨
    ∃ x rows rows0, a.1 = .ok (x.vertex, rows.map some) ∧ b.1 = .ok x.vertex ∧ b.2.result = rows0.map some ∧
      EventNear p x rows rows0)

theorem runLoop_same (hk : k.Accurate) (hm : MassesOk p.reaction) {I : σ → Prop}
    (hI : ∀ s x s', I s → p.sample s = .ok (x, s') → Decisive k p x ∧ I s') (n : ℕ) :
    ∀ st : PipeState σ, I st.gen → st.result.length = 4 + 2 * p.decays.length →
      SameRun p (runLoop64 k p p.sample n st.gen) (p.runLoop n st) ∧ I (p.runLoop n st).2.gen ∧
      (p.runLoop n st).2.result.length = 4 + 2 * p.decays.length := by
  induction n with
  | zero => exact fun st hs hb => ⟨⟨rfl, .inl ⟨_, rfl, rfl⟩⟩, hs, hb⟩
  | succ n ih =>
    intro st hs hb
    rw [runLoop64, Pipeline.runLoop]
    rcases hx : p.sample st.gen with err | ⟨x, s⟩
    · exact ⟨⟨rfl, .inl ⟨err, rfl, rfl⟩⟩, hs, hb⟩
    · obtain ⟨hd, hs'⟩ := hI _ _ _ hs hx
      have hlen := (attempt_rows p x st.result hb).1
      rcases C142_sample hk hm hd with ⟨h1, h2⟩ | ⟨rows, rows0, h1, h2, h3⟩
      · have h2 := h2 _ hb
        simp only [h1]
        rcases ha : p.attempt x st.result with ⟨res, buf⟩
        rw [ha] at h2 hlen
        simp only at h2 hlen
        subst h2
        exact ih ⟨s, buf⟩ hs' (hlen.trans hb)
      · have h2 := h2 _ hb
        rw [h2] at hlen
        simp only [h1, h2]
        exact ⟨⟨rfl, .inr ⟨x, rows, rows0, rfl, rfl, rfl, h3⟩⟩, hs', hlen.trans hb⟩

/-- **C142.** If all samples that can be drawn are decisive, float64 and exact arithmetic draw the same number of
samples, and return the event of the same sample, or raise the same exception. -/
theorem C142_run (hk : k.Accurate) (hm : MassesOk p.reaction) {I : σ → Prop}
    (hI : ∀ s x s', I s → p.sample s = .ok (x, s') → Decisive k p x ∧ I s') {st : PipeState σ} (hs : I st.gen)
    (hb : st.result.length = 4 + 2 * p.decays.length) : SameRun p (run64 k p p.sample st.gen) (p.run st) :=
  (runLoop_same hk hm hI _ st hs hb).1

/-- Two events with the same vertex and nearly the same momenta. -/
def SameEvent (p : Pipeline σ) (a b : Event (List ResultRow)) : Prop :=
  a.1 = b.1 ∧ ∃ x : Sample, x.vertex = b.1 ∧ ∃ rows rows0, a.2 = rows.map some ∧ b.2 = rows0.map some ∧
    EventNear p x rows rows0

/-- **C142.** A sequence of events in exact arithmetic is a sequence of events in float64, with nearly the same
momenta. -/
theorem C142_events (hk : k.Accurate) (hm : MassesOk p.reaction) {I : σ → Prop}
    (hI : ∀ s x s', I s → p.sample s = .ok (x, s') → Decisive k p x ∧ I s') {st st' : PipeState σ}
    {evs : List (Event (List ResultRow))} (h : Produced p.runCopy st evs st') (hs : I st.gen)
    (hb : st.result.length = 4 + 2 * p.decays.length) :
    ∃ evs', Produced (run64 k p p.sample) st.gen evs' st'.gen ∧ List.Forall₂ (SameEvent p) evs' evs := by
  induction h with
  | nil st => exact ⟨[], .nil _, .nil⟩
  | @cons st e st1 evs st2 hrun _ ih =>
    obtain ⟨⟨h1, h2⟩, h3, h4⟩ := runLoop_same hk hm hI p.event_sample_limit.toNat st hs hb
    change _ = (p.run st).2.gen at h1
    change I (p.run st).2.gen at h3
    change (p.run st).2.result.length = _ at h4
    change (∃ e, _ ∧ (p.run st).1 = _) ∨ ∃ x rows rows0, _ ∧ (p.run st).1 = _ ∧ (p.run st).2.result = _ ∧ _ at h2
    unfold Pipeline.runCopy at hrun
    rcases hr : p.run st with ⟨res, st3⟩
    rw [hr] at hrun h1 h2 h3 h4
    rcases h2 with ⟨err, -, h2⟩ | ⟨x, rows, rows0, g1, g2, g3, g4⟩
    · simp only at h2
      subst h2
      simp at hrun
    · simp only at g2
      subst g2
      simp only [Prod.mk.injEq, Except.ok.injEq] at hrun
      obtain ⟨rfl, rfl⟩ := hrun
      obtain ⟨evs', i1, i2⟩ := ih h3 h4
      refine ⟨(x.vertex, rows.map some) :: evs', .cons (Prod.ext g1 h1) i1, .cons ⟨rfl, x, rfl, rows, rows0, rfl, g3, g4⟩ i2⟩

/-- The runs of float64 that succeed are the runs of exact arithmetic that do. -/
theorem events_back (hk : k.Accurate) (hm : MassesOk p.reaction) {I : σ → Prop}
    (hI : ∀ s x s', I s → p.sample s = .ok (x, s') → Decisive k p x ∧ I s') {s s' : σ}
    {evs : List (Event (List ResultRow))} (h : Produced (run64 k p p.sample) s evs s') : ∀ st : PipeState σ, st.gen = s → I s →
    st.result.length = 4 + 2 * p.decays.length → ∃ evs0 st', Produced p.runCopy st evs0 st' ∧ st'.gen = s' ∧
      evs0.length = evs.length := by
  induction h with
  | nil s => exact fun st hst _ _ => ⟨[], st, .nil _, hst, rfl⟩
  | @cons s e s1 evs s2 hrun _ ih =>
    rintro st rfl hs hb
    obtain ⟨⟨h1, h2⟩, h3, h4⟩ := runLoop_same hk hm hI p.event_sample_limit.toNat st hs hb
    change (run64 k p p.sample st.gen).2 = (p.run st).2.gen at h1
    change I (p.run st).2.gen at h3
    change (p.run st).2.result.length = _ at h4
    change (∃ e, (run64 k p p.sample st.gen).1 = _ ∧ (p.run st).1 = _) ∨ ∃ x rows rows0, (run64 k p p.sample st.gen).1 = _ ∧
      (p.run st).1 = _ ∧ (p.run st).2.result = _ ∧ _ at h2
    rw [hrun] at h1 h2
    rcases h2 with ⟨err, h2, -⟩ | ⟨x, rows, rows0, g1, g2, g3, g4⟩
    · simp at h2
    · simp only at h1
      obtain ⟨evs0, st', i1, i2, i3⟩ := ih (p.run st).2 h1.symm (h1 ▸ h3) h4
      refine ⟨(x.vertex, (p.run st).2.result) :: evs0, st', .cons ?_ i1, i2, by simp [i3]⟩
      unfold Pipeline.runCopy
      rcases hr : p.run st with ⟨res, st3⟩
      rw [hr] at g2
      simp only at g2
      subst g2
      rfl

/-- **C142.** The kinematics file: `run_kinematics_pipeline` succeeds in float64 exactly when it does in exact
arithmetic, and then every event read from the file has the vertex and nearly the momenta of exact arithmetic. -/
theorem C142_file (hk : k.Accurate) (hm : MassesOk p.reaction) {I : σ → Prop}
    (hI : ∀ s x s', I s → p.sample s = .ok (x, s') → Decisive k p x ∧ I s') {st : PipeState σ} (hs : I st.gen)
    (hb : st.result.length = 4 + 2 * p.decays.length) (zs as : List ℤ) {cs : ℕ} (hcs : 1 ≤ cs) (n : ℤ) :
    ((run_kinematics_pipeline (run64 k p p.sample) zs as cs n st.gen).1 = .ok () ↔
      (run_kinematics_pipeline p.runCopy zs as cs n st).1 = .ok ()) ∧
    ((run_kinematics_pipeline p.runCopy zs as cs n st).1 = .ok () → ∀ i < n.toNat, ∃ a b,
      read_event (run_kinematics_pipeline (run64 k p p.sample) zs as cs n st.gen).2.file cs i = .ok (a.2, a.1) ∧
      read_event (run_kinematics_pipeline p.runCopy zs as cs n st).2.file cs i = .ok (b.2, b.1) ∧ SameEvent p a b) := by
  have both : (run_kinematics_pipeline p.runCopy zs as cs n st).1 = .ok () →
      (run_kinematics_pipeline (run64 k p p.sample) zs as cs n st.gen).1 = .ok () := by
    intro h
    obtain ⟨evs, st', h1, h2⟩ := (C37_succeeds p.runCopy zs as cs hcs n st).1 h
    obtain ⟨evs', h3, h4⟩ := C142_events hk hm hI h1 hs hb
    exact (C37_succeeds _ zs as cs hcs n _).2 ⟨evs', _, h3, h4.length_eq.trans h2⟩
  refine ⟨⟨fun h => ?_, both⟩, fun h i hi => ?_⟩
  · obtain ⟨evs, s', h1, h2⟩ := (C37_succeeds (run64 k p p.sample) zs as cs hcs n st.gen).1 h
    obtain ⟨evs0, st', i1, -, i3⟩ := events_back hk hm hI h1 st rfl hs hb
    exact (C37_succeeds _ zs as cs hcs n _).2 ⟨evs0, st', i1, i3.trans h2⟩
  · obtain ⟨evs, h1, h2, -, -, -, -, h3⟩ := C37_round_trip p.runCopy zs as cs hcs n st
      (run_kinematics_pipeline p.runCopy zs as cs n st).2 (Prod.ext h rfl)
    obtain ⟨evs', g1, g2, -, -, -, -, g3⟩ := C37_round_trip (run64 k p p.sample) zs as cs hcs n st.gen
      (run_kinematics_pipeline (run64 k p p.sample) zs as cs n st.gen).2 (Prod.ext (both h) rfl)
    obtain ⟨evs'', j1, j2⟩ := C142_events hk hm hI h1 hs hb
    obtain ⟨rfl, -⟩ := Produced_unique g1 j1 (by rw [g2, j2.length_eq, h2])
    refine ⟨evs'[i]'(by omega), evs[i]'(by omega), g3 i (by omega), h3 i (by omega), ?_⟩
    exact (List.forall₂_iff_get.1 j2).2 i (by omega) (by omega)

/-! ## Example -/

/-- The chain of C141, with samples that alternate between a decay that is impossible and one that is possible, and
with the azimuthal angles drawn by the generator `g`. -/
noncomputable def exAlternate (g : Gen ℕ) : Pipeline ℕ := ⟨exScatter, [exSplit],
  [fun s => .ok (5, s), fun s => .ok (if s % 2 = 0 then 30 else 0, s + 1)],
  [fun s => .ok (1, s), fun s => .ok (1 / 2, s)], 10, none, 2, g⟩

theorem exAlternate_raise {rn : ℝ → ℝ} (h : Rounding rn) (theta phi : ℝ) (err : PyErr) :
    reaction_calculate64 (exactKin rn) exScatter 10 theta phi 5 ≠ .error err := by
  have i1 : ∀ n : ℤ, |n| < 2 ^ 53 → rn (n : ℝ) = n := fun n hn => h.int hn
  have r1 : rn 4665 = 4665 := by simpa using i1 4665 (by norm_num)
  have r2 : rn 3727 = 3727 := by simpa using i1 3727 (by norm_num)
  have r3 : rn 4670 = 4670 := by simpa using i1 4670 (by norm_num)
  have r4 : rn (-5) = -5 := by simpa using i1 (-5) (by norm_num)
  have r5 : rn 23325 = 23325 := by simpa using i1 23325 (by norm_num)
  have m7 : (7 : ℝ) ∈ Binary64 := by simpa using int_mem (n := 7) (by norm_num)
  have r6 : rn (23325 / 3727) ≤ 7 := h.le_of_le m7 (by norm_num)
  unfold reaction_calculate64
  simp only [exactKin, exScatter]
  norm_num [r1, r2, r3, r4, r5]
  rw [if_neg (by linarith)]
  repeat' split
  all_goals simp

/-- The samples that are drawn. -/
theorem exAlternate_sample (g : Gen ℕ) (s : ℕ) : ∃ phi phi' s1 s', (exAlternate g).sample s
    = .ok (⟨10, 5, 1, phi, (0, 0, 0), [if s1 % 2 = 0 then 30 else 0], [1 / 2], [phi']⟩, s') ∧
      s1 = (g.uniform 0 (Real.pi * 2) s).2 := by
  refine ⟨(g.uniform 0 (Real.pi * 2) s).1, _, _, _, rfl, rfl⟩

theorem exAlternate_masses (g : Gen ℕ) : MassesOk (exAlternate g).reaction := exScatter_masses

/-- Both kinds of samples are decisive, whatever the angles. -/
theorem exAlternate_decisive {rn : ℝ → ℝ} (h : Rounding rn) (g : Gen ℕ) (phi phi' : ℝ) :
    (Decisive (exactKin rn) (exAlternate g) ⟨10, 5, 1, phi, (0, 0, 0), [30], [1 / 2], [phi']⟩ ∧
      ((exAlternate g).attempt ⟨10, 5, 1, phi, (0, 0, 0), [30], [1 / 2], [phi']⟩ (List.replicate 6 none)).1
        = .ok false) ∧
    (Decisive (exactKin rn) (exAlternate g) ⟨10, 5, 1, phi, (0, 0, 0), [0], [1 / 2], [phi']⟩ ∧
      ((exAlternate g).attempt ⟨10, 5, 1, phi, (0, 0, 0), [0], [1 / 2], [phi']⟩ (List.replicate 6 none)).1
        = .ok true) := by
  have hk := exactKin_accurate h
  obtain ⟨e1, e2⟩ := exScatter_energy
  obtain ⟨d0, d1⟩ := exChain_error
  obtain ⟨-, hall⟩ := reaction_margin hk exScatter_masses (T := 10) (ex := 5) (by norm_num) (by norm_num [exScatter])
    (by norm_num) (by norm_num) exChain_margin
  have hro : ReactionOk exScatter := by constructor <;> norm_num [exScatter]
  obtain ⟨t, b, e, r, hcalc⟩ := C43_partial hro (T := 10) (by norm_num) (Ex := 5) (by norm_num [exScatter]) hall
    (by norm_num [exScatter]) (.inl (by norm_num [exScatter])) 1 phi
  obtain ⟨t', b', e', r', h0, h1, -, -, -, h5, -, h7, -, h9, h10, h11⟩ :=
    C40_reaction hro (T := 10) (by norm_num) (Ex := 5) (by norm_num [exScatter]) hall 1 phi hcalc
  cases h0
  have hM : r.M = 3732 := by rw [h9]; norm_num [exScatter]
  have hE : r.E ≤ 4675 := by
    have c := congrArg Vec4.E h7
    have ht := congrArg Vec4.E h1
    norm_num [exScatter] at c ht h5
    linarith
  have hsq := pow_le_pow_left₀ h11.le hE 2
  have hγ : r.E ^ 2 ≤ 4.9 * r.M ^ 2 := by
    rw [hM]
    norm_num at hsq ⊢
    linarith
  have reg : ∀ l l' l'', Regular (exAlternate g) ⟨10, 5, 1, phi, (0, 0, 0), l, l', l''⟩ := by
    intro l l' l''
    constructor <;> norm_num [exAlternate, exScatter]
  have abo : ∀ l l' l'', Above (exactKin rn) (exAlternate g) ⟨10, 5, 1, phi, (0, 0, 0), l, l', l''⟩ :=
    fun l l' l'' => ⟨exChain_margin, exAlternate_raise h 1 phi⟩
  constructor
  · have hj : Rejected ⟨10, 5, 1, phi, (0, 0, 0), [30], [1 / 2], [phi']⟩ 0 (reactionError exScatter 10 5) [exSplit] r := ?_
    · exact ⟨.rejected (reg _ _ _) (abo _ _ _) hcalc hj, (C141_rejected hk (exAlternate_masses g) (reg _ _ _).energy.1
        (reg _ _ _).energy.2 (reg _ _ _).excitation.1 (reg _ _ _).excitation.2 (abo [30] [1 / 2] [phi']).margin
        (abo [30] [1 / 2] [phi']).threshold hcalc hj (by simp [exAlternate])).2⟩
    refine .here (ex := 30) rfl hγ ?_ ?_ ?_ ?_ ?_ ?_ ?_ ?_ ?_ ?_ <;> (try rw [hM]) <;>
      norm_num [exSplit] at hsq d1 ⊢ <;> linarith
  · have hc : ChainOk (exAlternate g) := by
      refine ⟨by norm_num [exAlternate, exScatter], by norm_num [exAlternate, exScatter],
        by norm_num [exAlternate, exScatter], ?_⟩
      simp [exAlternate, exSplit]
    have hx : SampleOk (exAlternate g) ⟨10, 5, 1, phi, (0, 0, 0), [0], [1 / 2], [phi']⟩ := by
      refine ⟨by norm_num [exAlternate, exScatter], by norm_num [exAlternate, exScatter], ?_⟩
      simp [exAlternate, exSplit]
    have hn : Enough (exAlternate g) ⟨10, 5, 1, phi, (0, 0, 0), [0], [1 / 2], [phi']⟩ := by
      constructor <;> simp [exAlternate]
    have hEn : EnergyAllowed (exAlternate g) ⟨10, 5, 1, phi, (0, 0, 0), [0], [1 / 2], [phi']⟩ := by
      refine ⟨by norm_num, ?_, ?_, trivial⟩
      · change exScatter.ejectile.mass + exScatter.residual.mass + 5 < cmEnergy exScatter 10
        norm_num [exScatter] at e1 ⊢
        linarith
      · norm_num [exSplit, exAlternate, exScatter]
    obtain ⟨rows, hrows⟩ := (eventRows_cases hc hx hn).1 hEn ⟨_, hcalc⟩
    have h2 := (attempt_rows (exAlternate g) ⟨10, 5, 1, phi, (0, 0, 0), [0], [1 / 2], [phi']⟩
      (List.replicate (4 + 2 * (exAlternate g).decays.length) none) (by simp)).2
    obtain ⟨-, t, b, e, r', rs, rfl, hev⟩ := eventRows_some hc hx hrows
    have hlen := DecaysOk_length hev.decays
    have hm : (exAlternate g).reaction.residual.mass + 5 = 3732 := by norm_num [exAlternate, exScatter]
    rw [hrows] at h2
    refine ⟨.accepted (reg _ _ _) (abo _ _ _) ?_ h2 ?_, congrArg Prod.fst h2⟩
    · change ChainMargin ((exAlternate g).reaction.residual.mass + 5) _ _ _
      rw [hm]
      exact ⟨exSplit_margin, trivial⟩
    · have c := congrArg Vec4.E hev.conserved
      have ht := congrArg Vec4.E hev.target
      have hbE := hev.beam_E
      have hM : r'.M = 3732 := by rw [hev.residual_M]; norm_num [exAlternate, exScatter]
      have hEE : r'.E ≤ 4675 := by
        have := hev.ejectile_E
        norm_num [exAlternate, exScatter] at c ht hbE
        linarith
      have := pow_le_pow_left₀ hev.residual_E.le hEE 2
      match rs, hlen with
      | [a, s], _ =>
        refine ⟨?_, trivial⟩
        rw [hM]
        norm_num at this ⊢
        linarith
      | [], h => simp [exAlternate] at h
      | [_], h => simp [exAlternate] at h
      | _ :: _ :: _ :: _, h => simp [exAlternate] at h

/-- A generator that returns the lower end of the interval. -/
def exLow : Gen ℕ := { normal := fun m _ s => (m, s), uniform := fun a _ s => (a, s) }

theorem exAlternate_invariant {rn : ℝ → ℝ} (h : Rounding rn) (g : Gen ℕ) (s : ℕ) (x : Sample) (s' : ℕ) (_ : True)
    (hx : (exAlternate g).sample s = .ok (x, s')) : Decisive (exactKin rn) (exAlternate g) x ∧ True := by
  obtain ⟨phi, phi', s1, s2, h1, -⟩ := exAlternate_sample g s
  rw [h1] at hx
  cases hx
  by_cases hs : s1 % 2 = 0
  · rw [if_pos hs]
    exact ⟨(exAlternate_decisive h g phi phi').1.1, trivial⟩
  · rw [if_neg hs]
    exact ⟨(exAlternate_decisive h g phi phi').2.1, trivial⟩

/-- Whatever the generator and the number of events, float64 writes the same events as exact arithmetic, or raises the
same exception. -/
example (g : Gen ℕ) (s : ℕ) (n : ℤ) : ∃ k : Kin64, k.Accurate ∧
    SameRun (exAlternate g) (run64 k (exAlternate g) (exAlternate g).sample s) ((exAlternate g).run ⟨s, List.replicate 6 none⟩) ∧
    ((run_kinematics_pipeline (run64 k (exAlternate g) (exAlternate g).sample) [] [] 1 n s).1 = .ok () ↔
      (run_kinematics_pipeline (exAlternate g).runCopy [] [] 1 n ⟨s, List.replicate 6 none⟩).1 = .ok ()) := by
  obtain ⟨rn, h⟩ := exists_rounding
  exact ⟨_, exactKin_accurate h, C142_run (exactKin_accurate h) exScatter_masses (I := fun _ => True)
      (exAlternate_invariant h g) (st := ⟨s, List.replicate 6 none⟩) trivial (by simp [exAlternate]),
    (C142_file (exactKin_accurate h) exScatter_masses (I := fun _ => True) (exAlternate_invariant h g)
      (st := ⟨s, List.replicate 6 none⟩) trivial (by simp [exAlternate]) [] [] le_rfl n).1⟩

/-- With this generator the first sample is rejected and the second one accepted. -/
example : ∃ k : Kin64, k.Accurate ∧ ∃ rows, run64 k (exAlternate exLow) (exAlternate exLow).sample 0 = (.ok ((0, 0, 0), rows), 2) := by
  obtain ⟨rn, h⟩ := exists_rounding
  have hk := exactKin_accurate h
  refine ⟨_, hk, ?_⟩
  have s0 : (exAlternate exLow).sample 0 = .ok (⟨10, 5, 1, 0, (0, 0, 0), [30], [1 / 2], [0]⟩, 1) := rfl
  have s1 : (exAlternate exLow).sample 1 = .ok (⟨10, 5, 1, 0, (0, 0, 0), [0], [1 / 2], [0]⟩, 2) := rfl
  obtain ⟨⟨a1, a2⟩, b1, b2⟩ := exAlternate_decisive h exLow 0 0
  rcases C142_sample hk (exAlternate_masses exLow) a1 with ⟨a3, -⟩ | ⟨_, _, -, a4, -⟩
  · rcases C142_sample hk (exAlternate_masses exLow) b1 with ⟨-, b3⟩ | ⟨rows, _, b4, -, -⟩
    · rw [b3 _ (by simp [exAlternate])] at b2
      cases b2
    · refine ⟨rows.map some, ?_⟩
      change runLoop64 _ _ _ 2 0 = _
      rw [runLoop64, s0]
      simp only [a3]
      rw [runLoop64, s1]
      simp only [b4]
  · rw [a4 _ (by simp [exAlternate])] at a2
    cases a2

end Verif.Machine
