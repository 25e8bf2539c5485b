import Verif.Proofs.Independence
import Verif.Props.Run
import Verif.Props.Counts
import Verif.Props.BeamEnergy

/-! # C122: simulated events are independent, and their times are uniform within the time buckets -/

namespace Verif.Props

open MeasureTheory Verif.Spec Verif.Detector Verif.Kinematics

variable {σ τ : Type} [MeasurableSpace σ] {μ : Measure σ} [IsProbabilityMeasure μ]
  {rng : Gen σ} {u z : σ → ℝ} {next skip : σ → σ}

/-- **C122.** With an ideal generator, the cloud and the labels of an event are independent of the generator
state that `simulate` leaves, which is distributed like a new one. The events for which `simulate` raises
are left out on both sides. -/
theorem C122_fresh (hr : FreshGen rng μ u z next skip) (env : SimEnv) (momenta : List Vec4)
    (vertex : ℝ × ℝ × ℝ) (zs as : List ℤ) (config : Config) (indices : List ℤ) :
    FreshResult μ (simulate env momenta vertex zs as config rng indices) :=
  simulate_fresh hr env momenta vertex zs as config indices

/-! ## Runs -/

/-- The generator states from which event `k`, simulated alone, gives a cloud and labels in `B`. -/
def alone (env : SimEnv) (config : Config) (file : KinFile (List Vec4)) (zs as : List ℤ) (cs : ℕ)
    (indices : List ℤ) (rng : Gen σ) (k : ℕ) (B : Set (List CloudPoint × List ℤ)) : Set σ :=
  {s | ∃ momenta vertex, read_event file cs k = .ok (momenta, vertex) ∧
    ∃ r s', simulate env momenta vertex zs as config rng indices s = .ok (r, s') ∧ r ∈ B}

/-- The generator states from which `n` events from number `k` on give clouds and labels in `B`. -/
def together (env : SimEnv) (config : Config) (file : KinFile (List Vec4)) (zs as : List ℤ) (cs : ℕ)
    (indices : List ℤ) (rng : Gen σ) (k n : ℕ) (B : ℕ → Set (List CloudPoint × List ℤ)) : Set σ :=
  {s | ∃ evs s', Simulated env config file zs as cs indices rng k s evs s' ∧ evs.length = n ∧
    ∀ (i : ℕ) (hi : i < evs.length), (evs[i].cloud, evs[i].labels) ∈ B (k + i)}

theorem together_prob (hr : FreshGen rng μ u z next skip) (env : SimEnv) (config : Config)
    (file : KinFile (List Vec4)) (zs as : List ℤ) (cs : ℕ) (indices : List ℤ)
    (B : ℕ → Set (List CloudPoint × List ℤ)) (hB : ∀ k, MeasurableSet (B k)) (n : ℕ) : ∀ k,
    MeasurableSet (together env config file zs as cs indices rng k n B) ∧
    μ (together env config file zs as cs indices rng k n B)
      = ∏ i ∈ Finset.range n, μ (alone env config file zs as cs indices rng (k + i) (B (k + i))) := by
  induction n with
  | zero =>
    intro k
    have : together env config file zs as cs indices rng k 0 B = Set.univ := by
      ext s
      simp only [together, Set.mem_setOf_eq, Set.mem_univ, iff_true]
      exact ⟨[], s, .nil _ _, rfl, by simp⟩
    rw [this]
    exact ⟨MeasurableSet.univ, by simp⟩
  | succ n ih =>
    intro k
    obtain ⟨hm, hp⟩ := ih (k + 1)
    rw [Finset.prod_range_succ']
    cases hread : read_event file cs k with
    | error e =>
      have h1 : together env config file zs as cs indices rng k (n + 1) B = ∅ := by
        ext s
        simp only [together, Set.mem_setOf_eq, Set.mem_empty_iff_false, iff_false]
        rintro ⟨evs, s', hS, hl, -⟩
        cases hS with
        | nil => simp at hl
        | cons h1 _ _ => rw [hread] at h1; cases h1
      have h2 : alone env config file zs as cs indices rng k (B k) = ∅ := by
        ext s
        simp [alone, hread]
      rw [h1]
      simp [h2]
    | ok mv =>
      obtain ⟨momenta, vertex⟩ := mv
      have h1 : together env config file zs as cs indices rng k (n + 1) B
          = {s | ∃ a s', simulate env momenta vertex zs as config rng indices s = .ok (a, s') ∧
              a ∈ B k ∧ s' ∈ together env config file zs as cs indices rng (k + 1) n B} := by
        ext s
        simp only [together, Set.mem_setOf_eq]
        constructor
        · rintro ⟨evs, s', hS, hl, hi⟩
          cases hS with
          | nil => simp at hl
          | @cons _ _ m v cloud labels s1 evs _ g1 g2 g3 =>
            rw [hread] at g1
            obtain ⟨rfl, rfl⟩ := Prod.mk.inj (Except.ok.inj g1)
            refine ⟨(cloud, labels), s1, g2, hi 0 (by simp), evs, s', g3, by simpa using hl, ?_⟩
            intro i hi'
            have := hi (i + 1) (by simpa using hi')
            rw [List.getElem_cons_succ] at this
            rwa [show k + 1 + i = k + (i + 1) by omega]
        · rintro ⟨⟨cloud, labels⟩, s1, g2, hb, evs, s', g3, hl, hi⟩
          refine ⟨_, s', .cons hread g2 g3, by simp [hl], ?_⟩
          intro i hi'
          cases i with
          | zero => simpa using hb
          | succ i =>
            have := hi i (by simpa using hi')
            rw [List.getElem_cons_succ]
            rwa [show k + (i + 1) = k + 1 + i by omega]
      have h2 : alone env config file zs as cs indices rng k (B k)
          = {s | ∃ a s', simulate env momenta vertex zs as config rng indices s = .ok (a, s') ∧ a ∈ B k} := by
        ext s
        simp only [alone, Set.mem_setOf_eq, hread]
        constructor
        · rintro ⟨m, v, g, h⟩
          obtain ⟨rfl, rfl⟩ := Prod.mk.inj (Except.ok.inj g)
          exact h
        · exact fun h => ⟨momenta, vertex, rfl, h⟩
      have hf := simulate_fresh hr env momenta vertex zs as config indices
      rw [h1]
      refine ⟨hf.measurable _ _ (hB k) hm, ?_⟩
      rw [hf.indep _ _ (hB k) hm, hp, ← h2, mul_comm]
      congr 1
      refine Finset.prod_congr rfl fun i _ => ?_
      rw [show k + 1 + i = k + (i + 1) by omega]

/-- **C122.** The events of a run are independent: the probability that the first `n` events of a file are
simulated without exception and give clouds and labels in the sets `B 0`, …, `B (n-1)` is the product of
the probabilities for the single events, each simulated alone with a new generator. -/
theorem C122_events (hr : FreshGen rng μ u z next skip) (env : SimEnv) (config : Config)
    (file : KinFile (List Vec4)) (zs as : List ℤ) (cs : ℕ) (indices : List ℤ) (n : ℕ)
    (B : ℕ → Set (List CloudPoint × List ℤ)) (hB : ∀ k, MeasurableSet (B k)) :
    μ {s | ∃ evs s', Simulated env config file zs as cs indices rng 0 s evs s' ∧ evs.length = n ∧
        ∀ (k : ℕ) (hk : k < evs.length), (evs[k].cloud, evs[k].labels) ∈ B k}
      = ∏ k ∈ Finset.range n, μ {s | ∃ momenta vertex, read_event file cs k = .ok (momenta, vertex) ∧
          ∃ r s', simulate env momenta vertex zs as config rng indices s = .ok (r, s') ∧ r ∈ B k} := by
  have := (together_prob hr env config file zs as cs indices B hB n 0).2
  simpa only [together, alone, Nat.zero_add] using this

omit [MeasurableSpace σ] in
theorem simulate_lengths {env : SimEnv} {momenta : List Vec4} {vertex : ℝ × ℝ × ℝ} {zs as : List ℤ}
    {config : Config} {indices : List ℤ} {s s' : σ} {cloud : List CloudPoint} {labels : List ℤ}
    (h : simulate env momenta vertex zs as config rng indices s = .ok ((cloud, labels), s')) :
    cloud.length = labels.length := by
  rw [simulate_eq, except_bind_ok] at h
  obtain ⟨⟨p, s1⟩, -, h⟩ := h
  have h := Except.ok.inj h
  have hlen : (rng.uniformN 0 1 (dict_to_points p).1.length s1).1.length = p.length := by
    have : ∀ n (t : σ), (rng.uniformN 0 1 n t).1.length = n := by
      intro n
      induction n with
      | zero => intro t; rfl
      | succ n ih => intro t; simp [Gen.uniformN, ih]
    rw [this]
    simp [dict_to_points]
  have h1 := congrArg (fun x => x.1.1) h
  have h2 := congrArg (fun x => x.1.2) h
  simp only at h1 h2
  rw [← h1, ← h2]
  exact maskSel_length_eq _ _ _ (by rw [List.length_map, List.length_zip, hlen]; simp [dict_to_points])

omit [MeasurableSpace σ] in
theorem written_before {env : SimEnv} {config : Config} {file : KinFile (List Vec4)} {zs as : List ℤ}
    {cs : ℕ} {indices : List ℤ} {k : ℕ} {s s' : σ} {evs : List EventOut}
    (h : Simulated env config file zs as cs indices rng k s evs s') (j : ℕ) (hj : j < k) :
    (writeCalls config evs ++ [Call.close]).findSome? (givenBy j) = none := by
  induction h with
  | nil => rfl
  | @cons k s m v cloud labels s1 evs s2 h1 h2 h3 ih =>
    have := ih (by omega)
    simp only [writeCalls, List.flatMap_cons] at this ⊢
    by_cases hc : cloud.length = 0
    · simpa [hc] using this
    · simp only [hc, if_false, List.cons_append, List.nil_append, List.findSome?_cons, givenBy]
      rw [if_neg (by omega)]
      exact this

omit [MeasurableSpace σ] in
theorem written_events {env : SimEnv} {config : Config} {file : KinFile (List Vec4)} {zs as : List ℤ}
    {cs : ℕ} {indices : List ℤ} {k : ℕ} {s s' : σ} {evs : List EventOut}
    (h : Simulated env config file zs as cs indices rng k s evs s') (i : ℕ) (hi : i < evs.length) :
    writtenAt (writeCalls config evs ++ [.close]) (k + i) = (evs[i].cloud, evs[i].labels) := by
  induction h generalizing i with
  | nil => simp at hi
  | @cons k s m v cloud labels s1 evs s2 h1 h2 h3 ih =>
    by_cases hc : cloud.length = 0
    · have hl : labels = [] := List.length_eq_zero_iff.1 (by rw [← simulate_lengths h2, hc])
      have hc' : cloud = [] := List.length_eq_zero_iff.1 hc
      have hw : writeCalls config (⟨k, cloud, labels⟩ :: evs) = writeCalls config evs := by
        simp only [writeCalls, List.flatMap_cons, hc, if_true, List.nil_append]
      rw [hw]
      cases i with
      | zero =>
        unfold writtenAt
        rw [written_before h3 (k + 0) (by omega)]
        simp [hl, hc']
      | succ i =>
        have := ih i (by simpa using hi)
        rw [show k + (i + 1) = k + 1 + i by omega, this]
        rfl
    · have hw : writeCalls config (⟨k, cloud, labels⟩ :: evs)
          = .write cloud labels config k :: writeCalls config evs := by
        simp only [writeCalls, List.flatMap_cons, hc, if_false, List.cons_append, List.nil_append]
      rw [hw]
      cases i with
      | zero => simp [writtenAt, givenBy]
      | succ i =>
        have := ih i (by simpa using hi)
        rw [List.getElem_cons_succ, ← this, show k + 1 + i = k + (i + 1) by omega]
        simp only [writtenAt, List.cons_append, List.findSome?_cons, givenBy]
        rw [if_neg (by omega)]

omit [MeasurableSpace σ] in
theorem run_events_completes {env : SimEnv} {config : Config} {file : KinFile (List Vec4)} {zs as : List ℤ}
    {cs : ℕ} {indices : List ℤ} (W : SimWriter τ)
    (hW : ∀ cloud labels c n w, (W.write cloud labels c n w).1 = .ok ()) {k : ℕ} {s s' : σ}
    {evs : List EventOut} (h : Simulated env config file zs as cs indices rng k s evs s') (w : τ × List Call) :
    (run_events env config file zs as cs indices rng (logged W) evs.length k ⟨s, w⟩).1 = .ok () := by
  induction h generalizing w with
  | nil => rfl
  | @cons k s m v cloud labels s1 evs s2 h1 h2 h3 ih =>
    by_cases hc : cloud.length = 0
    · have := ih w
      simpa [run_events, run_event, h1, h2, hc] using this
    · have hc' : cloud ≠ [] := fun h => hc (by rw [h]; rfl)
      have hw := hW cloud labels config k w.1
      have := ih ((W.write cloud labels config k w.1).2, w.2 ++ [.write cloud labels config k])
      simpa [run_events, run_event, h1, h2, hc', logged, hw] using this

omit [MeasurableSpace σ] in
/-- The runs that return normally, in terms of the events. -/
theorem run_set (env : SimEnv) (config : Config)
    (file : KinFile (List Vec4)) (W : SimWriter τ)
    (hW : ∀ cloud labels c n w, (W.write cloud labels c n w).1 = .ok ())
    (hW' : ∀ w, (W.close w).1 = .ok ()) (indices : Option (List ℤ)) (w : τ) {zs as : List ℤ} {n : ℤ}
    {cs nc : ℕ} (hz : file.proton_numbers = some zs) (ha : file.mass_numbers = some as)
    (hn : file.n_events = some n) (hcs : file.chunk_size = some cs) (hnc : file.n_chunks = some nc)
    (B : ℕ → Set (List CloudPoint × List ℤ)) :
    {s | (run_simulation env config file (logged W) indices rng ⟨s, (w, [])⟩).1 = .ok () ∧
        ∀ k < n.toNat, writtenAt
          (run_simulation env config file (logged W) indices rng ⟨s, (w, [])⟩).2.writer.2 k ∈ B k}
      = together env config file zs as cs (indices.getD (default_indices zs.length)) rng 0 n.toNat B := by
  ext s
  simp only [together, Set.mem_setOf_eq, Nat.zero_add]
  constructor
  · rintro ⟨hok, hk⟩
    obtain ⟨zs', as', n', cs', nc', evs, s', g1, g2, g3, g4, -, hS, hnum, hlog⟩ :=
      C36_complete env config file W indices rng s w hok
    rw [hz] at g1; rw [ha] at g2; rw [hn] at g3; rw [hcs] at g4
    obtain rfl := Option.some.inj g1
    obtain rfl := Option.some.inj g2
    obtain rfl := Option.some.inj g3
    obtain rfl := Option.some.inj g4
    have hl : evs.length = n.toNat := by simpa using congrArg List.length hnum
    refine ⟨evs, s', hS, hl, fun k hk' => ?_⟩
    have := hk k (by omega)
    rw [hlog] at this
    have h2 := written_events hS k hk'
    rw [Nat.zero_add] at h2
    rwa [h2] at this
  · rintro ⟨evs, s', hS, hl, hi⟩
    have hok : (run_simulation env config file (logged W) indices rng ⟨s, (w, [])⟩).1 = .ok () := by
      rw [run_simulation_eq env config file (logged W) indices rng _ hz ha hn hcs hnc, ← hl]
      have := run_events_completes W hW hS (w, [])
      generalize run_events env config file zs as cs (indices.getD (default_indices zs.length)) rng
        (logged W) evs.length 0 ⟨s, (w, [])⟩ = q at this
      obtain ⟨q1, q2⟩ := q
      simp only at this
      subst this
      exact hW' _
    refine ⟨hok, fun k hk => ?_⟩
    obtain ⟨zs', as', n', cs', nc', evs', s'', g1, g2, g3, g4, -, hS', hnum, hlog⟩ :=
      C36_complete env config file W indices rng s w hok
    rw [hz] at g1; rw [ha] at g2; rw [hn] at g3; rw [hcs] at g4
    obtain rfl := Option.some.inj g1
    obtain rfl := Option.some.inj g2
    obtain rfl := Option.some.inj g3
    obtain rfl := Option.some.inj g4
    have hl' : evs'.length = n.toNat := by simpa using congrArg List.length hnum
    have uniq : ∀ {j : ℕ} {t t1 t2 : σ} {e1 e2 : List EventOut} {idx : List ℤ},
        Simulated env config file zs as cs idx rng j t e1 t1 →
        Simulated env config file zs as cs idx rng j t e2 t2 → e1.length = e2.length → e1 = e2 := by
      intro j t t1 t2 e1 e2 idx a1
      induction a1 generalizing e2 with
      | nil => intro _ h; exact (List.length_eq_zero_iff.1 h.symm).symm
      | cons b1 b2 b3 ih =>
        intro a2 hlen
        cases a2 with
        | nil => simp at hlen
        | cons c1 c2 c3 =>
          rw [b1] at c1
          obtain ⟨rfl, rfl⟩ := Prod.mk.inj (Except.ok.inj c1)
          rw [b2] at c2
          obtain ⟨⟨rfl, rfl⟩, rfl⟩ : (_ ∧ _) ∧ _ := by
            simpa only [Except.ok.injEq, Prod.mk.injEq] using c2
          rw [ih c3 (by simpa using hlen)]
    obtain rfl := uniq hS hS' (by omega)
    have h2 := written_events hS k (by omega)
    rw [Nat.zero_add] at h2
    rw [hlog, h2]
    exact hi k (by omega)

/-- **C122.** The same about a run of the simulation with any writer that does not raise: the probability
that the run returns normally and that what the writer is given for event `k` (nothing, if the cloud is
empty) lies in `B k`, for all `k`, is the product of the probabilities for the single events. -/
theorem C122_run (hr : FreshGen rng μ u z next skip) (env : SimEnv) (config : Config)
    (file : KinFile (List Vec4)) (W : SimWriter τ)
    (hW : ∀ cloud labels c n w, (W.write cloud labels c n w).1 = .ok ())
    (hW' : ∀ w, (W.close w).1 = .ok ()) (indices : Option (List ℤ)) (w : τ) {zs as : List ℤ} {n : ℤ}
    {cs nc : ℕ} (hz : file.proton_numbers = some zs) (ha : file.mass_numbers = some as)
    (hn : file.n_events = some n) (hcs : file.chunk_size = some cs) (hnc : file.n_chunks = some nc)
    (B : ℕ → Set (List CloudPoint × List ℤ)) (hB : ∀ k, MeasurableSet (B k)) :
    μ {s | (run_simulation env config file (logged W) indices rng ⟨s, (w, [])⟩).1 = .ok () ∧
        ∀ k < n.toNat, writtenAt
          (run_simulation env config file (logged W) indices rng ⟨s, (w, [])⟩).2.writer.2 k ∈ B k}
      = ∏ k ∈ Finset.range n.toNat, μ {s | ∃ momenta vertex,
          read_event file cs k = .ok (momenta, vertex) ∧
          ∃ r s', simulate env momenta vertex zs as config rng
            (indices.getD (default_indices zs.length)) s = .ok (r, s') ∧ r ∈ B k} := by
  rw [run_set env config file W hW hW' indices w hz ha hn hcs hnc B,
    (together_prob hr env config file zs as cs _ B hB n.toNat 0).2]
  simp only [alone, Nat.zero_add]

/-! ## Times -/

/-- The generator states from which the last stage of `simulate` gives rows related to the cells. -/
def related (rng : Gen σ) (Q : CloudPoint × ℤ → Cell → Prop) (points : Points) (cells : List Cell) : Set σ :=
  {s | ∃ cloud labels s', wiggled rng points s = .ok ((cloud, labels), s') ∧
    List.Forall₂ Q (cloud.zip labels) cells}

theorem window_iff (t : ℤ) {w : ℝ} (h0 : 0 ≤ w) (h1 : w < 1) :
    RowInWindow (t + w) ↔ 0 ≤ t ∧ t < (NUM_TB : ℤ) := by
  unfold RowInWindow
  constructor
  · rintro ⟨a, b⟩
    constructor
    · have : (-1 : ℝ) < t := by linarith
      have : (-1 : ℤ) < t := by exact_mod_cast this
      omega
    · have : (t : ℝ) < (NUM_TB : ℝ) := by linarith
      exact_mod_cast this
  · rintro ⟨a, b⟩
    have a' : (0 : ℝ) ≤ t := by exact_mod_cast a
    have b' : (t : ℝ) + 1 ≤ (NUM_TB : ℝ) := by exact_mod_cast b
    exact ⟨by linarith, by linarith⟩

theorem related_nil (rng : Gen σ) (Q : CloudPoint × ℤ → Cell → Prop) (cells : List Cell) :
    related rng Q [] cells = {s | cells = []} := by
  ext s
  have : wiggled rng [] s = .ok ((([] : List CloudPoint), ([] : List ℤ)), s) := rfl
  simp only [related, Set.mem_setOf_eq, this, Except.ok.injEq, Prod.mk.injEq]
  constructor
  · rintro ⟨c, l, s', ⟨⟨rfl, rfl⟩, rfl⟩, h⟩
    simpa using h
  · rintro rfl
    exact ⟨[], [], s, ⟨⟨rfl, rfl⟩, rfl⟩, by simp⟩

theorem related_out (hr : FreshGen rng μ u z next skip) (Q : CloudPoint × ℤ → Cell → Prop)
    (kd : ℤ × (ℤ × ℤ)) (points : Points) (cells : List Cell)
    (h : ¬ (0 ≤ (unpair kd.1).1 ∧ (unpair kd.1).1 < (NUM_TB : ℤ))) :
    related rng Q (kd :: points) cells = next ⁻¹' related rng Q points cells := by
  ext s
  have hw : ¬ RowInWindow (((unpair kd.1).1 : ℝ) + (0 + (1 - 0) * u s)) := by
    rw [show (0 : ℝ) + (1 - 0) * u s = u s by ring, window_iff _ (hr.range s).1 (hr.range s).2]
    exact h
  simp only [related, Set.mem_setOf_eq, Set.mem_preimage, wiggled_cons, hr.uniform, bind, Except.bind]
  obtain ⟨⟨⟨c, l⟩, s2⟩, h2⟩ : ∃ r, wiggled rng points (next s) = .ok r := ⟨_, rfl⟩
  simp only [h2, pure, Except.pure, consRow, if_neg hw]

theorem related_in (hr : FreshGen rng μ u z next skip) (Q : CloudPoint × ℤ → Cell → Prop)
    (kd : ℤ × (ℤ × ℤ)) (points : Points) (cells : List Cell)
    (h : 0 ≤ (unpair kd.1).1 ∧ (unpair kd.1).1 < (NUM_TB : ℤ)) :
    related rng Q (kd :: points) cells = {s | ∃ c cs, cells = c :: cs ∧
      Q (mkRow kd (u s), kd.2.2) c ∧ next s ∈ related rng Q points cs} := by
  ext s
  have hw : RowInWindow (((unpair kd.1).1 : ℝ) + u s) := by
    rw [window_iff _ (hr.range s).1 (hr.range s).2]
    exact h
  have e : (0 : ℝ) + (1 - 0) * u s = u s := by ring
  simp only [related, Set.mem_setOf_eq, wiggled_cons, hr.uniform, bind, Except.bind, e]
  obtain ⟨⟨⟨c, l⟩, s2⟩, h2⟩ : ∃ r, wiggled rng points (next s) = .ok r := ⟨_, rfl⟩
  simp only [h2, pure, Except.pure, consRow, if_pos hw, Except.ok.injEq, Prod.mk.injEq]
  constructor
  · rintro ⟨cl, la, s', ⟨⟨rfl, rfl⟩, rfl⟩, hQ⟩
    rw [List.zip_cons_cons] at hQ
    cases hQ with
    | cons q1 q2 => exact ⟨_, _, rfl, q1, c, l, s2, ⟨⟨rfl, rfl⟩, rfl⟩, q2⟩
  · rintro ⟨a, as, rfl, q1, c', l', s', ⟨⟨rfl, rfl⟩, rfl⟩, q2⟩
    exact ⟨_, _, _, ⟨⟨rfl, rfl⟩, rfl⟩, List.Forall₂.cons q1 q2⟩

/-- The part of a cell that is not random agrees. -/
def Static (kd : ℤ × (ℤ × ℤ)) (c : Cell) : Prop :=
  (unpair kd.1).2 = c.pad ∧ (unpair kd.1).1 = c.bucket ∧ kd.2.1 = c.charge ∧ kd.2.2 = c.label

theorem has_iff (kd : ℤ × (ℤ × ℤ)) (c : Cell) {w : ℝ} (h0 : 0 ≤ w) (h1 : w < 1) :
    Cell.Has (mkRow kd w, kd.2.2) c ↔ Static kd c := by
  unfold Cell.Has Static mkRow
  have : ⌊((unpair kd.1).1 : ℝ) + w⌋ = (unpair kd.1).1 := by
    rw [Int.floor_intCast_add, Int.floor_eq_zero_iff.2 ⟨h0, h1⟩, add_zero]
  simp only [this, Int.cast_inj]

theorem hasIn_iff (kd : ℤ × (ℤ × ℤ)) (c : Cell) {w : ℝ} (h0 : 0 ≤ w) (h1 : w < 1) :
    Cell.HasIn (mkRow kd w, kd.2.2) c ↔ Static kd c ∧ w ∈ Set.Ico c.lo c.hi := by
  unfold Cell.HasIn
  rw [has_iff kd c h0 h1]
  constructor
  · rintro ⟨h, a, b⟩
    refine ⟨h, ?_, ?_⟩
    · simp only [mkRow, h.2.1] at a; linarith
    · simp only [mkRow, h.2.1] at b; linarith
  · rintro ⟨h, a, b⟩
    refine ⟨h, ?_, ?_⟩
    · simp only [mkRow, h.2.1]; linarith
    · simp only [mkRow, h.2.1]; linarith

theorem uniform_prob (hr : FreshGen rng μ u z next skip)
    (hu : μ.map u = volume.restrict (Set.Ico (0 : ℝ) 1)) {a b : ℝ} (ha : 0 ≤ a) (hb : b ≤ 1) :
    μ {s | u s ∈ Set.Ico a b} = ENNReal.ofReal (b - a) := by
  have h1 : μ {s | u s ∈ Set.Ico a b} = μ.map u (Set.Ico a b) :=
    (Measure.map_apply hr.fresh_uniform.value measurableSet_Ico).symm
  rw [h1, hu, Measure.restrict_apply measurableSet_Ico, Set.Ico_inter_Ico, max_eq_left ha, min_eq_left hb,
    Real.volume_Ico]

theorem related_prob (hr : FreshGen rng μ u z next skip)
    (hu : μ.map u = volume.restrict (Set.Ico (0 : ℝ) 1)) (points : Points) : ∀ cells : List Cell,
    (∀ c ∈ cells, 0 ≤ c.lo ∧ c.hi ≤ 1) →
    MeasurableSet (related rng Cell.HasIn points cells) ∧ MeasurableSet (related rng Cell.Has points cells) ∧
    μ (related rng Cell.HasIn points cells)
      = μ (related rng Cell.Has points cells) * (cells.map fun c => ENNReal.ofReal (c.hi - c.lo)).prod := by
  induction points with
  | nil =>
    intro cells _
    rw [related_nil, related_nil]
    refine ⟨MeasurableSet.const _, MeasurableSet.const _, ?_⟩
    by_cases hc : cells = [] <;> simp [hc]
  | cons kd points ih =>
    intro cells hcells
    have hnext : ∀ A : Set σ, MeasurableSet A → μ (next ⁻¹' A) = μ A := by
      intro A hA
      have := hr.fresh_uniform.indep Set.univ A MeasurableSet.univ hA
      exact (by simpa using this : μ {s | next s ∈ A} = μ A)
    by_cases hw : 0 ≤ (unpair kd.1).1 ∧ (unpair kd.1).1 < (NUM_TB : ℤ)
    · rw [related_in hr _ kd points cells hw, related_in hr _ kd points cells hw]
      cases cells with
      | nil => simp
      | cons c cs =>
        by_cases hst : Static kd c
        · obtain ⟨m1, m2, hp⟩ := ih cs fun c' h' => hcells c' (by simp [h'])
          have e1 : {s | ∃ c' cs', c :: cs = c' :: cs' ∧ Cell.HasIn (mkRow kd (u s), kd.2.2) c' ∧
              next s ∈ related rng Cell.HasIn points cs'}
              = {s | u s ∈ Set.Ico c.lo c.hi ∧ next s ∈ related rng Cell.HasIn points cs} := by
            ext s
            simp only [Set.mem_setOf_eq]
            constructor
            · rintro ⟨_, _, h, q, h2⟩
              obtain ⟨rfl, rfl⟩ := List.cons.inj h
              exact ⟨((hasIn_iff kd _ (hr.range s).1 (hr.range s).2).1 q).2, h2⟩
            · rintro ⟨q, h2⟩
              exact ⟨c, cs, rfl, (hasIn_iff kd _ (hr.range s).1 (hr.range s).2).2 ⟨hst, q⟩, h2⟩
          have e2 : {s | ∃ c' cs', c :: cs = c' :: cs' ∧ Cell.Has (mkRow kd (u s), kd.2.2) c' ∧
              next s ∈ related rng Cell.Has points cs'} = next ⁻¹' related rng Cell.Has points cs := by
            ext s
            simp only [Set.mem_setOf_eq, Set.mem_preimage]
            constructor
            · rintro ⟨_, _, h, q, h2⟩
              obtain ⟨rfl, rfl⟩ := List.cons.inj h
              exact h2
            · intro h2
              exact ⟨c, cs, rfl, (has_iff kd _ (hr.range s).1 (hr.range s).2).2 hst, h2⟩
          rw [e1, e2]
          refine ⟨(hr.fresh_uniform.value measurableSet_Ico).inter (hr.fresh_uniform.state m1),
            hr.fresh_uniform.state m2, ?_⟩
          obtain ⟨hlo, hhi⟩ := hcells c (by simp)
          rw [hr.fresh_uniform.indep _ _ measurableSet_Ico m1, hnext _ m2, uniform_prob hr hu hlo hhi, hp,
            List.map_cons, List.prod_cons]
          ring
        · have e1 : {s | ∃ c' cs', c :: cs = c' :: cs' ∧ Cell.HasIn (mkRow kd (u s), kd.2.2) c' ∧
              next s ∈ related rng Cell.HasIn points cs'} = ∅ := by
            ext s
            simp only [Set.mem_setOf_eq, Set.mem_empty_iff_false, iff_false]
            rintro ⟨_, _, h, q, -⟩
            obtain ⟨rfl, rfl⟩ := List.cons.inj h
            exact hst ((hasIn_iff kd _ (hr.range s).1 (hr.range s).2).1 q).1
          have e2 : {s | ∃ c' cs', c :: cs = c' :: cs' ∧ Cell.Has (mkRow kd (u s), kd.2.2) c' ∧
              next s ∈ related rng Cell.Has points cs'} = ∅ := by
            ext s
            simp only [Set.mem_setOf_eq, Set.mem_empty_iff_false, iff_false]
            rintro ⟨_, _, h, q, -⟩
            obtain ⟨rfl, rfl⟩ := List.cons.inj h
            exact hst ((has_iff kd _ (hr.range s).1 (hr.range s).2).1 q)
          rw [e1, e2]
          simp
    · rw [related_out hr _ kd points cells hw, related_out hr _ kd points cells hw]
      obtain ⟨m1, m2, hp⟩ := ih cells hcells
      exact ⟨hr.fresh_uniform.state m1, hr.fresh_uniform.state m2, by rw [hnext _ m1, hnext _ m2, hp]⟩

/-- **C122.** With an ideal generator, the stored times are uniformly distributed within the time buckets,
independently of each other and of everything else in the cloud: given the pads, time buckets, charges and
labels of all points, the probability that the time of every point lies in a given part `[lo, hi)` of its
time bucket is the product of the lengths of these parts. -/
theorem C122_times (hr : FreshGen rng μ u z next skip)
    (hu : μ.map u = volume.restrict (Set.Ico (0 : ℝ) 1)) (env : SimEnv) (momenta : List Vec4)
    (vertex : ℝ × ℝ × ℝ) (zs as : List ℤ) (config : Config) (indices : List ℤ) (cells : List Cell)
    (hcells : ∀ c ∈ cells, 0 ≤ c.lo ∧ c.hi ≤ 1) :
    μ {s | ∃ cloud labels s',
        simulate env momenta vertex zs as config rng indices s = .ok ((cloud, labels), s') ∧
        cloud.length = labels.length ∧ List.Forall₂ Cell.HasIn (cloud.zip labels) cells}
      = μ {s | ∃ cloud labels s',
          simulate env momenta vertex zs as config rng indices s = .ok ((cloud, labels), s') ∧
          cloud.length = labels.length ∧ List.Forall₂ Cell.Has (cloud.zip labels) cells}
        * (cells.map fun c => ENNReal.ofReal (c.hi - c.lo)).prod := by
  set fold := fun s => indices.foldlM (simulate_nucleus env momenta vertex zs as config rng) (([] : Points), s)
    with hfold
  have hf : FreshResult μ fold := simulate_fold_fresh hr env momenta vertex zs as config indices []
  have split : ∀ Q : CloudPoint × ℤ → Cell → Prop, {s | ∃ cloud labels s',
      simulate env momenta vertex zs as config rng indices s = .ok ((cloud, labels), s') ∧
      cloud.length = labels.length ∧ List.Forall₂ Q (cloud.zip labels) cells}
      = ⋃ p : Points, outcomes fold {p} (related rng Q p cells) := by
    intro Q
    ext s
    simp only [Set.mem_setOf_eq, Set.mem_iUnion, outcomes, Set.mem_singleton_iff, related]
    constructor
    · rintro ⟨c, l, s', h, -, hQ⟩
      rw [simulate_eq, except_bind_ok] at h
      obtain ⟨⟨p, s1⟩, h1, h2⟩ := h
      exact ⟨p, p, s1, h1, rfl, c, l, s', h2, hQ⟩
    · rintro ⟨p, p', s1, h1, rfl, c, l, s', h2, hQ⟩
      have h : simulate env momenta vertex zs as config rng indices s = .ok ((c, l), s') := by
        rw [simulate_eq, except_bind_ok]
        exact ⟨(p', s1), h1, h2⟩
      exact ⟨c, l, s', h, simulate_lengths h, hQ⟩
  have disj : ∀ Q : CloudPoint × ℤ → Cell → Prop,
      Pairwise (Function.onFun Disjoint fun p : Points => outcomes fold {p} (related rng Q p cells)) := by
    intro Q a a' haa
    rw [Function.onFun, Set.disjoint_left]
    rintro s ⟨x, s1, h1, hx, -⟩ ⟨y, s2, h2, hy, -⟩
    rw [h1] at h2
    simp only [Except.ok.injEq, Prod.mk.injEq] at h2
    exact haa (by rw [← Set.mem_singleton_iff.1 hx, ← Set.mem_singleton_iff.1 hy, h2.1])
  have key := fun p : Points => related_prob hr hu p cells hcells
  rw [split, split,
    measure_iUnion (disj _) (fun p => hf.measurable _ _ MeasurableSet.of_discrete (key p).1),
    measure_iUnion (disj _) (fun p => hf.measurable _ _ MeasurableSet.of_discrete (key p).2.1),
    ← ENNReal.tsum_mul_right]
  refine tsum_congr fun p => ?_
  have h1 := hf.indep {p} _ MeasurableSet.of_discrete (key p).1
  have h2 := hf.indep {p} _ MeasurableSet.of_discrete (key p).2.1
  unfold outcomes
  rw [h1, h2, (key p).2.2, mul_assoc]

/-! ## Example -/

theorem pairElectrons (gain : ℤ) (D : ℝ) (s : ℕ → ℝ × Set.Ico (0 : ℝ) 1) :
    generate_electrons [exTrack0, exTrack1] exNucleus (exDet gain D) pairGen s
      = .ok ([0, 1], dropFirst (dropFirst s)) := by
  have h0 : npSqrt (0 : ℝ) = some 0 := by simp [npSqrt]
  have h1 : pyInt 1 = 1 := by simp [pyInt]
  have h2 : pyInt 0 = 0 := by simp [pyInt]
  have hw0 : (exDet gain D).w_value ≠ 0 := by norm_num [exDet]
  have he : (energy_lost [some (3 / 2 : ℝ), some (1 / 2 : ℝ)]).map
      (Option.map (· * (1.0e6 / (exDet gain D).w_value))) = [some 0, some 1] := by
    simp only [energy_lost, energy_lost.go, List.map_cons, List.map_nil, exDet]
    have : |(1 / 2 : ℝ) - 3 / 2| = 1 := by norm_num
    simp only [Option.bind_eq_bind, Option.bind_some, Option.pure_def, this, Option.map_some]
    norm_num
  unfold generate_electrons
  simp only [exTrack_energy]
  rw [if_neg hw0, he]
  simp only [fano_draws, fano_draw, exDet, zero_mul, h0, pairGen, add_zero, h1, h2]
  rfl

theorem pairSimulate (gain : ℤ) (s : ℕ → ℝ × Set.Ico (0 : ℝ) 1) :
    ∃ s', simulate exEnv exMomenta (0, 0, 0.5) [1, 1, 1] [1, 1, 1] (exConfig gain 0) pairGen [2] s
      = .ok (([⟨5, 50 + ((s 2).2 : ℝ), gain⟩], [2]), s') := by
  have hp : simulate_nucleus exEnv exMomenta (0, 0, 0.5) [1, 1, 1] [1, 1, 1] (exConfig gain 0) pairGen
      ([], s) 2 = .ok (applyDeposits [] (exDeposits gain 0 2), dropFirst (dropFirst s)) := by
    rw [← exNucleusDeposits_eq]
    have := generate_point_cloud_of (ivp := exSolver) (momentum := (0, 0, 4.5)) (vertex := (0, 0, 0.5))
      (nucleus := exNucleus) exEdges_bin (config := exConfig gain 0) (grid := exGrid) rfl [] 2
      (track := [exTrack0, exTrack1]) rfl (pairElectrons gain 0 s) (by
        intro re hre
        refine ⟨by norm_num [exConfig, exDet], ?_⟩
        simp [exConfig, exDet])
    exact this
  have hd : exDeposits gain 0 2 = [⟨50, 5, gain, 2⟩] := by
    have h1 : activePad exGrid exEdges (0, 0) = some 5 := exRow_active
    have h2 : pyInt 50 = 50 := by
      unfold pyInt
      rw [if_pos (by norm_num), show (50 : ℝ) = ((50 : ℤ) : ℝ) by norm_num, Int.floor_intCast]
    simp only [exDeposits, pointDeposits, Real.sqrt_zero, if_true, h1, h2]
  have hu : unpair (pair 50 5) = (50, 5) := by decide +kernel
  rw [hd] at hp
  have ha : applyDeposits [] [⟨50, 5, gain, 2⟩] = [(pair 50 5, (gain, 2))] := by
    simp [applyDeposits, applyDeposit, addCharge, Points.get, Points.set]
  have hw : RowInWindow (((50 : ℤ) : ℝ) + ((s 2).2 : ℝ)) := by
    rw [window_iff 50 (s 2).2.2.1 (s 2).2.2.2]
    exact ⟨by norm_num, by decide +kernel⟩
  rw [ha] at hp
  refine ⟨dropFirst (dropFirst (dropFirst s)), ?_⟩
  rw [simulate_eq]
  simp only [List.foldlM_cons, List.foldlM_nil, hp, bind, Except.bind, pure, Except.pure]
  have e : pairGen.uniform 0 1 (dropFirst (dropFirst s)) = (((s 2).2 : ℝ), dropFirst (dropFirst (dropFirst s))) := by
    simp [pairGen, dropFirst]
  have e2 : ∀ t kd, wiggled pairGen [kd] t
      = .ok (consRow kd (pairGen.uniform 0 1 t).1 ([], []), (pairGen.uniform 0 1 t).2) := by
    intro t kd
    rw [wiggled_cons]
    rfl
  have e3 : consRow (pair 50 5, (gain, 2)) ((s 2).2 : ℝ) ([], [])
      = ([⟨5, 50 + ((s 2).2 : ℝ), gain⟩], [2]) := by
    unfold consRow mkRow
    rw [hu, if_pos hw]
    norm_num
  rw [e2, e]
  simp only [e3]

/-- The single point of the example event is stored in the first half of its time bucket with probability
1/2. -/
theorem pair_half : pairMeasure {s | ∃ cloud labels s',
      simulate exEnv exMomenta (0, 0, 0.5) [1, 1, 1] [1, 1, 1] (exConfig 100 0) pairGen [2] s
        = .ok ((cloud, labels), s') ∧ cloud.length = labels.length ∧
      List.Forall₂ Cell.HasIn (cloud.zip labels) [⟨5, 50, 100, 2, 0, 1 / 2⟩]} = 1 / 2 := by
  rw [C122_times pairGen_ideal.fresh pair_uniform _ _ _ _ _ _ _ _ (by
    intro c hc
    rw [List.mem_singleton] at hc
    subst hc
    norm_num)]
  have h1 : {s | ∃ cloud labels s',
      simulate exEnv exMomenta (0, 0, 0.5) [1, 1, 1] [1, 1, 1] (exConfig 100 0) pairGen [2] s
        = .ok ((cloud, labels), s') ∧ cloud.length = labels.length ∧
      List.Forall₂ Cell.Has (cloud.zip labels) [⟨5, 50, 100, 2, 0, 1 / 2⟩]} = Set.univ := by
    ext s
    obtain ⟨s', h⟩ := pairSimulate 100 s
    simp only [Set.mem_setOf_eq, Set.mem_univ, iff_true]
    refine ⟨_, _, s', h, rfl, ?_⟩
    refine List.Forall₂.cons ⟨by norm_num, ?_, by norm_num, rfl⟩ .nil
    rw [show (50 : ℝ) = ((50 : ℤ) : ℝ) by norm_num, Int.floor_intCast_add,
      Int.floor_eq_zero_iff.2 (s 2).2.2]
    rfl
  rw [h1]
  simp [ENNReal.ofReal_div_of_pos]

end Verif.Props
