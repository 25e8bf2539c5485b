import Verif.Proofs.KinFile
import Verif.Props.Run

/-! # C37–C39: the kinematics file -/

namespace Verif.Props

open Verif.Kinematics Verif.Spec Verif.Detector

variable {ρ π : Type}

/-- The final file. -/
def finalFile (n : ℤ) (zs as : List ℤ) (cs : ℕ) (done : List (List (Event ρ)))
    (cur : List (Event ρ)) (count : Option ℕ) (closed : Bool) : KinFile ρ :=
  { midFile n zs as cs done (entries (done.length * cs) cur) (some (n - 1)) with
    n_chunks := count, closed := closed }

/-- All outcomes of a run. -/
theorem kin_run (run : PipeRun ρ π) (zs as : List ℤ) (cs : ℕ) (hcs : 1 ≤ cs) (n : ℤ) (p0 : π) :
    (∃ done cur p trace, run_kinematics_pipeline run zs as cs n p0
        = (.ok (), ⟨p, finalFile n zs as cs done cur (some (done.length + 1)) true,
            finalFile n zs as cs done cur (some (done.length + 1)) true ::
            finalFile n zs as cs done cur (some (done.length + 1)) false ::
            finalFile n zs as cs done cur none false :: trace⟩) ∧
      (∀ x ∈ done, x.length = cs) ∧ cur.length ≤ cs ∧ (done = [] ∨ cur ≠ []) ∧
      Produced run p0 (done.flatten ++ cur) p ∧ (done.flatten ++ cur).length = n.toNat ∧
      ∀ f ∈ trace, Interrupted run p0 n zs as cs f) ∨
    (∃ e evs p p' file trace, run_kinematics_pipeline run zs as cs n p0
        = (.error e, ⟨p', file, trace⟩) ∧ Produced run p0 evs p ∧ run p = (.error e, p') ∧
      evs.length < n.toNat ∧ ∀ f ∈ trace, Interrupted run p0 n zs as cs f) := by
  have empty : ∀ f : KinFile ρ, f.n_chunks = none → (f.n_events = none ∨ f.n_events = some n) →
      (f.proton_numbers = none ∨ f.proton_numbers = some zs) →
      (f.mass_numbers = none ∨ f.mass_numbers = some as) →
      (f.chunk_size = none ∨ f.chunk_size = some cs) → (∀ x ∈ f.chunks, x.2.events = []) →
      Interrupted run p0 n zs as cs f := by
    intro f h1 a1 a2 a3 a4 h2
    refine ⟨h1, a1, a2, a3, a4, [], p0, .nil _, by simp, fun k _ => ?_, 0, .inl rfl, ?_⟩
    · refine read_missing hcs fun evs d g1 g2 => ?_
      exfalso
      rw [lookup_skeleton, Option.map_eq_some_iff] at g1
      obtain ⟨g, g3, rfl⟩ := g1
      have hmem : ∀ (l : List (String × ChunkGroup ρ)) (name : String), l.lookup name = some g →
          ∃ x ∈ l, x.2 = g := by
        intro l name
        induction l with
        | nil => simp
        | cons x l ih =>
          rw [List.lookup_cons]
          intro h
          split at h
          · exact ⟨x, by simp, by simpa using h⟩
          · obtain ⟨y, hy, e⟩ := ih h
            exact ⟨y, by simp [hy], e⟩
      obtain ⟨x, hx, rfl⟩ := hmem _ _ g3
      rw [h2 x hx] at g2
      simp at g2
    · rw [List.range_zero, List.map_nil, eventNames, List.flatMap_eq_nil_iff]
      intro x hx
      rw [h2 x hx]; rfl
  let c0 : KinFile ρ := midFile n zs as cs [] [] none
  obtain ⟨trace0, h0, ht0⟩ : ∃ trace0, (⟨p0, {}, [{}]⟩ : KinRun ρ π).ops
      [.setNEvents n, .setProton zs, .setMass as, .setChunkSize cs, .createChunk (chunk_name 0),
        .setMin (chunk_name 0) 0] = (.ok (), ⟨p0, c0, trace0⟩) ∧
      ∀ f ∈ trace0, Interrupted run p0 n zs as cs f := by
    refine ⟨[c0, { c0 with chunks := [(chunk_name 0, {})] }, { c0 with chunks := [] },
      { n_events := some n, proton_numbers := some zs, mass_numbers := some as },
      { n_events := some n, proton_numbers := some zs }, { n_events := some n }, {}], ?_, ?_⟩
    · simp [KinRun.ops, KinRun.op, FileOp.apply, c0, midFile, chunksFrom, modifyName, List.lookup]
    · intro f hf
      simp only [List.mem_cons, List.not_mem_nil, or_false] at hf
      rcases hf with rfl | rfl | rfl | rfl | rfl | rfl | rfl
      all_goals
        refine empty _ rfl ?_ ?_ ?_ ?_ ?_ <;> simp [c0, midFile, chunksFrom]
  have hl := kinLoop_run run p0 hcs n zs as n.toNat [] [] ⟨p0, c0, trace0⟩ (by simp) (by simp)
    (.inl rfl) rfl (.nil _) ht0
  simp only [List.length_nil, Nat.zero_mul, Nat.zero_add, List.flatten_nil, List.append_nil] at hl
  obtain ⟨hl1, hl2⟩ := hl
  unfold run_kinematics_pipeline
  simp only [h0]
  generalize kinLoop run cs n.toNat 0 0 0 ⟨p0, c0, trace0⟩ = q at hl1 hl2
  obtain ⟨r, p, file, trace⟩ := q
  simp only at hl1 hl2
  rcases hl2 with ⟨done, cur, rfl, q2, q3, q4, rfl, q6, q7⟩ | ⟨e, evs, p1, p2, rfl, q2, q3, q4, rfl⟩
  · refine .inl ⟨done, cur, p, trace, ?_, q2, q3, q4, q6, q7, hl1⟩
    have a1 : FileOp.apply (midFile n zs as cs done (entries (done.length * cs) cur) none)
        (.setMax (chunk_name done.length) (n - 1)) = .ok (finalFile n zs as cs done cur none false) := by
      simp only [FileOp.apply, midFile, finalFile]
      rw [modifyName_last _ _ _ _ (chunks_ne cs done)]
    simp only [KinRun.ops, KinRun.op, a1]
    rfl
  · exact .inr ⟨e, evs, p1, p, file, trace, rfl, q2, q3, q4, hl1⟩

theorem finalFile_skeleton (n : ℤ) (zs as : List ℤ) (cs : ℕ) (done : List (List (Event ρ)))
    (cur : List (Event ρ)) (count : Option ℕ) (closed : Bool) :
    skeleton (finalFile n zs as cs done cur count closed) = skelFrom cs 0 done ++
      [(chunk_name done.length, entries (done.length * cs) cur ++ [])] := by
  rw [List.append_nil]
  exact midFile_skeleton n zs as ..

/-! ## C37 -/

/-- **C37.** When `run_kinematics_pipeline` returns, the reader finds, for every `k` below the number
of events, the momenta and vertex of the `k`-th run of the pipeline. -/
theorem C37_round_trip (run : PipeRun ρ π) (zs as : List ℤ) (cs : ℕ) (hcs : 1 ≤ cs) (n : ℤ) (p0 : π)
    (st : KinRun ρ π) (h : run_kinematics_pipeline run zs as cs n p0 = (.ok (), st)) :
    ∃ evs, Produced run p0 evs st.pipe ∧ evs.length = n.toNat ∧
      st.file.n_events = some n ∧ st.file.chunk_size = some cs ∧
      st.file.proton_numbers = some zs ∧ st.file.mass_numbers = some as ∧
      ∀ (k : ℕ) (hk : k < evs.length), read_event st.file cs k = .ok (evs[k].2, evs[k].1) := by
  rcases kin_run run zs as cs hcs n p0 with ⟨done, cur, p, trace, e, h1, h2, h3, h4, h5, h6⟩ |
    ⟨e, evs, p, p', file, trace, e1, -⟩
  · rw [h] at e
    simp only [Prod.mk.injEq, true_and] at e
    subst e
    exact ⟨done.flatten ++ cur, h4, h5, rfl, rfl, rfl, rfl, fun k hk =>
      read_of_skeleton hcs (finalFile_skeleton ..) h1 h2 k hk⟩
  · rw [h] at e1
    simp at e1

/-- **C37.** The run succeeds exactly when the pipeline can be run `n` times; the file operations
themselves never fail. -/
theorem C37_succeeds (run : PipeRun ρ π) (zs as : List ℤ) (cs : ℕ) (hcs : 1 ≤ cs) (n : ℤ) (p0 : π) :
    (run_kinematics_pipeline run zs as cs n p0).1 = .ok () ↔
      ∃ evs p, Produced run p0 evs p ∧ evs.length = n.toNat := by
  rcases kin_run run zs as cs hcs n p0 with ⟨done, cur, p, trace, e, h1, h2, h3, h4, h5, h6⟩ |
    ⟨e, evs, p, p', file, trace, e1, h1, h2, h3, h4⟩
  · rw [e]
    exact ⟨fun _ => ⟨_, p, h4, h5⟩, fun _ => rfl⟩
  · rw [e1]
    simp only [reduceCtorEq, false_iff, not_exists, not_and]
    intro evs' q hq hlen
    -- the first `evs.length` runs coincide, and the next one raises
    have : ∀ {a : π} {l : List (Event ρ)} {b : π}, Produced run a l b → ∀ {l' : List (Event ρ)} {c : π},
        Produced run a l' c → l.length < l'.length → ∃ ev b', run b = (.ok ev, b') := by
      intro a l b hl
      induction hl with
      | nil p =>
        intro l' c hl' hlt
        cases hl' with
        | nil => simp at hlt
        | cons g _ => exact ⟨_, _, g⟩
      | cons g _ ih =>
        intro l' c hl' hlt
        cases hl' with
        | nil => simp at hlt
        | cons g' g'' =>
          rw [g] at g'
          simp only [Prod.mk.injEq, Except.ok.injEq] at g'
          obtain ⟨rfl, rfl⟩ := g'
          exact ih g'' (by simpa using hlt)
    obtain ⟨ev, b', hb⟩ := this h1 hq (by omega)
    rw [h2] at hb
    simp at hb

/-- A pipeline whose `k`-th event has vertex `(k, 0, 0)` and data `k`. -/
def countingRun : PipeRun ℕ ℕ := fun k => (.ok (((k : ℝ), 0, 0), k), k + 1)

theorem countingRun_produced (n : ℕ) : ∀ k, ∃ evs, Produced countingRun k evs (k + n) ∧
    evs.length = n := by
  induction n with
  | zero => exact fun k => ⟨[], .nil _, rfl⟩
  | succ n ih =>
    intro k
    obtain ⟨evs, h, hl⟩ := ih (k + 1)
    refine ⟨_ :: evs, .cons rfl (?_ : Produced countingRun (k + 1) evs _), by simp [hl]⟩
    rw [show k + (n + 1) = k + 1 + n by ring]; exact h

/-- C37 applies to five events in chunks of two. -/
example : (run_kinematics_pipeline countingRun [1] [1] 2 5 0).1 = .ok () := by
  rw [C37_succeeds _ _ _ _ (by norm_num)]
  obtain ⟨evs, h, hl⟩ := countingRun_produced 5 0
  exact ⟨evs, _, h, hl⟩

/-! ## C38 -/

theorem chunksFrom_length (cs c : ℕ) (l : List (List (Event ρ))) :
    (chunksFrom cs c l).length = l.length := by
  induction l generalizing c with
  | nil => rfl
  | cons x l ih => simp [chunksFrom, ih]

theorem chunksFrom_getElem (cs c : ℕ) (l : List (List (Event ρ))) (i : ℕ) (hi : i < l.length) :
    (chunksFrom cs c l)[i]'(by rw [chunksFrom_length]; exact hi) = (chunk_name (c + i),
      { events := entries ((c + i) * cs) l[i], min_event := some (((c + i) * cs : ℕ) : ℤ),
        max_event := some ((((c + i + 1) * cs : ℕ) : ℤ) - 1) }) := by
  induction l generalizing c i with
  | nil => simp at hi
  | cons x l ih =>
    cases i with
    | zero => rfl
    | succ i =>
      simp only [chunksFrom, List.getElem_cons_succ]
      rw [ih (c + 1) i (by simpa using hi)]
      rw [show c + (i + 1) = c + 1 + i by ring]

/-- **C38.** For `n ≥ 1` events the file has `⌈n / chunk_size⌉` chunks, as recorded in `n_chunks`;
chunk `c` is called `chunk_c`, records the range `c * chunk_size … min ((c+1) * chunk_size) n - 1`
and holds exactly the events of that range, in order. -/
theorem C38_chunks (run : PipeRun ρ π) (zs as : List ℤ) (cs : ℕ) (hcs : 1 ≤ cs) (n : ℤ) (hn : 1 ≤ n)
    (p0 : π) (st : KinRun ρ π)
    (h : run_kinematics_pipeline run zs as cs n p0 = (.ok (), st)) :
    st.file.n_chunks = some st.file.chunks.length ∧
    st.file.chunks.length = (n.toNat + cs - 1) / cs ∧
    ∀ (c : ℕ) (hc : c < st.file.chunks.length),
      st.file.chunks[c].1 = chunk_name c ∧
      st.file.chunks[c].2.min_event = some ((c * cs : ℕ) : ℤ) ∧
      st.file.chunks[c].2.max_event = some (min (((c + 1) * cs : ℕ) : ℤ) n - 1) ∧
      st.file.chunks[c].2.events.map (·.1)
        = (List.range' (c * cs) (min ((c + 1) * cs) n.toNat - c * cs)).map event_name := by
  rcases kin_run run zs as cs hcs n p0 with ⟨done, cur, p, trace, e, h1, h2, h3, h4, h5, h6⟩ |
    ⟨e, evs, p, p', file, trace, e1, -⟩
  swap
  · rw [h] at e1
    simp at e1
  rw [h] at e
  simp only [Prod.mk.injEq, true_and] at e
  subst e
  have hch : (finalFile n zs as cs done cur (some (done.length + 1)) true).chunks
      = chunksFrom cs 0 done ++ [(chunk_name done.length,
        { events := entries (done.length * cs) cur, min_event := some ((done.length * cs : ℕ) : ℤ),
          max_event := some (n - 1) })] := rfl
  have hlen : (finalFile n zs as cs done cur (some (done.length + 1)) true).chunks.length
      = done.length + 1 := by
    rw [hch]; simp [chunksFrom_length]
  have hfl := flatten_length_of h1
  rw [List.length_append, hfl] at h5
  have hcur : 1 ≤ cur.length := by
    rcases h3 with rfl | h3
    · simp at h5; omega
    · exact List.length_pos_iff.2 h3
  have hN : n = ((done.length * cs + cur.length : ℕ) : ℤ) := by omega
  refine ⟨by rw [hlen]; rfl, ?_, ?_⟩
  · rw [hlen, ← h5]
    symm
    rw [Nat.div_eq_iff (by omega)]
    constructor
    · rw [Nat.add_mul]; omega
    · rw [Nat.add_mul]; omega
  · intro c hc
    rw [hlen] at hc
    simp only [hch]
    by_cases hcd : c < done.length
    · have hle : (c + 1) * cs ≤ done.length * cs := Nat.mul_le_mul_right _ hcd
      have hmin : min ((c + 1) * cs) n.toNat = (c + 1) * cs := by rw [← h5]; omega
      have hmin' : min (((c + 1) * cs : ℕ) : ℤ) n = (((c + 1) * cs : ℕ) : ℤ) := by
        rw [hN]; apply min_eq_left; exact_mod_cast (by omega)
      have hg := chunksFrom_getElem cs 0 done c hcd
      simp only [Nat.zero_add] at hg
      rw [List.getElem_append_left (by rw [chunksFrom_length]; exact hcd), hg]
      refine ⟨rfl, rfl, by rw [hmin'], ?_⟩
      simp only
      rw [entries_names, hmin, h1 _ (List.getElem_mem _)]
      congr 2
      rw [Nat.add_mul]; omega
    · have hcd : c = done.length := by omega
      subst hcd
      have hmin : min ((done.length + 1) * cs) n.toNat = n.toNat := by
        rw [← h5, Nat.add_mul]; omega
      have hmin' : min (((done.length + 1) * cs : ℕ) : ℤ) n = n := by
        rw [hN]; apply min_eq_right; rw [Nat.add_mul]; exact_mod_cast (by omega)
      rw [List.getElem_append_right (by rw [chunksFrom_length])]
      simp only [chunksFrom_length, Nat.sub_self, List.getElem_cons_zero]
      refine ⟨trivial, trivial, by rw [hmin'], ?_⟩
      rw [entries_names, hmin, ← h5]
      congr 2
      omega

/-! ## C39 -/

/-- **C39.** Every file that an interruption can leave behind (at any point of any run, whether or not
the run would have finished) either is the complete file or carries no `n_chunks`, holds the results
of the first runs of the pipeline unchanged and at most one further, unfinished dataset. Reading any
event beyond those results raises KeyError. -/
theorem C39_prefix (run : PipeRun ρ π) (zs as : List ℤ) (cs : ℕ) (hcs : 1 ≤ cs) (n : ℤ) (p0 : π)
    (f : KinFile ρ) (hf : f ∈ (run_kinematics_pipeline run zs as cs n p0).2.trace) :
    (f.n_chunks ≠ none ∧ (run_kinematics_pipeline run zs as cs n p0).1 = .ok () ∧
      f.chunks = (run_kinematics_pipeline run zs as cs n p0).2.file.chunks) ∨
    (f.n_chunks = none ∧ ∃ evs p, Produced run p0 evs p ∧
      (∀ (k : ℕ) (hk : k < evs.length), read_event f cs k = .ok (evs[k].2, evs[k].1)) ∧
      (∀ k : ℕ, evs.length ≤ k → read_event f cs k = .error .keyError) ∧
      ∃ m, (m = evs.length ∨ m = evs.length + 1) ∧ eventNames f = (List.range m).map event_name) := by
  rcases kin_run run zs as cs hcs n p0 with ⟨done, cur, p, trace, e, h1, h2, h3, h4, h5, h6⟩ |
    ⟨e, evs, p, p', file, trace, e1, g1, g2, g3, g4⟩
  · rw [e] at hf ⊢
    simp only [List.mem_cons] at hf
    rcases hf with rfl | rfl | rfl | hf
    · exact .inl ⟨by simp [finalFile], rfl, rfl⟩
    · exact .inl ⟨by simp [finalFile], rfl, rfl⟩
    · have := interrupted_mid (run := run) (p0 := p0) (f := finalFile n zs as cs done cur none false)
        hcs rfl rfl rfl rfl rfl (finalFile_skeleton ..) h1 h2 h4 (.inl rfl) (by simp)
      exact .inr ⟨this.no_count, this.events⟩
    · exact .inr ⟨(h6 f hf).no_count, (h6 f hf).events⟩
  · rw [e1] at hf
    exact .inr ⟨(g4 f hf).no_count, (g4 f hf).events⟩

/-- **C39.** A file left behind by a run that raised is never complete. -/
theorem C39_raised (run : PipeRun ρ π) (zs as : List ℤ) (cs : ℕ) (hcs : 1 ≤ cs) (n : ℤ) (p0 : π)
    (e : PyErr) (he : (run_kinematics_pipeline run zs as cs n p0).1 = .error e)
    (f : KinFile ρ) (hf : f ∈ (run_kinematics_pipeline run zs as cs n p0).2.trace) :
    f.n_chunks = none := by
  rcases C39_prefix run zs as cs hcs n p0 f hf with ⟨-, h, -⟩ | ⟨h, -⟩
  · rw [h] at he; simp at he
  · exact h

/-- **C39.** `run_simulation` on a file without `n_chunks` raises KeyError before simulating anything:
neither the writer nor the generator is touched. -/
theorem C39_rejected {σ τ : Type} (run : PipeRun (List Vec4) π) (zs as : List ℤ) (cs : ℕ)
    (hcs : 1 ≤ cs) (n : ℤ) (p0 : π) (f : KinFile (List Vec4))
    (hf : f ∈ (run_kinematics_pipeline run zs as cs n p0).2.trace)
    (hne : f.chunks ≠ (run_kinematics_pipeline run zs as cs n p0).2.file.chunks ∨
      (run_kinematics_pipeline run zs as cs n p0).1 ≠ .ok ())
    (env : SimEnv) (config : Config) (writer : SimWriter τ) (indices : Option (List ℤ)) (rng : Gen σ)
    (st : RunState σ τ) :
    run_simulation env config f writer indices rng st = (.error .keyError, st) := by
  rcases C39_prefix run zs as cs hcs n p0 f hf with ⟨-, h1, h2⟩ | ⟨h, -⟩
  · rcases hne with h | h
    · exact absurd h2 h
    · exact absurd h1 h
  · exact run_simulation_missing _ _ _ _ _ _ _ (.inr (.inr (.inr (.inl h))))

/-- A pipeline that raises at its third run. -/
def failingRun : PipeRun ℕ ℕ := fun k =>
  if k = 2 then (.error .pipelineError, k) else (.ok (((k : ℝ), 0, 0), k), k + 1)

/-- C39 applies to a run of five events interrupted by an exception. -/
theorem failingRun_raises : ∃ e, (run_kinematics_pipeline failingRun [1] [1] 2 5 0).1 = .error e := by
  cases h : (run_kinematics_pipeline failingRun [1] [1] 2 5 0).1 with
  | error e => exact ⟨e, rfl⟩
  | ok u =>
    obtain ⟨evs, p, hp, hl⟩ := (C37_succeeds failingRun [1] [1] 2 (by norm_num) 5 0).1 h
    exfalso
    have hl : evs.length = 5 := hl
    cases hp with
    | nil => simp at hl
    | cons h1 hp =>
      cases hp with
      | nil => simp at hl
      | cons h2 hp =>
        cases hp with
        | nil => simp at hl
        | cons h3 hp =>
          simp [failingRun] at h1
          obtain ⟨-, rfl⟩ := h1
          simp [failingRun] at h2
          obtain ⟨-, rfl⟩ := h2
          simp [failingRun] at h3

end Verif.Props
