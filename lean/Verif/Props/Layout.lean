import Verif.Props.KinFile
import Verif.Props.Species
import Verif.Props.Convert

/-! # C83, C84: the layout of a kinematics file, and files cut short -/

namespace Verif.Props

open Verif.Kinematics Verif.Spec Verif.Detector

variable {ρ π : Type}

/-- Of two lists of events produced from the same state, the shorter one is the beginning of the
longer one. -/
theorem Produced_prefix {run : PipeRun ρ π} {p p₁ p₂ : π} {evs₁ evs₂ : List (Event ρ)}
    (h₁ : Produced run p evs₁ p₁) (h₂ : Produced run p evs₂ p₂)
    (hl : evs₁.length ≤ evs₂.length) : evs₁ <+: evs₂ := by
  induction h₁ generalizing evs₂ with
  | nil p => exact List.nil_prefix
  | cons h1 _ ih =>
    cases h₂ with
    | nil => simp at hl
    | cons h2 h3 =>
      rw [h1] at h2
      simp only [Prod.mk.injEq, Except.ok.injEq] at h2
      obtain ⟨rfl, rfl⟩ := h2
      exact (List.cons_prefix_cons).2 ⟨rfl, ih h3 (by simpa using hl)⟩

theorem Produced_take {run : PipeRun ρ π} {p p' : π} {evs : List (Event ρ)}
    (h : Produced run p evs p') (k : ℕ) : ∃ q, Produced run p (evs.take k) q := by
  induction h generalizing k with
  | nil p => exact ⟨p, by rw [List.take_nil]; exact .nil _⟩
  | cons h1 _ ih =>
    cases k with
    | zero => exact ⟨_, .nil _⟩
    | succ k =>
      obtain ⟨q, hq⟩ := ih k
      exact ⟨q, .cons h1 hq⟩

/-- What happens after the events that can be produced. -/
theorem Produced_stuck {run : PipeRun ρ π} {p p₁ p₂ q : π} {evs₁ evs₂ : List (Event ρ)} {e : PyErr}
    (h₁ : Produced run p evs₁ p₁) (hr : run p₁ = (.error e, q)) (h₂ : Produced run p evs₂ p₂) :
    evs₂.length ≤ evs₁.length := by
  induction h₁ generalizing evs₂ with
  | nil p =>
    cases h₂ with
    | nil => simp
    | cons h2 h3 => rw [hr] at h2; simp at h2
  | cons h1 _ ih =>
    cases h₂ with
    | nil => simp
    | cons h2 h3 =>
      rw [h1] at h2
      simp only [Prod.mk.injEq, Except.ok.injEq] at h2
      obtain ⟨rfl, rfl⟩ := h2
      have := ih hr h3
      simpa using this

/-- **C83.** Whether the run succeeds, what it raises and the state of the pipeline afterwards do not
depend on the chunk size. -/
theorem C83_outcome (run : PipeRun ρ π) (zs as : List ℤ) (cs₁ cs₂ : ℕ) (h₁ : 1 ≤ cs₁) (h₂ : 1 ≤ cs₂)
    (n : ℤ) (p0 : π) :
    (run_kinematics_pipeline run zs as cs₁ n p0).1 = (run_kinematics_pipeline run zs as cs₂ n p0).1 ∧
    (run_kinematics_pipeline run zs as cs₁ n p0).2.pipe
      = (run_kinematics_pipeline run zs as cs₂ n p0).2.pipe := by
  rcases kin_run run zs as cs₁ h₁ n p0 with ⟨d1, c1, p1, t1, e1, -, -, -, i1, j1, -⟩ |
    ⟨x1, v1, p1, q1, f1, t1, e1, i1, j1, k1, -⟩ <;>
  rcases kin_run run zs as cs₂ h₂ n p0 with ⟨d2, c2, p2, t2, e2, -, -, -, i2, j2, -⟩ |
    ⟨x2, v2, p2, q2, f2, t2, e2, i2, j2, k2, -⟩ <;>
  rw [e1, e2]
  · exact ⟨rfl, (Produced_unique i1 i2 (by omega)).2⟩
  · have := Produced_stuck i2 j2 i1
    omega
  · have := Produced_stuck i1 j1 i2
    omega
  · have a := Produced_stuck i2 j2 i1
    have b := Produced_stuck i1 j1 i2
    obtain ⟨rfl, rfl⟩ := Produced_unique i1 i2 (by omega)
    rw [j1] at j2
    simp only [Prod.mk.injEq, Except.error.injEq] at j2 ⊢
    exact j2

/-- **C83.** If a run for `m` events succeeds, so does one for `n ≤ m` events from the same generator
state, whatever the chunk sizes, and both files hold the same first `n` events. -/
theorem C83_prefix (run : PipeRun ρ π) (zs as : List ℤ) (cs₁ cs₂ : ℕ) (h₁ : 1 ≤ cs₁) (h₂ : 1 ≤ cs₂)
    (n m : ℤ) (hnm : n ≤ m) (p0 : π) (st₂ : KinRun ρ π)
    (h : run_kinematics_pipeline run zs as cs₂ m p0 = (.ok (), st₂)) :
    ∃ st₁, run_kinematics_pipeline run zs as cs₁ n p0 = (.ok (), st₁) ∧
      ∀ k < n.toNat, ∃ ev, read_event st₁.file cs₁ k = .ok ev ∧ read_event st₂.file cs₂ k = .ok ev := by
  obtain ⟨evs₂, i1, i2, -, -, -, -, i3⟩ := C37_round_trip run zs as cs₂ h₂ m p0 st₂ h
  obtain ⟨q, hq⟩ := Produced_take i1 n.toNat
  have hlen : (evs₂.take n.toNat).length = n.toNat := by
    rw [List.length_take, i2]; omega
  have hok := (C37_succeeds run zs as cs₁ h₁ n p0).2 ⟨_, q, hq, hlen⟩
  rcases hrun : run_kinematics_pipeline run zs as cs₁ n p0 with ⟨o, st₁⟩
  rw [hrun] at hok
  simp only at hok
  subst hok
  obtain ⟨evs₁, j1, j2, -, -, -, -, j3⟩ := C37_round_trip run zs as cs₁ h₁ n p0 st₁ hrun
  obtain ⟨rfl, -⟩ := Produced_unique j1 hq (by omega)
  refine ⟨st₁, rfl, fun k hk => ?_⟩
  refine ⟨_, j3 k (by omega), ?_⟩
  rw [i3 k (by omega), List.getElem_take]

/-! ## The simulation -/

/-- Two files that hold the same events give the same run. -/
theorem run_events_congr {σ τ : Type} (env : SimEnv) (config : Config) {f₁ f₂ : KinFile (List Vec4)}
    {cs₁ cs₂ : ℕ} (zs as idx : List ℤ) (rng : Gen σ) (W : SimWriter τ) (n : ℕ) : ∀ (start : ℕ),
    (∀ k, start ≤ k → k < start + n → read_event f₁ cs₁ k = read_event f₂ cs₂ k) →
    ∀ st : RunState σ τ, run_events env config f₁ zs as cs₁ idx rng W n start st
      = run_events env config f₂ zs as cs₂ idx rng W n start st := by
  induction n with
  | zero => intro start _ st; rfl
  | succ n ih =>
    intro start h st
    have h0 : ∀ st, run_event env config f₁ zs as cs₁ idx rng W start st
        = run_event env config f₂ zs as cs₂ idx rng W start st := by
      intro st
      unfold run_event
      rw [h start le_rfl (by omega)]
    simp only [run_events, h0]
    cases run_event env config f₂ zs as cs₂ idx rng W start st with
    | mk r st' =>
      cases r with
      | error e => rfl
      | ok u => exact ih (start + 1) (fun k hk hk' => h k (by omega) (by omega)) st'

theorem final_attrs (run : PipeRun ρ π) (zs as : List ℤ) (cs : ℕ) (hcs : 1 ≤ cs) (n : ℤ) (p0 : π)
    (st : KinRun ρ π) (h : run_kinematics_pipeline run zs as cs n p0 = (.ok (), st)) :
    st.file.n_events = some n ∧ st.file.chunk_size = some cs ∧ st.file.proton_numbers = some zs ∧
      st.file.mass_numbers = some as ∧ ∃ nc, st.file.n_chunks = some nc := by
  rcases kin_run run zs as cs hcs n p0 with ⟨done, cur, p, trace, e, -⟩ | ⟨e, evs, p, p', file, trace, e1, -⟩
  · rw [h] at e
    simp only [Prod.mk.injEq, true_and] at e
    subst e
    exact ⟨rfl, rfl, rfl, rfl, _, rfl⟩
  · rw [h] at e1
    simp at e1

/-- **C83.** The whole simulation does not depend on the chunk size of the kinematics file: every writer
is called in the same way and ends in the same state, as does the generator. `g` is the conversion of the
stored arrays to four-vectors. -/
theorem C83_simulation {σ τ : Type} (run : PipeRun ρ π) (zs as : List ℤ) (cs₁ cs₂ : ℕ) (h₁ : 1 ≤ cs₁)
    (h₂ : 1 ≤ cs₂) (n : ℤ) (p0 : π) (st₁ st₂ : KinRun ρ π)
    (hr₁ : run_kinematics_pipeline run zs as cs₁ n p0 = (.ok (), st₁))
    (hr₂ : run_kinematics_pipeline run zs as cs₂ n p0 = (.ok (), st₂)) (g : ρ → List Vec4)
    (env : SimEnv) (config : Config) (W : SimWriter τ) (indices : Option (List ℤ)) (rng : Gen σ)
    (st : RunState σ τ) :
    run_simulation env config (mapData g st₁.file) W indices rng st
      = run_simulation env config (mapData g st₂.file) W indices rng st := by
  obtain ⟨a1, a2, a3, a4, nc1, a5⟩ := final_attrs run zs as cs₁ h₁ n p0 st₁ hr₁
  obtain ⟨b1, b2, b3, b4, nc2, b5⟩ := final_attrs run zs as cs₂ h₂ n p0 st₂ hr₂
  obtain ⟨st', e, hread⟩ := C83_prefix run zs as cs₁ cs₂ h₁ h₂ n n le_rfl p0 st₂ hr₂
  rw [hr₁] at e
  simp only [Prod.mk.injEq, true_and] at e
  subst e
  rw [run_simulation_eq (file := mapData g st₁.file) _ _ _ _ _ _ a3 a4 a1 a2 a5,
    run_simulation_eq (file := mapData g st₂.file) _ _ _ _ _ _ b3 b4 b1 b2 b5,
    run_events_congr env config zs as _ rng W n.toNat 0 (fun k _ hk => ?_) st]
  obtain ⟨ev, e1, e2⟩ := hread k (by omega)
  rw [read_mapData, read_mapData, e1, e2]

/-- Two files that hold the same events give the same table. -/
theorem convert_congr {f₁ f₂ : KinFile (List Vec4)} {zs as : List ℤ} {n : ℤ} {cs₁ cs₂ : ℕ}
    (hz₁ : f₁.proton_numbers = some zs) (ha₁ : f₁.mass_numbers = some as)
    (hn₁ : f₁.n_events = some n) (hc₁ : f₁.chunk_size = some cs₁)
    (hz₂ : f₂.proton_numbers = some zs) (ha₂ : f₂.mass_numbers = some as)
    (hn₂ : f₂.n_events = some n) (hc₂ : f₂.chunk_size = some cs₂)
    (hread : ∀ k < n.toNat, read_event f₁ cs₁ k = read_event f₂ cs₂ k) (get_data : NuclearMap) :
    convert_kinematics get_data f₁ = convert_kinematics get_data f₂ := by
  unfold convert_kinematics
  simp only [hz₁, ha₁, hn₁, hc₁, hz₂, ha₂, hn₂, hc₂, attr, bind, Except.bind]
  cases convert_nuclei get_data zs as with
  | error e => rfl
  | ok ns =>
    simp only
    have key : ∀ l : List ℕ, (∀ k ∈ l, k < n.toNat) → ∀ f : Frame,
        l.foldlM (convert_event f₁ cs₁ zs as ns) f = l.foldlM (convert_event f₂ cs₂ zs as ns) f := by
      intro l
      induction l with
      | nil => intro _ f; rfl
      | cons k l ih =>
        intro hl f
        have e0 : convert_event f₁ cs₁ zs as ns f k = convert_event f₂ cs₂ zs as ns f k := by
          unfold convert_event
          rw [hread k (hl k (by simp))]
        rw [List.foldlM_cons, List.foldlM_cons, e0]
        congr 1
        funext f'
        exact ih (fun k' hk' => hl k' (by simp [hk'])) f'
    exact key _ (fun k hk => List.mem_range.1 hk) {}

/-- **C83.** The table made from the file does not depend on the chunk size either. -/
theorem C83_table (run : PipeRun ρ π) (zs as : List ℤ) (cs₁ cs₂ : ℕ) (h₁ : 1 ≤ cs₁)
    (h₂ : 1 ≤ cs₂) (n : ℤ) (p0 : π) (st₁ st₂ : KinRun ρ π)
    (hr₁ : run_kinematics_pipeline run zs as cs₁ n p0 = (.ok (), st₁))
    (hr₂ : run_kinematics_pipeline run zs as cs₂ n p0 = (.ok (), st₂)) (g : ρ → List Vec4)
    (get_data : NuclearMap) :
    convert_kinematics get_data (mapData g st₁.file) = convert_kinematics get_data (mapData g st₂.file) := by
  obtain ⟨a1, a2, a3, a4, nc1, a5⟩ := final_attrs run zs as cs₁ h₁ n p0 st₁ hr₁
  obtain ⟨b1, b2, b3, b4, nc2, b5⟩ := final_attrs run zs as cs₂ h₂ n p0 st₂ hr₂
  obtain ⟨st', e, hread⟩ := C83_prefix run zs as cs₁ cs₂ h₁ h₂ n n le_rfl p0 st₂ hr₂
  rw [hr₁] at e
  simp only [Prod.mk.injEq, true_and] at e
  subst e
  refine convert_congr (f₁ := mapData g st₁.file) (f₂ := mapData g st₂.file) a3 a4 a1 a2 b3 b4 b1 b2
    (fun k hk => ?_) get_data
  obtain ⟨ev, e1, e2⟩ := hread k hk
  rw [read_mapData, read_mapData, e1, e2]

/-- Of two simulated runs over files that agree on the first events, the shorter is the beginning of the
longer. -/
theorem Simulated_prefix {σ : Type} {env : SimEnv} {config : Config} {f₁ f₂ : KinFile (List Vec4)}
    {zs as idx : List ℤ} {cs₁ cs₂ : ℕ} {rng : Gen σ} {k : ℕ} {s s₁ s₂ : σ} {evs₁ evs₂ : List EventOut}
    (h₁ : Simulated env config f₁ zs as cs₁ idx rng k s evs₁ s₁)
    (h₂ : Simulated env config f₂ zs as cs₂ idx rng k s evs₂ s₂)
    (hr : ∀ j, k ≤ j → j < k + evs₁.length → read_event f₁ cs₁ j = read_event f₂ cs₂ j)
    (hl : evs₁.length ≤ evs₂.length) : evs₁ <+: evs₂ := by
  induction h₁ generalizing evs₂ with
  | nil => exact List.nil_prefix
  | @cons k s momenta vertex cloud labels s' evs s'' h1 h2 _ ih =>
    cases h₂ with
    | nil => simp at hl
    | cons g1 g2 g3 =>
      rw [← hr k le_rfl (by simp), h1] at g1
      simp only [Except.ok.injEq, Prod.mk.injEq] at g1
      obtain ⟨rfl, rfl⟩ := g1
      rw [h2] at g2
      simp only [Except.ok.injEq, Prod.mk.injEq] at g2
      obtain ⟨⟨rfl, rfl⟩, rfl⟩ := g2
      refine List.cons_prefix_cons.2 ⟨rfl, ih g3 (fun j hj hj' => hr j (by omega) ?_) (by simpa using hl)⟩
      simp only [List.length_cons]
      omega

/-- **C83.** Simulating a longer run from the same generator states first makes exactly the write calls of
the shorter run. -/
theorem C83_simulation_prefix {σ τ : Type} (run : PipeRun ρ π) (zs as : List ℤ) (cs₁ cs₂ : ℕ)
    (h₁ : 1 ≤ cs₁) (h₂ : 1 ≤ cs₂) (n m : ℤ) (hnm : n ≤ m) (p0 : π) (st₁ st₂ : KinRun ρ π)
    (hr₁ : run_kinematics_pipeline run zs as cs₁ n p0 = (.ok (), st₁))
    (hr₂ : run_kinematics_pipeline run zs as cs₂ m p0 = (.ok (), st₂)) (g : ρ → List Vec4)
    (env : SimEnv) (config : Config) (W : SimWriter τ) (indices : Option (List ℤ)) (rng : Gen σ)
    (s : σ) (w : τ)
    (ho₁ : (run_simulation env config (mapData g st₁.file) (logged W) indices rng ⟨s, (w, [])⟩).1 = .ok ())
    (ho₂ : (run_simulation env config (mapData g st₂.file) (logged W) indices rng ⟨s, (w, [])⟩).1 = .ok ()) :
    ∃ calls more,
      (run_simulation env config (mapData g st₁.file) (logged W) indices rng ⟨s, (w, [])⟩).2.writer.2
        = calls ++ [.close] ∧
      (run_simulation env config (mapData g st₂.file) (logged W) indices rng ⟨s, (w, [])⟩).2.writer.2
        = calls ++ more ++ [.close] := by
  obtain ⟨a1, a2, a3, a4, nc1, a5⟩ := final_attrs run zs as cs₁ h₁ n p0 st₁ hr₁
  obtain ⟨b1, b2, b3, b4, nc2, b5⟩ := final_attrs run zs as cs₂ h₂ m p0 st₂ hr₂
  obtain ⟨st', e, hread⟩ := C83_prefix run zs as cs₁ cs₂ h₁ h₂ n m hnm p0 st₂ hr₂
  rw [hr₁] at e
  simp only [Prod.mk.injEq, true_and] at e
  subst e
  obtain ⟨z1, w1, n1, c1, m1, v1, s1, i1, i2, i3, i4, -, i5, i6, i7⟩ :=
    C36_complete env config (mapData g st₁.file) W indices rng s w ho₁
  obtain ⟨z2, w2, n2, c2, m2, v2, s2, j1, j2, j3, j4, -, j5, j6, j7⟩ :=
    C36_complete env config (mapData g st₂.file) W indices rng s w ho₂
  have k1 : (mapData g st₁.file).proton_numbers = some zs := a3
  have k2 : (mapData g st₁.file).mass_numbers = some as := a4
  have k3 : (mapData g st₁.file).n_events = some n := a1
  have k4 : (mapData g st₁.file).chunk_size = some cs₁ := a2
  have l1 : (mapData g st₂.file).proton_numbers = some zs := b3
  have l2 : (mapData g st₂.file).mass_numbers = some as := b4
  have l3 : (mapData g st₂.file).n_events = some m := b1
  have l4 : (mapData g st₂.file).chunk_size = some cs₂ := b2
  rw [k1, Option.some.injEq] at i1
  rw [k2, Option.some.injEq] at i2
  rw [k3, Option.some.injEq] at i3
  rw [k4, Option.some.injEq] at i4
  rw [l1, Option.some.injEq] at j1
  rw [l2, Option.some.injEq] at j2
  rw [l3, Option.some.injEq] at j3
  rw [l4, Option.some.injEq] at j4
  subst i1 i2 i3 i4 j1 j2 j3 j4
  have e1 : v1.length = n.toNat := by
    have := congrArg List.length i6
    simpa using this
  have e2 : v2.length = m.toNat := by
    have := congrArg List.length j6
    simpa using this
  obtain ⟨rest, hrest⟩ := Simulated_prefix i5 j5 (fun k _ hk => by
    obtain ⟨ev, e1, e2⟩ := hread k (by omega)
    rw [read_mapData, read_mapData, e1, e2]) (by omega)
  refine ⟨writeCalls config v1, writeCalls config rest, i7, ?_⟩
  rw [j7, ← hrest]
  simp [writeCalls]

/-- A pipeline that counts its events. -/
def countRun : PipeRun ℕ ℕ := fun k => (.ok (((k : ℝ), 0, 0), k), k + 1)

/-- C83 applies: three events in chunks of two, and five events in chunks of three. -/
example : ∃ st₁ st₂, run_kinematics_pipeline countRun [1] [1] 2 3 0 = (.ok (), st₁) ∧
    run_kinematics_pipeline countRun [1] [1] 3 5 0 = (.ok (), st₂) ∧
    ∀ k < 3, ∃ ev, read_event st₁.file 2 k = .ok ev ∧ read_event st₂.file 3 k = .ok ev := by
  have hok := (C37_succeeds countRun [1] [1] 3 (by norm_num) 5 0).2
    ⟨_, _, .cons rfl (.cons rfl (.cons rfl (.cons rfl (.cons rfl (.nil _))))), rfl⟩
  rcases hrun : run_kinematics_pipeline countRun [1] [1] 3 5 0 with ⟨o, st₂⟩
  rw [hrun] at hok
  simp only at hok
  subst hok
  obtain ⟨st₁, h1, h2⟩ := C83_prefix countRun [1] [1] 2 3 (by norm_num) (by norm_num) 3 5 (by norm_num)
    0 st₂ hrun
  exact ⟨st₁, st₂, h1, rfl, h2⟩

/-! ## C84 -/

/-- Converting the stored arrays by the identity changes nothing. -/
theorem mapData_id (f : KinFile ρ) : mapData id f = f := by
  rcases f with ⟨a, b, c, d, e, chunks, g⟩
  unfold mapData
  simp only [id_eq, List.map_id', KinFile.mk.injEq, true_and, and_true]

/-- The attributes and events of every file that an interruption can leave behind. -/
theorem trace_reads (run : PipeRun ρ π) (zs as : List ℤ) (cs : ℕ) (hcs : 1 ≤ cs) (n : ℤ) (p0 : π)
    (f : KinFile ρ) (hf : f ∈ (run_kinematics_pipeline run zs as cs n p0).2.trace) :
    (f.n_events = none ∨ f.n_events = some n) ∧
    (f.proton_numbers = none ∨ f.proton_numbers = some zs) ∧
    (f.mass_numbers = none ∨ f.mass_numbers = some as) ∧
    (f.chunk_size = none ∨ f.chunk_size = some cs) ∧
    ∃ evs p, Produced run p0 evs p ∧
      (∀ (k : ℕ) (hk : k < evs.length), read_event f cs k = .ok (evs[k].2, evs[k].1)) ∧
      ∀ k : ℕ, evs.length ≤ k → read_event f cs k = .error .keyError := by
  have key : Interrupted run p0 n zs as cs f → (f.n_events = none ∨ f.n_events = some n) ∧
      (f.proton_numbers = none ∨ f.proton_numbers = some zs) ∧
      (f.mass_numbers = none ∨ f.mass_numbers = some as) ∧
      (f.chunk_size = none ∨ f.chunk_size = some cs) ∧
      ∃ evs p, Produced run p0 evs p ∧
        (∀ (k : ℕ) (hk : k < evs.length), read_event f cs k = .ok (evs[k].2, evs[k].1)) ∧
        ∀ k : ℕ, evs.length ≤ k → read_event f cs k = .error .keyError := fun h =>
    ⟨h.n_events, h.proton_numbers, h.mass_numbers, h.chunk_size, by
      obtain ⟨evs, p, i1, i2, i3, -⟩ := h.events
      exact ⟨evs, p, i1, i2, i3⟩⟩
  rcases kin_run run zs as cs hcs n p0 with ⟨done, cur, p, trace, e, h1, h2, h3, h4, h5, h6⟩ |
    ⟨e, evs, p, p', file, trace, e1, g1, g2, g3, g4⟩
  · rw [e] at hf
    have hfin : ∀ c b, (finalFile n zs as cs done cur c b).n_events = some n ∧
        (finalFile n zs as cs done cur c b).proton_numbers = some zs ∧
        (finalFile n zs as cs done cur c b).mass_numbers = some as ∧
        (finalFile n zs as cs done cur c b).chunk_size = some cs ∧
        ∃ evs p, Produced run p0 evs p ∧
          (∀ (k : ℕ) (hk : k < evs.length),
            read_event (finalFile n zs as cs done cur c b) cs k = .ok (evs[k].2, evs[k].1)) ∧
          ∀ k : ℕ, evs.length ≤ k →
            read_event (finalFile n zs as cs done cur c b) cs k = .error .keyError := by
      intro c b
      refine ⟨rfl, rfl, rfl, rfl, _, p, h4,
        fun k hk => read_of_skeleton hcs (finalFile_skeleton ..) h1 h2 k hk, fun k hk => ?_⟩
      refine read_beyond hcs (finalFile_skeleton ..) (by simp) k ?_
      rw [List.length_append, flatten_length_of h1] at hk
      exact hk
    simp only [List.mem_cons] at hf
    rcases hf with rfl | rfl | rfl | hf
    · have h := hfin (some (done.length + 1)) true
      exact ⟨.inr h.1, .inr h.2.1, .inr h.2.2.1, .inr h.2.2.2.1, h.2.2.2.2⟩
    · have h := hfin (some (done.length + 1)) false
      exact ⟨.inr h.1, .inr h.2.1, .inr h.2.2.1, .inr h.2.2.2.1, h.2.2.2.2⟩
    · have h := hfin none false
      exact ⟨.inr h.1, .inr h.2.1, .inr h.2.2.1, .inr h.2.2.2.1, h.2.2.2.2⟩
    · exact key (h6 f hf)
  · rw [e1] at hf
    exact key (g4 f hf)

/-- A table can only be made if every event can be read. -/
theorem convert_reads {get_data : NuclearMap} {f : KinFile (List Vec4)} {frame : Frame}
    (h : convert_kinematics get_data f = .ok frame) :
    ∃ zs as n cs, f.proton_numbers = some zs ∧ f.mass_numbers = some as ∧ f.n_events = some n ∧
      f.chunk_size = some cs ∧ ∀ k < n.toNat, ∃ ev, read_event f cs k = .ok ev := by
  have hattr : ∀ {α : Type} {o : Option α} {a : α}, attr o = .ok a → o = some a := by
    intro α o a h
    cases o with
    | none => simp [attr] at h
    | some b => simp [attr] at h; rw [h]
  unfold convert_kinematics at h
  rw [except_bind_ok] at h
  obtain ⟨zs, hzs, h⟩ := h
  rw [except_bind_ok] at h
  obtain ⟨as, has, h⟩ := h
  rw [except_bind_ok] at h
  obtain ⟨n, hn, h⟩ := h
  rw [except_bind_ok] at h
  obtain ⟨cs, hcs, h⟩ := h
  rw [except_bind_ok] at h
  obtain ⟨ns, hns, h⟩ := h
  refine ⟨zs, as, n, cs, hattr hzs, hattr has, hattr hn, hattr hcs, fun k hk => ?_⟩
  have key : ∀ l : List ℕ, k ∈ l → ∀ f0 : Frame, l.foldlM (convert_event f cs zs as ns) f0 = .ok frame →
      ∃ ev, read_event f cs k = .ok ev := by
    intro l
    induction l with
    | nil => simp
    | cons j l ih =>
      intro hm f0 h
      rw [List.foldlM_cons, except_bind_ok] at h
      obtain ⟨f1, h1, h2⟩ := h
      rcases List.mem_cons.1 hm with rfl | hm
      · unfold convert_event at h1
        rw [except_bind_ok] at h1
        obtain ⟨ev, h3, -⟩ := h1
        exact ⟨ev, h3⟩
      · exact ih hm f1 h2
  exact key _ (List.mem_range.2 hk) _ h

/-- **C84.** If a table can be made from a file that an interruption of a kinematics run left behind, then
the interruption came after the last event: the uninterrupted run succeeds and gives the same table. -/
theorem C84_table (run : PipeRun ρ π) (zs as : List ℤ) (cs : ℕ) (hcs : 1 ≤ cs) (n : ℤ) (p0 : π)
    (f : KinFile ρ) (hf : f ∈ (run_kinematics_pipeline run zs as cs n p0).2.trace) (g : ρ → List Vec4)
    (get_data : NuclearMap) (frame : Frame) (h : convert_kinematics get_data (mapData g f) = .ok frame) :
    (run_kinematics_pipeline run zs as cs n p0).1 = .ok () ∧
    convert_kinematics get_data (mapData g (run_kinematics_pipeline run zs as cs n p0).2.file)
      = .ok frame := by
  obtain ⟨a1, a2, a3, a4, evs, p, i1, i2, i3⟩ := trace_reads run zs as cs hcs n p0 f hf
  obtain ⟨zs', as', n', cs', b1, b2, b3, b4, b5⟩ := convert_reads h
  have c1 : f.proton_numbers = some zs' := b1
  have c2 : f.mass_numbers = some as' := b2
  have c3 : f.n_events = some n' := b3
  have c4 : f.chunk_size = some cs' := b4
  rw [c3] at a1
  rw [c1] at a2
  rw [c2] at a3
  rw [c4] at a4
  simp only [reduceCtorEq, Option.some.injEq, false_or] at a1 a2 a3 a4
  subst a1 a2 a3 a4
  have hlen : n'.toNat ≤ evs.length := by
    by_contra hlt
    obtain ⟨ev, h1⟩ := b5 evs.length (by omega)
    rw [read_mapData, i3 evs.length le_rfl] at h1
    simp [Except.map] at h1
  obtain ⟨q, hq⟩ := Produced_take i1 n'.toNat
  have hok := (C37_succeeds run zs' as' cs' hcs n' p0).2
    ⟨_, q, hq, by rw [List.length_take]; omega⟩
  refine ⟨hok, ?_⟩
  rcases hrun : run_kinematics_pipeline run zs' as' cs' n' p0 with ⟨o, st⟩
  rw [hrun] at hok
  simp only at hok
  subst hok
  obtain ⟨d1, d2, d3, d4, -⟩ := final_attrs run zs' as' cs' hcs n' p0 st hrun
  obtain ⟨evs', j1, j2, -, -, -, -, j3⟩ := C37_round_trip run zs' as' cs' hcs n' p0 st hrun
  obtain ⟨rfl, -⟩ := Produced_unique j1 hq (by rw [List.length_take]; omega)
  rw [← h]
  refine convert_congr (f₁ := mapData g st.file) (f₂ := mapData g f) d3 d4 d1 d2 c1 c2 c3 c4
    (fun k hk => ?_) get_data
  rw [read_mapData, read_mapData, i2 k (by omega), j3 k (by omega), List.getElem_take]

/-- **C84.** A run that raised leaves no file behind from which a table can be made. -/
theorem C84_raised (run : PipeRun ρ π) (zs as : List ℤ) (cs : ℕ) (hcs : 1 ≤ cs) (n : ℤ) (p0 : π)
    (e : PyErr) (he : (run_kinematics_pipeline run zs as cs n p0).1 = .error e)
    (f : KinFile ρ) (hf : f ∈ (run_kinematics_pipeline run zs as cs n p0).2.trace) (g : ρ → List Vec4)
    (get_data : NuclearMap) : ∃ e', convert_kinematics get_data (mapData g f) = .error e' := by
  cases h : convert_kinematics get_data (mapData g f) with
  | error e' => exact ⟨e', rfl⟩
  | ok frame =>
    have := (C84_table run zs as cs hcs n p0 f hf g get_data frame h).1
    rw [he] at this
    simp at this

/-- C84 applies: no table can be made from what the run of `failingRun` leaves behind. -/
example (f : KinFile ℕ) (hf : f ∈ (run_kinematics_pipeline failingRun [1] [1] 2 5 0).2.trace)
    (g : ℕ → List Vec4) (get_data : NuclearMap) :
    ∃ e', convert_kinematics get_data (mapData g f) = .error e' := by
  obtain ⟨e, he⟩ := failingRun_raises
  exact C84_raised failingRun [1] [1] 2 (by norm_num) 5 0 e he f hf g get_data

/-- The hypothesis of `C84_table` holds for the last state of a run of three events. -/
example : ∃ f ∈ (run_kinematics_pipeline twoNucleiRun [1, 2] [2, 4] 2 3 0).2.trace, ∃ frame,
    convert_kinematics (fun z a => .ok ⟨z, a, 1, "X"⟩) (mapData id f) = .ok frame := by
  obtain ⟨st, frame, hr, hf⟩ := twoNucleiRun_converts
  rcases kin_run twoNucleiRun [1, 2] [2, 4] 2 (by norm_num) 3 0 with
    ⟨done, cur, p, trace, e, -⟩ | ⟨e, evs, p, p', file, trace, e1, -⟩
  · rw [hr] at e ⊢
    simp only [Prod.mk.injEq, true_and] at e
    subst e
    exact ⟨_, List.mem_cons_self, frame, by rw [mapData_id]; exact hf⟩
  · rw [e1] at hr
    simp at hr

end Verif.Props
