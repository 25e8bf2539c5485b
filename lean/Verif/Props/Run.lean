import Verif.Spec.Runs
import Verif.Props.Simulate
import Mathlib.Tactic.Linarith

/-! # Properties of `run_simulation`: C35, C36 -/

namespace Verif.Props

open Verif.Detector Verif.Kinematics Verif.Spec

/-! ## C35 -/

/-- **C35.** The rows of the kinematics arrays are the nuclei of the chain, in the order of `Role.row`. -/
theorem C35_rows {σ : Type} (p : Pipeline σ) (r : Role) (hr : r.InChain (p.decays.length + 1)) :
    ∃ nuc, nucleusAt p r = some nuc ∧ p.get_proton_numbers[r.row]? = some nuc.Z ∧
      p.get_mass_numbers[r.row]? = some nuc.A := by
  have key : ∀ (f : Nucleus → ℤ) (ds : List Decay) (k : ℕ) (hk : k < ds.length),
      (ds.flatMap fun d => [f d.residual_1, f d.residual_2])[2 * k]? = some (f ds[k].residual_1) ∧
      (ds.flatMap fun d => [f d.residual_1, f d.residual_2])[2 * k + 1]?
        = some (f ds[k].residual_2) := by
    intro f ds
    induction ds with
    | nil => intro k hk; simp at hk
    | cons d ds ih =>
      intro k hk
      cases k with
      | zero => simp
      | succ k =>
        have := ih k (by simpa using hk)
        have e1 : 2 * (k + 1) = 2 * k + 1 + 1 := by ring
        simpa [e1] using this
  cases r with
  | target => exact ⟨_, rfl, rfl, rfl⟩
  | projectile => exact ⟨_, rfl, rfl, rfl⟩
  | first k =>
    cases k with
    | zero => exact ⟨_, rfl, rfl, rfl⟩
    | succ k =>
      have hk : k < p.decays.length := by simpa [Role.InChain] using hr
      refine ⟨p.decays[k].residual_1, by simp [nucleusAt, hk], ?_, ?_⟩
      · have := (key (·.Z) p.decays k hk).1
        have e : Role.row (.first (k + 1)) = 2 * k + 4 := by simp [Role.row]; ring
        rw [e]; simpa [Pipeline.get_proton_numbers] using this
      · have := (key (·.A) p.decays k hk).1
        have e : Role.row (.first (k + 1)) = 2 * k + 4 := by simp [Role.row]; ring
        rw [e]; simpa [Pipeline.get_mass_numbers] using this
  | second k =>
    cases k with
    | zero => exact ⟨_, rfl, rfl, rfl⟩
    | succ k =>
      have hk : k < p.decays.length := by simpa [Role.InChain] using hr
      refine ⟨p.decays[k].residual_2, by simp [nucleusAt, hk], ?_, ?_⟩
      · have := (key (·.Z) p.decays k hk).2
        have e : Role.row (.second (k + 1)) = 2 * k + 1 + 4 := by simp [Role.row]; ring
        rw [e]; simpa [Pipeline.get_proton_numbers] using this
      · have := (key (·.A) p.decays k hk).2
        have e : Role.row (.second (k + 1)) = 2 * k + 1 + 4 := by simp [Role.row]; ring
        rw [e]; simpa [Pipeline.get_mass_numbers] using this

theorem get_proton_numbers_length {σ : Type} (p : Pipeline σ) :
    p.get_proton_numbers.length = 4 + 2 * p.decays.length := by
  have : ∀ (ds : List Decay), (ds.flatMap fun d => [d.residual_1.Z, d.residual_2.Z]).length
      = 2 * ds.length := by
    intro ds
    induction ds with
    | nil => rfl
    | cons d ds ih => simp [ih]; ring
  simp [Pipeline.get_proton_numbers, this]; ring

theorem get_mass_numbers_length {σ : Type} (p : Pipeline σ) :
    p.get_mass_numbers.length = 4 + 2 * p.decays.length := by
  have : ∀ (ds : List Decay), (ds.flatMap fun d => [d.residual_1.A, d.residual_2.A]).length
      = 2 * ds.length := by
    intro ds
    induction ds with
    | nil => rfl
    | cons d ds ih => simp [ih]; ring
  simp [Pipeline.get_mass_numbers, this]; ring

theorem default_indices_eq (n : ℕ) :
    default_indices (4 + 2 * n)
      = ((List.range (n + 1)).map fun (k : ℕ) => ((2 + 2 * k : ℕ) : ℤ)) ++ [((3 + 2 * n : ℕ) : ℤ)] := by
  unfold default_indices
  have h1 : (4 + 2 * n - 2 + 1) / 2 = n + 1 := by omega
  rw [h1]
  congr 1
  · apply List.ext_getElem
    · simp
    · intro i h2 h3
      simp
  · congr 1
    push_cast
    ring

/-- **C35.** For every pipeline (a chain of any length), the default list contains each row at most
once, and contains a row exactly when the nucleus there is neither target nor projectile nor decays
further. -/
theorem C35_final_products {σ : Type} (p : Pipeline σ) :
    (default_indices p.get_proton_numbers.length).Nodup ∧
    ∀ i : ℤ, i ∈ default_indices p.get_proton_numbers.length ↔
      ∃ r : Role, r.InChain (p.decays.length + 1) ∧ ¬ r.Initial ∧ ¬ r.Decays (p.decays.length + 1) ∧
        i = (r.row : ℤ) := by
  rw [get_proton_numbers_length, default_indices_eq]
  constructor
  · rw [List.nodup_append]
    refine ⟨?_, by simp, ?_⟩
    · refine List.Nodup.map ?_ List.nodup_range
      intro a b h
      simp only [Nat.cast_inj] at h
      omega
    · intro a ha b hb
      simp only [List.mem_map, List.mem_range] at ha
      obtain ⟨k, hk, rfl⟩ := ha
      simp only [List.mem_singleton] at hb
      subst hb
      intro h
      have : (2 + 2 * k : ℕ) = 3 + 2 * p.decays.length := by exact_mod_cast h
      omega
  · intro i
    simp only [List.mem_append, List.mem_map, List.mem_range, List.mem_singleton]
    constructor
    · rintro (⟨k, hk, rfl⟩ | rfl)
      · exact ⟨.first k, hk, fun h => h, fun h => h, rfl⟩
      · exact ⟨.second p.decays.length, Nat.lt_succ_self _, fun h => h,
          fun h => absurd h (lt_irrefl _), rfl⟩
    · rintro ⟨r, hin, hini, hdec, rfl⟩
      cases r with
      | target => exact absurd trivial hini
      | projectile => exact absurd trivial hini
      | first k => exact .inl ⟨k, hin, rfl⟩
      | second k =>
        have h1 : k < p.decays.length + 1 := hin
        have h2 : ¬ k + 1 < p.decays.length + 1 := hdec
        have : k = p.decays.length := by omega
        subst this
        exact .inr rfl

/-- **C35.** With `indices=None`, `run_simulation` on a file carrying the pipeline's numbers is
`run_simulation` with that list. -/
theorem C35_default {σ σ' τ : Type} (p : Pipeline σ') (env : SimEnv) (config : Config)
    (file : KinFile (List Vec4)) (hz : file.proton_numbers = some p.get_proton_numbers)
    (writer : SimWriter τ) (rng : Gen σ) (st : RunState σ τ) :
    run_simulation env config file writer none rng st
      = run_simulation env config file writer
          (some (default_indices p.get_proton_numbers.length)) rng st := by
  unfold run_simulation
  rw [hz]
  simp only [attr]
  cases file.mass_numbers <;> cases file.n_events <;> cases file.n_chunks <;>
    cases file.chunk_size <;> rfl

/-- A chain of one reaction and two decays: rows 2, 4, 6 and 7 are simulated. -/
example : default_indices 8 = [2, 4, 6, 7] := by decide
example : default_indices 4 = [2, 3] := by decide

/-! ## C36 -/

section
variable {σ τ : Type} (env : SimEnv) (config : Config) (file : KinFile (List Vec4))
  (zs as : List ℤ) (chunk_size : ℕ) (indices : List ℤ) (rng : Gen σ)

/-- What a run of the event loop over `n` events from `start` may have done. -/
theorem run_events_log (W : SimWriter τ) (n : ℕ) : ∀ (start : ℕ) (st : RunState σ (τ × List Call)),
    (∃ evs s', Simulated env config file zs as chunk_size indices rng start st.gen evs s' ∧
      evs.length = n ∧
      (run_events env config file zs as chunk_size indices rng (logged W) n start st).1 = .ok () ∧
      (run_events env config file zs as chunk_size indices rng (logged W) n start st).2.writer.2
        = st.writer.2 ++ writeCalls config evs) ∨
    (∃ evs s' e, Simulated env config file zs as chunk_size indices rng start st.gen evs s' ∧
      evs.length ≤ n ∧
      (run_events env config file zs as chunk_size indices rng (logged W) n start st).1 = .error e ∧
      (run_events env config file zs as chunk_size indices rng (logged W) n start st).2.writer.2
        = st.writer.2 ++ writeCalls config evs) := by
  induction n with
  | zero =>
    intro start st
    exact .inl ⟨[], _, .nil _ _, rfl, rfl, by simp [run_events, writeCalls]⟩
  | succ n ih =>
    intro start st
    cases hread : read_event file chunk_size start with
    | error e =>
      refine .inr ⟨[], _, e, .nil _ _, by simp, ?_, ?_⟩
      · simp [run_events, run_event, hread]
      · simp [run_events, run_event, hread, writeCalls]
    | ok mv =>
      obtain ⟨momenta, vertex⟩ := mv
      cases hsim : simulate env momenta vertex zs as config rng indices st.gen with
      | error e =>
        refine .inr ⟨[], _, e, .nil _ _, by simp, ?_, ?_⟩
        · simp [run_events, run_event, hread, hsim]
        · simp [run_events, run_event, hread, hsim, writeCalls]
      | ok cls =>
        obtain ⟨⟨cloud, labels⟩, s1⟩ := cls
        by_cases hc : cloud = []
        · have hstep : run_events env config file zs as chunk_size indices rng (logged W) (n + 1)
              start st = run_events env config file zs as chunk_size indices rng (logged W) n
              (start + 1) { st with gen := s1 } := by
            simp [run_events, run_event, hread, hsim, hc]
          rw [hstep]
          rcases ih (start + 1) { st with gen := s1 } with ⟨evs, s', h1, h2, h3, h4⟩ |
            ⟨evs, s', e, h1, h2, h3, h4⟩
          · refine .inl ⟨_, s', .cons hread hsim h1, by simp [h2], h3, ?_⟩
            rw [h4]; simp [writeCalls, hc]
          · refine .inr ⟨_, s', e, .cons hread hsim h1, by simp [h2], h3, ?_⟩
            rw [h4]; simp [writeCalls, hc]
        · cases hw : (W.write cloud labels config start st.writer.1).1 with
          | error e =>
            refine .inr ⟨_, s1, e, .cons hread hsim (.nil _ _), by simp, ?_, ?_⟩
            · simp [run_events, run_event, hread, hsim, hc, logged, hw]
            · simp [run_events, run_event, hread, hsim, hc, logged, hw, writeCalls]
          | ok u =>
            have hstep : run_events env config file zs as chunk_size indices rng (logged W) (n + 1)
                start st = run_events env config file zs as chunk_size indices rng (logged W) n
                (start + 1) { gen := s1, writer := ((W.write cloud labels config start st.writer.1).2,
                  st.writer.2 ++ [.write cloud labels config start]) } := by
              simp [run_events, run_event, hread, hsim, hc, logged, hw]
            rw [hstep]
            rcases ih (start + 1) _ with ⟨evs, s', h1, h2, h3, h4⟩ |
              ⟨evs, s', e, h1, h2, h3, h4⟩
            · refine .inl ⟨_, s', .cons hread hsim h1, by simp [h2], h3, ?_⟩
              rw [h4]; simp [writeCalls, hc]
            · refine .inr ⟨_, s', e, .cons hread hsim h1, by simp [h2], h3, ?_⟩
              rw [h4]; simp [writeCalls, hc]

end

/-- With all attributes present the run is the event loop followed by `close`. -/
theorem run_simulation_eq {σ τ : Type} (env : SimEnv) (config : Config) (file : KinFile (List Vec4))
    (W : SimWriter τ) (indices : Option (List ℤ)) (rng : Gen σ) (st : RunState σ τ)
    {zs as : List ℤ} {n : ℤ} {cs nc : ℕ}
    (hz : file.proton_numbers = some zs) (ha : file.mass_numbers = some as)
    (hn : file.n_events = some n) (hcs : file.chunk_size = some cs) (hnc : file.n_chunks = some nc) :
    run_simulation env config file W indices rng st =
      match run_events env config file zs as cs (indices.getD (default_indices zs.length)) rng W
          n.toNat 0 st with
      | (.error e, st) => (.error e, st)
      | (.ok _, st) => ((W.close st.writer).1, { st with writer := (W.close st.writer).2 }) := by
  unfold run_simulation
  rw [hz, ha, hn, hcs, hnc]
  cases indices <;> rfl

/-- Without one of the attributes the run raises at once. -/
theorem run_simulation_missing {σ τ : Type} (env : SimEnv) (config : Config)
    (file : KinFile (List Vec4)) (W : SimWriter τ) (indices : Option (List ℤ)) (rng : Gen σ)
    (st : RunState σ τ)
    (h : file.proton_numbers = none ∨ file.mass_numbers = none ∨ file.n_events = none ∨
      file.n_chunks = none ∨ file.chunk_size = none) :
    run_simulation env config file W indices rng st = (.error .keyError, st) := by
  unfold run_simulation
  cases h1 : file.proton_numbers with
  | none => rfl
  | some zs =>
  cases h2 : file.mass_numbers with
  | none => rfl
  | some as =>
  cases h3 : file.n_events with
  | none => rfl
  | some n =>
  cases h4 : file.n_chunks with
  | none => rfl
  | some nc =>
  cases h5 : file.chunk_size with
  | none => rfl
  | some cs => simp [h1, h2, h3, h4, h5] at h

theorem attrs_or_missing {ρ : Type} (file : KinFile ρ) :
    (file.proton_numbers = none ∨ file.mass_numbers = none ∨ file.n_events = none ∨
      file.n_chunks = none ∨ file.chunk_size = none) ∨
    ∃ zs as n cs nc, file.proton_numbers = some zs ∧ file.mass_numbers = some as ∧
      file.n_events = some n ∧ file.chunk_size = some cs ∧ file.n_chunks = some nc := by
  cases h1 : file.proton_numbers <;> cases h2 : file.mass_numbers <;> cases h3 : file.n_events <;>
    cases h4 : file.n_chunks <;> cases h5 : file.chunk_size <;> simp

theorem Simulated_numbers {σ : Type} {env : SimEnv} {config : Config} {file : KinFile (List Vec4)}
    {zs as : List ℤ} {chunk_size : ℕ} {indices : List ℤ} {rng : Gen σ} {k : ℕ} {s s' : σ}
    {evs : List EventOut}
    (h : Simulated env config file zs as chunk_size indices rng k s evs s') :
    evs.map (·.number) = List.range' k evs.length := by
  induction h with
  | nil => rfl
  | cons h1 h2 h3 ih => simp [ih, List.range'_succ]

/-- **C36.** Recording the calls does not change the run. -/
theorem C36_logged {σ τ : Type} (env : SimEnv) (config : Config) (file : KinFile (List Vec4))
    (W : SimWriter τ) (indices : Option (List ℤ)) (rng : Gen σ) (s : σ) (w : τ) (log : List Call) :
    let r := run_simulation env config file (logged W) indices rng ⟨s, (w, log)⟩
    let r' := run_simulation env config file W indices rng ⟨s, w⟩
    r.1 = r'.1 ∧ r.2.gen = r'.2.gen ∧ r.2.writer.1 = r'.2.writer := by
  have hev : ∀ (zs as : List ℤ) (cs : ℕ) (idx : List ℤ) (n start : ℕ) (st : RunState σ (τ × List Call)),
      let r := run_events env config file zs as cs idx rng (logged W) n start st
      let r' := run_events env config file zs as cs idx rng W n start ⟨st.gen, st.writer.1⟩
      r.1 = r'.1 ∧ r.2.gen = r'.2.gen ∧ r.2.writer.1 = r'.2.writer := by
    intro zs as cs idx n
    induction n with
    | zero => intro start st; exact ⟨rfl, rfl, rfl⟩
    | succ n ih =>
      intro start st
      cases hread : read_event file cs start with
      | error e => simp [run_events, run_event, hread]
      | ok mv =>
        obtain ⟨momenta, vertex⟩ := mv
        cases hsim : simulate env momenta vertex zs as config rng idx st.gen with
        | error e => simp [run_events, run_event, hread, hsim]
        | ok cls =>
          obtain ⟨⟨cloud, labels⟩, s1⟩ := cls
          by_cases hc : cloud = []
          · have := ih (start + 1) { st with gen := s1 }
            simpa [run_events, run_event, hread, hsim, hc] using this
          · cases hw : (W.write cloud labels config start st.writer.1).1 with
            | error e => simp [run_events, run_event, hread, hsim, hc, logged, hw]
            | ok u =>
              have := ih (start + 1) { gen := s1, writer :=
                ((W.write cloud labels config start st.writer.1).2,
                  st.writer.2 ++ [.write cloud labels config start]) }
              simpa [run_events, run_event, hread, hsim, hc, logged, hw] using this
  intro r r'
  simp only [r, r']
  rcases attrs_or_missing file with h | ⟨zs, as, n, cs, nc, h1, h2, h3, h4, h5⟩
  · rw [run_simulation_missing _ _ _ _ _ _ _ h, run_simulation_missing _ _ _ _ _ _ _ h]
    exact ⟨rfl, rfl, rfl⟩
  · rw [run_simulation_eq _ _ _ _ _ _ _ h1 h2 h3 h4 h5, run_simulation_eq _ _ _ _ _ _ _ h1 h2 h3 h4 h5]
    have := hev zs as cs (indices.getD (default_indices zs.length)) n.toNat 0 ⟨s, (w, log)⟩
    simp only at this
    generalize run_events env config file zs as cs (indices.getD (default_indices zs.length)) rng
      (logged W) n.toNat 0 ⟨s, (w, log)⟩ = q at this
    generalize run_events env config file zs as cs (indices.getD (default_indices zs.length)) rng
      W n.toNat 0 ⟨s, w⟩ = q' at this
    obtain ⟨a, g, b, c⟩ := q
    obtain ⟨a', g', b'⟩ := q'
    obtain ⟨rfl, rfl, rfl⟩ := this
    cases a with
    | error e => exact ⟨rfl, rfl, rfl⟩
    | ok u => exact ⟨rfl, rfl, rfl⟩

/-- **C36.** A run that returns normally has simulated the events `0 … n-1` in order (each exactly
once, with the generator state left by its predecessor), has called `write` exactly once for each
event with a non-empty cloud, in order and under its own number, and has then called `close` once. -/
theorem C36_complete {σ τ : Type} (env : SimEnv) (config : Config) (file : KinFile (List Vec4))
    (W : SimWriter τ) (indices : Option (List ℤ)) (rng : Gen σ) (s : σ) (w : τ)
    (hok : (run_simulation env config file (logged W) indices rng ⟨s, (w, [])⟩).1 = .ok ()) :
    ∃ zs as n cs nc evs s', file.proton_numbers = some zs ∧ file.mass_numbers = some as ∧
      file.n_events = some n ∧ file.chunk_size = some cs ∧ file.n_chunks = some nc ∧
      Simulated env config file zs as cs (indices.getD (default_indices zs.length)) rng 0 s evs s' ∧
      evs.map (·.number) = List.range n.toNat ∧
      (run_simulation env config file (logged W) indices rng ⟨s, (w, [])⟩).2.writer.2
        = writeCalls config evs ++ [.close] := by
  rcases attrs_or_missing file with h | ⟨zs, as, n, cs, nc, h1, h2, h3, h4, h5⟩
  · rw [run_simulation_missing _ _ _ _ _ _ _ h] at hok
    simp at hok
  · rw [run_simulation_eq _ _ _ _ _ _ _ h1 h2 h3 h4 h5] at hok ⊢
    rcases run_events_log env config file zs as cs (indices.getD (default_indices zs.length)) rng W
      n.toNat 0 ⟨s, (w, [])⟩ with ⟨evs, s', k1, k2, k3, k4⟩ | ⟨evs, s', e, k1, k2, k3, k4⟩
    · refine ⟨zs, as, n, cs, nc, evs, s', h1, h2, h3, h4, h5, k1, ?_, ?_⟩
      · rw [Simulated_numbers k1, k2, List.range_eq_range']
      · revert k3 k4
        generalize run_events env config file zs as cs (indices.getD (default_indices zs.length)) rng
          (logged W) n.toNat 0 ⟨s, (w, [])⟩ = q
        obtain ⟨a, g, b, c⟩ := q
        intro k3 k4
        simp only at k3 k4
        subst k3 k4
        simp [logged]
    · revert k3 hok
      generalize run_events env config file zs as cs (indices.getD (default_indices zs.length)) rng
          (logged W) n.toNat 0 ⟨s, (w, [])⟩ = q
      obtain ⟨a, g, b, c⟩ := q
      intro hok k3
      simp only at k3
      subst k3
      simp at hok

/-- **C36.** A run that raises has simulated some of the first events in order and has called `write`
exactly once for each of them that has a non-empty cloud; `close` was called at most once, after all
`n` events, in which case it is what raised. -/
theorem C36_interrupted {σ τ : Type} (env : SimEnv) (config : Config) (file : KinFile (List Vec4))
    (W : SimWriter τ) (indices : Option (List ℤ)) (rng : Gen σ) (s : σ) (w : τ) (e : PyErr)
    (zs as : List ℤ) (n : ℤ) (cs nc : ℕ)
    (hz : file.proton_numbers = some zs) (ha : file.mass_numbers = some as)
    (hn : file.n_events = some n) (hcs : file.chunk_size = some cs) (hnc : file.n_chunks = some nc)
    (herr : (run_simulation env config file (logged W) indices rng ⟨s, (w, [])⟩).1 = .error e) :
    ∃ evs s', 
      Simulated env config file zs as cs (indices.getD (default_indices zs.length)) rng 0 s evs s' ∧
      evs.map (·.number) = List.range evs.length ∧ evs.length ≤ n.toNat ∧
      ((run_simulation env config file (logged W) indices rng ⟨s, (w, [])⟩).2.writer.2
          = writeCalls config evs ∨
       evs.length = n.toNat ∧
       (run_simulation env config file (logged W) indices rng ⟨s, (w, [])⟩).2.writer.2
          = writeCalls config evs ++ [.close]) := by
  rw [run_simulation_eq _ _ _ _ _ _ _ hz ha hn hcs hnc] at herr ⊢
  rcases run_events_log env config file zs as cs (indices.getD (default_indices zs.length)) rng W
    n.toNat 0 ⟨s, (w, [])⟩ with ⟨evs, s', k1, k2, k3, k4⟩ | ⟨evs, s', e', k1, k2, k3, k4⟩
  · refine ⟨evs, s', k1, by rw [Simulated_numbers k1, List.range_eq_range'], k2.le, .inr ⟨k2, ?_⟩⟩
    revert k3 k4
    generalize run_events env config file zs as cs (indices.getD (default_indices zs.length)) rng
      (logged W) n.toNat 0 ⟨s, (w, [])⟩ = q
    obtain ⟨a, g, b, c⟩ := q
    intro k3 k4
    simp only at k3 k4
    subst k3 k4
    simp [logged]
  · refine ⟨evs, s', k1, by rw [Simulated_numbers k1, List.range_eq_range'], k2, .inl ?_⟩
    revert k3 k4
    generalize run_events env config file zs as cs (indices.getD (default_indices zs.length)) rng
      (logged W) n.toNat 0 ⟨s, (w, [])⟩ = q
    obtain ⟨a, g, b, c⟩ := q
    intro k3 k4
    simp only at k3 k4
    subst k3 k4
    simp
/-- A file with two events, in two chunks, whose third nucleus leaves a non-empty cloud. -/
noncomputable def exKinFile : KinFile (List Vec4) :=
  { n_events := some 2, proton_numbers := some [1, 1, 1], mass_numbers := some [1, 1, 1],
    chunk_size := some 1, n_chunks := some 2,
    chunks := [("chunk_0", { events := [("event_0", ⟨exMomenta, some 0, some 0, some 0.5⟩)] }),
      ("chunk_1", { events := [("event_1", ⟨exMomenta, some 0, some 0, some 0.5⟩)] })] }

/-- A writer that does nothing. -/
def exSink : SimWriter Unit := ⟨fun _ _ _ _ w => (.ok (), w), fun w => (.ok (), w)⟩

/-- C36 on the example file: two writes with non-empty clouds, then `close`. -/
example : ∃ cloud labels, cloud ≠ [] ∧
    (run_simulation exEnv (exConfig 100 0) exKinFile (logged exSink) (some [2]) exGen
      ⟨(), ((), [])⟩).1 = .ok () ∧
    (run_simulation exEnv (exConfig 100 0) exKinFile (logged exSink) (some [2]) exGen
      ⟨(), ((), [])⟩).2.writer.2 = [.write cloud labels (exConfig 100 0) 0,
        .write cloud labels (exConfig 100 0) 1, .close] := by
  obtain ⟨cloud, labels, h, row, hrow⟩ := exSimulate_nonempty
  have hc : cloud ≠ [] := by rintro rfl; simp at hrow
  have r0 : read_event exKinFile 1 0 = .ok (exMomenta, (0, 0, 0.5)) := by rfl
  have r1 : read_event exKinFile 1 1 = .ok (exMomenta, (0, 0, 0.5)) := by rfl
  have e : run_simulation exEnv (exConfig 100 0) exKinFile (logged exSink) (some [2]) exGen
      ⟨(), ((), [])⟩ = (.ok (), ⟨(), ((), [.write cloud labels (exConfig 100 0) 0,
        .write cloud labels (exConfig 100 0) 1, .close])⟩) := by
    rw [run_simulation_eq (zs := [1, 1, 1]) (as := [1, 1, 1]) (n := 2) (cs := 1) (nc := 2) _ _ _ _ _ _ _
      rfl rfl rfl rfl rfl]
    have e2 : (2 : ℤ).toNat = 2 := rfl
    simp [e2, run_events, run_event, r0, r1, h, hc, logged, exSink]
  exact ⟨cloud, labels, hc, by rw [e], by rw [e]⟩

end Verif.Props
