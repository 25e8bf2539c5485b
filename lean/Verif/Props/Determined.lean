import Verif.Props.WellPosed
import Verif.Props.RunFiles

/-! # C120: a run is determined by its input, not by the solver -/

namespace Verif.Detector

open Verif.Spec Verif.Kinematics Set

/-- Kinetic energy of a nucleus of the given momentum in MeV. -/
noncomputable def startEnergy (n : Nucleus) (p : Vec4) : ℝ :=
  Real.sqrt (n.mass ^ 2 + (p.px ^ 2 + p.py ^ 2 + p.pz ^ 2)) - n.mass

/-- The solver returns a solution for every nucleus of at least 1 eV. -/
def HandlesMoving (ivp : IvpSolver) (d : DetectorParams) : Prop :=
  ∀ (vertex : ℝ × ℝ × ℝ) (p : Vec4) (n : Nucleus), 0 < n.mass → 1e-6 ≤ startEnergy n p →
    ∃ sol, ivp (trajectory_problem vertex (p.px, p.py, p.pz) n d) = .ok sol

/-- A gas that slows nuclei down, with a stopping power that is locally Lipschitz for positive energies. -/
structure SlowingGas (gas : GasTarget) : Prop where
  density : 0 ≤ gas.density
  dedx : ∀ n k, 0 ≤ gas.get_dedx n k
  lipschitz : ∀ n, LocallyLipschitzOn (Ioi 0) (gas.get_dedx n)

/-- All simulated charged nuclei of an event have at least 1 eV. -/
def AllMoving (env : SimEnv) (Zs As indices : List ℤ) (momenta : List Vec4) : Prop :=
  ∀ idx ∈ indices, ∀ z a n p, pyGet Zs idx = .ok z → z ≠ 0 → pyGet As idx = .ok a →
    env.get_data z a = .ok n → pyGet momenta idx = .ok p → 0 < n.mass ∧ 1e-6 ≤ startEnergy n p

section

variable {σ : Type} {env env' : SimEnv} {config : Config}

theorem foldlM_congr_mem {α β : Type} {f f' : β → α → Except PyErr β} (l : List α)
    (h : ∀ a ∈ l, ∀ b, f b a = f' b a) (b : β) : l.foldlM f b = l.foldlM f' b := by
  induction l generalizing b with
  | nil => rfl
  | cons a l ih =>
    rw [List.foldlM_cons, List.foldlM_cons, h a (by simp)]
    congr 1
    funext c
    exact ih (fun x hx => h x (by simp [hx])) c

theorem simulate_determined (hd : env.get_data = env'.get_data) (hs : SolvesToTheEnd env.solve_ivp)
    (hs' : SolvesToTheEnd env'.solve_ivp) (hh : HandlesMoving env.solve_ivp config.det_params)
    (hh' : HandlesMoving env'.solve_ivp config.det_params) (hgas : SlowingGas config.det_params.gas_target)
    {momenta : List Vec4} {Zs As indices : List ℤ} (hm : AllMoving env Zs As indices momenta)
    (vertex : ℝ × ℝ × ℝ) (rng : Gen σ) (s : σ) :
    simulate env momenta vertex Zs As config rng indices s
      = simulate env' momenta vertex Zs As config rng indices s := by
  unfold simulate
  rw [foldlM_congr_mem (f' := simulate_nucleus env' momenta vertex Zs As config rng) indices]
  intro idx hidx ps
  unfold simulate_nucleus
  rcases hz : pyGet Zs idx with e | z
  · rfl
  · by_cases hz0 : z = 0
    · simp only [hz0]
      rfl
    · rcases ha : pyGet As idx with e | a
      · rfl
      · rcases hn : env.get_data z a with e | n
        · rw [← hd]
          simp only [hz0, hn, if_false, bind, Except.bind]
        · rcases hp : pyGet momenta idx with e | p
          · rw [← hd]
            simp only [hz0, hn, if_false, bind, Except.bind]
          · obtain ⟨hmass, hE⟩ := hm idx hidx z a n p hz hz0 ha hn hp
            obtain ⟨sol, hsol⟩ := hh vertex p n hmass hE
            obtain ⟨sol', hsol'⟩ := hh' vertex p n hmass hE
            have hK : KE_LIMIT ≤ kinetic n
                (trajectory_problem vertex (p.px, p.py, p.pz) n config.det_params).y0 := by
              rw [kinetic_initial hmass]
              unfold startEnergy at hE
              unfold KE_LIMIT
              convert hE using 3
              simp only
              ring
            have := (C105_same_cloud hs hs' hmass (hgas.dedx n) hgas.density (hgas.lipschitz n) hK hsol
              hsol' rng ps.1 idx ps.2).2
            rw [← hd]
            simp only [hz0, hn, if_false, bind, Except.bind]
            exact this

variable {τ : Type}

theorem run_events_determined {file : KinFile (List Vec4)} {Zs As : List ℤ} {cs : ℕ} {indices : List ℤ}
    {rng : Gen σ} {writer : SimWriter τ}
    (h : ∀ k momenta vertex, read_event file cs k = .ok (momenta, vertex) → ∀ s : σ,
      simulate env momenta vertex Zs As config rng indices s
        = simulate env' momenta vertex Zs As config rng indices s) (n : ℕ) (start : ℕ)
    (st : RunState σ τ) :
    run_events env config file Zs As cs indices rng writer n start st
      = run_events env' config file Zs As cs indices rng writer n start st := by
  induction n generalizing start st with
  | zero => rfl
  | succ n ih =>
    unfold run_events
    have h1 : run_event env config file Zs As cs indices rng writer start st
        = run_event env' config file Zs As cs indices rng writer start st := by
      unfold run_event
      rcases hr : read_event file cs start with e | ⟨momenta, vertex⟩
      · rfl
      · simp only
        rw [h start momenta vertex hr st.gen]
    rw [h1]
    rcases run_event env' config file Zs As cs indices rng writer start st with ⟨e | u, st'⟩
    · rfl
    · exact ih _ _

/-- **C120.** A complete run (which exception ends it, the final state of the generator and everything
the writer has done) does not depend on the solver: two solvers that integrate without error until a
terminal event, and do not give up, produce the same run on every kinematics file whose simulated
nuclei have at least 1 eV, in any gas that slows nuclei down. -/
theorem C120_same_run (hd : env.get_data = env'.get_data) (hs : SolvesToTheEnd env.solve_ivp)
    (hs' : SolvesToTheEnd env'.solve_ivp) (hh : HandlesMoving env.solve_ivp config.det_params)
    (hh' : HandlesMoving env'.solve_ivp config.det_params) (hgas : SlowingGas config.det_params.gas_target)
    (file : KinFile (List Vec4)) (indices : Option (List ℤ))
    (hm : ∀ zs as cs, file.proton_numbers = some zs → file.mass_numbers = some as →
      file.chunk_size = some cs → ∀ k momenta vertex, read_event file cs k = .ok (momenta, vertex) →
        AllMoving env zs as (indices.getD (default_indices zs.length)) momenta)
    (writer : SimWriter τ) (rng : Gen σ) (st : RunState σ τ) :
    run_simulation env config file writer indices rng st
      = run_simulation env' config file writer indices rng st := by
  rcases hz : file.proton_numbers with _ | zs
  · unfold run_simulation; simp [hz, attr]; rfl
  rcases ha : file.mass_numbers with _ | as
  · unfold run_simulation; simp [hz, ha, attr]; rfl
  rcases hn : file.n_events with _ | n
  · unfold run_simulation; simp [hz, ha, hn, attr]; rfl
  rcases hnc : file.n_chunks with _ | nc
  · unfold run_simulation; simp [hz, ha, hn, hnc, attr]; rfl
  rcases hcs : file.chunk_size with _ | cs
  · unfold run_simulation; simp [hz, ha, hn, hnc, hcs, attr]; rfl
  rw [Props.run_simulation_eq _ _ _ _ _ _ _ hz ha hn hcs hnc, Props.run_simulation_eq _ _ _ _ _ _ _ hz ha hn hcs hnc,
    run_events_determined (env' := env')]
  intro k momenta vertex hr s
  exact simulate_determined hd hs hs' hh hh' hgas (hm zs as cs hz ha hcs k momenta vertex hr) vertex rng s

end

/-- **C120.** There is a solver to which this applies, whatever the detector. -/
theorem C120_exists : ∃ ivp : IvpSolver, SolvesToTheEnd ivp ∧
    ∀ d : DetectorParams, SlowingGas d.gas_target → HandlesMoving ivp d := by
  obtain ⟨ivp, h1, -, -, -, -, h2⟩ := C105_solver
  refine ⟨ivp, h1, fun d hgas vertex p n hmass hE => ?_⟩
  refine h2 vertex _ n d hmass (hgas.dedx n) hgas.density (hgas.lipschitz n) ?_
  rw [kinetic_initial hmass]
  unfold startEnergy at hE
  unfold KE_LIMIT
  convert hE using 3
  simp only
  ring

/-- The gas of the example of C105 slows nuclei down; a deuteron with 100 MeV/c has more than 1 eV. -/
example : SlowingGas exSlowing ∧
    1e-6 ≤ startEnergy ⟨1, 2, 1876, "2H"⟩ ⟨0, 100, 0, 1879⟩ := by
  refine ⟨⟨by norm_num [exSlowing], fun n k => by unfold exSlowing; positivity, exSlowing_lipschitz⟩, ?_⟩
  unfold startEnergy
  rw [le_sub_iff_add_le]
  apply Real.le_sqrt_of_sq_le
  norm_num

theorem lookupName_mem {α : Type} {l : List (String × α)} {name : String} {a : α}
    (h : lookupName l name = .ok a) : (name, a) ∈ l := by
  unfold lookupName at h
  induction l with
  | nil => simp at h
  | cons x l ih =>
    rw [List.lookup_cons] at h
    by_cases hx : (name == x.1) = true
    · simp only [hx] at h
      obtain rfl := Except.ok.inj h
      have : name = x.1 := by simpa using hx
      subst this
      simp
    · simp only [Bool.not_eq_true] at hx
      simp only [hx] at h
      exact List.mem_cons_of_mem _ (ih h)

theorem exKinFile_momenta {cs k : ℕ} {momenta : List Vec4} {vertex : ℝ × ℝ × ℝ}
    (h : read_event Props.exKinFile cs k = .ok (momenta, vertex)) : momenta = exMomenta := by
  unfold read_event at h
  rw [except_bind_ok] at h
  obtain ⟨group, hg, h⟩ := h
  rw [except_bind_ok] at h
  obtain ⟨ds, hds, h⟩ := h
  rw [except_bind_ok] at h
  obtain ⟨vx, -, h⟩ := h
  rw [except_bind_ok] at h
  obtain ⟨vy, -, h⟩ := h
  rw [except_bind_ok] at h
  obtain ⟨vz, -, h⟩ := h
  have h1 := lookupName_mem hg
  have h2 := lookupName_mem hds
  have h3 : ds.data = momenta := congrArg Prod.fst (Except.ok.inj h)
  simp only [Props.exKinFile, List.mem_cons, Prod.mk.injEq, List.not_mem_nil, or_false] at h1
  rcases h1 with ⟨-, rfl⟩ | ⟨-, rfl⟩ <;>
  · simp only [List.mem_cons, Prod.mk.injEq, List.not_mem_nil, or_false] at h2
    rw [← h3, h2.2]

/-- The hypotheses of C120 hold together for the example file. -/
example : ∃ env : SimEnv, SolvesToTheEnd env.solve_ivp ∧
    HandlesMoving env.solve_ivp ⟨1, 10000, 2, 1, exSlowing, 1, 1, 1⟩ ∧ SlowingGas exSlowing ∧
    ∀ zs as cs, Props.exKinFile.proton_numbers = some zs → Props.exKinFile.mass_numbers = some as →
      Props.exKinFile.chunk_size = some cs → ∀ k momenta vertex,
        read_event Props.exKinFile cs k = .ok (momenta, vertex) →
        AllMoving env zs as ((some [2]).getD (default_indices zs.length)) momenta := by
  obtain ⟨ivp, h1, h2⟩ := C120_exists
  have hg : SlowingGas exSlowing :=
    ⟨by norm_num [exSlowing], fun n k => by unfold exSlowing; positivity, exSlowing_lipschitz⟩
  refine ⟨⟨fun _ _ => .ok exNucleus, ivp⟩, h1, h2 _ hg, hg, ?_⟩
  intro zs as cs hz ha hcs k momenta vertex hr idx hidx z a n p _ _ _ hn hp
  obtain rfl := exKinFile_momenta hr
  obtain rfl : idx = 2 := by simpa using hidx
  obtain rfl := Except.ok.inj hn
  have hp' : p = ⟨0, 0, 4.5, 7.5⟩ := (Except.ok.inj hp).symm
  subst hp'
  refine ⟨by norm_num [exNucleus], ?_⟩
  unfold startEnergy
  rw [le_sub_iff_add_le]
  apply Real.le_sqrt_of_sq_le
  norm_num [exNucleus]

end Verif.Detector
