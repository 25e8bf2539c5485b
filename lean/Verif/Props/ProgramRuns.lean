import Verif.Props.Program
import Verif.Props.DefaultRun
import Verif.Props.PipelineRuns
import Verif.Props.LabKinematics

/-! # A run of the whole program that meets the hypotheses of C85 and C86 -/

namespace Verif.Props

open Verif.Kinematics Verif.Spec Verif.Detector

/-- Every event: 2H(2H, 1H)3H at 5 MeV, excitation 1 MeV, ejectile at right angles. -/
noncomputable def progPipe : Pipeline ℕ :=
  { reaction := exReaction, decays := [], excitations := [fun s => .ok (1, s + 1)],
    polar_dists := [fun s => .ok (Real.pi / 2, s + 1)], beam_energy := 5, target_material := none,
    event_sample_limit := 3, rng := countGen }

noncomputable def progSample : Sample :=
  { beam_energy := 5, reaction_excitation := 1, reaction_theta := Real.pi / 2, reaction_phi := 0,
    vertex := (0, 0, 0), decay_excitations := [], decay_thetas := [], decay_phis := [] }

theorem progPipe_sample (s : ℕ) : progPipe.sample s = .ok (progSample, s + 3) := rfl

theorem progPipe_built : mkPipeline countGen 0 (fun _ => none) [.reaction exReaction]
    progPipe.excitations progPipe.polar_dists 5 none 3
      = .ok (progPipe, ⟨0, [none, none, none, none]⟩) := rfl

theorem progPipe_chain : ChainOk progPipe where
  target := by norm_num [progPipe, exReaction]
  projectile := by norm_num [progPipe, exReaction]
  ejectile := by norm_num [progPipe, exReaction]
  decays := by intro d hd; simp [progPipe] at hd

theorem progPipe_samples : SamplesOk progPipe := by
  intro s x s' h
  rw [progPipe_sample] at h
  simp only [Except.ok.injEq, Prod.mk.injEq] at h
  obtain ⟨rfl, -⟩ := h
  exact ⟨by norm_num [progPipe, exReaction, progSample], by norm_num [progPipe, exReaction, progSample],
    by simp [progPipe]⟩

/-- The four momenta of every event. The ejectile and the residual have a transverse momentum of
`sqrt(33/16)` MeV. -/
theorem prog_event : ∃ t b e q : Vec4,
    exReaction.calculate 5 (Real.pi / 2) 0 1 = .ok (t, some b, some e, some q) ∧
    e.px ^ 2 = 33 / 16 ∧ q.px ^ 2 = 33 / 16 := by
  obtain ⟨t, b, e, q, h⟩ := C43_partial exReaction_ok (T := 5) (by norm_num) (Ex := 1)
    (by norm_num [exReaction]) exReaction_allowed (by norm_num [exReaction])
    (.inl (by norm_num [exReaction])) (Real.pi / 2) 0
  refine ⟨t, b, e, q, h, ?_⟩
  obtain ⟨he, hq⟩ := C81_closed_form exReaction_ok (T := 5) (by norm_num) (Ex := 1)
    (by norm_num [exReaction]) exReaction_allowed _ _ h
  have hp := (pStar_sq exReaction_ok (T := 5) (by norm_num) (Ex := 1) (by norm_num [exReaction])
    (by rw [exReaction_cm]; norm_num [exReaction])).2
  have h1 : e.px ^ 2 = 33 / 16 := by
    rw [he]
    simp only [Real.sin_pi_div_two, Real.cos_zero, mul_one]
    rw [hp, exReaction_cm]
    norm_num [exReaction]
  refine ⟨h1, ?_⟩
  rw [hq]
  simp only [neg_sq, h1]

theorem prog_run {t b e q : Vec4}
    (h : exReaction.calculate 5 (Real.pi / 2) 0 1 = .ok (t, some b, some e, some q))
    (st : PipeState ℕ) (hlen : st.result.length = 4) :
    progPipe.runCopy st = (.ok ((0, 0, 0), [some t, some b, some e, some q]),
      ⟨st.gen + 3, [some t, some b, some e, some q]⟩) := by
  obtain ⟨gen, buf⟩ := st
  match buf, hlen with
  | [a0, a1, a2, a3], _ =>
    have hat : progPipe.attempt progSample [a0, a1, a2, a3]
        = (.ok true, [some t, some b, some e, some q]) := by
      unfold Pipeline.attempt
      simp only [progPipe, progSample, exReaction_allowed, h]
      rfl
    have hrun : progPipe.run ⟨gen, [a0, a1, a2, a3]⟩
        = (.ok (0, 0, 0), ⟨gen + 3, [some t, some b, some e, some q]⟩) := by
      unfold Pipeline.run
      rw [show progPipe.event_sample_limit.toNat = 3 from rfl]
      unfold Pipeline.runLoop
      simp only [progPipe_sample, hat]
      rfl
    unfold Pipeline.runCopy
    rw [hrun]

theorem prog_produced {t b e q : Vec4}
    (h : exReaction.calculate 5 (Real.pi / 2) 0 1 = .ok (t, some b, some e, some q)) (n : ℕ) :
    ∀ st : PipeState ℕ, st.result.length = 4 → ∃ st', Produced progPipe.runCopy st
      (List.replicate n ((0, 0, 0), [some t, some b, some e, some q])) st' := by
  induction n with
  | zero => exact fun st _ => ⟨st, .nil _⟩
  | succ n ih =>
    intro st hst
    obtain ⟨st', h'⟩ := ih ⟨st.gen + 3, [some t, some b, some e, some q]⟩ rfl
    exact ⟨st', .cons (prog_run h st hst) h'⟩

theorem prog_only {t b e q : Vec4}
    (h : exReaction.calculate 5 (Real.pi / 2) 0 1 = .ok (t, some b, some e, some q))
    {st st' : PipeState ℕ} {evs : List (Event (List ResultRow))}
    (hp : Produced progPipe.runCopy st evs st') :
    st.result.length = 4 → ∀ ev ∈ evs, ev = ((0, 0, 0), [some t, some b, some e, some q]) := by
  induction hp with
  | nil => simp
  | cons h1 _ ih =>
    intro hst ev hev
    rw [prog_run h _ hst] at h1
    simp only [Prod.mk.injEq, Except.ok.injEq] at h1
    obtain ⟨rfl, rfl⟩ := h1
    rcases List.mem_cons.1 hev with rfl | hev
    · rfl
    · exact ih rfl ev hev

/-- Detector parameters: 1 m, gain 100, no diffusion, 6 electrons per MeV. -/
noncomputable def progDet : DetectorParams := { exDet 100 0 with w_value := 1.0e6 / 6 }

/-- Electronics parameters: all points are stored. -/
noncomputable def progElec : ElectronicsParams := { exElec with adc_threshold := -1 }

/-- The environment: the nuclei of the reaction and a solver that respects its events. -/
noncomputable def progEnv : SimEnv where
  get_data := fun _ a => .ok (if a = 1 then exReaction.ejectile else if a = 2 then exReaction.target
    else exReaction.residual)
  solve_ivp := safeSolver (exPadTrack.map fun r => (0, r))

theorem prog_electrons (m : ℕ) (Z A : ℤ) (sym : String) :
    generate_electrons exPadTrack ⟨Z, A, m, sym⟩ progDet exGen () = .ok ([0, (m : ℤ)], ()) := by
  have h0 : npSqrt (0 : ℝ) = some 0 := by simp [npSqrt]
  have h1 : pyInt (m : ℝ) = m := by simp [pyInt]
  have h2 : pyInt 0 = 0 := by simp [pyInt]
  have hw : progDet.w_value = 1.0e6 / 6 := rfl
  have hf : progDet.fano_factor = 0 := rfl
  have hw0 : progDet.w_value ≠ 0 := by rw [hw]; norm_num
  have b0 : betaOf (3 / 4) = 3 / 5 := sqrt_of_sq (by norm_num) (by norm_num)
  have b1 : betaOf (5 / 12) = 5 / 13 := sqrt_of_sq (by norm_num) (by norm_num)
  have g0 : Row.gv { exTrack0 with x := (ownCenter 0).1, y := (ownCenter 0).2 } = 3 / 4 := exTrack0_gv
  have g1 : Row.gv { exTrack1 with x := (ownCenter 0).1, y := (ownCenter 0).2 } = 5 / 12 := exTrack1_gv
  have hen : exPadTrack.map (track_energy ⟨Z, A, m, sym⟩) = [some (m / 4 : ℝ), some (m / 12 : ℝ)] := by
    simp only [exPadTrack, List.map_cons, List.map_nil, track_energy, g0, g1, b0, b1]
    norm_num
    constructor <;> ring
  have he : (energy_lost [some (m / 4 : ℝ), some (m / 12 : ℝ)]).map
      (Option.map (· * (1.0e6 / progDet.w_value))) = [some 0, some (m : ℝ)] := by
    have : |(m / 12 : ℝ) - m / 4| = m / 6 := by
      rw [show (m / 12 : ℝ) - m / 4 = -(m / 6) by ring, abs_neg, abs_of_nonneg (by positivity)]
    simp only [energy_lost, energy_lost.go, List.map_cons, List.map_nil, hw, Option.bind_eq_bind,
      Option.bind_some, Option.pure_def, this, Option.map_some]
    norm_num
  unfold generate_electrons
  simp only [hen]
  rw [if_neg hw0, he, hf]
  simp only [fano_draws, fano_draw, zero_mul, h0, exGen, h1, h2]
  rfl

theorem prog_stop (r : Row) (g b : ℝ) (hg : r.gv = g) (hb : betaOf g = b) (hb0 : b ≠ 0) (m : ℕ) (hm : 1 ≤ m)
    (Z A : ℤ) (sym : String) (hgb : 1.01 ≤ g / b) :
    ∃ v, stop_condition r ⟨Z, A, m, sym⟩ = .ok v ∧ 0 ≤ v := by
  have hm' : (1 : ℝ) ≤ m := by exact_mod_cast hm
  unfold stop_condition
  simp only [hg, hb]
  rw [if_neg hb0]
  refine ⟨_, rfl, ?_⟩
  unfold KE_LIMIT
  nlinarith

theorem prog_trajectory (momentum : ℝ × ℝ × ℝ) (m : ℕ) (hm : 1 ≤ m) (Z A : ℤ) (sym : String) :
    generate_trajectory progEnv.solve_ivp (0, 0, 0) momentum ⟨Z, A, m, sym⟩ progDet
      = .ok exPadTrack := by
  have b0 : betaOf (3 / 4) = 3 / 5 := sqrt_of_sq (by norm_num) (by norm_num)
  have b1 : betaOf (5 / 12) = 5 / 13 := sqrt_of_sq (by norm_num) (by norm_num)
  have g0 : Row.gv { exTrack0 with x := (ownCenter 0).1, y := (ownCenter 0).2 } = 3 / 4 := exTrack0_gv
  have g1 : Row.gv { exTrack1 with x := (ownCenter 0).1, y := (ownCenter 0).2 } = 5 / 12 := exTrack1_gv
  have hrho : Real.sqrt ((ownCenter 0).1 ^ 2 + (ownCenter 0).2 ^ 2) ≤ 0.292 := by
    have hz : (padX 0) ^ 2 + (padY 0) ^ 2 ≤ 2920000000 ^ 2 := by decide +kernel
    have hz' : (padX 0 : ℝ) ^ 2 + (padY 0 : ℝ) ^ 2 ≤ 2920000000 ^ 2 := by exact_mod_cast hz
    rw [Real.sqrt_le_iff]
    refine ⟨by norm_num, ?_⟩
    simp only [ownCenter, padCenter]
    calc _ = ((padX 0 : ℝ) ^ 2 + (padY 0 : ℝ) ^ 2) / 10000000000 ^ 2 := by ring
      _ ≤ 2920000000 ^ 2 / 10000000000 ^ 2 := by gcongr
      _ = _ := by norm_num
  have hall : ∀ ty ∈ exPadTrack.map (fun r => ((0 : ℝ), r)), ty.2.z = 0.5 ∧
      Real.sqrt (ty.2.x ^ 2 + ty.2.y ^ 2) ≤ 0.292 ∧
      ∃ v, stop_condition ty.2 ⟨Z, A, m, sym⟩ = .ok v ∧ 0 ≤ v := by
    intro ty hty
    simp only [exPadTrack, List.map_cons, List.map_nil, List.mem_cons, List.not_mem_nil, or_false] at hty
    rcases hty with rfl | rfl
    · exact ⟨rfl, hrho, prog_stop _ _ _ g0 b0 (by norm_num) m hm _ _ _ (by norm_num)⟩
    · exact ⟨rfl, hrho, prog_stop _ _ _ g1 b1 (by norm_num) m hm _ _ _ (by norm_num)⟩
  have hsol : progEnv.solve_ivp (trajectory_problem (0, 0, 0) momentum ⟨Z, A, m, sym⟩ progDet)
      = .ok (exPadTrack.map fun r => (0, r)) := by
    unfold progEnv safeSolver
    simp only
    rw [if_pos]
    intro ev hev _ v₀ h0 ty hty
    obtain ⟨h1, h2, v, h5, h6⟩ := hall ty hty
    simp only [trajectory_problem, List.mem_cons, List.not_mem_nil, or_false] at hev
    rcases hev with rfl | rfl | rfl | rfl
    · exact ⟨fun hd => by norm_num at hd, fun _ _ => ⟨v, h5, h6⟩⟩
    · exact ⟨fun _ _ => ⟨_, rfl, by unfold forward_z_bound_condition; rw [h1]; norm_num⟩,
        fun hd => by norm_num at hd⟩
    · exact ⟨fun hd => by norm_num at hd, fun _ _ => ⟨_, rfl, by
        unfold backward_z_bound_condition; rw [h1]; norm_num⟩⟩
    · refine ⟨fun _ _ => ⟨_, rfl, ?_⟩, fun hd => by norm_num at hd⟩
      unfold rho_bound_condition
      linarith
  unfold generate_trajectory
  rw [hsol]
  simp [List.map_map, Function.comp_def]

/-- Every simulated event of the run has a non-empty cloud. -/
theorem prog_cloud {config : Config} (hconf : mkConfig exPackaged progDet progElec {} = .ok config)
    {momenta : List Vec4} {cloud : List CloudPoint} {labels : List ℤ}
    (h : simulate progEnv momenta (0, 0, 0) [1, 1, 1, 1] [2, 2, 1, 3] config exGen
      (default_indices 4) () = .ok ((cloud, labels), ())) :
    ∃ q l, (q, l) ∈ cloud.zip labels ∧ 0 ≤ q.e := by
  obtain ⟨hgrid, -, -⟩ := (C67_default_config exPackaged_ok progDet progElec).2 config hconf
  obtain ⟨hv, -, hdet, helec⟩ := C60_drift_velocity _ _ _ _ config hconf
  have hb : 0 < exPackaged.packaged_grid.2.bin := by
    rw [exPackaged_ok.edges]; norm_num [packagedEdges]
  have hdv : config.drift_velocity = 0.01 := by
    rw [hdet, helec] at hv
    simp only [progDet, progElec, exDet, exElec] at hv
    push_cast at hv
    linarith
  have harr : arrival config 0.5 = 50 := by
    unfold arrival
    rw [helec, hdet]
    simp only [progDet, progElec, exElec, exDet, hdv]
    norm_num
  have hf : ∀ m : ℤ, 1 ≤ m → ((exPadTrack.zip [(0 : ℤ), m]).filter fun re => decide (1 ≤ re.2))
      = [({ exTrack1 with x := (ownCenter 0).1, y := (ownCenter 0).2 }, m)] := by
    intro m hm
    simp [exPadTrack, List.filter_cons, hm]
  have hpad : activePad exPackaged.packaged_grid.1 exPackaged.packaged_grid.2 (ownCenter 0)
      = some 0 := by
    refine lookup_activePad hb ?_ (by decide +kernel)
    rw [show (exPackaged.packaged_grid.1, exPackaged.packaged_grid.2) = exPackaged.packaged_grid
      from rfl, lookup_own exPackaged_ok 0 (by norm_num),
      padCell_of_cellF (p := 0) (by decide +kernel) (by norm_num)]
    norm_num
  have hdep : ∀ m l : ℤ, 1 ≤ m → nucleusDeposits config exPackaged.packaged_grid.1
      exPackaged.packaged_grid.2 exPadTrack [0, m] l = [⟨50, 0, 100 * m, l⟩] := by
    intro m l hm
    unfold nucleusDeposits
    rw [hf m hm]
    have hz : exTrack1.z = 0.5 := rfl
    have h50 : pyInt (50 : ℝ) = 50 := by simp [pyInt]
    simp only [List.flatMap_cons, List.flatMap_nil, List.append_nil, hz, harr]
    unfold pointDeposits
    rw [hdet]
    simp [progDet, exDet, hpad, h50, mul_comm]
  obtain ⟨tr, s₁, htr, hlen, cells, hnd, hmem, hdesc⟩ := simulate_cells
    (grid := exPackaged.packaged_grid.1) (g := exPackaged.packaged_grid.2) hb hgrid exGen_lawful h
  have step : ∀ {idx z a : ℤ} {nucleus : Nucleus} {track : List Row} {primary : List ℤ} {s s₁ : Unit}
      {momentum : Vec4} (m : ℕ) (sym : String), 1 ≤ m → nucleus = ⟨1, a, m, sym⟩ →
      generate_trajectory progEnv.solve_ivp (0, 0, 0) (momentum.px, momentum.py, momentum.pz)
        nucleus config.det_params = .ok track →
      generate_electrons track nucleus config.det_params exGen s = .ok (primary, s₁) →
      nucleusDeposits config exPackaged.packaged_grid.1 exPackaged.packaged_grid.2 track primary idx
        = [⟨50, 0, 100 * (m : ℤ), idx⟩] := by
    intro idx z a nucleus track primary s s₁ momentum m sym hm hn ht he
    subst hn
    rw [hdet] at ht he
    rw [prog_trajectory _ m hm] at ht
    obtain rfl := Except.ok.inj ht
    rw [prog_electrons] at he
    obtain ⟨rfl, -⟩ := Prod.mk.inj (Except.ok.inj he)
    exact hdep _ _ (by exact_mod_cast hm)
  have hh : history tr = [⟨50, 0, 100 * ((1 : ℕ) : ℤ), 2⟩, ⟨50, 0, 100 * ((3 : ℕ) : ℤ), 3⟩] := by
    rw [show default_indices 4 = [2, 3] from rfl] at htr
    cases htr with
    | neutral _ _ _ _ tr hz h => exact absurd (Except.ok.inj hz) (by decide)
    | charged idx z a nucleus momentum track primary rest s s₁ s' tr hz hz0 ha hn hm ht he h =>
      have h0 : (1 : ℤ) = a := Except.ok.inj ha
      subst h0
      have h1 : exReaction.ejectile = nucleus := Except.ok.inj hn
      have e1 := step (z := z) (a := 1) (idx := 2) 1 "1H" le_rfl (by rw [← h1]; simp [exReaction]) ht he
      cases h with
      | neutral _ _ _ _ tr hz h => exact absurd (Except.ok.inj hz) (by decide)
      | charged idx z a nucleus momentum track primary rest s s₁ s' tr hz hz0 ha hn hm ht he h =>
        cases h
        have h0 : (3 : ℤ) = a := Except.ok.inj ha
        subst h0
        have h1 : exReaction.residual = nucleus := Except.ok.inj hn
        have e2 := step (z := z) (a := 3) (idx := 3) 3 "3H" (by norm_num)
          (by rw [← h1]; simp [exReaction]) ht he
        simp [history, e1, e2]
  obtain ⟨⟨row, l⟩, hrl, hd⟩ := cell_row hdesc ((hmem 50 0).2 ⟨by
    rw [hh]; exact ⟨_, List.mem_cons_self, rfl, rfl⟩, by norm_num, by norm_num, by norm_num⟩)
  refine ⟨row, l, hrl, ?_⟩
  have he : row.e = (chargeAt (history tr) 50 0 : ℝ) := hd.2.2.2.1
  rw [he, hh]
  norm_num [chargeAt, Deposit.at]

/-- The hypotheses of C85 and C86 can be met together: a kinematics run of three events of `progPipe`
returns, the simulation of its file completes, and there is a stored event with points. -/
theorem prog_example (argsort : Argsort) (hA : IsArgsort argsort) (disk0 : Disk) (wconfig : Config)
    (hw : ElectronicsOk wconfig.elec_params) :
    ∃ st config final files,
      run_kinematics_pipeline progPipe.runCopy progPipe.get_proton_numbers progPipe.get_mass_numbers 2 3
        ⟨0, [none, none, none, none]⟩ = (.ok (), st) ∧
      mkConfig exPackaged progDet progElec {} = .ok config ∧
      run_simulation progEnv config (mapData plainRows st.file) (spyralWriter argsort) none exGen
        ⟨(), newWriter disk0 wconfig 2 0⟩ = (.ok (), final) ∧
      Holds disk0 final.writer.disk 0 files ∧ files.flatten.length = 3 ∧
      ∀ ev ∈ files.flatten, ev.rows ≠ [] := by
  obtain ⟨t, b, e, q, hcalc, hpe, hpq⟩ := prog_event
  obtain ⟨st', hprod⟩ := prog_produced hcalc 3 ⟨0, [none, none, none, none]⟩ rfl
  have hkin1 := (C37_succeeds progPipe.runCopy progPipe.get_proton_numbers progPipe.get_mass_numbers 2
    (by norm_num) 3 ⟨0, [none, none, none, none]⟩).2 ⟨_, _, hprod, by simp⟩
  rcases hkin : run_kinematics_pipeline progPipe.runCopy progPipe.get_proton_numbers
    progPipe.get_mass_numbers 2 3 ⟨0, [none, none, none, none]⟩ with ⟨res, st⟩
  rw [hkin] at hkin1
  simp only at hkin1
  subst hkin1
  obtain ⟨evs, hev, hlen, -, -, -, -, hread⟩ := C37_round_trip _ _ _ 2 (by norm_num) 3 _ st hkin
  have hall := prog_only hcalc hev rfl
  have hrd : ∀ (k : ℕ) (rows : List Vec4) (vertex : ℝ × ℝ × ℝ), k < (3 : ℤ).toNat →
      read_event (mapData plainRows st.file) 2 k = .ok (rows, vertex) →
      rows = [t, b, e, q] ∧ vertex = (0, 0, 0) := by
    intro k rows vertex hk h
    have hk' : k < evs.length := by rw [hlen]; exact hk
    rw [read_mapData, hread k hk', hall _ (List.getElem_mem hk')] at h
    simp only [Except.map, Except.ok.injEq, Prod.mk.injEq] at h
    exact ⟨h.1.symm, h.2.symm⟩
  obtain ⟨config, hconf⟩ := (C67_default_config exPackaged_ok progDet progElec).1.1
    (by simp [progElec, exElec])
  have hdata : ∀ nuc ∈ chainNuclei [.reaction exReaction],
      progEnv.get_data nuc.Z nuc.A = .ok nuc := by
    intro nuc hn
    simp only [chainNuclei, stepNuclei, List.flatMap_cons, List.flatMap_nil, List.append_nil,
      List.mem_cons, List.not_mem_nil, or_false] at hn
    rcases hn with rfl | rfl | rfl | rfl <;> simp [progEnv, exReaction]
  have hpos : ∀ nuc ∈ chainNuclei [.reaction exReaction], 0 < nuc.mass := by
    intro nuc hn
    simp only [chainNuclei, stepNuclei, List.flatMap_cons, List.flatMap_nil, List.append_nil,
      List.mem_cons, List.not_mem_nil, or_false] at hn
    rcases hn with rfl | rfl | rfl | rfl <;> norm_num [exReaction]
  have hmove : ∀ (px py pz m : ℝ), px ^ 2 = 33 / 16 → 0 < m → m ≤ 3 →
      1e-6 ≤ Real.sqrt (px ^ 2 + py ^ 2 + pz ^ 2 + m ^ 2) - m := by
    intro px py pz m h1 h2 h3
    have : m + 1e-6 ≤ Real.sqrt (px ^ 2 + py ^ 2 + pz ^ 2 + m ^ 2) := by
      apply Real.le_sqrt_of_sq_le
      nlinarith [sq_nonneg py, sq_nonneg pz]
    linarith
  obtain ⟨final, hsim⟩ := C86_completes progPipe_built progPipe_chain progPipe_samples 2 (by norm_num) 3 st
    hkin exPackaged_ok hconf wconfig (by norm_num [progDet, exDet]) (by norm_num [progElec, exElec])
    (by norm_num [progElec, exElec]) (by norm_num [progDet, exDet]) (by norm_num [progDet, exDet])
    (by norm_num [progDet, exDet]) (by norm_num [progDet, exDet]) progEnv (safeSolver_respects _)
    (by
      intro P _
      unfold progEnv safeSolver
      simp only
      split_ifs <;> exact ⟨_, rfl⟩)
    hdata hpos (by
      intro k rows vertex hk h
      obtain ⟨rfl, rfl⟩ := hrd k rows vertex hk h
      refine ⟨⟨by norm_num, by norm_num, by norm_num⟩, ?_⟩
      intro role nuc mom h1 h2 h3 h4 h5 h6
      match role, h1, h2, h4, h6 with
      | .target, _, h2, _, _ => simp [Role.Initial] at h2
      | .projectile, _, h2, _, _ => simp [Role.Initial] at h2
      | .first 0, _, _, h4, h6 =>
        simp only [nucleusAt, Option.some.injEq] at h4
        simp [Role.row] at h6
        subst h4 h6
        exact hmove _ _ _ _ hpe (by norm_num [progPipe, exReaction]) (by norm_num [progPipe, exReaction])
      | .second 0, _, _, h4, h6 =>
        simp only [nucleusAt, Option.some.injEq] at h4
        simp [Role.row] at h6
        subst h4 h6
        exact hmove _ _ _ _ hpq (by norm_num [progPipe, exReaction]) (by norm_num [progPipe, exReaction])
      | .first (k + 1), _, _, h4, _ => simp [nucleusAt, progPipe] at h4
      | .second (k + 1), _, _, h4, _ => simp [nucleusAt, progPipe] at h4)
    exGen exGen_lawful () argsort disk0 2 0
  obtain ⟨hgrid, -, -⟩ := (C67_default_config exPackaged_ok progDet progElec).2 config hconf
  have hb : 0 < exPackaged.packaged_grid.2.bin := by
    rw [exPackaged_ok.edges]; norm_num [packagedEdges]
  have hN : exPackaged.packaged_grid.2.high - exPackaged.packaged_grid.2.low
      ≤ exPackaged.packaged_grid.1.size * exPackaged.packaged_grid.2.bin := by
    rw [exPackaged_ok.edges, exPackaged_ok.size]
    norm_num [packagedEdges]
  obtain ⟨a1, a2, a3, a4, -⟩ := final_attrs _ _ _ 2 (by norm_num) 3 _ st hkin
  obtain ⟨zs, as, n', cs', outs, files, b1, b2, b3, b4, hsimd, hnum, hstored, -, -, hholds, -⟩ :=
    C62_complete_run progEnv config wconfig _ none exGen exGen_lawful () argsort hA disk0 2 0 (by norm_num)
      hb hN hgrid final hsim
  have c1 : st.file.proton_numbers = some zs := b1
  have c2 : st.file.mass_numbers = some as := b2
  have c3 : st.file.n_events = some n' := b3
  have c4 : st.file.chunk_size = some cs' := b4
  rw [a3, Option.some.injEq] at c1
  rw [a4, Option.some.injEq] at c2
  rw [a1, Option.some.injEq] at c3
  rw [a2, Option.some.injEq] at c4
  subst c1 c2 c3 c4
  have hcloud : ∀ o ∈ outs, ∃ p l, (p, l) ∈ o.cloud.zip o.labels ∧ 0 ≤ p.e := by
    intro o ho
    obtain ⟨momenta, vertex, s₁, s₂, f1, f2⟩ := simulated_event hsimd o ho
    have hk : o.number < (3 : ℤ).toNat := by
      have : o.number ∈ outs.map (·.number) := List.mem_map.2 ⟨o, ho, rfl⟩
      rw [hnum] at this
      exact List.mem_range.1 this
    obtain ⟨rfl, rfl⟩ := hrd _ _ _ hk f1
    exact prog_cloud hconf f2
  have hfil : (outs.filter fun ev => decide (ev.cloud ≠ [])) = outs := by
    rw [List.filter_eq_self]
    intro o ho
    obtain ⟨p, l, hp, -⟩ := hcloud o ho
    have := (List.of_mem_zip hp).1
    simp only [ne_eq, decide_not, Bool.not_eq_eq_eq_not, Bool.not_true, decide_eq_false_iff_not]
    intro h
    rw [h] at this
    simp at this
  rw [hfil] at hstored
  refine ⟨st, config, final, files, rfl, hconf, hsim, hholds, ?_, ?_⟩
  · rw [← hstored.length_eq]
    have := congrArg List.length hnum
    simpa using this
  intro ev hev
  obtain ⟨o, ho, hst⟩ := forall₂_mem_right hstored hev
  obtain ⟨p, l, hp, hpe0⟩ := hcloud o ho
  obtain ⟨centers, converted, g1, g2, g3, g4, -⟩ := hst.content
  obtain ⟨-, -, hdet, helec⟩ := C60_drift_velocity _ _ _ _ config hconf
  obtain ⟨i, hi, hieq⟩ := List.mem_iff_getElem.1 hp
  have hi1 : i < o.cloud.length := by simp at hi; omega
  have hi2 : i < o.labels.length := by simp at hi; omega
  have hi3 : i < converted.length := by rw [← g2.length_eq]; exact hi1
  have hrow := List.Forall₂.get g2 hi1 hi3
  simp only [List.getElem_zip, Prod.mk.injEq] at hieq
  have hamp : 0 ≤ (converted[i]).amp := by
    have h1 := congrArg Prod.fst hrow.signal
    simp only [List.get_eq_getElem, hieq.1] at h1
    rw [h1]
    exact (C24_bounds wconfig hw p.e hpe0).1
  have hmem : (converted[i], o.labels[i]) ∈ ev.rows.zip ev.labels := by
    rw [g4.mem_iff, List.mem_filter]
    refine ⟨List.mem_iff_getElem.2 ⟨i, by simp; omega, by simp⟩, ?_⟩
    rw [helec]
    have h1 : (progElec.adc_threshold : ℝ) = -1 := by simp [progElec]
    refine decide_eq_true ?_
    rw [h1]
    exact lt_of_lt_of_le (by norm_num) hamp
  intro hnil
  have := (List.of_mem_zip hmem).1
  rw [hnil] at this
  simp at this

end Verif.Props
