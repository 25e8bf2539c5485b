import Verif.Props.Gain
import Verif.Props.TriggerRun

/-! # C163: without diffusion the output depends on the two gains through their ratio and on clock and shaping time
through their product -/

namespace Verif.Detector

open Verif.Spec Verif.Kinematics Verif.Props

/-! ## Writers with another response -/

/-- A writer with another response. -/
def setResponse (r : List ℝ) (w : Writer) : Writer := { w with response := r }

theorem ops_respond (r : List ℝ) (os : List DiskOp) (w : Writer) :
    (setResponse r w).ops os = ((w.ops os).1, setResponse r (w.ops os).2) := by
  induction os generalizing w with
  | nil => rfl
  | cons o os ih =>
    have hop : (setResponse r w).op o = ((w.op o).1, setResponse r (w.op o).2) := by
      unfold Writer.op
      have h : (setResponse r w).disk = w.disk := rfl
      rw [h]
      rcases DiskOp.apply w.disk o with e | d
      · rfl
      · rfl
    unfold Writer.ops
    rw [hop]
    rcases w.op o with ⟨q, w1⟩
    rcases q with e | u
    · rfl
    · exact ih w1

theorem close_respond (r : List ℝ) (w : Writer) :
    (setResponse r w).close = (w.close.1, setResponse r w.close.2) :=
  ops_respond r [.setMin w.file w.starting_event, .setMax w.file w.last_event, .close w.file] w

theorem create_next_file_respond (r : List ℝ) (w : Writer) :
    (setResponse r w).create_next_file = (w.create_next_file.1, setResponse r w.create_next_file.2) :=
  ops_respond r [.createFile (run_name (w.run_number + 1)), .createGroup (run_name (w.run_number + 1))]
    { w with run_number := w.run_number + 1, file := run_name (w.run_number + 1) }

theorem rollover_respond (r : List ℝ) (w : Writer) (event : ℤ) :
    (setResponse r w).rollover event = ((w.rollover event).1, setResponse r (w.rollover event).2) := by
  unfold Writer.rollover
  have h1 : (setResponse r w).events_written = w.events_written := rfl
  have h2 : (setResponse r w).max_events_per_file = w.max_events_per_file := rfl
  rw [h1, h2]
  split_ifs
  · rw [close_respond]
    rcases w.close with ⟨q, w1⟩
    rcases q with e | u
    · rfl
    · simp only
      rw [create_next_file_respond]
      rcases w1.create_next_file with ⟨q, w2⟩
      rcases q with e | u
      · rfl
      · rfl
  · rfl

theorem ops_keeps (os : List DiskOp) (w : Writer) : (w.ops os).2.response = w.response := by
  have h := ops_respond w.response os w
  have hw : setResponse w.response w = w := rfl
  rw [hw] at h
  exact congrArg (fun q => q.2.response) h

theorem rollover_keeps (w : Writer) (event : ℤ) : (w.rollover event).2.response = w.response := by
  have h := rollover_respond w.response w event
  have hw : setResponse w.response w = w := rfl
  rw [hw] at h
  exact congrArg (fun q => q.2.response) h

theorem write_keeps (argsort : Argsort) (data : List CloudPoint) (labels : List ℤ) (config : Config) (event : ℤ)
    (w : Writer) : (w.write argsort data labels config event).2.response = w.response := by
  unfold Writer.write
  have h1 := rollover_keeps w event
  rcases hq : w.rollover event with ⟨q, w1⟩
  rw [hq] at h1
  rcases q with e | u
  · exact h1
  simp only at h1 ⊢
  rcases format_event argsort w1.response data labels config with e | ⟨rows, ls⟩
  · exact h1
  · have h2 := ops_keeps (event_ops w1.file w1.run_number event rows ls) w1
    simp only
    rcases ho : w1.ops (event_ops w1.file w1.run_number event rows ls) with ⟨q, w2⟩
    rw [ho] at h2
    rcases q with e | u
    · exact h2.trans h1
    · exact h2.trans h1

/-! ## The settings -/

/-- A configuration with other gains of micromegas and amplifier, another clock and another shaping time. -/
def rescaled (config : Config) (G A : ℤ) (clock : ℝ) (shaping : ℤ) : Config :=
  { config with det_params := { config.det_params with mpgd_gain := G },
                elec_params := { config.elec_params with amp_gain := A, clock_freq := clock, shaping_time := shaping } }

/-- The gains have the same ratio, clock and shaping time the same product. -/
structure SameScales (config : Config) (G A : ℤ) (clock : ℝ) (shaping : ℤ) : Prop where
  pos : 0 < config.elec_params.amp_gain
  pos' : 0 < A
  ratio : A * config.det_params.mpgd_gain = config.elec_params.amp_gain * G
  product : (shaping : ℝ) * clock = (config.elec_params.shaping_time : ℝ) * config.elec_params.clock_freq

section

variable {config : Config} {G A : ℤ} {clock : ℝ} {shaping : ℤ}

/-- **C163.** The response is inversely proportional to the gain of the amplifier and depends on clock and shaping time
through their product. -/
theorem C163_response (h : SameScales config G A clock shaping) :
    List.Forall₂ (fun r r' => r' * (A : ℝ) = r * config.elec_params.amp_gain) (get_response config)
      (get_response (rescaled config G A clock shaping)) := by
  have hA : (0 : ℝ) < config.elec_params.amp_gain := by exact_mod_cast h.pos
  have hA' : (0 : ℝ) < A := by exact_mod_cast h.pos'
  unfold get_response
  simp only [List.map_map]
  generalize linspace 0 (NUM_TB : ℝ) NUM_TB = tbs
  rw [List.forall₂_map_left_iff, List.forall₂_map_right_iff, List.forall₂_same]
  intro tb _
  have hp : (rescaled config G A clock shaping).elec_params
      = { config.elec_params with amp_gain := A, clock_freq := clock, shaping_time := shaping } := rfl
  have hr : response_at (rescaled config G A clock shaping).elec_params tb * (A : ℝ)
      = response_at config.elec_params tb * config.elec_params.amp_gain := by
    rw [hp]
    unfold response_at
    simp only [h.product]
    field_simp
  simp only [Function.comp]
  have hsign : response_at (rescaled config G A clock shaping).elec_params tb < 0 ↔
      response_at config.elec_params tb < 0 := by
    have hn : ∀ x a : ℝ, 0 < a → (x * a < 0 ↔ x < 0) := fun x a ha => by
      rw [← not_le, ← not_le, mul_nonneg_iff_of_pos_right ha]
    rw [← hn _ _ hA', hr, hn _ _ hA]
  by_cases h0 : response_at config.elec_params tb < 0
  · rw [if_pos h0, if_pos (hsign.2 h0)]
    simp
  · rw [if_neg h0, if_neg (fun h1 => h0 (hsign.1 h1))]
    exact hr

/-- **C163.** Without diffusion the clouds have the same points and labels, the charges being proportional to the gain of
the amplifier. -/
theorem C163_cloud {σ : Type} (h : SameScales config G A clock shaping) (hD : config.det_params.diffusion = 0)
    (env : SimEnv) (momenta : List Vec4) (vertex : ℝ × ℝ × ℝ) (Zs As : List ℤ) (rng : Gen σ) (indices : List ℤ) (s : σ) :
    Alike (fun a b => SameRows (fun e e' => A * e = config.elec_params.amp_gain * e') a.1.1 b.1.1 ∧ a.1.2 = b.1.2 ∧
        a.2 = b.2)
      (simulate env momenta vertex Zs As config rng indices s)
      (simulate env momenta vertex Zs As (rescaled config G A clock shaping) rng indices s) := by
  have key := simulate_alike (ρ := fun e e' => A * e = config.elec_params.amp_gain * e') (config := config)
    (G := config.det_params.mpgd_gain) (G' := G) ⟨by simp, fun h1 h2 => by rw [mul_add, mul_add, h1, h2]⟩
    (fun n _ => by linear_combination n * h.ratio) (.inl hD) env momenta vertex Zs As rng indices s
  have hsame : SameChamber (withGain config G) (rescaled config G A clock shaping) :=
    ⟨rfl, rfl, rfl, rfl, rfl, rfl, rfl⟩
  rw [C117_cloud hsame] at key
  exact key

theorem signal_same {a a' : ℝ} (ha : a ≠ 0) (ha' : a' ≠ 0) {l l' : List ℝ}
    (hl : List.Forall₂ (fun r r' => r' * a' = r * a) l l') {e e' : ℝ} (he : a' * e = a * e') :
    apply_response l' e' = apply_response l e := by
  have hmap : l'.map (fun r => r * e') = l.map fun r => r * e := by
    induction hl with
    | nil => rfl
    | @cons r r' l l' hr _ ih =>
      rw [List.map_cons, List.map_cons, ih]
      congr 1
      have : (r' * e') * (a * a') = (r * e) * (a * a') := by
        linear_combination (a * e') * hr - (r * a) * he
      exact mul_right_cancel₀ (mul_ne_zero ha ha') this
  unfold apply_response
  simp only [hmap]

theorem mapM_related {α β γ : Type} {R : α → β → Prop} {f : α → Except PyErr γ} {f' : β → Except PyErr γ}
    (hf : ∀ a b, R a b → f' b = f a) {l : List α} {l' : List β} (h : List.Forall₂ R l l') : l'.mapM f' = l.mapM f := by
  induction h with
  | nil => rfl
  | cons hab _ ih => rw [List.mapM_cons, List.mapM_cons, hf _ _ hab, ih]

/-- **C163.** From these clouds the writer stores the same rows and labels. -/
theorem C163_stored (h : SameScales config G A clock shaping) (argsort : Argsort) {response response' : List ℝ}
    (hr : List.Forall₂ (fun r r' => r' * (A : ℝ) = r * config.elec_params.amp_gain) response response')
    {data data' : List CloudPoint} (hd : SameRows (fun e e' => A * e = config.elec_params.amp_gain * e') data data')
    (labels : List ℤ) :
    format_event argsort response' data' labels (rescaled config G A clock shaping)
      = format_event argsort response data labels config := by
  have hA : (config.elec_params.amp_gain : ℝ) ≠ 0 := by exact_mod_cast h.pos.ne'
  have hA' : (A : ℝ) ≠ 0 := by exact_mod_cast h.pos'.ne'
  unfold format_event
  have hp : (rescaled config G A clock shaping).pad_centers = config.pad_centers := rfl
  rw [hp]
  rcases config.pad_centers with _ | centers
  · rfl
  · have hconv : convert_to_spyral data' (rescaled config G A clock shaping).elec_params.windows_edge
        (rescaled config G A clock shaping).elec_params.micromegas_edge
        (rescaled config G A clock shaping).det_params.length response' centers
        (rescaled config G A clock shaping).pad_sizes
        = convert_to_spyral data config.elec_params.windows_edge config.elec_params.micromegas_edge
          config.det_params.length response centers config.pad_sizes := by
      refine mapM_related (fun p p' hp => ?_) hd
      obtain ⟨h1, h2, e, e', h3, h4, h5⟩ := hp
      have hs : apply_response response' p'.e = apply_response response p.e :=
        signal_same hA hA' hr (by rw [h3, h4]; exact_mod_cast h5)
      unfold convert_point
      rw [hs, ← h1, ← h2]
      rfl
    simp only
    rw [hconv]
    rfl

/-- **C163.** One call of `write`. -/
theorem C163_write (h : SameScales config G A clock shaping) (argsort : Argsort) {response' : List ℝ} {w : Writer}
    (hr : List.Forall₂ (fun r r' => r' * (A : ℝ) = r * config.elec_params.amp_gain) w.response response')
    {data data' : List CloudPoint} (hd : SameRows (fun e e' => A * e = config.elec_params.amp_gain * e') data data')
    (labels : List ℤ) (event : ℤ) :
    (setResponse response' w).write argsort data' labels (rescaled config G A clock shaping) event
      = ((w.write argsort data labels config event).1,
          setResponse response' (w.write argsort data labels config event).2) := by
  unfold Writer.write
  rw [rollover_respond]
  have hk := rollover_keeps w event
  rcases hq : w.rollover event with ⟨q, w1⟩
  rw [hq] at hk
  rcases q with e | u
  · rfl
  simp only at hk ⊢
  have hresp : (setResponse response' w1).response = response' := rfl
  rw [← hk] at hr
  rw [hresp, C163_stored h argsort hr hd]
  rcases format_event argsort w1.response data labels config with e | ⟨rows, ls⟩
  · rfl
  · simp only
    have h1 : (setResponse response' w1).file = w1.file := rfl
    have h2 : (setResponse response' w1).run_number = w1.run_number := rfl
    rw [h1, h2, ops_respond]
    rcases w1.ops (event_ops w1.file w1.run_number event rows ls) with ⟨q, w2⟩
    rcases q with e | u
    · rfl
    · rfl

/-- The state of a run with another response in its writer. -/
def respondState {σ : Type} (r : List ℝ) (st : RunState σ Writer) : RunState σ Writer :=
  ⟨st.gen, setResponse r st.writer⟩

variable {σ : Type} {env : SimEnv}

theorem run_events_scales (h : SameScales config G A clock shaping) (hD : config.det_params.diffusion = 0)
    (rng : Gen σ) (file : KinFile (List Vec4)) (zs as : List ℤ) (cs : ℕ) (indices : List ℤ) (argsort : Argsort)
    {response' : List ℝ} (n : ℕ) : ∀ (start : ℕ) (s : σ) (w : Writer),
    List.Forall₂ (fun r r' => r' * (A : ℝ) = r * config.elec_params.amp_gain) w.response response' →
    run_events env (rescaled config G A clock shaping) file zs as cs indices rng (spyralWriter argsort) n start
        ⟨s, setResponse response' w⟩
      = ((run_events env config file zs as cs indices rng (spyralWriter argsort) n start ⟨s, w⟩).1,
        respondState response'
          (run_events env config file zs as cs indices rng (spyralWriter argsort) n start ⟨s, w⟩).2) := by
  induction n with
  | zero =>
    intro start s w _
    rfl
  | succ n ih =>
    intro start s w hr
    unfold run_events run_event
    simp only
    rcases hread : read_event file cs start with e | ⟨momenta, vertex⟩
    · rfl
    simp only
    rcases C163_cloud h hD env momenta vertex zs as rng indices s with
      ⟨err, h1, h2⟩ | ⟨⟨⟨cloud, labels⟩, s1⟩, ⟨⟨cloud', labels'⟩, s2⟩, h1, h2, h3, h4, h5⟩
    · rw [h1, h2]
      rfl
    simp only at h3 h4 h5
    subst h4 h5
    rw [h1, h2]
    simp only
    rw [← h3.length_eq]
    by_cases hc : cloud.length = 0
    · rw [if_pos hc, if_pos hc]
      exact ih (start + 1) s1 w hr
    · rw [if_neg hc, if_neg hc]
      simp only [spyralWriter]
      rw [C163_write h argsort hr h3]
      have hk := write_keeps argsort cloud labels config (start : ℤ) w
      rcases hq : w.write argsort cloud labels config (start : ℤ) with ⟨q, w1⟩
      rw [hq] at hk
      rcases q with e | u
      · rfl
      · exact ih (start + 1) s1 w1 (by rw [show w1.response = w.response from hk]; exact hr)

/-- **C163.** Without diffusion, a whole run with other gains of the same ratio and another clock and shaping time of the
same product ends like the original run, after the same random numbers, and leaves at every moment the same files. -/
theorem C163_run (h : SameScales config G A clock shaping) (hD : config.det_params.diffusion = 0)
    (rng : Gen σ) (file : KinFile (List Vec4)) (indices : Option (List ℤ)) (argsort : Argsort) (disk0 : Disk)
    (m first : ℤ) (s : σ) {res : Except PyErr Unit} {final : RunState σ Writer}
    (hrun : run_simulation env config file (spyralWriter argsort) indices rng
      ⟨s, newWriter disk0 config m first⟩ = (res, final)) :
    ∃ final', run_simulation env (rescaled config G A clock shaping) file (spyralWriter argsort) indices rng
        ⟨s, newWriter disk0 (rescaled config G A clock shaping) m first⟩ = (res, final') ∧
      final'.gen = final.gen ∧ final'.writer.disk = final.writer.disk ∧
      final'.writer.trace = final.writer.trace := by
  have hr := C163_response h
  have hw : newWriter disk0 (rescaled config G A clock shaping) m first
      = setResponse (get_response (rescaled config G A clock shaping)) (newWriter disk0 config m first) := by
    rw [newWriter_bare, newWriter_bare]
    generalize get_response (rescaled config G A clock shaping) = r'
    have := ops_respond r' [.createFile (run_name first), .createGroup (run_name first)]
      (bareWriter (get_response config) disk0 m first)
    exact congrArg Prod.snd this
  have hwr : (newWriter disk0 config m first).response = get_response config := by
    rw [newWriter_bare]
    generalize get_response config = r
    exact ops_keeps _ _
  rw [hw]
  rw [← hwr] at hr
  clear hw hwr
  generalize get_response (rescaled config G A clock shaping) = r' at hr ⊢
  generalize newWriter disk0 config m first = w at hr hrun ⊢
  refine ⟨respondState r' final, ?_, rfl, rfl, rfl⟩
  rcases attrs_or_missing file with hmiss | ⟨zs, as, n, cs, nc, a1, a2, a3, a4, a5⟩
  · rw [run_simulation_missing _ _ _ _ _ _ _ hmiss] at hrun ⊢
    obtain ⟨rfl, rfl⟩ := Prod.mk.inj hrun
    rfl
  · rw [run_simulation_eq _ _ _ _ _ _ _ a1 a2 a3 a4 a5] at hrun ⊢
    rw [run_events_scales h hD rng file zs as cs _ argsort n.toNat 0 s _ hr]
    revert hrun
    generalize run_events env config file zs as cs (indices.getD (default_indices zs.length)) rng (spyralWriter argsort)
      n.toNat 0 ⟨s, w⟩ = q
    intro hrun
    obtain ⟨r, st⟩ := q
    rcases r with e | u
    · obtain ⟨rfl, rfl⟩ := Prod.mk.inj hrun
      rfl
    · simp only [respondState, spyralWriter] at hrun ⊢
      rw [close_respond]
      obtain ⟨rfl, rfl⟩ := Prod.mk.inj hrun
      rfl

end

/-- The example run with both gains doubled, the clock halved and the shaping time doubled. -/
example (disk0 : Disk) : ∃ final final',
    run_simulation exEnv exRunConfig exKinFile (spyralWriter exArgsort) (some [2]) exGen
      ⟨(), newWriter disk0 exRunConfig 1 7⟩ = (.ok (), final) ∧
    run_simulation exEnv (rescaled exRunConfig 200 (2 * exRunConfig.elec_params.amp_gain)
        (exRunConfig.elec_params.clock_freq / 2) (2 * exRunConfig.elec_params.shaping_time)) exKinFile
      (spyralWriter exArgsort) (some [2]) exGen
      ⟨(), newWriter disk0 (rescaled exRunConfig 200 (2 * exRunConfig.elec_params.amp_gain)
        (exRunConfig.elec_params.clock_freq / 2) (2 * exRunConfig.elec_params.shaping_time)) 1 7⟩ = (.ok (), final') ∧
    final'.writer.disk = final.writer.disk := by
  obtain ⟨final, hrun, -⟩ := exRun_complete disk0
  obtain ⟨final', h1, -, h2, -⟩ := C163_run (config := exRunConfig) (G := 200)
    (A := 2 * exRunConfig.elec_params.amp_gain) (clock := exRunConfig.elec_params.clock_freq / 2)
    (shaping := 2 * exRunConfig.elec_params.shaping_time)
    ⟨by norm_num [exRunConfig, exConfig, exElec], by norm_num [exRunConfig, exConfig, exElec],
      by norm_num [exRunConfig, exConfig, exElec, exDet], by push_cast; ring⟩ rfl exGen exKinFile (some [2]) exArgsort
    disk0 1 7 () hrun
  exact ⟨final, final', hrun, h1, h2⟩

end Verif.Detector
