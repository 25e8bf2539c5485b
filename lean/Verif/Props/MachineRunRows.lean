import Verif.Props.MachineStored
import Verif.Props.MachineSimulation
import Verif.Props.RunFiles

/-! # C147: the files of a whole run in float64 are those of exact arithmetic, up to rounding -/

namespace Verif.Machine

open Verif.Detector Verif.Spec Verif.Props Verif.Kinematics

/-! ## Files with nearly the same numbers -/

/-- Two datasets with the same labels, or with the same attributes and nearly the same rows. -/
def SameDset (config : Config) (B E : ℝ) : Dset → Dset → Prop
  | .cloud rows64 attrs64, .cloud rows attrs => List.Forall₂ (StoredNear config B E) rows64 rows ∧ attrs64 = attrs
  | .labels l64, .labels l => l64 = l
  | _, _ => False

/-- Two files with the same names and attributes and nearly the same numbers. -/
structure SameFile (config : Config) (B E : ℝ) (f64 f : H5File) : Prop where
  group : f64.has_group = f.has_group
  dsets : List.Forall₂ (fun a b => a.1 = b.1 ∧ SameDset config B E a.2 b.2) f64.dsets f.dsets
  min : f64.min_event = f.min_event
  max : f64.max_event = f.max_event
  closed : f64.closed = f.closed

/-- Two directories with the same files, up to rounding. -/
def SameDisk (config : Config) (B E : ℝ) (d64 d : Disk) : Prop :=
  ∀ name, Option.Rel (SameFile config B E) (d64 name) (d name)

/-- Two writers in the same state, whose directories have been the same after every single operation. -/
structure SameWriter (config : Config) (B E : ℝ) (w64 w : Writer) : Prop where
  per : w64.max_events_per_file = w.max_events_per_file
  run : w64.run_number = w.run_number
  start : w64.starting_event = w.starting_event
  last : w64.last_event = w.last_event
  written : w64.events_written = w.events_written
  file : w64.file = w.file
  disk : SameDisk config B E w64.disk w.disk
  trace : List.Forall₂ (SameDisk config B E) w64.trace w.trace

/-- The events from number `k` on, in exact arithmetic: each can be read, is clear in the sense of C145 with a bound of
at most `B`, has charges of at most `E`, and has a cloud that is clear in the sense of C146. -/
inductive ClearRun {σ : Type} (std : σ → ℝ × σ) (env : SimEnv) (config : Config) (file : KinFile (List Vec4))
    (zs as : List ℤ) (chunk_size : ℕ) (indices : List ℤ) (rng : Gen σ) (B E : ℝ) : ℕ → σ → ℕ → Prop where
  | nil (k s) : ClearRun std env config file zs as chunk_size indices rng B E k s 0
  | cons {k s momenta vertex n B' s₁ cloud labels s' count} :
    read_event file chunk_size k = .ok (momenta, vertex) →
    ClearEvent std env momenta vertex zs as config rng indices s n B' s₁ →
    config.det_params.mpgd_gain * n < 2 ^ 53 → B' ≤ B →
    simulate env momenta vertex zs as config rng indices s = .ok ((cloud, labels), s') →
    (∀ p ∈ cloud, p.e ≤ E) → ClearCloud config B E cloud →
    ClearRun std env config file zs as chunk_size indices rng B E (k + 1) s' count →
    ClearRun std env config file zs as chunk_size indices rng B E k s (count + 1)

/-! ## The writer -/

/-- Operations that do the same, up to rounding. -/
inductive SameOp (config : Config) (B E : ℝ) : DiskOp → DiskOp → Prop where
  | refl (o) : SameOp config B E o o
  | rows (file name rows64 rows attrs) : List.Forall₂ (StoredNear config B E) rows64 rows →
    SameOp config B E (.createDset file name (.cloud rows64 attrs)) (.createDset file name (.cloud rows attrs))

/-- The error bounds are not negative. -/
structure BoundsOk (config : Config) (B E : ℝ) : Prop where
  height : 0 ≤ heightError config
  amplitude : 0 ≤ amplitudeError config B E
  integral : 0 ≤ integralError config B E

theorem boundsOk {config : Config} (hel : ElectronicsOk config.elec_params)
    (hok : DriftOk config.det_params config.elec_params) {B E : ℝ} (hB : 0 ≤ B) (hE : 0 ≤ E) :
    BoundsOk config B E := by
  have hc : 0 ≤ countsPerElectron config.elec_params := by
    exact div_nonneg (div_nonneg (by norm_num) hel.gain.le) (by norm_num)
  have hN : (0 : ℝ) < ((config.elec_params.windows_edge - config.elec_params.micromegas_edge : ℤ) : ℝ) := by
    have := hok.edges
    exact_mod_cast (by omega : (0 : ℤ) < config.elec_params.windows_edge - config.elec_params.micromegas_edge)
  have hL : 0 < config.det_params.length := by linarith [hok.length_ge]
  refine ⟨?_, ?_, ?_⟩
  · exact mul_nonneg (by norm_num) (div_nonneg hL.le hN.le)
  · exact add_nonneg (mul_nonneg hc (add_nonneg (mul_nonneg (by norm_num) hB) (mul_nonneg (by norm_num) hE)))
      (by norm_num)
  · exact add_nonneg (mul_nonneg hc (add_nonneg (mul_nonneg (by norm_num) hB) (mul_nonneg (by norm_num) hE)))
      (by norm_num)

section
variable {config : Config} {B E : ℝ}

theorem storedNear_refl (h : BoundsOk config B E) (r : SpyralRow) : StoredNear config B E r r :=
  ⟨rfl, rfl, rfl, rfl, by simp; norm_num, by simpa using h.height, by simpa using h.amplitude,
    by simpa using h.integral⟩

theorem sameDset_refl (h : BoundsOk config B E) : ∀ d, SameDset config B E d d
  | .cloud _ _ => ⟨List.forall₂_same.2 fun r _ => storedNear_refl h r, rfl⟩
  | .labels _ => rfl

theorem sameDisk_refl (h : BoundsOk config B E) (d : Disk) : SameDisk config B E d d := by
  intro name
  cases d name with
  | none => exact .none
  | some f => exact .some ⟨rfl, List.forall₂_same.2 fun a _ => ⟨rfl, sameDset_refl h a.2⟩, rfl, rfl, rfl⟩

theorem sameDisk_update {d64 d : Disk} (h : SameDisk config B E d64 d) (file : String) {f64 f : H5File}
    (hf : SameFile config B E f64 f) :
    SameDisk config B E (Function.update d64 file (some f64)) (Function.update d file (some f)) := by
  intro name
  by_cases hn : name = file
  · subst hn
    simpa using Option.Rel.some hf
  · rw [Function.update_of_ne hn, Function.update_of_ne hn]
    exact h name

theorem lookup_same {a b : List (String × Dset)}
    (h : List.Forall₂ (fun a b => a.1 = b.1 ∧ SameDset config B E a.2 b.2) a b) (name : String) :
    (a.lookup name).isSome = (b.lookup name).isSome := by
  induction h with
  | nil => rfl
  | @cons x y a b hxy _ ih =>
    obtain ⟨x1, x2⟩ := x
    obtain ⟨y1, y2⟩ := y
    obtain ⟨h1, -⟩ := hxy
    simp only at h1
    subst h1
    rw [List.lookup_cons, List.lookup_cons]
    cases name == x1
    · exact ih
    · rfl

theorem onOpen_same {d64 d d' : Disk} (h : SameDisk config B E d64 d) (file : String)
    {F64 F : H5File → Except PyErr H5File}
    (hF : ∀ f64 f f', SameFile config B E f64 f → F f = .ok f' →
      ∃ f64', F64 f64 = .ok f64' ∧ SameFile config B E f64' f')
    (hr : d.onOpen file F = .ok d') : ∃ d64', d64.onOpen file F64 = .ok d64' ∧ SameDisk config B E d64' d' := by
  unfold Disk.onOpen at hr ⊢
  have hrel := h file
  cases h1 : d file with
  | none => rw [h1] at hr; simp at hr
  | some f =>
    cases h2 : d64 file with
    | none => rw [h1, h2] at hrel; cases hrel
    | some f64 =>
      rw [h1, h2] at hrel
      cases hrel with
      | some hff =>
        rw [h1] at hr
        simp only at hr ⊢
        rw [hff.closed]
        by_cases hc : f.closed = true
        · rw [if_pos hc] at hr
          simp at hr
        · rw [if_neg hc] at hr ⊢
          cases h3 : F f with
          | error e => rw [h3] at hr; simp at hr
          | ok f' =>
            rw [h3] at hr
            obtain ⟨f64', a1, a2⟩ := hF f64 f f' hff h3
            simp only [Except.ok.injEq] at hr
            subst hr
            rw [a1]
            exact ⟨_, rfl, sameDisk_update h file a2⟩

theorem setAttr_same {a b : Dset} (h : SameDset config B E a b) (key : String) (v : ℝ) :
    SameDset config B E (a.setAttr key v) (b.setAttr key v) := by
  cases a <;> cases b <;> simp only [SameDset, Dset.setAttr] at h ⊢
  · exact ⟨h.1, by rw [h.2]⟩
  · exact h

theorem apply_same (hb : BoundsOk config B E) {o64 o : DiskOp} (ho : SameOp config B E o64 o) {d64 d d' : Disk}
    (h : SameDisk config B E d64 d) (hr : DiskOp.apply d o = .ok d') :
    ∃ d64', DiskOp.apply d64 o64 = .ok d64' ∧ SameDisk config B E d64' d' := by
  have create : ∀ (file name : String) (x y : Dset), SameDset config B E x y →
      DiskOp.apply d (.createDset file name y) = .ok d' →
      ∃ d64', DiskOp.apply d64 (.createDset file name x) = .ok d64' ∧ SameDisk config B E d64' d' := by
    intro file name x y hxy hr
    refine onOpen_same h file (fun f64 f f' hf he => ?_) hr
    rw [lookup_same hf.dsets name]
    split_ifs at he ⊢ with hn
    simp only [Except.ok.injEq] at he
    subst he
    exact ⟨_, rfl, hf.group, List.rel_append hf.dsets (.cons ⟨rfl, hxy⟩ .nil), hf.min, hf.max, hf.closed⟩
  cases ho with
  | rows file name rows64 rows attrs hrows => exact create file name (.cloud rows64 attrs) (.cloud rows attrs) ⟨hrows, rfl⟩ hr
  | refl =>
    cases o64 with
    | createFile file =>
      simp only [DiskOp.apply, Except.ok.injEq] at hr
      subst hr
      exact ⟨_, rfl, sameDisk_update h file ⟨rfl, .nil, rfl, rfl, rfl⟩⟩
    | createGroup file =>
      simp only [DiskOp.apply] at hr ⊢
      refine onOpen_same h file (fun f64 f f' hf he => ?_) hr
      simp only [Except.ok.injEq] at he
      subst he
      exact ⟨_, rfl, rfl, hf.dsets, hf.min, hf.max, hf.closed⟩
    | setMin file v =>
      simp only [DiskOp.apply] at hr ⊢
      refine onOpen_same h file (fun f64 f f' hf he => ?_) hr
      simp only [Except.ok.injEq] at he
      subst he
      exact ⟨_, rfl, hf.group, hf.dsets, rfl, hf.max, hf.closed⟩
    | setMax file v =>
      simp only [DiskOp.apply] at hr ⊢
      refine onOpen_same h file (fun f64 f f' hf he => ?_) hr
      simp only [Except.ok.injEq] at he
      subst he
      exact ⟨_, rfl, hf.group, hf.dsets, hf.min, rfl, hf.closed⟩
    | close file =>
      have hrel := h file
      simp only [DiskOp.apply] at hr ⊢
      cases h1 : d file with
      | none =>
        cases h2 : d64 file with
        | some f64 => rw [h1, h2] at hrel; cases hrel
        | none =>
          rw [h1] at hr
          simp only [Except.ok.injEq] at hr
          subst hr
          exact ⟨_, rfl, h⟩
      | some f =>
        cases h2 : d64 file with
        | none => rw [h1, h2] at hrel; cases hrel
        | some f64 =>
          rw [h1, h2] at hrel
          cases hrel with
          | some hff =>
            rw [h1] at hr
            simp only [Except.ok.injEq] at hr
            subst hr
            exact ⟨_, rfl, sameDisk_update h file ⟨hff.group, hff.dsets, hff.min, hff.max, rfl⟩⟩
    | createDset file name ds => exact create file name ds ds (sameDset_refl hb ds) hr
    | setAttr file name key v =>
      simp only [DiskOp.apply] at hr ⊢
      refine onOpen_same h file (fun f64 f f' hf he => ?_) hr
      simp only [Except.ok.injEq] at he
      subst he
      refine ⟨_, rfl, hf.group, ?_, hf.min, hf.max, hf.closed⟩
      simp only
      rw [List.forall₂_map_left_iff, List.forall₂_map_right_iff]
      refine hf.dsets.imp fun a b hab => ?_
      rw [hab.1]
      split_ifs
      · exact ⟨rfl, setAttr_same hab.2 key v⟩
      · exact hab

theorem ops_same (hb : BoundsOk config B E) {os64 os : List DiskOp}
    (ho : List.Forall₂ (SameOp config B E) os64 os) : ∀ {w64 w w' : Writer}, SameWriter config B E w64 w →
    w.ops os = (.ok (), w') → ∃ w64', w64.ops os64 = (.ok (), w64') ∧ SameWriter config B E w64' w' ∧
      w64'.response = w64.response ∧ w'.response = w.response := by
  induction ho with
  | nil =>
    intro w64 w w' h hr
    simp only [Writer.ops, Prod.mk.injEq, true_and] at hr
    subst hr
    exact ⟨w64, rfl, h, rfl, rfl⟩
  | @cons o64 o os64 os ho _ ih =>
    intro w64 w w' h hr
    rw [Writer.ops, Writer.op] at hr
    rw [Writer.ops, Writer.op]
    cases h1 : DiskOp.apply w.disk o with
    | error e => rw [h1] at hr; simp at hr
    | ok d =>
      rw [h1] at hr
      obtain ⟨d64, a1, a2⟩ := apply_same hb ho h.disk h1
      rw [a1]
      simp only at hr ⊢
      obtain ⟨w64', b1, b2, b3, b4⟩ := ih (w64 := { w64 with disk := d64, trace := d64 :: w64.trace })
        (w := { w with disk := d, trace := d :: w.trace })
        ⟨h.per, h.run, h.start, h.last, h.written, h.file, a2, .cons a2 h.trace⟩ hr
      exact ⟨w64', b1, b2, b3, b4⟩

theorem ops_refl (os : List DiskOp) : List.Forall₂ (SameOp config B E) os os :=
  List.forall₂_same.2 fun o _ => .refl o

theorem rollover_same (hb : BoundsOk config B E) {w64 w w' : Writer} (h : SameWriter config B E w64 w) (n : ℤ)
    (hr : w.rollover n = (.ok (), w')) : ∃ w64', w64.rollover n = (.ok (), w64') ∧ SameWriter config B E w64' w' ∧
      w64'.response = w64.response ∧ w'.response = w.response := by
  unfold Writer.rollover at hr ⊢
  rw [h.per, h.written]
  by_cases hc : w.events_written = w.max_events_per_file
  · rw [if_pos hc] at hr ⊢
    rcases h1 : w.close with ⟨r1, w1⟩
    rw [h1] at hr
    cases r1 with
    | error e => simp at hr
    | ok u =>
      unfold Writer.close at h1
      obtain ⟨w641, a1, a2, a3, a4⟩ := ops_same hb (ops_refl _) h h1
      unfold Writer.close
      rw [h.file, h.start, h.last, a1]
      simp only at hr ⊢
      rcases h2 : w1.create_next_file with ⟨r2, w2⟩
      rw [h2] at hr
      cases r2 with
      | error e => simp at hr
      | ok u =>
        unfold Writer.create_next_file at h2 ⊢
        simp only at h2 ⊢
        rw [a2.run]
        obtain ⟨w642, b1, b2, b3, b4⟩ := ops_same (w64 := { { w641 with run_number := w1.run_number + 1 } with
            file := run_name (w1.run_number + 1) }) hb (ops_refl _)
          (by exact ⟨a2.per, rfl, a2.start, a2.last, a2.written, rfl, a2.disk, a2.trace⟩) h2
        rw [b1]
        simp only [Prod.mk.injEq, true_and] at hr ⊢
        subst hr
        exact ⟨_, rfl, ⟨b2.per, b2.run, rfl, b2.last, rfl, b2.file, b2.disk, b2.trace⟩, b3.trans a3, b4.trans a4⟩
  · rw [if_neg hc] at hr ⊢
    simp only [Prod.mk.injEq, true_and] at hr
    subst hr
    exact ⟨w64, rfl, h, rfl, rfl⟩

/-- One call of `write`: if the rows are near and the exact call returns, so does the call in machine arithmetic. -/
theorem write_same (hb : BoundsOk config B E) {w64 w w' : Writer} (h : SameWriter config B E w64 w) {rn : ℝ → ℝ}
    {argsort : Argsort} {cloud64 cloud : List CloudPoint} {labels : List ℤ} {config64 : Config} {n : ℤ}
    (hfmt : ∀ rows labels', format_event argsort w.response cloud labels config = .ok (rows, labels') →
      ∃ rows64, format_event64 rn argsort w64.response cloud64 labels config64 = .ok (rows64, labels') ∧
        List.Forall₂ (StoredNear config B E) rows64 rows)
    (hr : w.write argsort cloud labels config n = (.ok (), w')) :
    ∃ w64', write64 rn argsort cloud64 labels config64 n w64 = (.ok (), w64') ∧ SameWriter config B E w64' w' ∧
      w64'.response = w64.response ∧ w'.response = w.response := by
  unfold Writer.write at hr
  unfold write64
  rcases h1 : w.rollover n with ⟨r1, w1⟩
  rw [h1] at hr
  cases r1 with
  | error e => simp at hr
  | ok u =>
    obtain ⟨w641, a1, a2, a3, a4⟩ := rollover_same hb h n h1
    rw [a1]
    simp only at hr ⊢
    rw [a4] at hr
    rw [a3]
    cases h2 : format_event argsort w.response cloud labels config with
    | error e => rw [h2] at hr; simp at hr
    | ok rl =>
      obtain ⟨rows, labels'⟩ := rl
      rw [h2] at hr
      obtain ⟨rows64, b1, b2⟩ := hfmt rows labels' h2
      rw [b1]
      simp only at hr ⊢
      rcases h3 : w1.ops (event_ops w1.file w1.run_number n rows labels') with ⟨r3, w3⟩
      rw [h3] at hr
      cases r3 with
      | error e => simp at hr
      | ok u =>
        have hops : List.Forall₂ (SameOp config B E) (event_ops w1.file w1.run_number n rows64 labels')
            (event_ops w1.file w1.run_number n rows labels') := by
          unfold event_ops
          exact .cons (.rows _ _ _ _ _ b2) (ops_refl _)
        obtain ⟨w643, c1, c2, c3, c4⟩ := ops_same hb hops a2 h3
        rw [a2.file, a2.run, c1]
        simp only [Prod.mk.injEq, true_and] at hr ⊢
        subst hr
        refine ⟨_, rfl, ⟨c2.per, c2.run, c2.start, rfl, ?_, c2.file, c2.disk, c2.trace⟩, c3.trans a3, c4.trans a4⟩
        simp only
        rw [c2.written]

/-! ## The run -/

/-- The assumptions on the settings of a run. -/
structure RunSettings (m : Math64) (nm : NumpyMath) (config : Config) (grid : PadGrid) (g g64 : GridEdges) : Prop where
  math : m.Ok
  numpy : nm.Ok
  rounding : nm.rn = m.rn
  installed : config.pad_grid = some (grid, g)
  bin : 0 < g.bin
  edges : GridSame m.rn g64 g
  pads : ∀ i j, -1 ≤ grid.cell i j ∧ grid.cell i j < 2 ^ 26
  drift : DriftOk config.det_params config.elec_params
  spread : SpreadOk config.det_params config.elec_params
  velocity : config.drift_velocity = config.det_params.length /
      ((config.elec_params.windows_edge - config.elec_params.micromegas_edge : ℤ) : ℝ)
  gain : 0 ≤ config.det_params.mpgd_gain
  template : TemplateOk config.elec_params
  electronics : ElectronicsOk config.elec_params

section
variable {m : Math64} {nm : NumpyMath} {grid : PadGrid} {g g64 : GridEdges}

/-- One event of a run. -/
theorem event_both (hs : RunSettings m nm config grid g g64) {σ : Type} {env : SimEnv} {momenta : List Vec4}
    {vertex : ℝ × ℝ × ℝ} {Zs As : List ℤ} {rng : Gen σ} (hr : LawfulGen rng) {std : σ → ℝ × σ}
    (hstd : ShiftScale rng std) (hgs : ∀ s, |(std s).1| ≤ 40) {argsort : Argsort} (hA : IsArgsort argsort)
    {indices : List ℤ} {s s₁ s' : σ} {n : ℤ} {B' : ℝ} {cloud : List CloudPoint} {labels : List ℤ}
    (hev : ClearEvent std env momenta vertex Zs As config rng indices s n B' s₁)
    (hroom : config.det_params.mpgd_gain * n < 2 ^ 53) (hB : B' ≤ B)
    (hsim : simulate env momenta vertex Zs As config rng indices s = .ok ((cloud, labels), s'))
    (hE : ∀ p ∈ cloud, p.e ≤ E) (hclear : ClearCloud config B E cloud) :
    ∃ cloud64, simulate64 m std env momenta vertex Zs As { config with pad_grid := some (grid, g64) } rng indices s
        = .ok ((cloud64, labels), s') ∧ cloud64.length = cloud.length ∧
      ∀ rows labels', format_event argsort (get_response config) cloud labels config = .ok (rows, labels') →
        ∃ rows64, format_event64 m.rn argsort (get_response64 nm config) cloud64 labels
            { config with pad_grid := some (grid, g64) } = .ok (rows64, labels') ∧
          List.Forall₂ (StoredNear config B E) rows64 rows := by
  obtain ⟨cloud64, cloud', lab, s'', a1, a2, -, a4, a5⟩ := C145_event hs.math hs.installed hs.drift hs.spread hs.velocity
    hs.edges hs.pads hs.gain hr hstd hgs hev hroom
  rw [hsim] at a2
  injection a2 with a2
  injection a2 with a2 e3
  injection a2 with e1 e2
  subst e1 e2 e3
  have hp := points_near a4 (a5.trans hB) (cloud_nonneg hs.bin hs.installed hs.gain hr hsim) hE
  refine ⟨cloud64, a1, a4.length_eq, fun rows labels' hf => ?_⟩
  obtain ⟨rows64, f1, f2⟩ := C146_stored hA hs.numpy hs.template hs.electronics hs.drift hp hclear hf
  rw [hs.rounding] at f1
  exact ⟨rows64, f1, f2⟩

theorem run_events_same (hs : RunSettings m nm config grid g g64) (hb : BoundsOk config B E) {σ : Type} {env : SimEnv}
    {file : KinFile (List Vec4)} {zs as : List ℤ} {cs : ℕ} {rng : Gen σ} (hr : LawfulGen rng) {std : σ → ℝ × σ}
    (hstd : ShiftScale rng std) (hgs : ∀ s, |(std s).1| ≤ 40) {argsort : Argsort} (hA : IsArgsort argsort)
    {indices : List ℤ} {k count : ℕ} {s : σ}
    (hrun : ClearRun std env config file zs as cs indices rng B E k s count) : ∀ {w64 w : Writer} {fin : RunState σ Writer},
    SameWriter config B E w64 w → w.response = get_response config → w64.response = get_response64 nm config →
    run_events env config file zs as cs indices rng (spyralWriter argsort) count k ⟨s, w⟩ = (.ok (), fin) →
    ∃ fin64, run_events64 m std env { config with pad_grid := some (grid, g64) } file zs as cs indices rng
        (spyralWriter64 m.rn argsort) count k ⟨s, w64⟩ = (.ok (), fin64) ∧ fin64.gen = fin.gen ∧
      SameWriter config B E fin64.writer fin.writer := by
  induction hrun with
  | nil k s =>
    intro w64 w fin hw _ _ h
    simp only [run_events, Prod.mk.injEq, true_and] at h
    subst h
    exact ⟨⟨s, w64⟩, rfl, rfl, hw⟩
  | @cons k s momenta vertex n B' s₁ cloud labels s' count h1 h2 h3 h4 h5 h6 h7 _ ih =>
    intro w64 w fin hw hres hres64 h
    obtain ⟨cloud64, a1, a2, a3⟩ := event_both hs hr hstd hgs hA h2 h3 h4 h5 h6 h7
    rw [run_events, run_event, h1] at h
    simp only [h5] at h
    rw [run_events64, run_event64, h1]
    simp only [a1, a2]
    by_cases hc : cloud.length = 0
    · rw [if_pos hc] at h ⊢
      exact ih hw hres hres64 h
    · rw [if_neg hc] at h ⊢
      simp only [spyralWriter, spyralWriter64] at h ⊢
      rcases hwr : w.write argsort cloud labels config (k : ℤ) with ⟨r, w'⟩
      rw [hwr] at h
      cases r with
      | error e => simp at h
      | ok u =>
        obtain ⟨w64', b1, b2, b3, b4⟩ := write_same hb hw (by rw [hres, hres64]; exact a3) hwr
        rw [b1]
        simp only at h ⊢
        exact ih b2 (b4.trans hres) (b3.trans hres64) h

/-- The constructor, for any templates. -/
theorem start_same (hb : BoundsOk config B E) (disk0 : Disk) (per first : ℤ) (R64 R : List ℝ) :
    ∃ w64 w : Writer,
      ({ response := R64, max_events_per_file := per, run_number := first, starting_event := 0
         last_event := 0, events_written := 0, file := run_name first, disk := disk0, trace := [disk0] } : Writer).ops
        [.createFile (run_name first), .createGroup (run_name first)] = (.ok (), w64) ∧
      ({ response := R, max_events_per_file := per, run_number := first, starting_event := 0
         last_event := 0, events_written := 0, file := run_name first, disk := disk0, trace := [disk0] } : Writer).ops
        [.createFile (run_name first), .createGroup (run_name first)] = (.ok (), w) ∧
      SameWriter config B E w64 w ∧ w64.response = R64 ∧ w.response = R := by
  obtain ⟨h1, h2⟩ := start_rel disk0 per first R
  rcases hw : ({ response := R, max_events_per_file := per, run_number := first, starting_event := 0
                 last_event := 0, events_written := 0, file := run_name first, disk := disk0, trace := [disk0] } :
      Writer).ops [.createFile (run_name first), .createGroup (run_name first)] with ⟨r, w⟩
  rw [hw] at h1
  simp only at h1
  subst h1
  obtain ⟨w64, j1, j2, j3, j4⟩ := ops_same (config := config) (B := B) (E := E) hb (w64 :=
      { response := R64, max_events_per_file := per, run_number := first, starting_event := 0
        last_event := 0, events_written := 0, file := run_name first, disk := disk0, trace := [disk0] }) (w :=
      { response := R, max_events_per_file := per, run_number := first, starting_event := 0
        last_event := 0, events_written := 0, file := run_name first, disk := disk0, trace := [disk0] })
    (ops_refl _) ⟨rfl, rfl, rfl, rfl, rfl, rfl, sameDisk_refl hb disk0, .cons (sameDisk_refl hb disk0) .nil⟩ hw
  exact ⟨w64, w, j1, rfl, j2, j3, j4⟩

/-- **C147.** A whole simulation run that completes in exact arithmetic and whose events are clear completes in machine
arithmetic as well. Both leave the generator in the same state, and the directories have the same files, up to
rounding: the same names, event numbers, attributes, labels and ranges, and rows near each other. This holds after every
single operation on the directory and at the end. -/
theorem C147_run (hs : RunSettings m nm config grid g g64) (hB : 0 ≤ B) (hE : 0 ≤ E) {σ : Type} {env : SimEnv}
    {file : KinFile (List Vec4)} {zs as : List ℤ} {cs nc : ℕ} {n : ℤ} {rng : Gen σ} (hr : LawfulGen rng)
    {std : σ → ℝ × σ} (hstd : ShiftScale rng std) (hgs : ∀ s, |(std s).1| ≤ 40) {argsort : Argsort}
    (hA : IsArgsort argsort) {indices : Option (List ℤ)} {s : σ}
    (hz : file.proton_numbers = some zs) (ha : file.mass_numbers = some as) (hn : file.n_events = some n)
    (hcs : file.chunk_size = some cs) (hnc : file.n_chunks = some nc)
    (hclear : ClearRun std env config file zs as cs (indices.getD (default_indices zs.length)) rng B E 0 s n.toNat)
    (disk0 : Disk) (per first : ℤ) {fin : RunState σ Writer}
    (hrun : run_simulation env config file (spyralWriter argsort) indices rng
      ⟨s, (Writer.init disk0 config per first).2⟩ = (.ok (), fin)) :
    ∃ fin64, run_simulation64 m std env { config with pad_grid := some (grid, g64) } file (spyralWriter64 m.rn argsort)
        indices rng ⟨s, (init64 nm disk0 { config with pad_grid := some (grid, g64) } per first).2⟩ = (.ok (), fin64) ∧
      fin64.gen = fin.gen ∧ SameDisk config B E fin64.writer.disk fin.writer.disk ∧
      List.Forall₂ (SameDisk config B E) fin64.writer.trace fin.writer.trace := by
  have hb := boundsOk hs.electronics hs.drift hB hE
  obtain ⟨wi64, wi, j1, j1', j2, j3, i2⟩ := start_same hb disk0 per first (get_response64 nm config) (get_response config)
  have i1 : Writer.init disk0 config per first = (.ok (), wi) := j1'
  have hi64 : init64 nm disk0 { config with pad_grid := some (grid, g64) } per first = (.ok (), wi64) := j1
  rw [i1] at hrun
  rw [hi64]
  rw [run_simulation_eq _ _ _ _ _ _ _ hz ha hn hcs hnc] at hrun
  rw [run_simulation64_eq m std env _ file _ indices rng _ hz ha hn hcs hnc]
  rcases hev : run_events env config file zs as cs (indices.getD (default_indices zs.length)) rng (spyralWriter argsort)
    n.toNat 0 ⟨s, wi⟩ with ⟨r, mid⟩
  rw [hev] at hrun
  cases r with
  | error e => simp at hrun
  | ok u =>
    obtain ⟨mid64, k1, k2, k3⟩ := run_events_same hs hb hr hstd hgs hA hclear j2 i2 j3 hev
    rw [k1]
    simp only [spyralWriter, spyralWriter64] at hrun ⊢
    rcases hcl : mid.writer.close with ⟨r, w'⟩
    rw [hcl] at hrun
    simp only [Prod.mk.injEq] at hrun
    obtain ⟨rfl, rfl⟩ := hrun
    unfold Writer.close at hcl
    obtain ⟨w64', l1, l2, -, -⟩ := ops_same hb (ops_refl _) k3 hcl
    have hcl64 : mid64.writer.close = (.ok (), w64') := by
      unfold Writer.close
      rw [k3.file, k3.start, k3.last]
      exact l1
    rw [hcl64]
    exact ⟨_, rfl, k2, l2.disk, l2.trace⟩

end

end

/-! ## An example -/

/-- A detector of one metre with gain 1000000, 2.5 electrons per MeV, no diffusion, the electronics of C132 and the
packaged grid edges. -/
noncomputable def exRunClear : Config :=
  { det_params := { exDet 1000000 0 with w_value := 4.0e5 }
    elec_params := ⟨6.25, 900, 1000, 10, 560, 40⟩, pad_params := {}
    pad_grid := some (exGrid, packagedEdges), pad_centers := some (List.replicate 10 (1, 2))
    pad_sizes := List.replicate 10 3, drift_velocity := 1 / 550 }

theorem exRunClear_arrival : arrival exRunClear exClear1.z = 287.75 := by
  norm_num [arrival, exRunClear, exDet, exClear1]

theorem exRunClear_position : ClearPosition exRunClear exClear1 := by
  have ha := exRunClear_arrival
  have hw : exactWidth exRunClear exClear1.z = 0 := by
    unfold exactWidth
    rw [ha]
    simp [exRunClear, exDet]
  have key : ∀ i < 10, ∀ n : ℤ,
      (1e-8 : ℝ) < |((0.05005 : ℝ) + meshOffset i * exactWidth exRunClear exClear1.z) * 1000 - n| := by
    intro i _ n
    have : ((0.05005 : ℝ) + meshOffset i * exactWidth exRunClear exClear1.z) * 1000 = ((1001 : ℤ) : ℝ) / 20 := by
      rw [hw]
      norm_num
    rw [this]
    exact twentieth_clear _ n (by omega)
  refine ⟨by rw [ha]; norm_num, fun n => ?_, key, key⟩
  rw [ha]
  have h1 : (1 : ℝ) ≤ |1151 - 4 * (n : ℝ)| := by
    have : (1 : ℤ) ≤ |1151 - 4 * n| := Int.one_le_abs (by omega)
    exact_mod_cast this
  have : (287.75 : ℝ) - n = (1151 - 4 * n) / 4 := by ring
  rw [this, abs_div, abs_of_pos (show (0 : ℝ) < 4 by norm_num)]
  norm_num
  linarith

theorem exRunClear_values (s : Unit) :
    electronValues (fun s => (0, s)) [exClear0, exClear1] exNucleus exRunClear.det_params s = [0, 5 / 2] :=
  exClear_values s

theorem exRunClear_electrons : generate_electrons [exClear0, exClear1] exNucleus exRunClear.det_params exGen ()
    = .ok ([0, 2], ()) := exClear_electrons

theorem exRunClear_event : ClearEvent (fun s => (0, s)) exClearEnv exMomenta (0, 0, 0.5) [1, 1, 1] [1, 1, 1] exRunClear
    exGen [2] () 4 1150 () := by
  have htr : ∀ q : Vec4, generate_trajectory exClearEnv.solve_ivp (0, 0, 0.5) (q.px, q.py, q.pz) exNucleus
      exRunClear.det_params = .ok [exClear0, exClear1] := fun _ => rfl
  have g0 := exClear0_gv
  have g1 := exClear1_gv
  have hlor : ∀ v : ℝ, 0 ≤ v → v ≤ 1 →
      exNucleus.mass * lorentz v * (1.0e6 / exRunClear.det_params.w_value) ≤ 1e9 := by
    intro v h0 h1
    have := lorentz_le h0
    change 6 * lorentz v * (1.0e6 / 4.0e5) ≤ 1e9
    norm_num
    linarith
  have hrec : Recordable exNucleus exRunClear.det_params [exClear0, exClear1] := by
    refine ⟨?_, ?_, ?_, ?_, ?_, ?_, ?_, ?_⟩
    · norm_num [exNucleus]
    · norm_num [exNucleus]
    · norm_num [exRunClear]
    · norm_num [exRunClear]
    · norm_num [exRunClear, exDet]
    · norm_num [exRunClear, exDet]
    · intro s hs
      simp only [List.mem_cons, List.not_mem_nil, or_false] at hs
      rcases hs with rfl | rfl
      · exact ⟨by rw [g0]; norm_num, by rw [g0]; norm_num⟩
      · exact ⟨by rw [g1]; norm_num, by rw [g1]; norm_num⟩
    · intro s hs
      simp only [List.mem_cons, List.not_mem_nil, or_false] at hs
      rcases hs with rfl | rfl
      · exact hlor _ (by rw [g0]; norm_num) (by rw [g0]; norm_num)
      · exact hlor _ (by rw [g1]; norm_num) (by rw [g1]; norm_num)
  have ht : ClearEvent (fun s => (0, s)) exClearEnv exMomenta (0, 0, 0.5) [1, 1, 1] [1, 1, 1] exRunClear exGen
      [2] () (drawnAbove [exClear0, exClear1] [0, 2] + 0)
      (((electronValues (fun s => (0, s)) [exClear0, exClear1] exNucleus exRunClear.det_params ()).map
          (deviation exRunClear.det_params.mpgd_gain)).sum + 0) () :=
    .charged 2 1 1 exNucleus ⟨0, 0, 4.5, 7.5⟩ [exClear0, exClear1] [0, 2] [] () () () 0 0
      rfl (by norm_num) rfl rfl rfl (htr _) exRunClear_electrons
      (fun r hr => by
        simp only [List.mem_cons, List.not_mem_nil, or_false] at hr
        rcases hr with rfl | rfl <;> norm_num [exClear0, exClear1, exRunClear, exDet, abs_of_pos])
      hrec
      (fun rv hrv => by
        rw [exRunClear_values] at hrv
        simp only [List.zip_cons_cons, List.zip_nil_right, List.mem_cons, List.not_mem_nil, or_false] at hrv
        rcases hrv with rfl | rfl
        · exact Or.inl (by norm_num)
        · exact Or.inr ⟨by norm_num, exRunClear_position⟩)
      (.nil ())
  have hgain : exRunClear.det_params.mpgd_gain = 1000000 := rfl
  have hd : deviation 1000000 (5 / 2) = 1150 := by
    unfold deviation doubtful
    rw [if_neg (by norm_num), if_neg ?_]
    · norm_num
    · rintro ⟨n, hn⟩
      have h1 : (1 : ℝ) ≤ |5 - 2 * (n : ℝ)| := by
        have : (1 : ℤ) ≤ |5 - 2 * n| := Int.one_le_abs (by omega)
        exact_mod_cast this
      have : (5 / 2 : ℝ) - n = (5 - 2 * n) / 2 := by ring
      rw [this, abs_div, abs_of_pos (show (0 : ℝ) < 2 by norm_num)] at hn
      linarith
  have hB : ((electronValues (fun s => (0, s)) [exClear0, exClear1] exNucleus exRunClear.det_params ()).map
      (deviation exRunClear.det_params.mpgd_gain)).sum + 0 = 1150 := by
    rw [exRunClear_values, hgain]
    have h0 : deviation 1000000 0 = 0 := by unfold deviation; rw [if_pos (by norm_num)]
    simp [h0, hd]
  have hn : drawnAbove [exClear0, exClear1] [0, 2] + 0 = 4 := by decide
  rw [hn, hB] at ht
  exact ht

theorem exRunClear_deposits : nucleusDeposits exRunClear exGrid packagedEdges [exClear0, exClear1] [0, 2] 2
    = [⟨287, 5, 2000000, 2⟩] := by
  have hf : (([exClear0, exClear1].zip [(0 : ℤ), 2]).filter fun re => decide (1 ≤ re.2)) = [(exClear1, 2)] := by
    simp
  unfold nucleusDeposits
  rw [hf]
  simp only [List.flatMap_cons, List.flatMap_nil, List.append_nil, exRunClear_arrival]
  have h0 : Real.sqrt (2 * exRunClear.det_params.diffusion * exRunClear.drift_velocity * 287.75
      / exRunClear.det_params.efield) = 0 := by simp [exRunClear, exDet]
  have hg : ∀ v : ℝ, v = 0.05005 → ∃ i, gridIndex packagedEdges v = some i := by
    rintro v rfl
    unfold gridIndex
    norm_num [packagedEdges]
  have hp : activePad exGrid packagedEdges (exClear1.x, exClear1.y) = some 5 := by
    unfold activePad
    obtain ⟨i, hi⟩ := hg exClear1.x rfl
    obtain ⟨j, hj⟩ := hg exClear1.y rfl
    simp only [hi, hj]
    rw [if_neg (by simp [exGrid, BEAM_PADS])]
    rfl
  have ht : pyInt 287.75 = 287 := by
    unfold pyInt
    rw [if_pos (by norm_num), Int.floor_eq_iff]
    norm_num
  unfold pointDeposits
  rw [h0, if_pos rfl, hp]
  simp only [ht]
  rfl

/-- The cloud of the example event. -/
theorem exRunClear_simulate : ∃ u : ℝ, 0 ≤ u ∧ u < 1 ∧
    simulate exClearEnv exMomenta (0, 0, 0.5) [1, 1, 1] [1, 1, 1] exRunClear exGen [2] ()
      = .ok (([⟨5, 287 + u, 2000000⟩], [2]), ()) := by
  have hp : simulate_nucleus exClearEnv exMomenta (0, 0, 0.5) [1, 1, 1] [1, 1, 1] exRunClear exGen ([], ()) 2
      = .ok ([(pair 287 5, 2000000, 2)], ()) := by
    have := generate_point_cloud_of (ivp := exClearEnv.solve_ivp) (momentum := (0, 0, 4.5)) (vertex := (0, 0, 0.5))
      (nucleus := exNucleus) (config := exRunClear) (grid := exGrid) (g := packagedEdges)
      (by norm_num [packagedEdges]) rfl [] 2 (track := [exClear0, exClear1]) rfl exRunClear_electrons (by
        intro re _
        constructor
        · norm_num [exRunClear, exDet]
        · simp [exRunClear, exDet])
    rw [exRunClear_deposits] at this
    exact this
  have hu := uniformN_mem exGen_lawful 0 1 one_pos 1 ()
  have hl := Verif.Detector.uniformN_length exGen 0 1 1 ()
  obtain ⟨u, hu1⟩ := List.length_eq_one_iff.1 hl
  rw [hu1] at hu
  obtain ⟨u0, u1⟩ := hu u (by simp)
  refine ⟨u, u0, by linarith, ?_⟩
  unfold simulate
  simp only [List.foldlM_cons, List.foldlM_nil, hp, bind, Except.bind, pure, Except.pure]
  have hup := C01_unpair_pair 287 5 (by norm_num) (by norm_num)
  simp only [dict_to_points, List.map_cons, List.map_nil, hup, List.length_cons, List.length_nil, Nat.zero_add, hu1,
    List.zip_cons_cons, List.zip_nil_right]
  have h1 : (0 : ℝ) ≤ ((287 : ℤ) : ℝ) + u := by push_cast; linarith
  have h2 : ((287 : ℤ) : ℝ) + u < (NUM_TB : ℝ) := by norm_num [NUM_TB]; linarith
  simp only [h1, h2, decide_true, Bool.and_self, maskSel]
  norm_num

/-- The two events of the example file are clear. -/
theorem exRunClear_clear : ClearRun (fun s => (0, s)) exClearEnv exRunClear exKinFile [1, 1, 1] [1, 1, 1] 1 [2] exGen
    1150 2000000 0 () 2 := by
  obtain ⟨u, u0, u1, hs⟩ := exRunClear_simulate
  have hgain : exRunClear.det_params.mpgd_gain = 1000000 := rfl
  have hclear : ClearCloud exRunClear 1150 2000000 [⟨5, 287 + u, 2000000⟩] := by
    have hpk := default_peak exRunClear rfl
    have hlen := get_response_length exRunClear
    have hne : get_response exRunClear ≠ [] := by
      intro h
      rw [h] at hlen
      simp at hlen
    have herr : amplitudeError exRunClear 1150 2000000 ≤ 1 := by
      norm_num [amplitudeError, countsPerElectron, exRunClear]
    have hthr : (exRunClear.elec_params.adc_threshold : ℝ) = 40 := by norm_num [exRunClear]
    refine ⟨fun p hp => ?_, List.pairwise_singleton _ _⟩
    rw [List.mem_singleton] at hp
    subst hp
    simp only
    rw [hthr, amplitude_eq hne (by norm_num)]
    have : 45 ≤ min (npMax (get_response exRunClear) * 2000000) 4095 := by
      refine le_min ?_ (by norm_num)
      norm_num at hpk ⊢
      linarith
    generalize min (npMax (get_response exRunClear) * 2000000) 4095 = A at *
    rw [abs_of_pos (by linarith)]
    linarith
  have hE : ∀ p ∈ [(⟨5, 287 + u, 2000000⟩ : CloudPoint)], p.e ≤ 2000000 := by simp
  have r0 : read_event exKinFile 1 0 = .ok (exMomenta, (0, 0, 0.5)) := by rfl
  have r1 : read_event exKinFile 1 1 = .ok (exMomenta, (0, 0, 0.5)) := by rfl
  exact .cons r0 exRunClear_event (by rw [hgain]; norm_num) le_rfl hs hE hclear
    (.cons r1 exRunClear_event (by rw [hgain]; norm_num) le_rfl hs hE hclear (.nil _ _))

theorem exRunClear_settings {m : Math64} {nm : NumpyMath} (h : m.Ok) (hn : nm.Ok) (he : nm.rn = m.rn) :
    RunSettings m nm exRunClear exGrid packagedEdges packagedEdges64 where
  math := h
  numpy := hn
  rounding := he
  installed := rfl
  bin := by norm_num [packagedEdges]
  edges := C145_packaged h.rounding
  pads := fun _ _ => ⟨by norm_num [exGrid], by norm_num [exGrid]⟩
  drift := ⟨by simpa [exRunClear, exDet] using int_mem (n := 1) (by norm_num),
      by norm_num [exRunClear, exDet], by norm_num [exRunClear, exDet],
      by norm_num [exRunClear], by norm_num [exRunClear], by norm_num [exRunClear]⟩
  spread := ⟨by norm_num [exRunClear], by norm_num [exRunClear, exDet], Or.inl rfl⟩
  velocity := by norm_num [exRunClear, exDet]
  gain := by norm_num [exRunClear, exDet]
  template := default_template
  electronics := by constructor <;> norm_num [exRunClear]

/-- The example file of two events is simulated in both arithmetics, one event per file, and the directories are the
same up to rounding, whatever was in them before. -/
example {m : Math64} {nm : NumpyMath} (h : m.Ok) (hn : nm.Ok) (he : nm.rn = m.rn) (disk0 : Disk) : ∃ fin fin64,
    run_simulation exClearEnv exRunClear exKinFile (spyralWriter exArgsort) (some [2]) exGen
      ⟨(), (Writer.init disk0 exRunClear 1 7).2⟩ = (.ok (), fin) ∧
    run_simulation64 m (fun s => (0, s)) exClearEnv { exRunClear with pad_grid := some (exGrid, packagedEdges64) }
      exKinFile (spyralWriter64 m.rn exArgsort) (some [2]) exGen
      ⟨(), (init64 nm disk0 { exRunClear with pad_grid := some (exGrid, packagedEdges64) } 1 7).2⟩ = (.ok (), fin64) ∧
    SameDisk exRunClear 1150 2000000 fin64.writer.disk fin.writer.disk := by
  obtain ⟨u, u0, u1, h'⟩ := exRunClear_simulate
  obtain ⟨fin, hfin⟩ : ∃ fin, run_simulation exClearEnv exRunClear exKinFile (spyralWriter exArgsort) (some [2]) exGen
      ⟨(), newWriter disk0 exRunClear 1 7⟩ = (.ok (), fin) := by
    have r0 : read_event exKinFile 1 0 = .ok (exMomenta, (0, 0, 0.5)) := by rfl
    have r1 : read_event exKinFile 1 1 = .ok (exMomenta, (0, 0, 0.5)) := by rfl
    generalize hcloud : ([⟨5, 287 + u, 2000000⟩] : List CloudPoint) = cloud at h'
    have hc : cloud ≠ [] := by rw [← hcloud]; simp
    have hall := (C29_all_stored disk0 exRunClear 1 7 exArgsort
      [⟨cloud, [2], exRunClear, 0⟩, ⟨cloud, [2], exRunClear, 1⟩] _ _ rfl (by simp) (by
        intro r hr
        have hd : r.data = cloud ∧ r.config = exRunClear := by
          simp only [List.mem_cons, List.not_mem_nil, or_false] at hr
          rcases hr with rfl | rfl <;> exact ⟨rfl, rfl⟩
        rw [hd.1, hd.2]
        refine C27_no_error _ _ _ _ _ (List.replicate 10 (1, 2)) rfl ?_ ?_
        · simp [exRunClear]
        · intro p hp
          rw [← hcloud, List.mem_singleton] at hp
          subst hp
          exact ⟨5, by simp, by simp, by simp [exRunClear]⟩)).1
    have w0 : ((spyralWriter exArgsort).write cloud [2] exRunClear 0
        (newWriter disk0 exRunClear 1 7)).1 = .ok () := hall _ (List.mem_cons_self ..)
    have w1 : ((spyralWriter exArgsort).write cloud [2] exRunClear 1
        ((spyralWriter exArgsort).write cloud [2] exRunClear 0
          (newWriter disk0 exRunClear 1 7)).2).1 = .ok () :=
      hall _ (List.mem_cons_of_mem _ (List.mem_cons_self ..))
    obtain ⟨w', -, -, -, hclose, -⟩ := C30_ranges disk0 exRunClear 1 7 le_rfl exArgsort
      [⟨cloud, [2], exRunClear, 0⟩, ⟨cloud, [2], exRunClear, 1⟩] _ _ rfl (by simp) (by simp)
    replace hclose : (spyralWriter exArgsort).close ((spyralWriter exArgsort).write cloud [2]
        exRunClear 1 ((spyralWriter exArgsort).write cloud [2] exRunClear 0
          (newWriter disk0 exRunClear 1 7)).2).2 = (.ok (), w') := hclose
    have e2 : (2 : ℤ).toNat = 2 := rfl
    refine ⟨⟨(), w'⟩, ?_⟩
    rw [run_simulation_eq (zs := [1, 1, 1]) (as := [1, 1, 1]) (n := 2) (cs := 1) (nc := 2) _ _ _ _ _ _ _
      rfl rfl rfl rfl rfl]
    simp [e2, run_events, run_event, r0, r1, h', hc, w0, w1, hclose]
  obtain ⟨fin64, f1, -, f3, -⟩ := C147_run (exRunClear_settings h hn he) (B := 1150) (E := 2000000) (by norm_num)
    (by norm_num) (zs := [1, 1, 1]) (as := [1, 1, 1]) (n := 2) (cs := 1) (nc := 2) exGen_lawful (std := fun s => (0, s))
    (fun loc scale s => by simp [exGen]) (fun _ => by norm_num) exArgsort_ok (indices := some [2]) rfl rfl rfl rfl rfl
    exRunClear_clear disk0 1 7 hfin
  exact ⟨fin, fin64, hfin, f1, f3⟩

end Verif.Machine
