import Verif.Detector.ResponseRaw
import Verif.Props.Writer

/-! # C114: electronics settings without a response -/

namespace Verif.Detector

open Verif.Spec

/-- The settings for which the response is a function: no division by zero. -/
def Defined (e : ElectronicsParams) : Prop :=
  e.amp_gain ≠ 0 ∧ e.shaping_time ≠ 0 ∧ e.clock_freq ≠ 0

theorem noNaN_map_some {α : Type} (l : List α) : noNaN (l.map some) = some l := by
  induction l with
  | nil => rfl
  | cons a l ih => simp [noNaN, ih]

theorem apply_raw_some (l : List ℝ) (e : ℝ) : apply_response_raw (l.map some) e = some (apply_response l e) := by
  unfold apply_response_raw apply_response
  simp only [List.map_map]
  have h : (Option.map fun s : ℝ => if s > 4095 then (4095 : ℝ) else s) ∘ (Option.map fun r : ℝ => r * e) ∘ some
      = some ∘ (fun s : ℝ => if s > 4095 then (4095 : ℝ) else s) ∘ fun r => r * e := rfl
  rw [h, ← List.map_map, noNaN_map_some]
  rfl

theorem convert_raw_some (we mm : ℤ) (len : ℝ) (l : List ℝ) (pc : List (ℝ × ℝ)) (ps : List ℝ) (p : CloudPoint) :
    convert_point_raw we mm len (l.map some) pc ps p = (convert_point we mm len l pc ps p).map some := by
  unfold convert_point_raw convert_point
  simp only [apply_raw_some]
  cases numbaGet pc (pyInt p.pad) with
  | error e => rfl
  | ok a =>
    simp only [bind, Except.bind]
    split_ifs
    · rfl
    · cases numbaGet ps (pyInt p.pad) <;> rfl

theorem mapM_some {α β : Type} {f : α → Except PyErr β} {g : α → Except PyErr (Option β)}
    (h : ∀ a, g a = (f a).map some) (l : List α) : l.mapM g = (l.mapM f).map (List.map some) := by
  induction l with
  | nil => rfl
  | cons a l ih =>
    rw [List.mapM_cons, List.mapM_cons, h, ih]
    cases f a with
    | error e => rfl
    | ok b =>
      cases l.mapM f <;> rfl

theorem maskSel_some {α : Type} (m : List Bool) (l : List α) :
    (maskSel m (l.map some)).filterMap id = maskSel m l := by
  induction l generalizing m with
  | nil => cases m with
    | nil => rfl
    | cons b m => cases b <;> rfl
  | cons a l ih =>
    cases m with
    | nil => rfl
    | cons b m =>
      cases b
      · simpa [maskSel] using ih m
      · exact congrArg (a :: ·) (ih m)

theorem format_raw_some (argsort : Argsort) (l : List ℝ) (data : List CloudPoint) (labels : List ℤ)
    (config : Config) :
    format_event_raw argsort (l.map some) data labels config = format_event argsort l data labels config := by
  unfold format_event_raw format_event
  cases config.pad_centers with
  | none => rfl
  | some pc =>
    simp only
    rw [mapM_some (convert_raw_some _ _ _ _ _ _), convert_to_spyral]
    cases data.mapM (convert_point config.elec_params.windows_edge config.elec_params.micromegas_edge
      config.det_params.length l pc config.pad_sizes) with
    | error e => rfl
    | ok rows =>
      simp only [Except.map, bind, Except.bind, List.map_map]
      rw [show above config.elec_params.adc_threshold ∘ some
        = fun r : SpyralRow => decide (r.amp > (config.elec_params.adc_threshold : ℝ)) from rfl, maskSel_some]

/-- **C114.** Where the response is defined, writer and response behave as in the other properties. -/
theorem C114_defined (config : Config) (h : Defined config.elec_params) :
    get_response_raw config = .ok ((get_response config).map some) ∧
    (∀ disk m first, create_writer disk config m first
      = (.ok ((get_response config).map some, newWriter disk config m first),
          (newWriter disk config m first).disk)) ∧
    ∀ argsort data labels wconfig event w, w.response = get_response config →
      write_raw argsort ((get_response config).map some) data labels wconfig event w
        = w.write argsort data labels wconfig event := by
  obtain ⟨h1, h2, h3⟩ := h
  have h0 : (config.elec_params.shaping_time : ℝ) * config.elec_params.clock_freq * 0.001 ≠ 0 := by
    have : (config.elec_params.shaping_time : ℝ) ≠ 0 := by exact_mod_cast h2
    positivity
  have hr : get_response_raw config = .ok ((get_response config).map some) := by
    unfold get_response_raw get_response
    rw [if_neg h1]
    simp only [if_neg h0, List.map_map]
    rfl
  refine ⟨hr, ?_, ?_⟩
  · intro disk m first
    unfold create_writer
    have hok := newWriter_ok disk config m first
    rw [hr]
    unfold newWriter
    generalize Writer.init disk config m first = x at *
    obtain ⟨a, w⟩ := x
    simp only at hok
    subst hok
    rfl
  · intro argsort data labels wconfig event w hw
    unfold write_raw Writer.write
    have hroll : (w.rollover event).2.response = w.response := by
      have hop : ∀ (os : List DiskOp) (w : Writer), (w.ops os).2.response = w.response := by
        intro os
        induction os with
        | nil => intro w; rfl
        | cons o os ih =>
          intro w
          unfold Writer.ops Writer.op
          cases DiskOp.apply w.disk o with
          | error e => rfl
          | ok d => exact ih _
      unfold Writer.rollover
      split_ifs
      · have c1 := hop [.setMin w.file w.starting_event, .setMax w.file w.last_event, .close w.file] w
        unfold Writer.close
        generalize w.ops [.setMin w.file w.starting_event, .setMax w.file w.last_event, .close w.file] = x at *
        obtain ⟨a, w1⟩ := x
        cases a with
        | error e => exact c1
        | ok _ =>
          simp only at c1 ⊢
          unfold Writer.create_next_file
          simp only
          have c2 := hop [.createFile (run_name (w1.run_number + 1)), .createGroup (run_name (w1.run_number + 1))]
            { w1 with run_number := w1.run_number + 1, file := run_name (w1.run_number + 1) }
          generalize Writer.ops [.createFile (run_name (w1.run_number + 1)),
            .createGroup (run_name (w1.run_number + 1))]
            { w1 with run_number := w1.run_number + 1, file := run_name (w1.run_number + 1) } = y at *
          obtain ⟨b, w2⟩ := y
          cases b <;> exact c2.trans c1
      · rfl
    generalize w.rollover event = x at *
    obtain ⟨a, w1⟩ := x
    cases a with
    | error e => rfl
    | ok _ =>
      simp only at hroll ⊢
      rw [format_raw_some, hroll, hw]
      rfl

/-- **C114.** With gain 0 the writer cannot be created, and the directory is not touched. -/
theorem C114_gain (disk : Disk) (config : Config) (m first : ℤ) (h : config.elec_params.amp_gain = 0) :
    create_writer disk config m first = (.error .zeroDivision, disk) := by
  unfold create_writer get_response_raw
  rw [if_pos h]

/-- A dataset without points. -/
def Dset.isEmpty : Dset → Prop
  | .cloud rows _ => rows = []
  | .labels l => l = []

/-- Calls of `write` one after the other, whether they succeed or not. -/
noncomputable def attempts_raw (argsort : Argsort) (response : List (Option ℝ)) : List WriteReq → Writer → Writer
  | [], w => w
  | r :: rs, w =>
    attempts_raw argsort response rs (write_raw argsort response r.data r.labels r.config r.event w).2

theorem convert_raw_none {we mm : ℤ} {len : ℝ} {resp : List (Option ℝ)} {pc : List (ℝ × ℝ)} {ps : List ℝ}
    (hr : none ∈ resp) {p : CloudPoint} {r : Option SpyralRow}
    (h : convert_point_raw we mm len resp pc ps p = .ok r) : r = none := by
  have hn : ∀ (e : ℝ), apply_response_raw resp e = none := by
    intro e
    unfold apply_response_raw
    simp only [List.map_map]
    have : ∀ l : List (Option ℝ), none ∈ l → noNaN l = none := by
      intro l hl
      induction l with
      | nil => simp at hl
      | cons a l ih =>
        cases a with
        | none => rfl
        | some a => simp only [noNaN, ih (by simpa using hl), Option.map_none]
    rw [this _ (List.mem_map.2 ⟨none, hr, rfl⟩)]
    rfl
  unfold convert_point_raw at h
  simp only [hn] at h
  cases h1 : numbaGet pc (pyInt p.pad) with
  | error e => rw [h1] at h; cases h
  | ok a =>
    rw [h1] at h
    simp only [bind, Except.bind] at h
    split_ifs at h
    cases h2 : numbaGet ps (pyInt p.pad) with
    | error e => rw [h2] at h; cases h
    | ok b => rw [h2] at h; exact (Except.ok.inj h).symm

theorem mapM_none {α β : Type} {f : α → Except PyErr (Option β)} {l : List α} {rs : List (Option β)}
    (hf : ∀ a r, f a = .ok r → r = none) (h : l.mapM f = .ok rs) : ∀ r ∈ rs, r = none := by
  induction l generalizing rs with
  | nil => obtain rfl := Except.ok.inj h; simp
  | cons a l ih =>
    rw [List.mapM_cons] at h
    cases h1 : f a with
    | error e => rw [h1] at h; cases h
    | ok b =>
      cases h2 : l.mapM f with
      | error e => rw [h1, h2] at h; cases h
      | ok bs =>
        rw [h1, h2] at h
        obtain rfl := Except.ok.inj h
        intro r hr
        rcases List.mem_cons.1 hr with rfl | hr
        · exact hf a _ h1
        · exact ih h2 r hr

theorem maskSel_false {α β : Type} {m : List β} {f : β → Bool} (h : ∀ b ∈ m, f b = false) (l : List α) :
    maskSel (m.map f) l = [] := by
  induction m generalizing l with
  | nil => cases l <;> rfl
  | cons b m ih =>
    cases l with
    | nil => simp [maskSel, h b (by simp)]
    | cons a l =>
      rw [List.map_cons, h b (by simp)]
      exact ih (fun b hb => h b (by simp [hb])) l

theorem takeIdx_nil {α : Type} (idx : List ℕ) : takeIdx idx ([] : List α) = [] := by
  unfold takeIdx
  simp

theorem format_raw_none {argsort : Argsort} {resp : List (Option ℝ)} (hr : none ∈ resp) {data : List CloudPoint}
    {labels : List ℤ} {config : Config} {x : List SpyralRow × List ℤ}
    (h : format_event_raw argsort resp data labels config = .ok x) : x = ([], []) := by
  unfold format_event_raw at h
  split at h
  · cases h
  rename_i pc _
  cases h1 : data.mapM (convert_point_raw config.elec_params.windows_edge
      config.elec_params.micromegas_edge config.det_params.length resp pc config.pad_sizes) with
  | error e => rw [h1] at h; cases h
  | ok rows =>
    rw [h1] at h
    have hall := mapM_none (fun a r => convert_raw_none hr) h1
    have hm : ∀ b ∈ rows, above config.elec_params.adc_threshold b = false := by
      intro b hb
      rw [hall b hb]
      rfl
    simp only [bind, Except.bind, maskSel_false hm, List.filterMap_nil, takeIdx_nil] at h
    exact (Except.ok.inj h).symm

/-- Every file is as before or holds no point; the current one holds no point. -/
structure NoPoints (disk0 : Disk) (disk : Disk) (file : String) : Prop where
  all : ∀ f h, disk f = some h → disk0 f = some h ∨ ∀ nd ∈ h.dsets, nd.2.isEmpty
  cur : ∀ h, disk file = some h → ∀ nd ∈ h.dsets, nd.2.isEmpty

/-- Operations that store no points in the file. -/
def OpEmpty (file : String) : DiskOp → Prop
  | .createFile f | .createGroup f | .close f => f = file
  | .setMin f _ | .setMax f _ => f = file
  | .createDset f _ d => f = file ∧ d.isEmpty
  | .setAttr f _ _ _ => f = file

theorem NoPoints.update {disk0 disk : Disk} {file : String} (h : NoPoints disk0 disk file) {hf : H5File}
    (he : ∀ nd ∈ hf.dsets, nd.2.isEmpty) : NoPoints disk0 (Function.update disk file (some hf)) file where
  all := by
    intro f g hg
    by_cases hff : f = file
    · subst hff
      rw [Function.update_self] at hg
      obtain rfl := Option.some.inj hg
      exact Or.inr he
    · rw [Function.update_of_ne hff] at hg
      exact h.all f g hg
  cur := by
    intro g hg
    rw [Function.update_self] at hg
    obtain rfl := Option.some.inj hg
    exact he

theorem NoPoints.op {disk0 disk disk' : Disk} {file : String} (h : NoPoints disk0 disk file) {o : DiskOp}
    (ho : OpEmpty file o) (e : DiskOp.apply disk o = .ok disk') : NoPoints disk0 disk' file := by
  have hopen : ∀ {f : H5File → Except PyErr H5File} {d' : Disk},
      (∀ a b, f a = .ok b → (∀ nd ∈ a.dsets, nd.2.isEmpty) → ∀ nd ∈ b.dsets, nd.2.isEmpty) →
      disk.onOpen file f = .ok d' → NoPoints disk0 d' file := by
    intro f d' hf hd
    unfold Disk.onOpen at hd
    split at hd
    · cases hd
    rename_i a ha
    split_ifs at hd
    split at hd
    · rename_i b hb
      obtain rfl := Except.ok.inj hd
      exact h.update (hf a b hb (h.cur a ha))
    · cases hd
  cases o with
  | createFile f =>
    obtain rfl : f = file := ho
    obtain rfl := Except.ok.inj e
    exact h.update (by simp)
  | createGroup f =>
    obtain rfl : f = file := ho
    simp only [DiskOp.apply] at e
    refine hopen (fun a b hab ha => ?_) e
    obtain rfl := Except.ok.inj hab
    exact ha
  | setMin f v =>
    obtain rfl : f = file := ho
    simp only [DiskOp.apply] at e
    refine hopen (fun a b hab ha => ?_) e
    obtain rfl := Except.ok.inj hab
    exact ha
  | setMax f v =>
    obtain rfl : f = file := ho
    simp only [DiskOp.apply] at e
    refine hopen (fun a b hab ha => ?_) e
    obtain rfl := Except.ok.inj hab
    exact ha
  | close f =>
    obtain rfl : f = file := ho
    unfold DiskOp.apply at e
    simp only at e
    split at e
    · obtain rfl := Except.ok.inj e
      exact h
    · rename_i a ha
      obtain rfl := Except.ok.inj e
      exact h.update (h.cur a ha)
  | createDset f n d =>
    obtain ⟨rfl, hd⟩ := ho
    simp only [DiskOp.apply] at e
    refine hopen (fun a b hab ha => ?_) e
    split_ifs at hab
    obtain rfl := Except.ok.inj hab
    intro nd hnd
    rcases List.mem_append.1 hnd with hnd | hnd
    · exact ha nd hnd
    · obtain rfl := List.mem_singleton.1 hnd
      exact hd
  | setAttr f n k v =>
    obtain rfl : f = file := ho
    simp only [DiskOp.apply] at e
    refine hopen (fun a b hab ha => ?_) e
    obtain rfl := Except.ok.inj hab
    intro nd hnd
    obtain ⟨c, hc, rfl⟩ := List.mem_map.1 hnd
    have := ha c hc
    split_ifs
    · cases hd : c.2 with
      | cloud rows attrs =>
        rw [hd] at this
        exact this
      | labels l =>
        rw [hd] at this
        exact this
    · exact this

theorem NoPoints.ops {disk0 : Disk} {os : List DiskOp} {w : Writer} (h : NoPoints disk0 w.disk w.file)
    (ho : ∀ o ∈ os, OpEmpty w.file o) :
    NoPoints disk0 (w.ops os).2.disk (w.ops os).2.file ∧ (w.ops os).2.file = w.file := by
  induction os generalizing w with
  | nil => exact ⟨h, rfl⟩
  | cons o os ih =>
    unfold Writer.ops Writer.op
    cases e : DiskOp.apply w.disk o with
    | error e => exact ⟨h, rfl⟩
    | ok d =>
      exact ih (w := { w with disk := d, trace := d :: w.trace }) (h.op (ho o (by simp)) e)
        fun o ho' => ho o (by simp [ho'])

theorem NoPoints.create {disk0 : Disk} {w : Writer} {name : String}
    (h : ∀ f g, w.disk f = some g → disk0 f = some g ∨ ∀ nd ∈ g.dsets, nd.2.isEmpty) (hw : w.file = name) :
    NoPoints disk0 (w.ops [.createFile name, .createGroup name]).2.disk
      (w.ops [.createFile name, .createGroup name]).2.file := by
  subst hw
  have h1 : NoPoints disk0 (Function.update w.disk w.file (some {})) w.file := by
    constructor
    · intro f g hg
      by_cases hff : f = w.file
      · subst hff
        rw [Function.update_self] at hg
        obtain rfl := Option.some.inj hg
        exact Or.inr (by simp)
      · rw [Function.update_of_ne hff] at hg
        exact h f g hg
    · intro g hg
      rw [Function.update_self] at hg
      obtain rfl := Option.some.inj hg
      simp
  exact (NoPoints.ops (os := [.createGroup w.file])
    (w := { w with disk := Function.update w.disk w.file (some {}),
                   trace := Function.update w.disk w.file (some {}) :: w.trace }) h1
    (fun o ho => by obtain rfl := List.mem_singleton.1 ho; exact rfl)).1

theorem NoPoints.write {disk0 : Disk} {w : Writer} {argsort : Argsort} {resp : List (Option ℝ)} (hr : none ∈ resp)
    (h : NoPoints disk0 w.disk w.file) (r : WriteReq) :
    NoPoints disk0 (write_raw argsort resp r.data r.labels r.config r.event w).2.disk
      (write_raw argsort resp r.data r.labels r.config r.event w).2.file := by
  have hroll : NoPoints disk0 (w.rollover r.event).2.disk (w.rollover r.event).2.file := by
    unfold Writer.rollover
    split_ifs
    · have c1 := NoPoints.ops (os := [.setMin w.file w.starting_event, .setMax w.file w.last_event, .close w.file]) h
        (by
          intro o ho
          simp only [List.mem_cons, List.not_mem_nil, or_false] at ho
          rcases ho with rfl | rfl | rfl <;> exact rfl)
      unfold Writer.close
      generalize w.ops [.setMin w.file w.starting_event, .setMax w.file w.last_event, .close w.file] = x at *
      obtain ⟨a, w1⟩ := x
      cases a with
      | error e => exact c1.1
      | ok _ =>
        simp only at c1 ⊢
        unfold Writer.create_next_file
        simp only
        have c2 := NoPoints.create (disk0 := disk0)
          (w := { w1 with run_number := w1.run_number + 1, file := run_name (w1.run_number + 1) })
          (name := run_name (w1.run_number + 1)) c1.1.all rfl
        generalize Writer.ops [.createFile (run_name (w1.run_number + 1)),
          .createGroup (run_name (w1.run_number + 1))]
          { w1 with run_number := w1.run_number + 1, file := run_name (w1.run_number + 1) } = y at *
        obtain ⟨b, w2⟩ := y
        cases b <;> exact c2
    · exact h
  unfold write_raw
  generalize w.rollover r.event = x at *
  obtain ⟨a, w1⟩ := x
  cases a with
  | error e => exact hroll
  | ok _ =>
    simp only at hroll ⊢
    cases hf : format_event_raw argsort resp r.data r.labels r.config with
    | error e => exact hroll
    | ok y =>
      obtain rfl := format_raw_none hr hf
      simp only
      have c := NoPoints.ops (os := event_ops w1.file w1.run_number r.event [] []) hroll (by
        intro o ho
        simp only [event_ops, List.mem_cons, List.not_mem_nil, or_false] at ho
        rcases ho with rfl | rfl | rfl | rfl | rfl | rfl | rfl | rfl
        · exact ⟨rfl, rfl⟩
        · exact rfl
        · exact rfl
        · exact rfl
        · exact rfl
        · exact rfl
        · exact rfl
        · exact ⟨rfl, rfl⟩)
      generalize w1.ops (event_ops w1.file w1.run_number r.event [] []) = z at *
      obtain ⟨b, w2⟩ := z
      cases b <;> exact c.1

/-- **C114.** With a shaping time or clock frequency of 0 the writer is created without an exception, and whatever
is written with it afterwards, no dataset of any file that it creates holds a point or a label. -/
theorem C114_empty (disk : Disk) (config : Config) (m first : ℤ) (hg : config.elec_params.amp_gain ≠ 0)
    (h : config.elec_params.shaping_time = 0 ∨ config.elec_params.clock_freq = 0) :
    ∃ response w, create_writer disk config m first = (.ok (response, w), w.disk) ∧
      ∀ (argsort : Argsort) (reqs : List WriteReq) (f : String) (hf : H5File),
        (attempts_raw argsort response reqs w).disk f = some hf →
          disk f = some hf ∨ ∀ nd ∈ hf.dsets, nd.2.isEmpty := by
  have h0 : (config.elec_params.shaping_time : ℝ) * config.elec_params.clock_freq * 0.001 = 0 := by
    rcases h with h | h <;> rw [h] <;> simp
  have hr : get_response_raw config = .ok ((linspace 0 (NUM_TB : ℝ) NUM_TB).map fun _ => none) := by
    unfold get_response_raw
    rw [if_neg hg]
    simp only [if_pos h0]
  have hmem : (none : Option ℝ) ∈ (linspace 0 (NUM_TB : ℝ) NUM_TB).map fun _ => (none : Option ℝ) := by
    refine List.mem_map.2 ⟨0 + ((0 : ℕ) : ℝ) * (((NUM_TB : ℝ) - 0) / ((NUM_TB : ℝ) - 1)), ?_, rfl⟩
    exact List.mem_map.2 ⟨0, List.mem_range.2 (by unfold NUM_TB; norm_num), rfl⟩
  have hnew : NoPoints disk (newWriter disk config m first).disk (newWriter disk config m first).file := by
    unfold newWriter Writer.init
    exact NoPoints.create (fun f g hg => Or.inl hg) rfl
  refine ⟨(linspace 0 (NUM_TB : ℝ) NUM_TB).map fun _ => none, newWriter disk config m first, ?_, ?_⟩
  · unfold create_writer
    rw [hr]
    have hok := newWriter_ok disk config m first
    unfold newWriter
    generalize Writer.init disk config m first = x at *
    obtain ⟨a, w⟩ := x
    simp only at hok
    subst hok
    rfl
  · intro argsort reqs
    generalize newWriter disk config m first = w at *
    have key : NoPoints disk (attempts_raw argsort ((linspace 0 (NUM_TB : ℝ) NUM_TB).map fun _ => none) reqs w).disk (attempts_raw argsort ((linspace 0 (NUM_TB : ℝ) NUM_TB).map fun _ => none) reqs w).file := by
      induction reqs generalizing w with
      | nil => exact hnew
      | cons r rs ih => exact ih _ (hnew.write hmem r)
    exact key.all

/-- A configuration with an ADC threshold that no signal exceeds. -/
def deaf (config : Config) : Config :=
  { config with elec_params := { config.elec_params with adc_threshold := 4096 } }

theorem convert_le {we mm : ℤ} {len : ℝ} {resp : List ℝ} {pc : List (ℝ × ℝ)} {ps : List ℝ} {p : CloudPoint}
    {r : SpyralRow} (h : convert_point we mm len resp pc ps p = .ok r) : r.amp ≤ 4095 := by
  have hmax : ∀ l : List ℝ, (∀ x ∈ l, x ≤ 4095) → npMax l ≤ 4095 := by
    intro l hl
    cases l with
    | nil => unfold npMax; norm_num
    | cons x xs =>
      have : ∀ (xs : List ℝ) (x : ℝ), x ≤ 4095 → (∀ y ∈ xs, y ≤ 4095) → xs.foldl max x ≤ 4095 := by
        intro xs
        induction xs with
        | nil => intro x hx _; exact hx
        | cons y ys ih =>
          intro x hx hys
          exact ih _ (max_le hx (hys y (by simp))) fun z hz => hys z (by simp [hz])
      exact this xs x (hl x (by simp)) fun y hy => hl y (by simp [hy])
  have hamp : (apply_response resp p.e).1 ≤ 4095 := by
    unfold apply_response
    simp only [List.map_map]
    refine hmax _ fun x hx => ?_
    obtain ⟨a, _, rfl⟩ := List.mem_map.1 hx
    simp only [Function.comp]
    split_ifs with h1
    · exact le_refl _
    · exact not_lt.1 h1
  unfold convert_point at h
  cases h1 : numbaGet pc (pyInt p.pad) with
  | error e => rw [h1] at h; cases h
  | ok a =>
    rw [h1] at h
    simp only [bind, Except.bind] at h
    split_ifs at h
    cases h2 : numbaGet ps (pyInt p.pad) with
    | error e => rw [h2] at h; cases h
    | ok b =>
      rw [h2] at h
      obtain rfl := Except.ok.inj h
      exact hamp

theorem convert_raw_forget {we mm : ℤ} {len : ℝ} {resp : List (Option ℝ)} (hr : none ∈ resp) (l : List ℝ)
    {pc : List (ℝ × ℝ)} {ps : List ℝ} (p : CloudPoint) :
    convert_point_raw we mm len resp pc ps p = (convert_point we mm len l pc ps p).map fun _ => none := by
  cases h : convert_point_raw we mm len resp pc ps p with
  | ok r =>
    obtain rfl := convert_raw_none hr h
    unfold convert_point_raw at h
    unfold convert_point
    cases h1 : numbaGet pc (pyInt p.pad) with
    | error e => rw [h1] at h; cases h
    | ok a =>
      rw [h1] at h
      simp only [bind, Except.bind] at h ⊢
      split_ifs at h ⊢
      cases h2 : numbaGet ps (pyInt p.pad) with
      | error e => rw [h2] at h; cases h
      | ok b => rfl
  | error e =>
    unfold convert_point_raw at h
    unfold convert_point
    cases h1 : numbaGet pc (pyInt p.pad) with
    | error e' => rw [h1] at h; exact h.symm
    | ok a =>
      rw [h1] at h
      simp only [bind, Except.bind] at h ⊢
      split_ifs at h ⊢
      · exact h.symm
      · cases h2 : numbaGet ps (pyInt p.pad) with
        | error e' => rw [h2] at h; exact h.symm
        | ok b => rw [h2] at h; cases h

theorem mapM_forget {α β γ : Type} {f : α → Except PyErr β} {g : α → Except PyErr (Option γ)}
    (h : ∀ a, g a = (f a).map fun _ => none) (l : List α) :
    l.mapM g = (l.mapM f).map (List.map fun _ => none) := by
  induction l with
  | nil => rfl
  | cons a l ih =>
    rw [List.mapM_cons, List.mapM_cons, h, ih]
    cases f a with
    | error e => rfl
    | ok b =>
      cases l.mapM f <;> rfl

theorem mapM_forall {α β : Type} {f : α → Except PyErr β} {P : β → Prop} (hf : ∀ a b, f a = .ok b → P b)
    {l : List α} {rs : List β} (h : l.mapM f = .ok rs) : ∀ r ∈ rs, P r := by
  induction l generalizing rs with
  | nil => obtain rfl := Except.ok.inj h; simp
  | cons a l ih =>
    rw [List.mapM_cons] at h
    cases h1 : f a with
    | error e => rw [h1] at h; cases h
    | ok b =>
      cases h2 : l.mapM f with
      | error e => rw [h1, h2] at h; cases h
      | ok bs =>
        rw [h1, h2] at h
        obtain rfl := Except.ok.inj h
        intro r hr
        rcases List.mem_cons.1 hr with rfl | hr
        · exact hf a _ h1
        · exact ih h2 r hr

theorem format_raw_deaf (argsort : Argsort) {resp : List (Option ℝ)} (hr : none ∈ resp) (l : List ℝ)
    (data : List CloudPoint) (labels : List ℤ) (config : Config) :
    format_event_raw argsort resp data labels config = format_event argsort l data labels (deaf config) := by
  unfold format_event_raw format_event
  rw [show (deaf config).pad_centers = config.pad_centers from rfl]
  cases config.pad_centers with
  | none => rfl
  | some pc =>
    simp only
    rw [mapM_forget (convert_raw_forget hr l), convert_to_spyral,
      show (deaf config).elec_params.windows_edge = config.elec_params.windows_edge from rfl,
      show (deaf config).elec_params.micromegas_edge = config.elec_params.micromegas_edge from rfl,
      show (deaf config).det_params.length = config.det_params.length from rfl,
      show (deaf config).pad_sizes = config.pad_sizes from rfl]
    cases hm : data.mapM (convert_point config.elec_params.windows_edge config.elec_params.micromegas_edge
      config.det_params.length l pc config.pad_sizes) with
    | error e => rfl
    | ok rows =>
      have hall := mapM_forall (P := fun r => r.amp ≤ 4095) (fun a b => convert_le) hm
      simp only [Except.map, bind, Except.bind]
      rw [maskSel_false (m := rows.map fun _ => none) (f := above config.elec_params.adc_threshold)
        (fun b hb => by obtain ⟨_, _, rfl⟩ := List.mem_map.1 hb; rfl), maskSel_false (m := rows.map fun _ => none)
        (f := above config.elec_params.adc_threshold)
        (fun b hb => by obtain ⟨_, _, rfl⟩ := List.mem_map.1 hb; rfl)]
      have hd : ∀ r ∈ rows, decide (r.amp > ((deaf config).elec_params.adc_threshold : ℝ)) = false := by
        intro r hr
        have := hall r hr
        refine decide_eq_false ?_
        simp only [deaf, gt_iff_lt, not_lt]
        push_cast
        linarith
      rw [maskSel_false hd, maskSel_false hd, List.filterMap_nil, takeIdx_nil, takeIdx_nil]

/-- **C114.** With a response of NaN values every call of `write` does what it would do with a regular response and
a threshold that no signal exceeds: the same exceptions, the same files and names, but no points. -/
theorem C114_silent (config : Config) (hg : config.elec_params.amp_gain ≠ 0)
    (h : config.elec_params.shaping_time = 0 ∨ config.elec_params.clock_freq = 0) :
    ∃ response, get_response_raw config = .ok response ∧
      ∀ argsort data labels wconfig event w,
        write_raw argsort response data labels wconfig event w = w.write argsort data labels (deaf wconfig) event := by
  have h0 : (config.elec_params.shaping_time : ℝ) * config.elec_params.clock_freq * 0.001 = 0 := by
    rcases h with h | h <;> rw [h] <;> simp
  have hmem : (none : Option ℝ) ∈ (linspace 0 (NUM_TB : ℝ) NUM_TB).map fun _ => (none : Option ℝ) := by
    refine List.mem_map.2 ⟨0 + ((0 : ℕ) : ℝ) * (((NUM_TB : ℝ) - 0) / ((NUM_TB : ℝ) - 1)), ?_, rfl⟩
    exact List.mem_map.2 ⟨0, List.mem_range.2 (by unfold NUM_TB; norm_num), rfl⟩
  refine ⟨(linspace 0 (NUM_TB : ℝ) NUM_TB).map fun _ => none, ?_, ?_⟩
  · unfold get_response_raw
    rw [if_neg hg]
    simp only [if_pos h0]
  · intro argsort data labels wconfig event w
    unfold write_raw Writer.write
    generalize w.rollover event = x
    obtain ⟨a, w1⟩ := x
    cases a with
    | error e => rfl
    | ok _ =>
      simp only
      rw [format_raw_deaf argsort hmem w1.response]
      rfl

/-- The settings of the three cases of C114 exist, and the calls of `write` of C114 can succeed. -/
example : Defined ⟨6.25, 900, 1000, 10, 560, 40⟩ ∧ ¬ Defined ⟨6.25, 0, 1000, 10, 560, 40⟩ ∧
    ¬ Defined ⟨0, 900, 1000, 10, 560, 40⟩ := by
  unfold Defined
  norm_num

example (argsort : Argsort) (n : ℤ) (disk : Disk) :
    ((newWriter disk exWriteConfig 5000 0).write argsort (exReq n).data (exReq n).labels (deaf exWriteConfig) n).1
      = .ok () := by
  have h1 : ∀ (r : WriteReq) (w : Writer), attempts argsort [r] w
      = ([(w.write argsort r.data r.labels r.config r.event).1],
          (w.write argsort r.data r.labels r.config r.event).2) := fun _ _ => rfl
  have h := C29_all_stored disk exWriteConfig 5000 0 argsort
    [⟨(exReq n).data, (exReq n).labels, deaf exWriteConfig, n⟩] _ _ (h1 _ _) (by simp) (by
      intro r hr
      obtain rfl := List.mem_singleton.1 hr
      refine C27_no_error argsort _ _ _ _ [(0, 0), (1, 2)] rfl ?_ ?_
      · simp [deaf, exWriteConfig, exConfig, exElec]
      · intro p hp
        simp only [exReq, List.mem_cons, List.not_mem_nil, or_false] at hp
        rcases hp with rfl | rfl
        · exact ⟨1, by simp, by simp, by simp [deaf, exWriteConfig]⟩
        · exact ⟨0, by simp, by simp, by simp [deaf, exWriteConfig]⟩)
  exact h.1 _ (List.mem_singleton.2 rfl)

end Verif.Detector
