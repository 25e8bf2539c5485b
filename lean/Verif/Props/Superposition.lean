import Verif.Props.Simulate
import Verif.Props.Charge

/-! # C119: the cloud of an event is the sum of the clouds of its nuclei -/

namespace Verif.Detector

open Verif.Spec Verif.Kinematics

open Classical in
/-- The charge recorded by a cloud on a pad in a time bucket. -/
noncomputable def chargeIn (cloud : List CloudPoint) (tb pad : ℤ) : ℝ :=
  ((cloud.filter fun r => decide (r.pad = (pad : ℝ) ∧ ⌊r.tb⌋ = tb)).map (·.e)).sum

open Classical in
/-- The label of the point of a cloud on a pad in a time bucket, if there is one. -/
noncomputable def labelIn (cloud : List CloudPoint) (labels : List ℤ) (tb pad : ℤ) : Option ℤ :=
  ((cloud.zip labels).find? fun rl => decide (rl.1.pad = (pad : ℝ) ∧ ⌊rl.1.tb⌋ = tb)).map (·.2)

section

variable {σ : Type} {env : SimEnv} {momenta : List Vec4} {vertex : ℝ × ℝ × ℝ} {Zs As : List ℤ}
  {config : Config} {grid : PadGrid} {g : GridEdges} {rng : Gen σ}

/-- Whether a nucleus can be simulated, and the random numbers it uses, do not depend on what the
dictionary already contains. -/
theorem nucleus_restart (hb : 0 < g.bin) (hgrid : config.pad_grid = some (grid, g)) {p q : Points}
    {s s' : σ} {idx : ℤ}
    (h : simulate_nucleus env momenta vertex Zs As config rng (p, s) idx = .ok (q, s')) (p' : Points) :
    ∃ q', simulate_nucleus env momenta vertex Zs As config rng (p', s) idx = .ok (q', s') := by
  unfold simulate_nucleus at h ⊢
  rw [except_bind_ok] at h
  obtain ⟨z, hz, h⟩ := h
  rw [hz]
  by_cases hz0 : z = 0
  · rw [if_pos hz0] at h
    have := congrArg Prod.snd (Except.ok.inj h)
    simp only at this
    subst this
    exact ⟨p', by rw [except_bind_ok]; exact ⟨z, rfl, by rw [if_pos hz0]; rfl⟩⟩
  · rw [if_neg hz0, except_bind_ok] at h
    obtain ⟨a, ha, h⟩ := h
    rw [except_bind_ok] at h
    obtain ⟨nucleus, hn, h⟩ := h
    rw [except_bind_ok] at h
    obtain ⟨momentum, hm, h⟩ := h
    obtain ⟨track, primary, ht, he, -, hok⟩ := generate_point_cloud_ok hb hgrid h
    refine ⟨applyDeposits p' (nucleusDeposits config grid g track primary idx), ?_⟩
    rw [except_bind_ok]
    refine ⟨z, rfl, ?_⟩
    rw [if_neg hz0, except_bind_ok]
    refine ⟨a, ha, ?_⟩
    rw [except_bind_ok]
    refine ⟨nucleus, hn, ?_⟩
    rw [except_bind_ok]
    exact ⟨momentum, hm, generate_point_cloud_of hb hgrid p' idx ht he hok⟩

theorem fold_restart (hb : 0 < g.bin) (hgrid : config.pad_grid = some (grid, g)) (indices : List ℤ)
    {p q : Points} {s s' : σ}
    (h : indices.foldlM (simulate_nucleus env momenta vertex Zs As config rng) (p, s) = .ok (q, s'))
    (p' : Points) :
    ∃ q', indices.foldlM (simulate_nucleus env momenta vertex Zs As config rng) (p', s) = .ok (q', s') := by
  induction indices generalizing p p' s with
  | nil =>
    simp only [List.foldlM_nil] at h ⊢
    have := congrArg Prod.snd (Except.ok.inj h)
    simp only at this
    subst this
    exact ⟨p', rfl⟩
  | cons idx rest ih =>
    rw [List.foldlM_cons, except_bind_ok] at h
    obtain ⟨⟨r, s1⟩, h1, h2⟩ := h
    obtain ⟨r', h1'⟩ := nucleus_restart hb hgrid h1 p'
    obtain ⟨q', h2'⟩ := ih h2 r'
    refine ⟨q', ?_⟩
    rw [List.foldlM_cons, except_bind_ok]
    exact ⟨_, h1', h2'⟩

/-- The deposits of an event are determined by the state of the generator. -/
theorem trace_unique {indices : List ℤ} {s s₁ s₂ : σ} {tr tr' : List (ℤ × List Deposit)}
    (h : EventTrace env momenta vertex Zs As config grid g rng indices s tr s₁)
    (h' : EventTrace env momenta vertex Zs As config grid g rng indices s tr' s₂) :
    tr = tr' ∧ s₁ = s₂ := by
  induction h generalizing tr' with
  | nil => cases h'; exact ⟨rfl, rfl⟩
  | neutral idx rest s s' tr hz _ ih =>
    cases h' with
    | neutral _ _ _ _ tr₂ hz' h2 =>
      obtain ⟨rfl, rfl⟩ := ih h2
      exact ⟨rfl, rfl⟩
    | charged _ z _ _ _ _ _ _ _ _ _ _ hz' hz0 =>
      rw [hz] at hz'
      exact absurd (Except.ok.inj hz').symm hz0
  | charged idx z a nucleus momentum track primary rest s s₁ s' tr hz hz0 ha hn hm ht he _ ih =>
    cases h' with
    | neutral _ _ _ _ tr₂ hz' h2 =>
      rw [hz] at hz'
      exact absurd (Except.ok.inj hz') hz0
    | charged _ z' a' nucleus' momentum' track' primary' _ _ s₁' _ tr₂ hz' hz0' ha' hn' hm' ht' he' h2 =>
      rw [hz] at hz'
      obtain rfl := Except.ok.inj hz'
      rw [ha] at ha'
      obtain rfl := Except.ok.inj ha'
      rw [hn] at hn'
      obtain rfl := Except.ok.inj hn'
      rw [hm] at hm'
      obtain rfl := Except.ok.inj hm'
      rw [ht] at ht'
      obtain rfl := Except.ok.inj ht'
      rw [he] at he'
      have h3 := Except.ok.inj he'
      obtain rfl : primary = primary' := congrArg Prod.fst h3
      obtain rfl : s₁ = s₁' := congrArg Prod.snd h3
      obtain ⟨rfl, rfl⟩ := ih h2
      exact ⟨rfl, rfl⟩

end

open Classical in
theorem cells_charge {h : List Deposit} {cells : List (ℤ × ℤ)} {rows : List (CloudPoint × ℤ)}
    (hnd : cells.Nodup) (hd : List.Forall₂ (Describes h) cells rows) (tb pad : ℤ) :
    (((rows.map (·.1)).filter fun r => decide (r.pad = (pad : ℝ) ∧ ⌊r.tb⌋ = tb)).map (·.e)).sum
      = (if (tb, pad) ∈ cells then (chargeAt h tb pad : ℝ) else 0) ∧
    (rows.find? fun rl => decide (rl.1.pad = (pad : ℝ) ∧ ⌊rl.1.tb⌋ = tb)).map (·.2)
      = if (tb, pad) ∈ cells then lastLabel h tb pad else none := by
  induction hd with
  | nil => simp
  | @cons cell rl cs rs h1 _ ih =>
    rw [List.nodup_cons] at hnd
    obtain ⟨i1, i2⟩ := ih hnd.2
    have hf := describes_floor h1
    rw [List.map_cons, List.filter_cons, List.find?_cons]
    by_cases hc : rl.1.pad = (pad : ℝ) ∧ ⌊rl.1.tb⌋ = tb
    · have hcell : cell = (tb, pad) := by
        refine Prod.ext (by rw [← hf]; exact hc.2) ?_
        have := h1.1
        rw [hc.1] at this
        exact_mod_cast this.symm
      subst hcell
      rw [if_neg hnd.1] at i1
      constructor
      · rw [if_pos (by simpa using hc), if_pos (by simp), List.map_cons, List.sum_cons, i1, add_zero]
        exact h1.2.2.2.1
      · simp only [hc, and_self, decide_true, List.mem_cons, true_or, if_true, Option.map_some]
        exact h1.2.2.2.2.symm
    · have hcell : (tb, pad) ≠ cell := by
        rintro rfl
        exact hc ⟨h1.1, hf⟩
      constructor
      · rw [if_neg (by simpa using hc), i1]
        simp only [List.mem_cons, hcell, false_or]
      · simp only [hc, decide_false, List.mem_cons, hcell, false_or]
        exact i2

theorem history_nonneg {σ : Type} {env : SimEnv} {momenta : List Vec4} {vertex : ℝ × ℝ × ℝ}
    {Zs As : List ℤ} {config : Config} {grid : PadGrid} {g : GridEdges} {rng : Gen σ}
    (hgain : 0 ≤ config.det_params.mpgd_gain) {indices : List ℤ} {s s' : σ}
    {tr : List (ℤ × List Deposit)}
    (h : EventTrace env momenta vertex Zs As config grid g rng indices s tr s') :
    ∀ d ∈ history tr, 0 ≤ d.e := by
  intro d hd
  obtain ⟨x, hx, hdx⟩ := List.mem_flatMap.1 hd
  obtain ⟨z, a, nucleus, momentum, track, primary, s₀, s₁, -, -, -, -, -, -, -, he⟩ :=
    h.entry x hx (List.ne_nil_of_mem hdx)
  rw [he] at hdx
  obtain ⟨re, hre, hd⟩ := List.mem_flatMap.1 hdx
  have h1 : 1 ≤ re.2 := by simpa using (List.mem_filter.1 hre).2
  exact pointDeposits_nonneg _ _ _ _ _ (mul_nonneg (by omega) hgain) _ _ d hd

theorem chargeAt_append (h h' : List Deposit) (tb pad : ℤ) :
    chargeAt (h ++ h') tb pad = chargeAt h tb pad + chargeAt h' tb pad := by
  simp [chargeAt]

theorem lastLabel_append (h h' : List Deposit) (tb pad : ℤ) :
    lastLabel (h ++ h') tb pad = (lastLabel h' tb pad).or (lastLabel h tb pad) := by
  unfold lastLabel
  rw [List.filter_append, List.getLast?_append]
  generalize (h'.filter fun d => decide (d.at tb pad)).getLast? = o
  rcases o with _ | d <;> simp

theorem chargeAt_of_free {h : List Deposit} {tb pad : ℤ} (ho : ¬ Occupied h tb pad) :
    chargeAt h tb pad = 0 ∧ lastLabel h tb pad = none := by
  have : (h.filter fun d => decide (d.at tb pad)) = [] := by
    rw [List.filter_eq_nil_iff]
    intro d hd
    simp only [decide_eq_true_eq]
    exact fun hat => ho ⟨d, hd, hat⟩
  simp [chargeAt, lastLabel, this]

section

variable {σ : Type} {env : SimEnv} {momenta : List Vec4} {vertex : ℝ × ℝ × ℝ} {Zs As : List ℤ}
  {config : Config} {grid : PadGrid} {g : GridEdges} {rng : Gen σ}

open Classical in
/-- What a cloud records, in terms of the deposits of the event. -/
theorem cloud_content (hb : 0 < g.bin) (hgrid : config.pad_grid = some (grid, g)) (hr : LawfulGen rng)
    {indices : List ℤ} {s s' s₁ : σ} {cloud : List CloudPoint} {labels : List ℤ}
    {tr : List (ℤ × List Deposit)}
    (h : simulate env momenta vertex Zs As config rng indices s = .ok ((cloud, labels), s'))
    (ht : EventTrace env momenta vertex Zs As config grid g rng indices s tr s₁) (tb pad : ℤ) :
    chargeIn cloud tb pad
      = (if 0 ≤ tb ∧ tb < 512 ∧ 0 ≤ pad then (chargeAt (history tr) tb pad : ℝ) else 0) ∧
    labelIn cloud labels tb pad
      = if 0 ≤ tb ∧ tb < 512 ∧ 0 ≤ pad then lastLabel (history tr) tb pad else none := by
  obtain ⟨tr', s₁', htr, hlen, cells, hnd, hmem, hdesc⟩ := simulate_cells hb hgrid hr h
  obtain ⟨rfl, -⟩ := trace_unique ht htr
  obtain ⟨h1, h2⟩ := cells_charge hnd hdesc tb pad
  have hz : (cloud.zip labels).map (·.1) = cloud := List.map_fst_zip hlen.le
  rw [hz] at h1
  unfold chargeIn labelIn
  rw [h1, h2]
  by_cases hin : 0 ≤ tb ∧ tb < 512 ∧ 0 ≤ pad
  · rw [if_pos hin, if_pos hin]
    by_cases ho : Occupied (history tr) tb pad
    · rw [if_pos ((hmem tb pad).2 ⟨ho, hin⟩), if_pos ((hmem tb pad).2 ⟨ho, hin⟩)]
      exact ⟨rfl, rfl⟩
    · have hno : ¬ (tb, pad) ∈ cells := fun hc => ho ((hmem tb pad).1 hc).1
      obtain ⟨e1, e2⟩ := chargeAt_of_free ho
      rw [if_neg hno, if_neg hno, e1, e2]
      simp
  · have hno : ¬ (tb, pad) ∈ cells := fun hc => hin ((hmem tb pad).1 hc).2
    rw [if_neg hno, if_neg hno, if_neg hin, if_neg hin]
    exact ⟨rfl, rfl⟩

theorem simulate_ok_iff {indices : List ℤ} {s : σ} :
    (∃ r, simulate env momenta vertex Zs As config rng indices s = .ok r) ↔
      ∃ ps, indices.foldlM (simulate_nucleus env momenta vertex Zs As config rng) (([] : Points), s)
        = .ok ps := by
  unfold simulate
  constructor
  · rintro ⟨r, h⟩
    rw [except_bind_ok] at h
    obtain ⟨ps, h1, -⟩ := h
    exact ⟨ps, h1⟩
  · rintro ⟨ps, h⟩
    exact ⟨_, by rw [except_bind_ok]; exact ⟨ps, h, rfl⟩⟩

/-- The deposits of an event and of the event with further nuclei. -/
theorem split_event (hb : 0 < g.bin) (hgrid : config.pad_grid = some (grid, g)) {is js : List ℤ}
    {s s' : σ} {cloud : List CloudPoint} {labels : List ℤ}
    (h : simulate env momenta vertex Zs As config rng (is ++ js) s = .ok ((cloud, labels), s')) :
    ∃ tr₁ tr₂ s₁ s₂, EventTrace env momenta vertex Zs As config grid g rng is s tr₁ s₁ ∧
      EventTrace env momenta vertex Zs As config grid g rng js s₁ tr₂ s₂ ∧
      EventTrace env momenta vertex Zs As config grid g rng (is ++ js) s (tr₁ ++ tr₂) s₂ ∧
      (∃ r, simulate env momenta vertex Zs As config rng is s = .ok r) ∧
      ∃ r, simulate env momenta vertex Zs As config rng js s₁ = .ok r := by
  obtain ⟨⟨q, s₂⟩, hf⟩ := simulate_ok_iff.1 ⟨_, h⟩
  obtain ⟨tr, htr, -⟩ := simulate_fold_ok hb hgrid _ hf
  rw [List.foldlM_append, except_bind_ok] at hf
  obtain ⟨⟨p, s₁⟩, h1, h2⟩ := hf
  obtain ⟨tr₁, ht1, -⟩ := simulate_fold_ok hb hgrid _ h1
  obtain ⟨q', h2'⟩ := fold_restart hb hgrid js h2 []
  obtain ⟨tr₂, ht2, -⟩ := simulate_fold_ok hb hgrid _ h2'
  refine ⟨tr₁, tr₂, s₁, s₂, ht1, ht2, ?_, simulate_ok_iff.2 ⟨_, h1⟩, simulate_ok_iff.2 ⟨_, h2'⟩⟩
  clear h1 htr tr h
  induction ht1 with
  | nil => exact ht2
  | neutral idx rest s s' tr hz _ ih => exact .neutral idx _ _ _ _ hz (ih h2 h2' ht2)
  | charged idx z a nucleus momentum track primary rest s s₁ s' tr hz hz0 ha hn hm ht he _ ih =>
    exact .charged idx z a nucleus momentum track primary _ _ _ _ _ hz hz0 ha hn hm ht he
      (ih h2 h2' ht2)

/-- **C119.** An event whose nuclei are split in two groups is the superposition of two events: the
first group simulated alone, and the second group simulated alone with the random numbers that
follow. On every pad and in every time bucket the charges add up, and the label is that of the second
group where it has a point, else that of the first. -/
theorem C119_superposition (hb : 0 < g.bin) (hgrid : config.pad_grid = some (grid, g))
    (hr : LawfulGen rng) {is js : List ℤ} {s s' : σ} {cloud : List CloudPoint} {labels : List ℤ}
    (h : simulate env momenta vertex Zs As config rng (is ++ js) s = .ok ((cloud, labels), s')) :
    ∃ tr s₁ cloud₁ labels₁ s₁' cloud₂ labels₂ s₂',
      EventTrace env momenta vertex Zs As config grid g rng is s tr s₁ ∧
      simulate env momenta vertex Zs As config rng is s = .ok ((cloud₁, labels₁), s₁') ∧
      simulate env momenta vertex Zs As config rng js s₁ = .ok ((cloud₂, labels₂), s₂') ∧
      ∀ tb pad : ℤ, chargeIn cloud tb pad = chargeIn cloud₁ tb pad + chargeIn cloud₂ tb pad ∧
        labelIn cloud labels tb pad = (labelIn cloud₂ labels₂ tb pad).or (labelIn cloud₁ labels₁ tb pad) := by
  obtain ⟨tr₁, tr₂, s₁, s₂, ht1, ht2, ht, ⟨⟨⟨c1, l1⟩, q1⟩, h1⟩, ⟨⟨c2, l2⟩, q2⟩, h2⟩ :=
    split_event hb hgrid h
  refine ⟨tr₁, s₁, c1, l1, q1, c2, l2, q2, ht1, h1, h2, ?_⟩
  intro tb pad
  obtain ⟨a1, a2⟩ := cloud_content hb hgrid hr h ht tb pad
  obtain ⟨b1, b2⟩ := cloud_content hb hgrid hr h1 ht1 tb pad
  obtain ⟨d1, d2⟩ := cloud_content hb hgrid hr h2 ht2 tb pad
  have hh : history (tr₁ ++ tr₂) = history tr₁ ++ history tr₂ := by simp [history]
  rw [hh] at a1 a2
  rw [a1, a2, b1, b2, d1, d2]
  split_ifs
  · rw [chargeAt_append, lastLabel_append]
    exact ⟨by push_cast; ring, rfl⟩
  · simp

/-- **C119.** Conversely, if both groups can be simulated, so can the event. -/
theorem C119_succeeds (hb : 0 < g.bin) (hgrid : config.pad_grid = some (grid, g)) {is js : List ℤ}
    {s s₁ : σ} {tr : List (ℤ × List Deposit)}
    (ht : EventTrace env momenta vertex Zs As config grid g rng is s tr s₁)
    (h1 : ∃ r, simulate env momenta vertex Zs As config rng is s = .ok r)
    (h2 : ∃ r, simulate env momenta vertex Zs As config rng js s₁ = .ok r) :
    ∃ r, simulate env momenta vertex Zs As config rng (is ++ js) s = .ok r := by
  rw [simulate_ok_iff] at h1 h2 ⊢
  obtain ⟨⟨p, s'⟩, h1⟩ := h1
  obtain ⟨tr', ht', -⟩ := simulate_fold_ok hb hgrid _ h1
  obtain ⟨-, rfl⟩ := trace_unique ht ht'
  obtain ⟨⟨q, s₂⟩, h2⟩ := h2
  obtain ⟨q', h2'⟩ := fold_restart hb hgrid js h2 p
  refine ⟨(q', s₂), ?_⟩
  rw [List.foldlM_append, except_bind_ok]
  exact ⟨_, h1, h2'⟩

/-- **C119.** Simulating further nuclei never removes a point and never lowers a charge, if the gain
is not negative. -/
theorem C119_monotone (hb : 0 < g.bin) (hgrid : config.pad_grid = some (grid, g)) (hr : LawfulGen rng)
    (hgain : 0 ≤ config.det_params.mpgd_gain) {is js : List ℤ} {s s' : σ} {cloud : List CloudPoint}
    {labels : List ℤ}
    (h : simulate env momenta vertex Zs As config rng (is ++ js) s = .ok ((cloud, labels), s')) :
    ∃ cloud₁ labels₁ s₁', simulate env momenta vertex Zs As config rng is s
        = .ok ((cloud₁, labels₁), s₁') ∧
      ∀ r ∈ cloud₁, ∃ r' ∈ cloud, r'.pad = r.pad ∧ ⌊r'.tb⌋ = ⌊r.tb⌋ ∧ r.e ≤ r'.e := by
  obtain ⟨tr₁, tr₂, s₁, s₂, ht1, ht2, ht, ⟨⟨⟨c1, l1⟩, q1⟩, h1⟩, -⟩ := split_event hb hgrid h
  refine ⟨c1, l1, q1, h1, ?_⟩
  intro r hrow
  obtain ⟨tr', s₃, htr', hlen, cells, hnd, hmem, hdesc⟩ := simulate_cells hb hgrid hr h1
  obtain ⟨rfl, -⟩ := trace_unique ht1 htr'
  obtain ⟨tr'', s₄, htr'', hlen', cells', hnd', hmem', hdesc'⟩ := simulate_cells hb hgrid hr h
  obtain ⟨rfl, -⟩ := trace_unique ht htr''
  obtain ⟨l, hl⟩ := row_label hlen hrow
  obtain ⟨⟨tb, pad⟩, hcell, hd⟩ := row_cell hdesc hl
  obtain ⟨⟨d, hdm, hat⟩, hin⟩ := (hmem tb pad).1 hcell
  have hh : history (tr₁ ++ tr₂) = history tr₁ ++ history tr₂ := by simp [history]
  obtain ⟨⟨r', l'⟩, hr', hd'⟩ := cell_row hdesc' ((hmem' tb pad).2
    ⟨⟨d, by rw [hh]; exact List.mem_append_left _ hdm, hat⟩, hin⟩)
  refine ⟨r', (List.of_mem_zip hr').1, by rw [hd.1, hd'.1], by rw [describes_floor hd, describes_floor hd'], ?_⟩
  rw [hd.2.2.2.1, hd'.2.2.2.1, hh, chargeAt_append]
  have : 0 ≤ chargeAt (history tr₂) tb pad := by
    unfold chargeAt
    refine List.sum_nonneg ?_
    intro x hx
    obtain ⟨d, hd, rfl⟩ := List.mem_map.1 hx
    exact history_nonneg hgain ht2 d (List.mem_filter.1 hd).1
  push_cast
  have : (0 : ℝ) ≤ chargeAt (history tr₂) tb pad := by exact_mod_cast this
  linarith

end

/-- An event with two charged nuclei. -/
example : ∃ r, simulate exEnv exMomenta (0, 0, 0.5) [1, 1, 1] [1, 1, 1] (exConfig 100 0) exGen ([2] ++ [2]) ()
    = .ok r := by
  obtain ⟨cloud, labels, h⟩ := exSimulate 100 0 le_rfl
  obtain ⟨tr, s₁, -, htr, -⟩ := simulate_ok exEdges_bin rfl h
  exact C119_succeeds exEdges_bin rfl htr ⟨_, h⟩ ⟨_, h⟩

end Verif.Detector
