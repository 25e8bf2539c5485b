import Verif.Kinematics.Convert
import Verif.Props.KinFile
import Verif.Proofs.Config

/-! # C57: the dataframe -/

namespace Verif.Props

open Verif.Kinematics Verif.Spec
open Verif.Detector (read_event except_bind_ok attr)

/-- One row of the dataframe. -/
structure FrameRow where
  event : ℕ
  Z : ℤ
  A : ℤ
  isotope : String
  energy : ℝ
  px : ℝ
  py : ℝ
  pz : ℝ
  vertex_x : ℝ
  vertex_y : ℝ
  vertex_z : ℝ

/-- The dataframe with the given rows. -/
def frameOf (rows : List FrameRow) : Frame :=
  { event := rows.map (·.event), Z := rows.map (·.Z), A := rows.map (·.A),
    isotope := rows.map (·.isotope), energy := rows.map (·.energy), px := rows.map (·.px),
    py := rows.map (·.py), pz := rows.map (·.pz), vertex_x := rows.map (·.vertex_x),
    vertex_y := rows.map (·.vertex_y), vertex_z := rows.map (·.vertex_z) }

/-- `row` describes nucleus `idx` of event `event`. -/
structure Describes (file : KinFile (List Vec4)) (get_data : NuclearMap) (zs as : List ℤ) (cs : ℕ)
    (event idx : ℕ) (row : FrameRow) : Prop where
  event_eq : row.event = event
  Z : zs[idx]? = some row.Z
  A : as[idx]? = some row.A
  isotope : ∃ n, get_data row.Z row.A = .ok n ∧ row.isotope = n.isotopic_symbol
  data : ∃ rows v, read_event file cs event = .ok (rows, v) ∧
    rows[idx]? = some ⟨row.px, row.py, row.pz, row.energy⟩ ∧
    v = (row.vertex_x, row.vertex_y, row.vertex_z)

theorem arrGet_ok {α : Type} {l : List α} {i : ℕ} {a : α} : arrGet l i = .ok a ↔ l[i]? = some a := by
  unfold arrGet
  cases l[i]? with
  | none => simp
  | some b => simp

theorem convert_nuclei_ok {get_data : NuclearMap} {zs as : List ℤ} {ns : List Nucleus}
    (h : convert_nuclei get_data zs as = .ok ns) : ns.length = zs.length ∧
    ∀ (i : ℕ) (n : Nucleus), ns[i]? = some n → ∃ z a, zs[i]? = some z ∧ as[i]? = some a ∧ get_data z a = .ok n := by
  unfold convert_nuclei at h
  have key : ∀ (l : List ℕ) (ns : List Nucleus), l.mapM (fun idx => do
      let z ← arrGet zs idx
      let a ← arrGet as idx
      get_data z a) = .ok ns → ns.length = l.length ∧ ∀ (i : ℕ) (n : Nucleus), ns[i]? = some n →
      ∃ (j : ℕ) (z a : ℤ), l[i]? = some j ∧ zs[j]? = some z ∧ as[j]? = some a ∧ get_data z a = .ok n := by
    intro l
    induction l with
    | nil =>
      intro ns h
      simp only [List.mapM_nil, pure, Except.pure, Except.ok.injEq] at h
      subst h
      simp
    | cons j l ih =>
      intro ns h
      rw [List.mapM_cons, except_bind_ok] at h
      obtain ⟨n, hn, h⟩ := h
      rw [except_bind_ok] at h
      obtain ⟨ns', hns, h⟩ := h
      simp only [pure, Except.pure, Except.ok.injEq] at h
      subst h
      obtain ⟨i1, i2⟩ := ih ns' hns
      refine ⟨by simp [i1], ?_⟩
      intro i m hm
      cases i with
      | zero =>
        simp only [List.getElem?_cons_zero, Option.some.injEq] at hm
        subst hm
        rw [except_bind_ok] at hn
        obtain ⟨z, hz, hn⟩ := hn
        rw [except_bind_ok] at hn
        obtain ⟨a, ha, hn⟩ := hn
        exact ⟨j, z, a, rfl, arrGet_ok.1 hz, arrGet_ok.1 ha, hn⟩
      | succ i => exact i2 i m (by simpa using hm)
  obtain ⟨k1, k2⟩ := key _ _ h
  refine ⟨by simpa using k1, fun i n hn => ?_⟩
  obtain ⟨j, z, a, hj, hz, ha, hd⟩ := k2 i n hn
  have hij : j = i := by
    obtain ⟨hlt, he⟩ := List.getElem?_eq_some_iff.1 hj
    simpa using he.symm
  subst hij
  exact ⟨z, a, hz, ha, hd⟩

theorem convert_inner {zs as : List ℤ} {ns : List Nucleus} {event : ℕ} {data : List Vec4}
    {v : ℝ × ℝ × ℝ} (idxs : List ℕ) : ∀ (rows : List FrameRow) (f : Frame),
    idxs.foldlM (convert_nucleus zs as ns event data v) (frameOf rows) = .ok f →
    ∃ new : List FrameRow, f = frameOf (rows ++ new) ∧ new.length = idxs.length ∧
      ∀ (i : ℕ) (row : FrameRow), new[i]? = some row → ∃ (idx : ℕ) (n : Nucleus), idxs[i]? = some idx ∧ row.event = event ∧
        zs[idx]? = some row.Z ∧ as[idx]? = some row.A ∧ ns[idx]? = some n ∧
        row.isotope = n.isotopic_symbol ∧ data[idx]? = some ⟨row.px, row.py, row.pz, row.energy⟩ ∧
        v = (row.vertex_x, row.vertex_y, row.vertex_z) := by
  induction idxs with
  | nil =>
    intro rows f h
    simp only [List.foldlM_nil, pure, Except.pure, Except.ok.injEq] at h
    exact ⟨[], by rw [← h]; simp, rfl, by simp⟩
  | cons idx idxs ih =>
    intro rows f h
    rw [List.foldlM_cons, except_bind_ok] at h
    obtain ⟨f1, h1, h⟩ := h
    unfold convert_nucleus at h1
    rw [except_bind_ok] at h1
    obtain ⟨z, hz, h1⟩ := h1
    rw [except_bind_ok] at h1
    obtain ⟨a, ha, h1⟩ := h1
    rw [except_bind_ok] at h1
    obtain ⟨n, hn, h1⟩ := h1
    rw [except_bind_ok] at h1
    obtain ⟨r, hr, h1⟩ := h1
    simp only [pure, Except.pure, Except.ok.injEq] at h1
    let row : FrameRow := ⟨event, z, a, n.isotopic_symbol, r.E, r.px, r.py, r.pz, v.1, v.2.1, v.2.2⟩
    have hf1 : f1 = frameOf (rows ++ [row]) := by
      rw [← h1]; simp [frameOf, row]
    rw [hf1] at h
    obtain ⟨new, i1, i2, i3⟩ := ih _ _ h
    refine ⟨row :: new, by rw [i1]; simp, by simp [i2], ?_⟩
    intro i row' hrow
    cases i with
    | zero =>
      simp only [List.getElem?_cons_zero, Option.some.injEq] at hrow
      subst hrow
      exact ⟨idx, n, rfl, rfl, arrGet_ok.1 hz, arrGet_ok.1 ha, arrGet_ok.1 hn, rfl, arrGet_ok.1 hr, rfl⟩
    | succ i => simpa using i3 i row' (by simpa using hrow)

theorem convert_outer {file : KinFile (List Vec4)} {get_data : NuclearMap} {zs as : List ℤ}
    {ns : List Nucleus} {cs : ℕ} (hns : convert_nuclei get_data zs as = .ok ns) (n m : ℕ) :
    ∀ (rows : List FrameRow) (f : Frame),
    (List.range' m n).foldlM (convert_event file cs zs as ns) (frameOf rows) = .ok f →
    ∃ new : List FrameRow, f = frameOf (rows ++ new) ∧ new.length = n * zs.length ∧
      ∀ (k : ℕ) (row : FrameRow), new[k]? = some row →
        Describes file get_data zs as cs (m + k / zs.length) (k % zs.length) row := by
  induction n generalizing m with
  | zero =>
    intro rows f h
    simp only [List.range'_zero, List.foldlM_nil, pure, Except.pure, Except.ok.injEq] at h
    exact ⟨[], by rw [← h]; simp, by simp, by simp⟩
  | succ n ih =>
    intro rows f h
    rw [List.range'_succ, List.foldlM_cons, except_bind_ok] at h
    obtain ⟨f1, h1, h⟩ := h
    unfold convert_event at h1
    rw [except_bind_ok] at h1
    obtain ⟨⟨data, v⟩, hread, h1⟩ := h1
    simp only at h1
    obtain ⟨new1, rfl, l1, d1⟩ := convert_inner _ rows f1 h1
    obtain ⟨new2, rfl, l2, d2⟩ := ih (m + 1) _ _ h
    simp only [List.length_range] at l1
    refine ⟨new1 ++ new2, by simp, by simp [l1, l2]; ring, ?_⟩
    intro k row hk
    by_cases hlt : k < zs.length
    · rw [List.getElem?_append_left (by omega)] at hk
      rw [Nat.div_eq_of_lt hlt, Nat.mod_eq_of_lt hlt]
      obtain ⟨idx, n, e1, e2, e3, e4, e5, e6, e7, e8⟩ := d1 k row hk
      have hidx : idx = k := by
        obtain ⟨_, he⟩ := List.getElem?_eq_some_iff.1 e1
        simpa using he.symm
      subst hidx
      obtain ⟨z, a, hz, ha, hd⟩ := (convert_nuclei_ok hns).2 _ _ e5
      rw [e3] at hz
      rw [e4] at ha
      simp only [Option.some.injEq] at hz ha
      subst hz ha
      exact ⟨by rw [e2]; rfl, e3, e4, ⟨n, hd, e6⟩, data, v, hread, e7, e8⟩
    · rw [List.getElem?_append_right (by omega), l1] at hk
      have hpos : 0 < zs.length := by
        rcases Nat.eq_zero_or_pos zs.length with h0 | h0
        · exfalso
          have : new2.length = 0 := by rw [l2, h0]; simp
          rw [List.length_eq_zero_iff.1 this] at hk
          simp at hk
        · exact h0
      have hd := d2 _ row hk
      have e1 : k / zs.length = (k - zs.length) / zs.length + 1 := by
        conv_lhs => rw [show k = k - zs.length + zs.length by omega]
        rw [Nat.add_div_right _ hpos]
      have e2 : k % zs.length = (k - zs.length) % zs.length := by
        conv_lhs => rw [show k = k - zs.length + zs.length by omega]
        rw [Nat.add_mod_right]
      rw [e1, e2]
      have : m + ((k - zs.length) / zs.length + 1) = m + 1 + (k - zs.length) / zs.length := by ring
      rw [this]
      exact hd

/-- **C57.** When the conversion succeeds, the dataframe has one row for each nucleus of each event, all
columns have that length, and row `k` describes nucleus `k % n_nuclei` of event `k / n_nuclei`. -/
theorem C57_rows {get_data : NuclearMap} {file : KinFile (List Vec4)} {f : Frame}
    (h : convert_kinematics get_data file = .ok f) :
    ∃ zs as n cs, file.proton_numbers = some zs ∧ file.mass_numbers = some as ∧
      file.n_events = some n ∧ file.chunk_size = some cs ∧
      ∃ rows : List FrameRow, f = frameOf rows ∧ rows.length = n.toNat * zs.length ∧
        ∀ (k : ℕ) (row : FrameRow), rows[k]? = some row →
          Describes file get_data zs as cs (k / zs.length) (k % zs.length) row := by
  unfold convert_kinematics at h
  rw [except_bind_ok] at h
  obtain ⟨zs, hzs, h⟩ := h
  rw [except_bind_ok] at h
  obtain ⟨as, has, h⟩ := h
  rw [except_bind_ok] at h
  obtain ⟨n, hn, h⟩ := h
  rw [except_bind_ok] at h
  obtain ⟨cs, hcs, h⟩ := h
  rw [except_bind_ok] at h
  obtain ⟨ns, hns, h⟩ := h
  have hattr : ∀ {α : Type} {o : Option α} {a : α}, attr o = .ok a → o = some a := by
    intro α o a h
    cases o with
    | none => simp [attr] at h
    | some b => simp [attr] at h; rw [h]
  rw [List.range_eq_range'] at h
  obtain ⟨rows, h1, h2, h3⟩ := convert_outer hns n.toNat 0 [] f h
  refine ⟨zs, as, n, cs, hattr hzs, hattr has, hattr hn, hattr hcs, rows, by simpa using h1, h2, ?_⟩
  intro k row hk
  simpa using h3 k row hk

/-- **C57.** All columns have the same length. -/
theorem C57_columns (rows : List FrameRow) :
    (frameOf rows).event.length = rows.length ∧ (frameOf rows).Z.length = rows.length ∧
    (frameOf rows).A.length = rows.length ∧ (frameOf rows).isotope.length = rows.length ∧
    (frameOf rows).energy.length = rows.length ∧ (frameOf rows).px.length = rows.length ∧
    (frameOf rows).py.length = rows.length ∧ (frameOf rows).pz.length = rows.length ∧
    (frameOf rows).vertex_x.length = rows.length ∧ (frameOf rows).vertex_y.length = rows.length ∧
    (frameOf rows).vertex_z.length = rows.length := by
  simp [frameOf]

/-! ### Success -/

theorem foldlM_ok {α β : Type} (g : β → α → Except PyErr β) (l : List α)
    (h : ∀ b, ∀ a ∈ l, ∃ b', g b a = .ok b') : ∀ b, ∃ b', l.foldlM g b = .ok b' := by
  induction l with
  | nil => intro b; exact ⟨b, rfl⟩
  | cons a l ih =>
    intro b
    obtain ⟨b', hb⟩ := h b a (by simp)
    obtain ⟨b'', hb'⟩ := ih (fun b a ha => h b a (by simp [ha])) b'
    refine ⟨b'', ?_⟩
    rw [List.foldlM_cons, except_bind_ok]
    exact ⟨b', hb, hb'⟩

/-- **C57.** The conversion succeeds on every finished kinematics file with known nuclei and one row for
each nucleus in every event. -/
theorem C57_succeeds {π : Type} {get_data : NuclearMap} (run : PipeRun (List Vec4) π)
    (zs as : List ℤ) (hlen : as.length = zs.length)
    (hknown : ∀ (i : ℕ) (z a : ℤ), zs[i]? = some z → as[i]? = some a → ∃ n, get_data z a = .ok n)
    (hrun : ∀ p e p', run p = (.ok e, p') → e.2.length = zs.length)
    (cs : ℕ) (hcs : 1 ≤ cs) (n : ℤ) (p0 : π) (st : KinRun (List Vec4) π)
    (h : run_kinematics_pipeline run zs as cs n p0 = (.ok (), st)) :
    ∃ f, convert_kinematics get_data st.file = .ok f := by
  obtain ⟨evs, hp, hl, e1, e2, e3, e4, hread⟩ := C37_round_trip run zs as cs hcs n p0 st h
  have hevs : ∀ e ∈ evs, e.2.length = zs.length := by
    clear hread hl h e1 e2 e3 e4
    generalize st.pipe = q at hp
    induction hp with
    | nil => simp
    | cons hr _ ih =>
      intro e he
      rcases List.mem_cons.1 he with rfl | he
      · exact hrun _ _ _ hr
      · exact ih e he
  have hnuc : ∃ ns, convert_nuclei get_data zs as = .ok ns := by
    unfold convert_nuclei
    have key : ∀ l : List ℕ, (∀ i ∈ l, i < zs.length) → ∃ ns, l.mapM (fun idx => do
        let z ← arrGet zs idx
        let a ← arrGet as idx
        get_data z a) = .ok ns := by
      intro l
      induction l with
      | nil => intro _; exact ⟨[], rfl⟩
      | cons i l ih =>
        intro hi
        obtain ⟨ns, hns⟩ := ih fun j hj => hi j (by simp [hj])
        have hi' := hi i (by simp)
        have hz : zs[i]? = some zs[i] := List.getElem?_eq_getElem hi'
        have ha : as[i]? = some (as[i]'(by omega)) := List.getElem?_eq_getElem (by omega)
        obtain ⟨m, hm⟩ := hknown i _ _ hz ha
        refine ⟨m :: ns, ?_⟩
        rw [List.mapM_cons, except_bind_ok]
        refine ⟨m, ?_, ?_⟩
        · rw [except_bind_ok]
          refine ⟨_, arrGet_ok.2 hz, ?_⟩
          rw [except_bind_ok]
          exact ⟨_, arrGet_ok.2 ha, hm⟩
        · rw [hns]; rfl
    exact key _ (by simp)
  obtain ⟨ns, hns⟩ := hnuc
  have hnsl := (convert_nuclei_ok hns).1
  unfold convert_kinematics
  rw [e1, e2, e3, e4]
  simp only [attr, bind, Except.bind, hns]
  apply foldlM_ok
  intro f k hk
  have hk' : k < evs.length := by rw [hl]; simpa using hk
  unfold convert_event
  simp only [hread k hk', bind, Except.bind]
  apply foldlM_ok
  intro f i hi
  have hi' : i < zs.length := by simpa using hi
  have hrow := hevs evs[k] (List.getElem_mem hk')
  unfold convert_nucleus
  rw [arrGet_ok.2 (List.getElem?_eq_getElem hi'),
    arrGet_ok.2 (List.getElem?_eq_getElem (show i < as.length by omega)),
    arrGet_ok.2 (List.getElem?_eq_getElem (show i < ns.length by omega)),
    arrGet_ok.2 (List.getElem?_eq_getElem (show i < evs[k].2.length by omega))]
  exact ⟨_, rfl⟩

/-- A pipeline that produces events with two nuclei, for the example. -/
noncomputable def twoNucleiRun : PipeRun (List Vec4) ℕ := fun k =>
  (.ok (((k : ℝ), 0, 1), [⟨0, 0, 0, k⟩, ⟨1, 2, 3, k + 1⟩]), k + 1)

/-- C57 applies: a file with three events of two nuclei, two events to a chunk, is converted. -/
theorem twoNucleiRun_converts : ∃ st f, run_kinematics_pipeline twoNucleiRun [1, 2] [2, 4] 2 3 0 = (.ok (), st) ∧
    convert_kinematics (fun z a => .ok ⟨z, a, 1, "X"⟩) st.file = .ok f := by
  have hok : (run_kinematics_pipeline twoNucleiRun [1, 2] [2, 4] 2 3 0).1 = .ok () :=
    (C37_succeeds twoNucleiRun [1, 2] [2, 4] 2 (by norm_num) 3 0).2
      ⟨_, 3, .cons rfl (.cons rfl (.cons rfl (.nil 3))), rfl⟩
  rcases hr : run_kinematics_pipeline twoNucleiRun [1, 2] [2, 4] 2 3 0 with ⟨o, st⟩
  rw [hr] at hok
  simp only at hok
  subst hok
  obtain ⟨f, hf⟩ := C57_succeeds (get_data := fun z a => .ok ⟨z, a, 1, "X"⟩) twoNucleiRun [1, 2] [2, 4]
    rfl (fun _ _ _ _ _ => ⟨_, rfl⟩)
    (by
      intro p e p' h
      unfold twoNucleiRun at h
      simp only [Prod.mk.injEq, Except.ok.injEq] at h
      rw [← h.1]
      rfl) 2 (by norm_num) 3 0 st hr
  exact ⟨st, f, rfl, hf⟩

end Verif.Props
