import Verif.Machine.Event
import Verif.Props.MachineTrack
import Verif.Props.MachineElectrons
import Verif.Props.Machine
import Verif.Proofs.Simulate
import Verif.Spec.Charge
import Verif.Props.MachineWriter
import Verif.Props.Format

/-! # C124: a whole event in machine arithmetic -/

namespace Verif.Machine

open Verif.Detector Verif.Spec Verif.Kinematics

/-- One electron more than drawn at every point of a track. -/
def drawnAbove (_track : List Row) (primary : List ℤ) : ℤ := (primary.map fun e => max e 0 + 1).sum

/-- The track of every charged nucleus of the event stays within one metre of the axis and inside the detector, at
energies for which the number of electrons is bounded. -/
def EventInside (env : SimEnv) (momenta : List Vec4) (vertex : ℝ × ℝ × ℝ) (Zs As : List ℤ) (config : Config)
    (indices : List ℤ) : Prop :=
  ∀ idx ∈ indices, ∀ z a nucleus momentum track, pyGet Zs idx = .ok z → z ≠ 0 → pyGet As idx = .ok a →
    env.get_data z a = .ok nucleus → pyGet momenta idx = .ok momentum →
    generate_trajectory env.solve_ivp vertex (momentum.px, momentum.py, momentum.pz) nucleus
      config.det_params = .ok track →
    (∀ r ∈ track, |r.x| ≤ 1 ∧ |r.y| ≤ 1 ∧ 0 ≤ r.z ∧ r.z ≤ config.det_params.length) ∧
    Recordable nucleus config.det_params track

/-- A row of the point cloud and the time bucket and pad of which it holds the charge. -/
structure MachineRow (grid : PadGrid) (lo hi : ℤ) (row : CloudPoint) (cell : ℤ × ℤ) : Prop where
  pad : row.pad = (cell.2 : ℝ)
  pad_nonneg : 0 ≤ cell.2
  active : ∃ i j, cell.2 = grid.cell i j
  no_beam : cell.2 ∉ BEAM_PADS
  bucket_ge : lo ≤ cell.1
  bucket_le : cell.1 ≤ hi
  time_ge : (cell.1 : ℝ) ≤ row.tb
  time_le : row.tb ≤ (cell.1 : ℝ) + 1
  time_lt : row.tb < 512
  charge : ∃ c : ℤ, 0 ≤ c ∧ row.e = c

/-! ## The dictionary -/

theorem point_transport64_ind {P : Points → Prop} {label : ℤ} (hP : ∀ p k c, P p → P (p.set k (c, label)))
    {rn : ℝ → ℝ} {grid : PadGrid} {g : GridEdges} {time : ℝ} {center : ℝ × ℝ} {e : ℤ} {p : Points} (hp : P p) :
    P (point_transport64 rn grid g time center e p label) := by
  unfold point_transport64
  simp only
  split_ifs
  · exact hp
  · exact hP _ _ _ hp
  · exact hp

theorem transverse_transport64_ind {P : Points → Prop} {label : ℤ}
    (hP : ∀ p k c, P p → P (p.set k (c, label))) {m : Math64} {grid : PadGrid} {g : GridEdges} {time : ℝ}
    {center : ℝ × ℝ} {e : ℤ} {sigma : ℝ} {p : Points} (hp : P p) :
    P (transverse_transport64 m grid g time center e sigma p label) := by
  unfold transverse_transport64
  generalize transverse_mesh64 m center sigma = l
  induction l generalizing p with
  | nil => exact hp
  | cons a l ih =>
    rw [List.foldl_cons]
    apply ih
    unfold transverse_pixel64
    simp only
    split_ifs
    · exact hp
    · exact hP _ _ _ hp
    · exact hp

/-- Whatever holds for a dictionary, and is kept when an entry with the label is written, holds after the transport
of a track. -/
theorem drift_track64_ind {P : Points → Prop} {label : ℤ} (hP : ∀ p k c, P p → P (p.set k (c, label)))
    {m : Math64} {config : Config} {grid : PadGrid} {g : GridEdges} {track : List Row} {electrons : List ℤ}
    {p q : Points} (hp : P p) (h : drift_track64 m config grid g track electrons p label = .ok q) : P q := by
  unfold drift_track64 transport_track64 at h
  simp only at h
  generalize (List.zip _ _ : List (Row × ℤ)) = l at h
  induction l generalizing p with
  | nil =>
    rw [List.foldlM_nil] at h
    injection h with h
    rwa [← h]
  | cons a l ih =>
    rw [List.foldlM_cons] at h
    cases hs : transport_step64 m grid g config.det_params.diffusion config.det_params.efield
        (drift_velocity64 m.rn config.det_params.length config.elec_params.micromegas_edge
          config.elec_params.windows_edge) label p a with
    | error e => rw [hs] at h; cases h
    | ok p' =>
      rw [hs] at h
      refine ih ?_ h
      unfold transport_step64 at hs
      simp only at hs
      split_ifs at hs
      split at hs
      · cases hs
      · split_ifs at hs
        · injection hs with hs
          rw [← hs]
          exact point_transport64_ind hP hp
        · injection hs with hs
          rw [← hs]
          exact transverse_transport64_ind hP hp

theorem releasedCharge_le {gain : ℤ} (hgain : 0 ≤ gain) :
    ∀ {ns64 ns : List ℤ} (track : List Row), List.Forall₂ (fun a b : ℤ => |a - b| ≤ 1) ns64 ns →
      releasedCharge track ns64 gain ≤ gain * drawnAbove track ns := by
  intro ns64 ns track hf
  induction hf generalizing track with
  | nil => simp [releasedCharge, drawnAbove]
  | @cons a b as bs hab _ ih =>
    have hnn : 0 ≤ gain * drawnAbove track bs := by
      apply mul_nonneg hgain
      apply List.sum_nonneg
      intro x hx
      obtain ⟨y, -, rfl⟩ := List.mem_map.1 hx
      have := le_max_right y 0
      omega
    have hcons : ∀ t, drawnAbove t (b :: bs) = (max b 0 + 1) + drawnAbove track bs := by
      intro t
      simp [drawnAbove]
    have hb : a ≤ max b 0 + 1 := by
      have := (abs_le.1 hab).2
      have := le_max_left b 0
      omega
    have hb0 : 0 ≤ max b 0 + 1 := by have := le_max_right b 0; omega
    rw [hcons, mul_add]
    cases track with
    | nil =>
      have : releasedCharge [] (a :: as) gain = 0 := by simp [releasedCharge]
      rw [this]
      exact add_nonneg (mul_nonneg hgain hb0) hnn
    | cons t ts =>
      have hi := ih ts
      have e1 : drawnAbove ts bs = drawnAbove (t :: ts) bs := rfl
      rw [e1] at hi
      unfold releasedCharge at hi ⊢
      rw [List.zip_cons_cons, List.filter_cons]
      split_ifs with h1
      · rw [List.map_cons, List.sum_cons]
        have : a * gain ≤ gain * (max b 0 + 1) := by
          rw [mul_comm a]
          exact mul_le_mul_of_nonneg_left hb hgain
        simp only
        linarith
      · have := mul_nonneg hgain hb0
        linarith

theorem drawn_each {gain : ℤ} (hgain : 0 ≤ gain) {ns64 ns : List ℤ} (track : List Row)
    (hf : List.Forall₂ (fun a b : ℤ => |a - b| ≤ 1) ns64 ns) :
    ∀ n ∈ ns64, n * gain ≤ gain * drawnAbove track ns := by
  induction hf with
  | nil => simp
  | @cons a b as bs hab _ ih =>
    have h0 : 0 ≤ drawnAbove track bs := by
      apply List.sum_nonneg
      intro x hx
      obtain ⟨y, -, rfl⟩ := List.mem_map.1 hx
      have := le_max_right y 0
      omega
    have hcons : drawnAbove track (b :: bs) = (max b 0 + 1) + drawnAbove track bs := by
      simp [drawnAbove]
    have hb : a ≤ max b 0 + 1 := by
      have := (abs_le.1 hab).2
      have := le_max_left b 0
      omega
    have hb0 : 0 ≤ max b 0 + 1 := by have := le_max_right b 0; omega
    intro n hn
    rw [hcons]
    rcases List.mem_cons.1 hn with rfl | hn
    · rw [mul_comm n]
      exact mul_le_mul_of_nonneg_left (by linarith) hgain
    · refine (ih n hn).trans (mul_le_mul_of_nonneg_left (by linarith) hgain)

theorem drawnAbove_nonneg (track : List Row) (ns : List ℤ) : 0 ≤ drawnAbove track ns := by
  apply List.sum_nonneg
  intro x hx
  obtain ⟨y, -, rfl⟩ := List.mem_map.1 hx
  have := le_max_right y 0
  omega

theorem set_labels {p : Points} {k c label : ℤ} :
    ∀ entry ∈ p.set k (c, label), (∃ old ∈ p, old.2.2 = entry.2.2) ∨ entry.2.2 = label := by
  induction p with
  | nil => intro entry h; simp [Points.set] at h; right; rw [h]
  | cons a p ih =>
    obtain ⟨k', w⟩ := a
    intro entry h
    unfold Points.set at h
    split_ifs at h with hk
    · rcases List.mem_cons.1 h with rfl | h
      · right; rfl
      · left; exact ⟨entry, by simp [h], rfl⟩
    · rcases List.mem_cons.1 h with rfl | h
      · left; exact ⟨(k', w), by simp, rfl⟩
      · rcases ih entry h with ⟨old, ho, e⟩ | e
        · left; exact ⟨old, by simp [ho], e⟩
        · right; exact e

theorem eventTotal_nonneg {σ : Type} {env : SimEnv} {momenta : List Vec4} {vertex : ℝ × ℝ × ℝ}
    {Zs As : List ℤ} {config : Config} {rng : Gen σ} {indices : List ℤ} {s s' : σ} {n : ℤ}
    (ht : EventTotal drawnAbove env momenta vertex Zs As config rng indices s n s') : 0 ≤ n := by
  induction ht with
  | nil => exact le_rfl
  | neutral _ _ _ _ _ _ _ ih => exact ih
  | charged _ _ _ _ _ t pr _ _ _ _ _ _ _ _ _ _ _ _ _ ih =>
    have := drawnAbove_nonneg t pr
    linarith

/-- The loop over the nuclei. -/
theorem event_fold {σ : Type} {m : Math64} (h : m.Ok) {env : SimEnv} {momenta : List Vec4}
    {vertex : ℝ × ℝ × ℝ} {Zs As : List ℤ} {config : Config} {grid : PadGrid} {g : GridEdges}
    (hgrid : config.pad_grid = some (grid, g)) (hok : DriftOk config.det_params config.elec_params)
    (hsp : SpreadOk config.det_params config.elec_params) (hgain : 0 ≤ config.det_params.mpgd_gain)
    {rng : Gen σ} {std : σ → ℝ × σ} (hstd : ShiftScale rng std) (hg : ∀ s, |(std s).1| ≤ 40)
    {indices : List ℤ} {s s' : σ} {n : ℤ}
    (ht : EventTotal drawnAbove env momenta vertex Zs As config rng indices s n s') :
    EventInside env momenta vertex Zs As config indices → ∀ p : Points, (∀ entry ∈ p, 0 ≤ entry.2.1) →
    p.keys.Nodup → storedCharge p + config.det_params.mpgd_gain * n < 2 ^ 53 →
    ∃ q, indices.foldlM (simulate_nucleus64 m std env momenta vertex Zs As config) (p, s) = .ok (q, s') ∧
      Grown grid config.elec_params.micromegas_edge config.elec_params.windows_edge p
        (config.det_params.mpgd_gain * n) q ∧ q.keys.Nodup ∧
      ∀ entry ∈ q, (∃ old ∈ p, old.2.2 = entry.2.2) ∨
        (entry.2.2 ∈ indices ∧ ∃ z, pyGet Zs entry.2.2 = .ok z ∧ z ≠ 0) := by
  induction ht with
  | nil s =>
    intro _ p hp hk hroom
    exact ⟨p, rfl, Grown.refl hp (by simp), hk, fun entry he => Or.inl ⟨entry, he, rfl⟩⟩
  | neutral idx rest s s' n hz _ ih =>
    intro hin p hp hk hroom
    obtain ⟨q, hq, gq, kq, lq⟩ := ih (fun i hi => hin i (List.mem_cons_of_mem _ hi)) p hp hk hroom
    refine ⟨q, ?_, gq, kq, ?_⟩
    · rw [List.foldlM_cons]
      have : simulate_nucleus64 m std env momenta vertex Zs As config (p, s) idx = .ok (p, s) := by
        unfold simulate_nucleus64
        rw [hz]
        rfl
      rw [this]
      exact hq
    · intro entry he
      rcases lq entry he with h1 | ⟨h1, h2⟩
      · exact Or.inl h1
      · exact Or.inr ⟨List.mem_cons_of_mem _ h1, h2⟩
  | charged idx z a nucleus momentum track primary rest s s₁ s' n hz hz0 ha hn hm ht he hrest ih =>
    intro hin p hp hk hroom
    obtain ⟨hpos, hrec⟩ := hin idx (by simp) z a nucleus momentum track hz hz0 ha hn hm ht
    obtain ⟨ns64, ns, s₂, e1, e2, e3⟩ := C110_electrons h.rounding hstd hg hrec s
    rw [he] at e2
    injection e2 with e2
    injection e2 with e2 e4
    subst e2 e4
    have hp0 : 0 ≤ storedCharge p := by
      apply List.sum_nonneg
      intro x hx
      obtain ⟨y, hy, rfl⟩ := List.mem_map.1 hx
      exact hp y hy
    have hd0 := drawnAbove_nonneg track primary
    have hn0 := eventTotal_nonneg hrest
    have hgn : 0 ≤ config.det_params.mpgd_gain * n := mul_nonneg hgain hn0
    rw [mul_add] at hroom
    have hrel := releasedCharge_le hgain track e3
    obtain ⟨q, hq, gq⟩ := C90_track h hok hsp grid g track ns64 hgain hpos (fun k hk => by
      have := drawn_each hgain track e3 k hk
      linarith) p hp (by
      have : (2 : ℤ) ^ 53 < 2 ^ 63 := by norm_num
      linarith) idx
    have gq' := gq.weaken hrel
    obtain ⟨q', hq', gq2, kq2, lq2⟩ := ih (fun i hi => hin i (List.mem_cons_of_mem _ hi)) q gq.nonneg
      (drift_track64_ind (P := fun p => p.keys.Nodup) (fun p k c hp => Points.nodup_set p k _ hp) hk hq)
      (by linarith [gq'.le])
    refine ⟨q', ?_, ?_, kq2, ?_⟩
    · rw [List.foldlM_cons]
      have : simulate_nucleus64 m std env momenta vertex Zs As config (p, s) idx = .ok (q, s₁) := by
        unfold simulate_nucleus64
        rw [hz]
        simp only [bind, Except.bind]
        rw [if_neg hz0, ha]
        simp only
        rw [hn]
        simp only
        rw [hm]
        simp only
        rw [ht]
        simp only
        rw [e1]
        simp only
        rw [hgrid]
        simp only
        rw [hq]
        rfl
      rw [this]
      exact hq'
    · rw [mul_add]
      exact gq'.trans gq2
    · have hlq := drift_track64_ind (label := idx)
        (P := fun r => ∀ entry ∈ r, (∃ old ∈ p, old.2.2 = entry.2.2) ∨ entry.2.2 = idx)
        (fun r k c hr entry hen => by
          rcases set_labels entry hen with ⟨old, ho, e⟩ | e
          · rw [← e]; exact hr old ho
          · exact Or.inr e) (fun entry hen => Or.inl ⟨entry, hen, rfl⟩) hq
      intro entry hen
      rcases lq2 entry hen with ⟨old, ho, e⟩ | ⟨h1, h2⟩
      · rw [← e]
        rcases hlq old ho with h1 | h1
        · exact Or.inl h1
        · rw [h1]
          exact Or.inr ⟨by simp, z, hz, hz0⟩
      · exact Or.inr ⟨List.mem_cons_of_mem _ h1, h2⟩

/-! ## The rows -/

/-- The rows before the selection. -/
noncomputable def shifted (rn : ℝ → ℝ) (q : Points) (w : List ℝ) : List CloudPoint :=
  ((dict_to_points64 rn q).1.zip w).map fun pw => { pw.1 with tb := rn (pw.1.tb + pw.2) }

/-- The selection of the rows inside the window. -/
noncomputable def windowMask (l : List CloudPoint) : List Bool :=
  l.map fun p => decide (0 ≤ p.tb) && decide (p.tb < (NUM_TB : ℝ))

theorem rows_of_entries {rn : ℝ → ℝ} (h : Rounding rn) {grid : PadGrid}
    (hpads : ∀ i j, -1 ≤ grid.cell i j ∧ grid.cell i j < 2 ^ 26) {lo hi : ℤ} (hlo : 0 ≤ lo) (hhi : hi ≤ 1000) :
    ∀ (q : Points) (w : List ℝ), w.length = q.length → (∀ u ∈ w, 0 ≤ u ∧ u < 1) →
    (∀ entry ∈ q, 0 ≤ entry.2.1) → storedCharge q < 2 ^ 53 →
    (∀ entry ∈ q, ∃ tb pad i j : ℤ, entry.1 = pair64 tb pad ∧ lo ≤ tb ∧ tb ≤ hi ∧ pad = grid.cell i j ∧
      pad ≠ -1 ∧ pad ∉ BEAM_PADS) →
    ∃ cells : List (ℤ × ℤ), (cells.map fun c => pair64 c.1 c.2).Sublist q.keys ∧
      List.Forall₂ (MachineRow grid lo hi) (maskSel (windowMask (shifted rn q w)) (shifted rn q w)) cells ∧
      (maskSel (windowMask (shifted rn q w)) (dict_to_points64 rn q).2).length = cells.length ∧
      (∀ l ∈ maskSel (windowMask (shifted rn q w)) (dict_to_points64 rn q).2, ∃ entry ∈ q, entry.2.2 = l) ∧
      ((maskSel (windowMask (shifted rn q w)) (shifted rn q w)).map (·.e)).sum ≤ (storedCharge q : ℝ)
  | [], [], _, _, _, _, _ => ⟨[], by simp [Points.keys], by simp [shifted, windowMask, dict_to_points64, maskSel],
      by simp [shifted, windowMask, dict_to_points64, maskSel],
      by simp [shifted, windowMask, dict_to_points64, maskSel],
      by simp [shifted, windowMask, dict_to_points64, maskSel, storedCharge]⟩
  | [], _ :: _, hl, _, _, _, _ => by simp at hl
  | _ :: _, [], hl, _, _, _, _ => by simp at hl
  | (k, c, lab) :: q, u :: w, hl, hw, hp, hs, hk => by
    have hs' : storedCharge ((k, c, lab) :: q) = c + storedCharge q := by simp [storedCharge]
    have hq0 : 0 ≤ storedCharge q := by
      apply List.sum_nonneg
      intro x hx
      obtain ⟨y, hy, rfl⟩ := List.mem_map.1 hx
      exact hp y (by simp [hy])
    have hc0 : 0 ≤ c := hp (k, c, lab) (by simp)
    obtain ⟨cells, i1, i2, i3, i4, i5⟩ := rows_of_entries h hpads hlo hhi q w (by simpa using hl)
      (fun v hv => hw v (by simp [hv])) (fun e he => hp e (by simp [he])) (by linarith)
      (fun e he => hk e (by simp [he]))
    obtain ⟨tb, pad, i, j, e1, e2, e3, e4, e5, e6⟩ := hk (k, c, lab) (by simp)
    simp only at e1
    obtain ⟨p1, p2⟩ := hpads i j
    rw [← e4] at p1 p2
    have p0 : 0 ≤ pad := by omega
    have hup : unpair64 rn k = ((tb : ℝ), (pad : ℝ)) := by
      rw [e1]
      exact C02_roundtrip rn h tb pad (by omega) (lt_of_le_of_lt (e3.trans hhi) (by norm_num)) p0 p2
    have hce : rn (c : ℝ) = c := C59_stored rn h c hc0 (by linarith)
    have hsh : shifted rn ((k, c, lab) :: q) (u :: w)
        = { pad := pad, tb := rn (tb + u), e := c } :: shifted rn q w := by
      unfold shifted dict_to_points64
      simp only [List.map_cons, List.zip_cons_cons, hup, hce]
    have hdl : (dict_to_points64 rn ((k, c, lab) :: q)).2 = lab :: (dict_to_points64 rn q).2 := rfl
    obtain ⟨u0, u1⟩ := hw u (by simp)
    rw [hsh, hdl]
    have hmask : windowMask ({ pad := (pad : ℝ), tb := rn (tb + u), e := (c : ℝ) } :: shifted rn q w)
        = (decide (0 ≤ rn (tb + u)) && decide (rn (tb + u) < (NUM_TB : ℝ))) :: windowMask (shifted rn q w) := rfl
    rw [hmask]
    by_cases hin : 0 ≤ rn (tb + u) ∧ rn (tb + u) < (NUM_TB : ℝ)
    · rw [show (decide (0 ≤ rn (tb + u)) && decide (rn (tb + u) < (NUM_TB : ℝ))) = true by simp [hin]]
      have hN : (NUM_TB : ℝ) = 512 := by norm_num [NUM_TB]
      have htb : tb < 512 := by
        by_contra hc
        have htb : (512 : ℝ) ≤ tb := by exact_mod_cast not_lt.1 hc
        have := h.ge_of_ge (int_mem (n := 512) (by norm_num)) (x := (tb : ℝ) + u) (by push_cast; linarith)
        have h2 := hin.2
        rw [hN] at h2
        push_cast at this
        linarith
      obtain ⟨b1, b2⟩ := C19_float_bound_partial rn h tb u (by omega) htb u0 u1
      unfold wiggle64 at b1 b2
      refine ⟨(tb, pad) :: cells, ?_, ?_, ?_, ?_, ?_⟩
      · rw [List.map_cons]
        unfold Points.keys at i1 ⊢
        rw [List.map_cons]
        simp only
        rw [← e1]
        exact i1.cons_cons k
      · simp only [maskSel]
        exact .cons ⟨rfl, p0, ⟨i, j, e4⟩, e6, e2, e3, b1, b2, by rw [← hN]; exact hin.2, c, hc0, rfl⟩ i2
      · simp only [maskSel, List.length_cons, i3]
      · intro l hl
        simp only [maskSel, List.mem_cons] at hl
        rcases hl with rfl | hl
        · exact ⟨(k, c, l), by simp, rfl⟩
        · obtain ⟨e, he, he2⟩ := i4 l hl
          exact ⟨e, by simp [he], he2⟩
      · simp only [maskSel, List.map_cons, List.sum_cons]
        rw [hs']
        push_cast
        linarith
    · rw [show (decide (0 ≤ rn (tb + u)) && decide (rn (tb + u) < (NUM_TB : ℝ))) = false by
        simpa [Bool.and_eq_false_iff] using hin]
      refine ⟨cells, ?_, ?_, ?_, ?_, ?_⟩
      · unfold Points.keys at i1 ⊢
        rw [List.map_cons]
        exact i1.cons k
      · simpa only [maskSel] using i2
      · simpa only [maskSel] using i3
      · intro l hl
        simp only [maskSel] at hl
        obtain ⟨e, he, he2⟩ := i4 l hl
        exact ⟨e, by simp [he], he2⟩
      · simp only [maskSel]
        rw [hs']
        push_cast
        have : (0 : ℝ) ≤ c := by exact_mod_cast hc0
        linarith

theorem forall₂_exists {α β : Type} {R : α → β → Prop} {l₁ : List α} {l₂ : List β} (h : List.Forall₂ R l₁ l₂) :
    ∀ a ∈ l₁, ∃ b ∈ l₂, R a b := by
  induction h with
  | nil => simp
  | cons hab _ ih =>
    intro x hx
    rcases List.mem_cons.1 hx with rfl | hx
    · exact ⟨_, by simp, hab⟩
    · obtain ⟨b, hb, hr⟩ := ih x hx
      exact ⟨b, by simp [hb], hr⟩

/-- **C124.** An event whose tracks stay inside the detector is simulated in machine arithmetic without exceptions.
Every row of its cloud belongs to a cell of its own, on an active pad that is not a beam pad and a time bucket between
the edges, with the pad number exact, the time within the bucket and a whole number of electrons; the labels are
simulated charged nuclei; and the charges add up to at most the gain times the electrons drawn in exact arithmetic,
plus one per track point. -/
theorem C124_event {σ : Type} {m : Math64} (h : m.Ok) {env : SimEnv} {momenta : List Vec4}
    {vertex : ℝ × ℝ × ℝ} {Zs As : List ℤ} {config : Config} {grid : PadGrid} {g : GridEdges}
    (hgrid : config.pad_grid = some (grid, g)) (hpads : ∀ i j, -1 ≤ grid.cell i j ∧ grid.cell i j < 2 ^ 26)
    (hok : DriftOk config.det_params config.elec_params)
    (hsp : SpreadOk config.det_params config.elec_params) (hgain : 0 ≤ config.det_params.mpgd_gain)
    {rng : Gen σ} (hr : LawfulGen rng) {std : σ → ℝ × σ} (hstd : ShiftScale rng std)
    (hg : ∀ s, |(std s).1| ≤ 40) {indices : List ℤ} {s s₁ : σ} {n : ℤ}
    (ht : EventTotal drawnAbove env momenta vertex Zs As config rng indices s n s₁)
    (hin : EventInside env momenta vertex Zs As config indices)
    (hroom : config.det_params.mpgd_gain * n < 2 ^ 53) :
    ∃ cloud labels s', ∃ cells : List (ℤ × ℤ),
      simulate64 m std env momenta vertex Zs As config rng indices s = .ok ((cloud, labels), s') ∧
      labels.length = cloud.length ∧ cells.Nodup ∧
      List.Forall₂ (MachineRow grid config.elec_params.micromegas_edge config.elec_params.windows_edge) cloud cells ∧
      (∀ l ∈ labels, l ∈ indices ∧ ∃ z, pyGet Zs l = .ok z ∧ z ≠ 0) ∧
      0 ≤ (cloud.map (·.e)).sum ∧ (cloud.map (·.e)).sum ≤ ((config.det_params.mpgd_gain * n : ℤ) : ℝ) := by
  obtain ⟨q, hq, gq, kq, lq⟩ := event_fold h hgrid hok hsp hgain hstd hg ht hin [] (by simp) (by simp [Points.keys])
    (by simpa [storedCharge] using hroom)
  have hle : storedCharge q ≤ config.det_params.mpgd_gain * n := by simpa [storedCharge] using gq.le
  obtain ⟨cells, c1, c2, c3, c4, c5⟩ := rows_of_entries h.rounding hpads hok.micromegas hok.windows q
    (rng.uniformN 0 1 (dict_to_points64 m.rn q).1.length s₁).1
    (by rw [Verif.Detector.uniformN_length]; simp [dict_to_points64])
    (fun u hu => uniformN_mem hr 0 1 (by norm_num) _ _ u hu) gq.nonneg (by linarith)
    (fun entry he => by
      rcases gq.keys entry he with ⟨old, ho, -⟩ | h1
      · simp at ho
      · exact h1)
  refine ⟨_, _, (rng.uniformN 0 1 (dict_to_points64 m.rn q).1.length s₁).2, cells, ?_, c3.trans c2.length_eq.symm,
    (c1.nodup kq).of_map _, c2, ?_, ?_, c5.trans (by exact_mod_cast hle)⟩
  · unfold simulate64
    rw [hq]
    rfl
  · intro l hl
    obtain ⟨entry, he, rfl⟩ := c4 l hl
    rcases lq entry he with ⟨old, ho, -⟩ | h1
    · simp at ho
    · exact h1
  · apply List.sum_nonneg
    intro x hx
    obtain ⟨row, hrow, rfl⟩ := List.mem_map.1 hx
    obtain ⟨cell, -, hc⟩ := forall₂_exists c2 row hrow
    obtain ⟨c, hc0, hce⟩ := hc.charge
    rw [hce]
    exact_mod_cast hc0

/-! ## The stored rows -/

/-- A row of the file written for the point `p` of the cloud. -/
structure StoredRow64 (config : Config) (centers : List (ℝ × ℝ)) (rn : ℝ → ℝ) (response : List ℝ)
    (p : CloudPoint) (r : SpyralRow) : Prop where
  centre : ∃ n : ℕ, p.pad = n ∧ centers[n]? = some (r.x, r.y) ∧ config.pad_sizes[n]? = some r.scale
  pad : r.pad = p.pad
  tb : r.tb = p.tb
  z : r.z = position64 rn config.elec_params.windows_edge config.elec_params.micromegas_edge
    config.det_params.length p.tb
  z_le : r.z ≤ rn (config.det_params.length * 1000)
  z_near : p.tb ≤ config.elec_params.windows_edge → 0 ≤ r.z ∧
    |r.z - ((config.elec_params.windows_edge : ℝ) - p.tb)
      / ((config.elec_params.windows_edge - config.elec_params.micromegas_edge : ℤ) : ℝ)
      * config.det_params.length * 1000| ≤ 1e-15 * (config.det_params.length * 1000)
  z_late : config.elec_params.windows_edge ≤ p.tb → r.z ≤ 0
  amp : r.amp = min (rn (npMax response * p.e)) 4095
  amp_nonneg : 0 ≤ r.amp
  integral_nonneg : 0 ≤ r.integral
  integral_le : r.integral ≤ 4095 * NUM_TB

theorem select_sort {argsort : Argsort} (hA : IsArgsort argsort) (conv : List SpyralRow) (labels : List ℤ)
    (thr : ℝ) (hl : conv.length = labels.length) :
    let mask := conv.map fun r => decide (r.amp > thr)
    let idx := argsort ((maskSel mask conv).map (·.z))
    (takeIdx idx (maskSel mask conv)).length = (takeIdx idx (maskSel mask labels)).length ∧
    ((takeIdx idx (maskSel mask conv)).zip (takeIdx idx (maskSel mask labels))).Perm
      ((conv.zip labels).filter fun rl => decide (thr < rl.1.amp)) ∧
    (takeIdx idx (maskSel mask conv)).Pairwise fun a b => a.z ≤ b.z := by
  intro mask idx
  have hml := maskSel_length_eq mask conv labels hl
  have hsel : (maskSel mask conv).zip (maskSel mask labels)
      = (conv.zip labels).filter fun rl => decide (thr < rl.1.amp) := by
    rcases maskSel_zip mask conv labels with h' | h'
    · rw [h', ← maskSel_map]
      congr 1
      have : conv = (conv.zip labels).map Prod.fst := by rw [List.map_fst_zip]; omega
      change conv.map _ = _
      conv_lhs => rw [this, List.map_map]
      rfl
    · exact absurd hl h'
  have hcount : ((conv.zip labels).filter fun rl => decide (thr < rl.1.amp)).length
      = ((maskSel mask conv).map (·.z)).length := by
    rw [← hsel, List.length_zip, ← hml, Nat.min_self, List.length_map]
  have hp := hA.perm ((maskSel mask conv).map (·.z))
  refine ⟨?_, ?_, ?_⟩
  · rw [List.length_map] at hp
    have e1 := (takeIdx_perm _ (maskSel mask conv) hp).length_eq
    have e2 := (takeIdx_perm _ (maskSel mask labels) (hp.trans (by rw [hml]))).length_eq
    exact e1.trans (hml.trans e2.symm)
  · rw [takeIdx_zip _ _ _ hml, hsel]
    exact takeIdx_perm _ _ (hp.trans (by rw [hcount]))
  · have hs := hA.sorted ((maskSel mask conv).map (·.z))
    rw [takeIdx_map, List.pairwise_map] at hs
    exact hs

theorem convert_point64_ok {config : Config} (hok : DriftOk config.det_params config.elec_params) {rn : ℝ → ℝ}
    (h : Rounding rn) {response : List ℝ} (hlen : response.length = NUM_TB) (hR : ∀ r ∈ response, 0 ≤ r)
    {centers : List (ℝ × ℝ)} {p : CloudPoint} {n : ℕ} (hn : p.pad = n) (h1 : n < centers.length)
    (h2 : n < config.pad_sizes.length) (he : 0 ≤ p.e) (ht : (config.elec_params.micromegas_edge : ℝ) ≤ p.tb) :
    ∃ r, convert_point64 rn config.elec_params.windows_edge config.elec_params.micromegas_edge
      config.det_params.length response centers config.pad_sizes p = .ok r ∧
      StoredRow64 config centers rn response p r := by
  have hne : response ≠ [] := by
    intro hc
    rw [hc] at hlen
    exact absurd hlen (by norm_num [NUM_TB])
  have hp : pyInt p.pad = n := by rw [hn, pyInt_nat]
  have hL0 : 0 ≤ config.det_params.length := by linarith [hok.length_ge]
  have hM : (config.elec_params.micromegas_edge : ℝ) ≤ config.elec_params.windows_edge := by
    exact_mod_cast hok.edges.le
  have hpos := fun t a b => C109_position h hok.micromegas hok.edges hok.windows hok.length_ge hok.length_le
    hok.length_mem (t := t) a b
  have hint := C109_integral h hlen hR he
  refine ⟨⟨centers[n].1, centers[n].2, position64 rn config.elec_params.windows_edge
    config.elec_params.micromegas_edge config.det_params.length p.tb, (apply_response64 rn response p.e).1,
    (apply_response64 rn response p.e).2, p.pad, p.tb, config.pad_sizes[n]⟩, ?_,
    ⟨⟨n, hn, by rw [List.getElem?_eq_getElem h1], by rw [List.getElem?_eq_getElem h2]⟩, rfl, rfl, rfl,
      ?_, ?_, ?_, amplitude64_eq h hne he, (C109_amplitude h hne hR he).1, hint.1, hint.2.1⟩⟩
  · unfold convert_point64
    rw [hp, (numbaGet_nat centers n centers[n]).2 (List.getElem?_eq_getElem h1),
      (numbaGet_nat config.pad_sizes n config.pad_sizes[n]).2 (List.getElem?_eq_getElem h2)]
    have : config.elec_params.windows_edge - config.elec_params.micromegas_edge ≠ 0 := by
      have := hok.edges
      omega
    simp only [bind, Except.bind, this, if_false]
    rfl
  · simp only
    exact (C109_order h hok.edges hL0 ht).trans (hpos _ le_rfl hM).2.1
  · intro h3
    obtain ⟨a, -, b⟩ := hpos _ ht h3
    exact ⟨a, b⟩
  · intro h3
    refine (C109_order h hok.edges hL0 h3).trans ?_
    unfold position64
    simp [h.exact zero_mem]

/-- **C124.** The cloud of C124 is turned into rows of the file in machine arithmetic without exceptions when every pad
of the grid has a centre and a size. The rows are those of the points above the threshold, each with the centre and
the size of its pad, its position, its amplitude and its label, sorted by the position. -/
theorem C124_stored {argsort : Argsort} (hA : IsArgsort argsort) {config : Config}
    (hok : DriftOk config.det_params config.elec_params) {rn : ℝ → ℝ} (h : Rounding rn) {response : List ℝ}
    (hlen : response.length = NUM_TB) (hR : ∀ r ∈ response, 0 ≤ r) {centers : List (ℝ × ℝ)}
    (hc : config.pad_centers = some centers) {grid : PadGrid}
    (hpads : ∀ i j, grid.cell i j < centers.length ∧ grid.cell i j < config.pad_sizes.length)
    {cloud : List CloudPoint} {labels : List ℤ} (hl : labels.length = cloud.length) {cells : List (ℤ × ℤ)}
    (hcells : List.Forall₂ (MachineRow grid config.elec_params.micromegas_edge config.elec_params.windows_edge)
      cloud cells) :
    ∃ rows labels' converted, format_event64 rn argsort response cloud labels config = .ok (rows, labels') ∧
      List.Forall₂ (StoredRow64 config centers rn response) cloud converted ∧
      labels'.length = rows.length ∧
      (rows.zip labels').Perm ((converted.zip labels).filter fun rl =>
        decide ((config.elec_params.adc_threshold : ℝ) < rl.1.amp)) ∧
      (rows.Pairwise fun a b => a.z ≤ b.z) ∧
      ∀ r ∈ rows, (config.elec_params.adc_threshold : ℝ) < r.amp ∧ r.amp ≤ 4095 := by
  have hconv : ∃ converted, convert_to_spyral64 rn cloud config.elec_params.windows_edge
      config.elec_params.micromegas_edge config.det_params.length response centers config.pad_sizes = .ok converted ∧
      List.Forall₂ (StoredRow64 config centers rn response) cloud converted := by
    unfold convert_to_spyral64
    clear hl
    induction hcells with
    | nil => exact ⟨[], rfl, .nil⟩
    | @cons p cell ps cs hrow _ ih =>
      obtain ⟨rs, h1, h2⟩ := ih
      obtain ⟨i, j, hij⟩ := hrow.active
      obtain ⟨k1, k2⟩ := hpads i j
      obtain ⟨c, hc0, hce⟩ := hrow.charge
      obtain ⟨n, hn⟩ := Int.eq_ofNat_of_zero_le hrow.pad_nonneg
      rw [← hij, hn] at k1 k2
      have hb : (config.elec_params.micromegas_edge : ℝ) ≤ cell.1 := by exact_mod_cast hrow.bucket_ge
      obtain ⟨r, r1, r2⟩ := convert_point64_ok hok h hlen hR (centers := centers) (p := p) (n := n)
        (by rw [hrow.pad, hn]; push_cast; rfl) (by omega) (by omega)
        (by rw [hce]; exact_mod_cast hc0) (hb.trans hrow.time_ge)
      refine ⟨r :: rs, ?_, .cons r2 h2⟩
      rw [List.mapM_cons, r1, h1]
      rfl
  obtain ⟨conv, h1, h2⟩ := hconv
  have hcl : conv.length = labels.length := by rw [hl]; exact h2.length_eq.symm
  obtain ⟨s1, s2, s3⟩ := select_sort hA conv labels (config.elec_params.adc_threshold : ℝ) hcl
  refine ⟨_, _, conv, ?_, h2, s1.symm, s2, s3, ?_⟩
  · unfold format_event64
    rw [hc]
    simp only
    rw [h1]
    rfl
  · intro r hr
    have hmem : ∃ l, (r, l) ∈ ((conv.zip labels).filter fun rl =>
        decide ((config.elec_params.adc_threshold : ℝ) < rl.1.amp)) := by
      obtain ⟨i, hi, rfl⟩ := List.getElem_of_mem hr
      exact ⟨_, s2.subset (List.mem_of_getElem? (i := i) (by
        rw [List.getElem?_zip_eq_some]
        exact ⟨List.getElem?_eq_getElem hi, List.getElem?_eq_getElem (by rw [← s1]; exact hi)⟩))⟩
    obtain ⟨l, hl'⟩ := hmem
    obtain ⟨m1, m2⟩ := List.mem_filter.1 hl'
    refine ⟨by simpa using m2, ?_⟩
    have hz := (List.of_mem_zip m1).1
    obtain ⟨p, -, hp⟩ := forall₂_exists h2.flip r hz
    rw [hp.amp]
    exact min_le_right _ _

/-- A detector of one metre with diffusion and gain 1000, read out between buckets 10 and 110, with ten pads. -/
noncomputable def exMachine : Config :=
  { exConfig 1000 0.0001 with
    elec_params := { exElec with micromegas_edge := 10, windows_edge := 110 }
    pad_centers := some (List.replicate 10 (3, 4))
    pad_sizes := List.replicate 10 1 }

theorem exMachine_drift : DriftOk exMachine.det_params exMachine.elec_params :=
  ⟨by simpa [exMachine, exConfig, exDet] using int_mem (n := 1) (by norm_num),
    by norm_num [exMachine, exConfig, exDet], by norm_num [exMachine, exConfig, exDet],
    by norm_num [exMachine], by norm_num [exMachine], by norm_num [exMachine]⟩

/-- An event of a neutral and a charged nucleus meets the hypotheses of C124, and its cloud is stored. -/
example (m : Math64) (h : m.Ok) : ∃ cloud labels s' rows labels',
    simulate64 m (fun s => (0, s)) exEnv exMomenta (0, 0, 0.5) [1, 0, 1] [1, 1, 1] exMachine exGen [1, 2] ()
      = .ok ((cloud, labels), s') ∧ (∀ l ∈ labels, l = 2) ∧ (cloud.map (·.e)).sum ≤ 3000 ∧
    format_event64 m.rn exArgsort (List.replicate NUM_TB (1 / 2)) cloud labels exMachine = .ok (rows, labels') := by
  have htr : ∀ q : Vec4, generate_trajectory exEnv.solve_ivp (0, 0, 0.5) (q.px, q.py, q.pz) exNucleus
      exMachine.det_params = .ok [exTrack0, exTrack1] := fun _ => rfl
  have ht : EventTotal drawnAbove exEnv exMomenta (0, 0, 0.5) [1, 0, 1] [1, 1, 1] exMachine exGen [1, 2] ()
      (drawnAbove [exTrack0, exTrack1] [0, 1] + 0) () :=
    .neutral 1 _ () () _ rfl (.charged 2 1 1 exNucleus ⟨0, 0, 4.5, 7.5⟩ [exTrack0, exTrack1] [0, 1] [] () () () 0
      rfl (by norm_num) rfl rfl rfl (htr _) (exElectrons 1000 0.0001) (.nil ()))
  have hn : drawnAbove [exTrack0, exTrack1] [0, 1] + 0 = 3 := by decide
  rw [hn] at ht
  have hlor : ∀ v : ℝ, 0 ≤ v → v ≤ 1 → exNucleus.mass * lorentz v * (1.0e6 / exMachine.det_params.w_value) ≤ 1e9 := by
    intro v h0 h1
    have := lorentz_le h0
    change 6 * lorentz v * (1.0e6 / 1.0e6) ≤ 1e9
    norm_num
    linarith
  have hin : EventInside exEnv exMomenta (0, 0, 0.5) [1, 0, 1] [1, 1, 1] exMachine [1, 2] := by
    intro idx _ z a nucleus momentum track _ _ _ h4 _ h6
    have e4 : exNucleus = nucleus := Except.ok.inj h4
    subst e4
    rw [htr] at h6
    have e6 := Except.ok.inj h6
    subst e6
    have g0 := exTrack0_gv
    have g1 := exTrack1_gv
    constructor
    · intro r hr
      simp only [List.mem_cons, List.not_mem_nil, or_false] at hr
      rcases hr with rfl | rfl <;> norm_num [exTrack0, exTrack1, exMachine, exConfig, exDet]
    · refine ⟨?_, ?_, ?_, ?_, ?_, ?_, ?_, ?_⟩
      · norm_num [exNucleus]
      · norm_num [exNucleus]
      · norm_num [exMachine, exConfig, exDet]
      · norm_num [exMachine, exConfig, exDet]
      · norm_num [exMachine, exConfig, exDet]
      · norm_num [exMachine, exConfig, exDet]
      · intro s hs
        simp only [List.mem_cons, List.not_mem_nil, or_false] at hs
        rcases hs with rfl | rfl
        · exact ⟨by rw [g0]; norm_num, by rw [g0]; norm_num⟩
        · exact ⟨by rw [g1]; norm_num, by rw [g1]; norm_num⟩
      · intro s hs
        simp only [List.mem_cons, List.not_mem_nil, or_false] at hs
        rcases hs with rfl | rfl
        · exact hlor _ (by rw [g0]; norm_num) (by rw [g0]; norm_num)
        · exact hlor _ (by rw [g1]; norm_num) (by rw [g1]; norm_num)
  have hgain : exMachine.det_params.mpgd_gain = 1000 := rfl
  obtain ⟨cloud, labels, s', cells, h1, h2, -, h4, h5, -, h7⟩ := C124_event h (grid := exGrid) (g := exEdges) rfl
    (fun _ _ => ⟨by norm_num [exGrid], by norm_num [exGrid]⟩) exMachine_drift
    ⟨by norm_num [exMachine], by norm_num [exMachine, exConfig, exDet],
      Or.inr ⟨by norm_num [exMachine, exConfig, exDet], by norm_num [exMachine, exConfig, exDet],
        by norm_num [exMachine, exConfig, exDet], by norm_num [exMachine, exConfig, exDet]⟩⟩
    (by rw [hgain]; norm_num) exGen_lawful (std := fun s => (0, s)) (fun loc scale s => by simp [exGen])
    (fun _ => by norm_num) ht hin (by rw [hgain]; norm_num)
  obtain ⟨rows, labels', conv, k1, -⟩ := C124_stored exArgsort_ok exMachine_drift h.rounding
    (response := List.replicate NUM_TB (1 / 2)) (by simp)
    (by intro r hr; rw [List.eq_of_mem_replicate hr]; norm_num) (centers := List.replicate 10 (3, 4)) rfl
    (fun i j => by constructor <;> norm_num [exGrid, exMachine]) h2 h4
  refine ⟨cloud, labels, s', rows, labels', h1, ?_, ?_, k1⟩
  · intro l hl
    obtain ⟨hm, z, hz, hz0⟩ := h5 l hl
    simp only [List.mem_cons, List.not_mem_nil, or_false] at hm
    rcases hm with rfl | rfl
    · exact absurd (Except.ok.inj hz).symm hz0
    · rfl
  · rw [hgain] at h7
    refine h7.trans (by norm_num)

end Verif.Machine
