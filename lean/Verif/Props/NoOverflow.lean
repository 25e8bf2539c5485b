import Verif.Proofs.Overflow64
import Verif.Props.MachineTrack
import Verif.Machine.Pairing
import Verif.Machine.Electrons
import Verif.Machine.Response
import Verif.Props.MachineKinematics

/-! # C111: no float operation overflows -/

namespace Verif.Machine

open Verif.Detector Verif.Kinematics

section
variable {rn f : ℝ → ℝ} {k l : ℕ} {a b : ℝ}

theorem Same.floor (h : Same k a b) : Same k (⌊a⌋ : ℝ) (⌊b⌋ : ℝ) := by
  refine ⟨by rw [h.1], ?_⟩
  obtain ⟨h1, h2⟩ := abs_le.1 h.2
  rw [abs_le]
  refine ⟨?_, (Int.floor_le b).trans h2⟩
  have : (-2 ^ k : ℤ) ≤ ⌊b⌋ := by rw [Int.le_floor]; push_cast; exact h1
  have h3 : ((-2 ^ k : ℤ) : ℝ) ≤ (⌊b⌋ : ℝ) := by exact_mod_cast this
  push_cast at h3
  exact h3

theorem Same.int {n : ℤ} (h : |n| ≤ 2 ^ k) : Same k (n : ℝ) (n : ℝ) := by
  refine ⟨rfl, ?_⟩
  have : ((|n| : ℤ) : ℝ) ≤ ((2 ^ k : ℤ) : ℝ) := by exact_mod_cast h
  push_cast at this
  exact this

theorem wrap64_abs (n : ℤ) : |wrap64 n| ≤ 2 ^ 63 := by
  unfold wrap64
  rw [abs_le]
  omega

/-- **C111, pairing.** -/
theorem C111_unpair (hr : Rounding rn) (hf : SameBelow rn f) {id : ℤ} (h : |id| ≤ 2 ^ 63) :
    unpair64 f id = unpair64 rn id := by
  unfold unpair64
  split_ifs with h0
  · rfl
  have hid := (Same.int h).round hr hf (by decide)
  have hs := (hid.sqrt.round hr hf (by decide)).floor
  have hq := (hs.mul hs).round hr hf (by decide)
  have hd := (hid.sub hq).round hr hf (by decide)
  have he := (hd.sub hs).round hr hf (by decide)
  dsimp only
  rw [he.1, hd.1, hs.1]

/-- Magnitudes of the pad grid. -/
structure GridRange (g : GridEdges) : Prop where
  low : |g.low| ≤ 2 ^ 20
  bin : (2 : ℝ) ^ (-20 : ℤ) ≤ |g.bin|

theorem position_same (hr : Rounding rn) (hf : SameBelow rn f) {g : GridEdges} (hg : GridRange g)
    {p : ℝ × ℝ} (hx : |p.1| ≤ 2 ^ 500) (hy : |p.2| ≤ 2 ^ 500) :
    position_to_index64 f g p = position_to_index64 rn g p := by
  have hth : Same 10 (1000 : ℝ) 1000 := Same.of (by norm_num [abs_of_pos])
  have h1 := ((Same.of hx).mul hth).round hr hf (by decide)
  have h2 := ((Same.of hy).mul hth).round hr hf (by decide)
  have hlow : Same 20 g.low g.low := Same.of hg.low
  have hbin : Away 20 g.bin g.bin := Away.of hg.bin
  have i1 := (((h1.floor.sub hlow).round hr hf (by decide)).div hbin).round hr hf (by decide)
  have i2 := (((h2.floor.sub hlow).round hr hf (by decide)).div hbin).round hr hf (by decide)
  unfold position_to_index64
  simp only [h1.1] at *
  simp only [h2.1] at *
  simp only [i1.1, i2.1]

/-- **C111, pad grid.** -/
theorem C111_grid (hr : Rounding rn) (hf : SameBelow rn f) {g : GridEdges} (hg : GridRange g)
    {p : ℝ × ℝ} (hx : |p.1| ≤ 2 ^ 500) (hy : |p.2| ≤ 2 ^ 500) :
    position_to_index64 f g p = position_to_index64 rn g p := position_same hr hf hg hx hy

/-- **C111, time offset.** -/
theorem C111_wiggle (hr : Rounding rn) (hf : SameBelow rn f) {tb : ℤ} (h : |tb| ≤ 2 ^ 63) {u : ℝ}
    (hu : |u| ≤ 1) : wiggle64 f tb u = wiggle64 rn tb u :=
  (((Same.int h).add (Same.of (k := 0) (by simpa using hu))).round hr hf (by decide)).1

theorem same_steps : Away 0 ((STEPS : ℝ) - 1) ((STEPS : ℝ) - 1) :=
  Away.of (by norm_num [STEPS])

theorem linspace_same (hr : Rounding rn) (hf : SameBelow rn f) (hk : k ≤ 500) {lo lo' hi hi' : ℝ}
    (h1 : Same k lo' lo) (h2 : Same k hi' hi) : linspace64 f lo' hi' = linspace64 rn lo hi ∧
      ∀ x ∈ linspace64 rn lo hi, |x| ≤ 2 ^ (k + 6) := by
  have key : ∀ i : ℕ, i < STEPS →
      Same (k + 6) (f (lo' + f ((i : ℝ) * f (f (hi' - lo') / ((STEPS : ℝ) - 1)))))
        (rn (lo + rn ((i : ℝ) * rn (rn (hi - lo) / ((STEPS : ℝ) - 1))))) := by
    intro i hi0
    have hi1 : Same 4 (i : ℝ) (i : ℝ) := by
      refine Same.of ?_
      rw [abs_of_nonneg (by positivity)]
      have : (i : ℝ) < ((10 : ℕ) : ℝ) := by exact_mod_cast hi0
      norm_num at this ⊢
      linarith
    have hd := (((h2.sub h1).round hr hf (by simp; omega)).div same_steps).round hr hf (by simp; omega)
    have hm := (hi1.mul hd).round hr hf (by simp; omega)
    have := (h1.add hm).round hr hf (by simp; omega)
    refine this.mono (by simp; omega)
  constructor
  · unfold linspace64
    apply List.map_congr_left
    intro i hi0
    rw [(key i (List.mem_range.1 hi0)).1, h2.1]
  · intro x hx
    unfold linspace64 at hx
    obtain ⟨i, hi0, rfl⟩ := List.mem_map.1 hx
    split_ifs
    · exact (h2.mono (by omega : k ≤ k + 6)).2
    · exact (key i (List.mem_range.1 hi0)).2

end

/-- The operations of `m` with another rounding. -/
noncomputable def Math64.withRounding (m : Math64) (f : ℝ → ℝ) : Math64 := { m with rn := f }

/-- Magnitudes needed of `np.exp` and `np.pi`. -/
structure Math64.Range (m : Math64) : Prop where
  pi : 1 ≤ |m.pi|
  exp : ∀ x, x ≤ 0 → |m.exp x| ≤ 2

section
variable {m : Math64} {f : ℝ → ℝ}

theorem mesh_same (hr : Rounding m.rn) (hf : SameBelow m.rn f) {c : ℝ × ℝ} {s : ℝ} (hx : |c.1| ≤ 2 ^ 20)
    (hy : |c.2| ≤ 2 ^ 20) (hs : |s| ≤ 2 ^ 200) :
    transverse_mesh64 (m.withRounding f) c s = transverse_mesh64 m c s ∧
      ∀ p ∈ transverse_mesh64 m c s, |p.1| ≤ 2 ^ 210 ∧ |p.2| ≤ 2 ^ 210 := by
  have h3 : Same 2 (3 : ℝ) 3 := Same.of (by norm_num [abs_of_pos])
  have hw := (h3.mul (Same.of hs)).round hr hf (by decide)
  have x1 := ((Same.of hx).sub hw).round hr hf (by decide)
  have x2 := ((Same.of hx).add hw).round hr hf (by decide)
  have y1 := ((Same.of hy).sub hw).round hr hf (by decide)
  have y2 := ((Same.of hy).add hw).round hr hf (by decide)
  obtain ⟨ex, bx⟩ := linspace_same hr hf (by decide) x1 x2
  obtain ⟨ey, by'⟩ := linspace_same hr hf (by decide) y1 y2
  constructor
  · unfold transverse_mesh64 Math64.withRounding
    simp only
    rw [ex, ey]
  · intro p hp
    unfold transverse_mesh64 meshgrid at hp
    obtain ⟨x, hx', hp⟩ := List.mem_flatMap.1 hp
    obtain ⟨y, hy', rfl⟩ := List.mem_map.1 hp
    exact ⟨(bx x hx').trans (pow_le_pow_right₀ (by norm_num) (by decide)),
      (by' y hy').trans (pow_le_pow_right₀ (by norm_num) (by decide))⟩

theorem pixel_same (hr : Rounding m.rn) (hm : m.Range) (hf : SameBelow m.rn f) {c : ℝ × ℝ} {s : ℝ}
    (hx : |c.1| ≤ 2 ^ 20) (hy : |c.2| ≤ 2 ^ 20) (hs : |s| ≤ 2 ^ 200) (hs0 : (2 : ℝ) ^ (-200 : ℤ) ≤ |s|)
    {n : ℤ} (hn : |n| ≤ 2 ^ 63) {p : ℝ × ℝ} (px : |p.1| ≤ 2 ^ 210) (py : |p.2| ≤ 2 ^ 210) :
    pixel_electrons64 (m.withRounding f) c s n p = pixel_electrons64 m c s n p := by
  have hs1 : Same 200 s s := Same.of hs
  have hs2 : Away 200 s s := Away.of hs0
  have hpi : Away 0 m.pi m.pi := Away.of (by simpa using hm.pi)
  have hhalf : Same 0 (1 / 2 : ℝ) (1 / 2) := Same.of (by norm_num [abs_of_pos])
  have hhalf' : Same 0 (-1 / 2 : ℝ) (-1 / 2) := Same.of (by norm_num [abs_div])
  have hsq := hs1.sq.round hr hf (by decide)
  have hsq' := hs2.sq.round hr hf (by decide) hs1.sq.2 (by decide)
  have c1 := ((((hhalf.round hr hf (by decide)).div hpi).round hr hf (by decide)).div hsq').round hr hf
    (by decide)
  have d1 := (((Same.of px).sub (Same.of hx)).round hr hf (by decide)).sq.round hr hf (by decide)
  have d2 := (((Same.of py).sub (Same.of hy)).round hr hf (by decide)).sq.round hr hf (by decide)
  have dd := (d1.add d2).round hr hf (by decide)
  have c2 := ((((hhalf'.round hr hf (by decide)).div hsq').round hr hf (by decide)).mul dd).round hr hf
    (by decide)
  have hneg : m.rn (m.rn (m.rn (-1 / 2) / m.rn (s ^ 2)) *
      m.rn (m.rn (m.rn (p.1 - c.1) ^ 2) + m.rn (m.rn (p.2 - c.2) ^ 2))) ≤ 0 := by
    apply hr.nonpos
    apply mul_nonpos_of_nonpos_of_nonneg
    · apply hr.nonpos
      apply div_nonpos_of_nonpos_of_nonneg
      · exact hr.nonpos (by norm_num)
      · exact hr.nonneg (by positivity)
    · apply hr.nonneg
      exact add_nonneg (hr.nonneg (by positivity)) (hr.nonneg (by positivity))
  have he : Same 1 (m.exp (f (f (f (-1 / 2) / f (s ^ 2)) *
      f (f (f (p.1 - c.1) ^ 2) + f (f (p.2 - c.2) ^ 2)))))
      (m.exp (m.rn (m.rn (m.rn (-1 / 2) / m.rn (s ^ 2)) *
      m.rn (m.rn (m.rn (p.1 - c.1) ^ 2) + m.rn (m.rn (p.2 - c.2) ^ 2))))) :=
    ⟨by rw [c2.1], by simpa using hm.exp _ hneg⟩
  have pdf := (c1.mul he).round hr hf (by decide)
  have h6 : Same 3 (2 * 3 : ℝ) (2 * 3) := Same.of (by norm_num [abs_of_pos])
  have st := (((h6.mul hs1).round hr hf (by decide)).div same_steps).round hr hf (by decide)
  have ar := (st.mul st).round hr hf (by decide)
  have el := (Same.int hn).round hr hf (by decide)
  have all := (((pdf.mul ar).round hr hf (by decide)).mul el).round hr hf (by decide)
  unfold pixel_electrons64 bivariate_normal_pdf64 Math64.withRounding
  simp only
  exact congrArg pyInt all.1

theorem transverse_same (hr : Rounding m.rn) (hm : m.Range) (hf : SameBelow m.rn f) (grid : PadGrid)
    {g : GridEdges} (hg : GridRange g) (time : ℝ) {c : ℝ × ℝ} {s : ℝ} (hx : |c.1| ≤ 2 ^ 20)
    (hy : |c.2| ≤ 2 ^ 20) (hs : |s| ≤ 2 ^ 200) (hs0 : (2 : ℝ) ^ (-200 : ℤ) ≤ |s|) {n : ℤ} (hn : |n| ≤ 2 ^ 63)
    (points : Points) (label : ℤ) :
    transverse_transport64 (m.withRounding f) grid g time c n s points label =
      transverse_transport64 m grid g time c n s points label := by
  obtain ⟨e, hb⟩ := mesh_same hr hf hx hy hs
  unfold transverse_transport64
  rw [e]
  apply List.foldl_ext
  intro q p hp
  obtain ⟨p1, p2⟩ := hb p hp
  unfold transverse_pixel64
  rw [pixel_same hr hm hf hx hy hs hs0 hn p1 p2, show (m.withRounding f).rn = f from rfl,
    position_same hr hf hg (p1.trans (pow_le_pow_right₀ (by norm_num) (by decide)))
      (p2.trans (pow_le_pow_right₀ (by norm_num) (by decide)))]

/-- Magnitudes of a detector: nothing is larger or smaller than any real detector by many powers of ten. -/
structure DetectorRange (d : DetectorParams) (e : ElectronicsParams) : Prop where
  length_ge : (2 : ℝ) ^ (-20 : ℤ) ≤ d.length
  length_le : d.length ≤ 2 ^ 20
  micromegas : 1 ≤ e.micromegas_edge
  edges : e.micromegas_edge < e.windows_edge
  windows : e.windows_edge ≤ 2 ^ 20
  efield_ge : (2 : ℝ) ^ (-40 : ℤ) ≤ d.efield
  efield_le : d.efield ≤ 2 ^ 40
  diffusion : d.diffusion = 0 ∨ ((2 : ℝ) ^ (-40 : ℤ) ≤ d.diffusion ∧ d.diffusion ≤ 2 ^ 40)

theorem velocity_same (hr : Rounding m.rn) (hf : SameBelow m.rn f) {d : DetectorParams}
    {e : ElectronicsParams} (h : DetectorRange d e) :
    Same 20 (drift_velocity64 f d.length e.micromegas_edge e.windows_edge)
      (drift_velocity64 m.rn d.length e.micromegas_edge e.windows_edge) ∧
    Away 40 (drift_velocity64 f d.length e.micromegas_edge e.windows_edge)
      (drift_velocity64 m.rn d.length e.micromegas_edge e.windows_edge) ∧
    0 < drift_velocity64 m.rn d.length e.micromegas_edge e.windows_edge := by
  have hl0 : (0 : ℝ) < d.length := lt_of_lt_of_le (by positivity) h.length_ge
  have h1 : Same 20 d.length d.length := Same.of (by rw [abs_of_pos hl0]; exact h.length_le)
  have h2 : Away 20 d.length d.length := Away.of (by rw [abs_of_pos hl0]; exact h.length_ge)
  have hN : (1 : ℤ) ≤ e.windows_edge - e.micromegas_edge := by have := h.edges; omega
  have hN' : |e.windows_edge - e.micromegas_edge| ≤ 2 ^ 20 := by
    have := h.windows
    have := h.micromegas
    rw [abs_le]
    omega
  have h3 := Same.int hN'
  have hN1 : (1 : ℝ) ≤ ((e.windows_edge - e.micromegas_edge : ℤ) : ℝ) := by exact_mod_cast hN
  have h4 : Away 0 ((e.windows_edge - e.micromegas_edge : ℤ) : ℝ) ((e.windows_edge - e.micromegas_edge : ℤ) : ℝ) :=
    Away.of (by rw [abs_of_pos (by linarith)]; simpa using hN1)
  have hd := h1.div h4
  have hd' := (h2.div h3 h4.ne).round hr hf (by decide) hd.2 (by decide)
  refine ⟨hd.round hr hf (by decide), hd', ?_⟩
  have : 0 ≤ drift_velocity64 m.rn d.length e.micromegas_edge e.windows_edge :=
    hr.nonneg (div_nonneg hl0.le (by linarith))
  exact lt_of_le_of_ne this hd'.ne.symm

theorem time_same (hr : Rounding m.rn) (hf : SameBelow m.rn f) {d : DetectorParams}
    {e : ElectronicsParams} (h : DetectorRange d e) {z : ℝ} (hz : |z| ≤ 2 ^ 20) (hzl : z ≤ d.length) :
    Same 63 (to_time_bucket64 f d.length e.micromegas_edge
        (drift_velocity64 f d.length e.micromegas_edge e.windows_edge) z)
      (to_time_bucket64 m.rn d.length e.micromegas_edge
        (drift_velocity64 m.rn d.length e.micromegas_edge e.windows_edge) z) ∧
    1 ≤ to_time_bucket64 m.rn d.length e.micromegas_edge
        (drift_velocity64 m.rn d.length e.micromegas_edge e.windows_edge) z := by
  obtain ⟨v1, v2, v3⟩ := velocity_same hr hf h
  have hl0 : (0 : ℝ) < d.length := lt_of_lt_of_le (by positivity) h.length_ge
  have h1 : Same 20 d.length d.length := Same.of (by rw [abs_of_pos hl0]; exact h.length_le)
  have hM : |e.micromegas_edge| ≤ 2 ^ 20 := by
    have := h.windows
    have := h.edges
    have := h.micromegas
    rw [abs_le]
    omega
  refine ⟨((((((h1.sub (Same.of hz)).round hr hf (by decide)).div v2).round hr hf (by decide)).add
    (Same.int hM)).round hr hf (by decide)).mono (by decide), ?_⟩
  have h1m : (1 : ℝ) ≤ e.micromegas_edge := by exact_mod_cast h.micromegas
  unfold to_time_bucket64
  have one_mem : (1 : ℝ) ∈ Binary64 := by simpa using int_mem (n := 1) (by norm_num)
  refine hr.ge_of_ge one_mem ?_
  have : 0 ≤ m.rn (m.rn (d.length - z) /
      drift_velocity64 m.rn d.length e.micromegas_edge e.windows_edge) :=
    hr.nonneg (div_nonneg (hr.nonneg (by linarith)) v3.le)
  linarith

theorem spread_same (hr : Rounding m.rn) (hf : SameBelow m.rn f) {d : DetectorParams}
    {e : ElectronicsParams} (h : DetectorRange d e) {v v' t t' : ℝ} (v1 : Same 20 v' v) (v2 : Away 40 v' v)
    (t1 : Same 63 t' t) (t2 : 1 ≤ t) :
    spread64 f d.diffusion d.efield v' t' = spread64 m.rn d.diffusion d.efield v t ∧
    ∀ s, spread64 m.rn d.diffusion d.efield v t = some s →
      s = 0 ∨ (|s| ≤ 2 ^ 200 ∧ (2 : ℝ) ^ (-200 : ℤ) ≤ |s|) := by
  have hE0 : (0 : ℝ) < d.efield := lt_of_lt_of_le (by positivity) h.efield_ge
  have e1 : Same 40 d.efield d.efield := Same.of (by rw [abs_of_pos hE0]; exact h.efield_le)
  have e2 : Away 40 d.efield d.efield := Away.of (by rw [abs_of_pos hE0]; exact h.efield_ge)
  have t3 : Away 0 t' t := ⟨t1.1, by rw [abs_of_pos (by linarith)]; simpa using t2⟩
  have two : Same 1 (2 : ℝ) 2 := Same.of (by norm_num [abs_of_pos])
  have two' : Away 0 (2 : ℝ) 2 := Away.of (by norm_num [abs_of_pos])
  have hD : Same 40 d.diffusion d.diffusion := by
    refine Same.of ?_
    rcases h.diffusion with h0 | ⟨h0, h1⟩
    · rw [h0]; norm_num
    · rw [abs_of_pos (lt_of_lt_of_le (by positivity) h0)]; exact h1
  have q1 := (two.mul hD).round hr hf (by decide)
  have q2 := (q1.mul v1).round hr hf (by decide)
  have q3 := (q2.mul t1).round hr hf (by decide)
  have q4 := (q3.div e2).round hr hf (by decide)
  have q5 := q4.sqrt.round hr hf (by decide)
  constructor
  · unfold spread64 npSqrt
    rw [q4.1]
    split_ifs
    · rfl
    · simp only [Option.map_some]
      rw [← q5.1, q4.1]
  · intro s hs
    unfold spread64 npSqrt at hs
    split_ifs at hs with hneg
    · simp at hs
    simp only [Option.map_some, Option.some.injEq] at hs
    subst hs
    rcases h.diffusion with h0 | ⟨h0, h1⟩
    · left
      have hz : m.rn 0 = 0 := hr.exact zero_mem
      simp [h0, hz]
    · right
      have hD' : Away 40 d.diffusion d.diffusion :=
        Away.of (by rw [abs_of_pos (lt_of_lt_of_le (by positivity) h0)]; exact h0)
      have p1 := (two'.mul hD').round hr hf (by decide) (two.mul hD).2 (by decide)
      have p2 := (p1.mul v2).round hr hf (by decide) (q1.mul v1).2 (by decide)
      have p3 := (p2.mul t3).round hr hf (by decide) (q2.mul t1).2 (by decide)
      have p4 := (p3.div e1 hE0.ne').round hr hf (by decide) (q3.div e2).2 (by decide)
      have p5 := (p4.sqrt (not_lt.1 hneg)).round hr hf (by decide) q4.sqrt.2 (by decide)
      exact ⟨(q5.mono (by decide : _ ≤ 200)).2, (p5.mono (by decide : _ ≤ 200)).2⟩

theorem step_same (hr : Rounding m.rn) (hm : m.Range) (hf : SameBelow m.rn f) (grid : PadGrid)
    {g : GridEdges} (hg : GridRange g) {d : DetectorParams} {e : ElectronicsParams} (h : DetectorRange d e)
    {r : Row} (hx : |r.x| ≤ 2 ^ 20) (hy : |r.y| ≤ 2 ^ 20) (hz : |r.z| ≤ 2 ^ 20) (hzl : r.z ≤ d.length)
    {n : ℤ} (hn : |n| ≤ 2 ^ 63) (points : Points) (label : ℤ) :
    transport_step64 (m.withRounding f) grid g d.diffusion d.efield
        (drift_velocity64 f d.length e.micromegas_edge e.windows_edge) label points
        ({ r with z := driftTime64 f d e r.z }, n) =
      transport_step64 m grid g d.diffusion d.efield
        (drift_velocity64 m.rn d.length e.micromegas_edge e.windows_edge) label points
        ({ r with z := driftTime64 m.rn d e r.z }, n) := by
  obtain ⟨v1, v2, -⟩ := velocity_same hr hf h
  obtain ⟨t1, t2⟩ := time_same hr hf h hz hzl
  change Same 63 (driftTime64 f d e r.z) (driftTime64 m.rn d e r.z) at t1
  change 1 ≤ driftTime64 m.rn d e r.z at t2
  obtain ⟨s1, s2⟩ := spread_same hr hf h v1 v2 t1 t2
  unfold transport_step64
  simp only
  split_ifs with hE
  · rfl
  rw [show (m.withRounding f).rn = f from rfl, s1, t1.1]
  generalize spread64 m.rn d.diffusion d.efield _ _ = o at s2
  cases o with
  | none => rfl
  | some s =>
    simp only
    split_ifs with hs
    · congr 1
      unfold point_transport64
      rw [position_same hr hf hg (hx.trans (pow_le_pow_right₀ (by norm_num) (by decide)))
        (hy.trans (pow_le_pow_right₀ (by norm_num) (by decide)))]
    · rcases s2 s rfl with h0 | ⟨h1, h2⟩
      · exact absurd h0 hs
      · rw [transverse_same hr hm hf grid hg _ hx hy h1 h2 hn]

theorem zip_map_left {α β γ : Type} (g : α → β) : ∀ (l : List α) (l' : List γ),
    (l.map g).zip l' = (l.zip l').map fun p => (g p.1, p.2)
  | [], _ => by simp
  | _ :: _, [] => by simp
  | a :: l, c :: l' => by simp [zip_map_left g l l']

theorem mem_maskSel {α : Type} {a : α} : ∀ {mask : List Bool} {l : List α}, a ∈ maskSel mask l → a ∈ l
  | [], _, h => by simp [maskSel] at h
  | _ :: _, [], h => by simp [maskSel] at h
  | b :: mask, c :: l, h => by
    unfold maskSel at h
    cases b
    · exact List.mem_cons_of_mem _ (mem_maskSel (by simpa using h))
    · rcases List.mem_cons.1 (by simpa using h) with h | h
      · rw [h]; exact List.mem_cons_self
      · exact List.mem_cons_of_mem _ (mem_maskSel h)

theorem foldlM_same {α β : Type} {F G : β → α → Except PyErr β} : ∀ (l : List α),
    (∀ a ∈ l, ∀ s, F s a = G s a) → ∀ s, l.foldlM F s = l.foldlM G s
  | [], _, _ => rfl
  | a :: l, h, s => by
    rw [List.foldlM_cons, List.foldlM_cons, h a (by simp) s]
    congr 1
    funext t
    exact foldlM_same l (fun b hb => h b (by simp [hb])) t

/-- **C111, drift.** The transport of a track, from the height of its points to the dictionary of the charges on the
pads, is free of overflow. -/
theorem C111_drift (hr : Rounding m.rn) (hm : m.Range) (hf : SameBelow m.rn f) {config : Config}
    (h : DetectorRange config.det_params config.elec_params) (grid : PadGrid) {g : GridEdges}
    (hg : GridRange g) (track : List Row) (hin : ∀ r ∈ track, |r.x| ≤ 2 ^ 20 ∧ |r.y| ≤ 2 ^ 20 ∧
      |r.z| ≤ 2 ^ 20 ∧ r.z ≤ config.det_params.length) (electrons : List ℤ) (points : Points) (label : ℤ) :
    drift_track64 (m.withRounding f) config grid g track electrons points label =
      drift_track64 m config grid g track electrons points label := by
  unfold drift_track64 transport_track64
  simp only
  rw [zip_map_left, zip_map_left, List.foldlM_map, List.foldlM_map]
  apply foldlM_same
  intro re hre s
  obtain ⟨h1, h2⟩ := List.of_mem_zip hre
  obtain ⟨hx, hy, hz, hzl⟩ := hin re.1 (mem_maskSel h1)
  obtain ⟨n, -, hn⟩ := List.mem_map.1 h2
  have hn' : |re.2| ≤ 2 ^ 63 := by rw [← hn]; exact wrap64_abs _
  exact step_same hr hm hf grid hg h hx hy hz hzl hn' s label

end

section
variable {rn f : ℝ → ℝ}

/-- Magnitudes of a momentum: a component is at most `2^50` times the mass, and one is at
least `2^-50` times the mass (a kinetic energy of `10^-30` of the mass). -/
structure MomentumRange (s : Row) : Prop where
  x : |s.gvx| ≤ 2 ^ 50
  y : |s.gvy| ≤ 2 ^ 50
  z : |s.gvz| ≤ 2 ^ 50
  moving : (2 : ℝ) ^ (-50 : ℤ) ≤ |s.gvx| ∨ (2 : ℝ) ^ (-50 : ℤ) ≤ |s.gvy| ∨ (2 : ℝ) ^ (-50 : ℤ) ≤ |s.gvz|

theorem gv_same (hr : Rounding rn) (hf : SameBelow rn f) {s : Row} (hs : MomentumRange s) :
    Same 102 (gv64 f s) (gv64 rn s) ∧ Away 100 (gv64 f s) (gv64 rn s) := by
  have x1 := (Same.of hs.x).sq.round hr hf (by decide)
  have y1 := (Same.of hs.y).sq.round hr hf (by decide)
  have z1 := (Same.of hs.z).sq.round hr hf (by decide)
  have xy := x1.add y1
  have xy1 := xy.round hr hf (by decide)
  have xyz := xy1.add z1
  have xyz1 := xyz.round hr hf (by decide)
  have out := xyz1.sqrt.round hr hf (by decide)
  refine ⟨out.mono (by decide), ?_⟩
  have hx0 := hr.nonneg (sq_nonneg s.gvx)
  have hy0 := hr.nonneg (sq_nonneg s.gvy)
  have hz0 := hr.nonneg (sq_nonneg s.gvz)
  have hpow : ∀ {t : ℝ}, (2 : ℝ) ^ (-50 : ℤ) ≤ |t| → |t| ≤ 2 ^ 50 → (2 : ℝ) ^ (-100 : ℤ) ≤ rn (t ^ 2) := by
    intro t h1 h2
    have h3 := ((Away.of (k := 50) h1).sq.round hr hf (by decide) (Same.of h2).sq.2 (by decide)).2
    rwa [abs_of_nonneg (hr.nonneg (sq_nonneg t))] at h3
  have hmem : (2 : ℝ) ^ (-100 : ℤ) ∈ Binary64 := pow_neg_mem (k := 100) (by decide)
  have hsum : (2 : ℝ) ^ (-100 : ℤ) ≤ rn (rn (s.gvx ^ 2) + rn (s.gvy ^ 2)) + rn (s.gvz ^ 2) := by
    rcases hs.moving with h | h | h
    · have := hr.ge_of_ge hmem (show (2 : ℝ) ^ (-100 : ℤ) ≤ rn (s.gvx ^ 2) + rn (s.gvy ^ 2) by
        linarith [hpow h hs.x])
      linarith
    · have := hr.ge_of_ge hmem (show (2 : ℝ) ^ (-100 : ℤ) ≤ rn (s.gvx ^ 2) + rn (s.gvy ^ 2) by
        linarith [hpow h hs.y])
      linarith
    · have := hr.nonneg (add_nonneg hx0 hy0)
      linarith [hpow h hs.z]
  have hpos : (0 : ℝ) < 2 ^ (-100 : ℤ) := by positivity
  have a1 : Away 100 (f (f (s.gvx ^ 2) + f (s.gvy ^ 2)) + f (s.gvz ^ 2))
      (rn (rn (s.gvx ^ 2) + rn (s.gvy ^ 2)) + rn (s.gvz ^ 2)) :=
    ⟨xyz.1, by rw [abs_of_pos (by linarith)]; exact hsum⟩
  have a2 := a1.round hr hf (by decide) xyz.2 (by decide)
  exact (a2.sqrt (hr.nonneg (by linarith))).round hr hf (by decide) xyz1.sqrt.2 (by decide)

theorem energy_same (hr : Rounding rn) (hf : SameBelow rn f) {gv gv' : ℝ} (h1 : Same 102 gv' gv)
    (h2 : Away 100 gv' gv) {mass : ℝ} (hm : |mass| ≤ 2 ^ 50) :
    beta64 f gv' = beta64 rn gv ∧ beta64 rn gv ≠ 0 ∧
    Same 559 (kinetic64 f mass gv') (kinetic64 rn mass gv) := by
  have one : Same 0 (1 : ℝ) 1 := Same.of (by norm_num)
  have q1 := h1.sq.round hr hf (by decide)
  have q2 := h2.sq.round hr hf (by decide) h1.sq.2 (by decide)
  have s1 := one.add q1
  have s2 := s1.round hr hf (by decide)
  have hq0 := hr.nonneg (sq_nonneg gv)
  have s3 : Away 0 (f (1 + f (gv' ^ 2))) (rn (1 + rn (gv ^ 2))) := by
    have : Away 0 (1 + f (gv' ^ 2)) (1 + rn (gv ^ 2)) := by
      refine ⟨s1.1, ?_⟩
      rw [abs_of_pos (by linarith)]
      simpa using hq0
    exact this.round hr hf (by decide) s1.2 (by decide)
  have d1 := q1.div s3
  have d2 := d1.round hr hf (by decide)
  have d3 := (q2.div s2 s3.ne).round hr hf (by decide) d1.2 (by decide)
  have hd0 : 0 ≤ rn (rn (gv ^ 2) / rn (1 + rn (gv ^ 2))) :=
    hr.nonneg (div_nonneg hq0 (hr.nonneg (by linarith)))
  have b1 := d2.sqrt.round hr hf (by decide)
  have b2 := (d3.sqrt hd0).round hr hf (by decide) d2.sqrt.2 (by decide)
  refine ⟨b1.1, b2.ne, ?_⟩
  have g1 := (h1.div b2).round hr hf (by decide)
  have g2 := (g1.sub one).round hr hf (by decide)
  exact (((Same.of hm).mul g2).round hr hf (by decide)).mono (by decide)

/-- **C111, stopping condition.** -/
theorem C111_stop (hr : Rounding rn) (hf : SameBelow rn f) {s : Row} (hs : MomentumRange s) {nucleus : Nucleus}
    (hm : |nucleus.mass| ≤ 2 ^ 50) : stop_condition64 f s nucleus = stop_condition64 rn s nucleus := by
  obtain ⟨g1, g2⟩ := gv_same hr hf hs
  obtain ⟨b1, b2, k1⟩ := energy_same hr hf g1 g2 hm
  have lim : Same 0 (1e-6 : ℝ) 1e-6 := Same.of (by norm_num [abs_of_pos])
  unfold stop_condition64
  simp only
  rw [b1, if_neg b2, if_neg b2, ((k1.sub (lim.round hr hf (by decide))).round hr hf (by decide)).1]

/-- Two lists of numbers or NaN agree, and the numbers are at most `2^k`. -/
def SameList (k : ℕ) (l' l : List (Option ℝ)) : Prop := l' = l ∧ ∀ x, some x ∈ l → |x| ≤ 2 ^ k

theorem lost_go_same (hr : Rounding rn) (hf : SameBelow rn f) {k : ℕ} (hk : k ≤ 1000) :
    ∀ (l : List (Option ℝ)) (e : Option ℝ), (∀ x, e = some x → |x| ≤ 2 ^ k) → (∀ x, some x ∈ l → |x| ≤ 2 ^ k) →
    SameList (k + 1) (energy_lost64.go f e l) (energy_lost64.go rn e l)
  | [], e, _, _ => ⟨rfl, by intro x hx; simp [energy_lost64.go] at hx⟩
  | b :: rest, e, he, hl => by
    obtain ⟨i1, i2⟩ := lost_go_same hr hf hk rest b (fun x hx => hl x (by simp [hx]))
      (fun x hx => hl x (by simp [hx]))
    have key : ∀ x y, e = some x → b = some y → Same (k + 1) |f (y - x)| |rn (y - x)| := by
      intro x y hx hy
      have := (((Same.of (hl y (by simp [hy]))).sub (Same.of (he x hx))).round hr hf (by simp; omega)).abs
      exact this.mono (by simp)
    constructor
    · unfold energy_lost64.go
      rw [i1]
      congr 1
      cases e with
      | none => rfl
      | some x =>
        cases b with
        | none => rfl
        | some y => exact congrArg some (key x y rfl rfl).1
    · intro x hx
      unfold energy_lost64.go at hx
      rcases List.mem_cons.1 hx with h | h
      · cases e with
        | none => simp at h
        | some u =>
          cases b with
          | none => simp at h
          | some v =>
            have : x = |rn (v - u)| := by simpa using h
            rw [this]
            exact (key u v rfl rfl).2
      · exact i2 x h

theorem lost_same (hr : Rounding rn) (hf : SameBelow rn f) {k : ℕ} (hk : k ≤ 1000) {l : List (Option ℝ)}
    (hl : ∀ x, some x ∈ l → |x| ≤ 2 ^ k) : SameList (k + 1) (energy_lost64 f l) (energy_lost64 rn l) := by
  cases l with
  | nil => exact ⟨rfl, by intro x hx; simp [energy_lost64] at hx⟩
  | cons e es =>
    obtain ⟨h1, h2⟩ := lost_go_same hr hf hk es e (fun x hx => hl x (by simp [hx]))
      (fun x hx => hl x (by simp [hx]))
    constructor
    · simp only [energy_lost64]
      rw [h1]
    · intro x hx
      simp only [energy_lost64] at hx
      rcases List.mem_cons.1 hx with h | h
      · have : x = 0 := by simpa using h
        rw [this]; simp
      · exact h2 x h

theorem draws_same {σ : Type} (hr : Rounding rn) (hf : SameBelow rn f) {std : σ → ℝ × σ}
    (hstd : ∀ s, |(std s).1| ≤ 2 ^ 20) {fano : ℝ} (hF : |fano| ≤ 2 ^ 20) :
    ∀ (l : List (Option ℝ)) (_ : ∀ x, some x ∈ l → |x| ≤ 2 ^ 700) (s : σ),
      fano_draws64 f std fano l s = fano_draws64 rn std fano l s
  | [], _, _ => rfl
  | p :: l, hl, s => by
    have h1 : fano_draw64 f std fano p s = fano_draw64 rn std fano p s := by
      cases p with
      | none => rfl
      | some x =>
        have hx : Same 700 x x := Same.of (hl x (by simp))
        have q1 := ((Same.of hF).mul hx).round hr hf (by decide)
        have q2 := q1.sqrt.round hr hf (by decide)
        have q3 := (q2.mul (Same.of (hstd s))).round hr hf (by decide)
        have q4 := (hx.add q3).round hr hf (by decide)
        unfold fano_draw64 npSqrt
        simp only
        by_cases hneg : rn (fano * x) < 0
        · rw [if_pos hneg, if_pos (by rw [q1.1]; exact hneg)]
        · rw [if_neg hneg, if_neg (by rw [q1.1]; exact hneg)]
          simp only
          rw [q4.1]
    rw [fano_draws64, fano_draws64, h1]
    congr 1
    funext r
    obtain ⟨v, s'⟩ := r
    simp only
    rw [draws_same hr hf hstd hF l (fun x hx => hl x (by simp [hx])) s']

/-- **C111, electrons.** The kinetic energies along a track and the numbers of primary electrons are free of overflow. -/
theorem C111_electrons {σ : Type} (hr : Rounding rn) (hf : SameBelow rn f) {std : σ → ℝ × σ}
    (hstd : ∀ s, |(std s).1| ≤ 2 ^ 20) {params : DetectorParams} (hF : |params.fano_factor| ≤ 2 ^ 20)
    (hW : (2 : ℝ) ^ (-20 : ℤ) ≤ |params.w_value|) {nucleus : Nucleus} (hm : |nucleus.mass| ≤ 2 ^ 50)
    (track : List Row) (ht : ∀ r ∈ track, MomentumRange r) (s : σ) :
    generate_electrons64 f std track nucleus params s = generate_electrons64 rn std track nucleus params s := by
  have e1 : ∀ r ∈ track, track_energy64 f nucleus r = track_energy64 rn nucleus r ∧
      ∀ x, track_energy64 rn nucleus r = some x → |x| ≤ 2 ^ 559 := by
    intro r hr'
    obtain ⟨g1, g2⟩ := gv_same hr hf (ht r hr')
    obtain ⟨b1, b2, k1⟩ := energy_same hr hf g1 g2 hm
    unfold track_energy64
    simp only
    rw [b1, if_neg b2, if_neg b2, k1.1]
    refine ⟨rfl, ?_⟩
    intro x hx
    rw [← Option.some.inj hx]
    exact k1.2
  have e2 : track.map (track_energy64 f nucleus) = track.map (track_energy64 rn nucleus) :=
    List.map_congr_left fun r hr' => (e1 r hr').1
  obtain ⟨l1, l2⟩ := lost_same hr hf (k := 559) (by decide) (l := track.map (track_energy64 rn nucleus)) (by
    intro x hx
    obtain ⟨r, hr', h⟩ := List.mem_map.1 hx
    exact (e1 r hr').2 x h)
  have mil : Same 20 (1.0e6 : ℝ) 1.0e6 := Same.of (by norm_num [abs_of_pos])
  have hw : Away 20 params.w_value params.w_value := Away.of hW
  have conv := (mil.div hw).round hr hf (by decide)
  have key : ∀ x, |x| ≤ 2 ^ 560 → Same 700 (f (x * f (1.0e6 / params.w_value)))
      (rn (x * rn (1.0e6 / params.w_value))) := by
    intro x hx
    exact (((Same.of hx).mul conv).round hr hf (by decide)).mono (by decide)
  unfold generate_electrons64
  simp only
  rw [if_neg hw.ne, if_neg hw.ne, e2, l1]
  have e3 : (energy_lost64 rn (track.map (track_energy64 rn nucleus))).map
        (Option.map fun x => f (x * f (1.0e6 / params.w_value))) =
      (energy_lost64 rn (track.map (track_energy64 rn nucleus))).map
        (Option.map fun x => rn (x * rn (1.0e6 / params.w_value))) := by
    apply List.map_congr_left
    intro o ho
    cases o with
    | none => rfl
    | some x => exact congrArg some (key x (l2 x ho)).1
  rw [e3]
  apply draws_same hr hf hstd hF
  intro x hx
  obtain ⟨o, ho, h⟩ := List.mem_map.1 hx
  cases o with
  | none => simp at h
  | some y =>
    rw [← Option.some.inj h]
    exact (key y (l2 y ho)).2

/-- The running sum of at most 512 rounded additions. -/
theorem sum_same (hr : Rounding rn) (hf : SameBelow rn f) : ∀ (l : List ℝ) (_ : ∀ x ∈ l, |x| ≤ 2 ^ 300) (k : ℕ)
    (_ : 300 ≤ k) (_ : k + l.length ≤ 1023) (a : ℝ) (_ : |a| ≤ 2 ^ k),
    l.foldl (fun a x => f (a + x)) a = l.foldl (fun a x => rn (a + x)) a
  | [], _, _, _, _, _, _ => rfl
  | x :: l, hl, k, h3, hk, a, ha => by
    rw [List.length_cons] at hk
    have := (((Same.of ha).add (Same.of (hl x (by simp)))).round hr hf (by simp; omega)).mono
      (by simp; omega : _ ≤ k + 1)
    rw [List.foldl_cons, List.foldl_cons, this.1]
    exact sum_same hr hf l (fun y hy => hl y (by simp [hy])) (k + 1) (by omega) (by omega) _ this.2

theorem mapM_same {α β : Type} {F G : α → Except PyErr β} : ∀ (l : List α), (∀ a ∈ l, F a = G a) →
    l.mapM F = l.mapM G
  | [], _ => rfl
  | a :: l, h => by
    rw [List.mapM_cons, List.mapM_cons, h a (by simp), mapM_same l fun b hb => h b (by simp [hb])]

/-- **C111, rows.** The conversion of the points of an event to the rows of the output is free of overflow. -/
theorem C111_rows (hr : Rounding rn) (hf : SameBelow rn f) (points : List CloudPoint)
    (hp : ∀ p ∈ points, |p.e| ≤ 2 ^ 100 ∧ |p.tb| ≤ 2 ^ 63) {window_edge mm_edge : ℤ} (hw : |window_edge| ≤ 2 ^ 63)
    {length : ℝ} (hl : |length| ≤ 2 ^ 100) (response : List ℝ) (hn : response.length ≤ 512)
    (hresp : ∀ r ∈ response, |r| ≤ 2 ^ 200) (centers : List (ℝ × ℝ)) (sizes : List ℝ) :
    convert_to_spyral64 f points window_edge mm_edge length response centers sizes =
      convert_to_spyral64 rn points window_edge mm_edge length response centers sizes := by
  unfold convert_to_spyral64
  apply mapM_same
  intro p hp'
  obtain ⟨he, ht⟩ := hp p hp'
  have m1 : ∀ r ∈ response, Same 300 (f (r * p.e)) (rn (r * p.e)) := fun r hr' =>
    ((Same.of (hresp r hr')).mul (Same.of he)).round hr hf (by decide)
  have sig : signal64 f response p.e = signal64 rn response p.e := by
    unfold signal64
    simp only [List.map_map]
    apply List.map_congr_left
    intro r hr'
    simp only [Function.comp_apply]
    rw [(m1 r hr').1]
  have app : apply_response64 f response p.e = apply_response64 rn response p.e := by
    unfold apply_response64
    simp only
    rw [sig]
    congr 1
    refine sum_same hr hf _ ?_ 300 le_rfl ?_ 0 (by simp)
    · intro x hx
      unfold signal64 at hx
      simp only [List.map_map] at hx
      obtain ⟨r, hr', rfl⟩ := List.mem_map.1 hx
      simp only [Function.comp_apply]
      split_ifs
      · rw [abs_of_pos (by norm_num)]
        exact le_trans (by norm_num : (4095 : ℝ) ≤ 2 ^ 12) (pow_le_pow_right₀ (by norm_num) (by decide))
      · exact (m1 r hr').2
    · unfold signal64
      simp only [List.length_map]
      omega
  unfold convert_point64
  rw [app]
  by_cases hedge : window_edge - mm_edge = 0
  · simp only [hedge, if_true]
  · have hN : (1 : ℝ) ≤ |((window_edge - mm_edge : ℤ) : ℝ)| := by
      have : 1 ≤ |window_edge - mm_edge| := Int.one_le_abs hedge
      exact_mod_cast this
    have th : Same 10 (1000 : ℝ) 1000 := Same.of (by norm_num [abs_of_pos])
    have q1 := ((Same.int hw).sub (Same.of ht)).round hr hf (by decide)
    have q2 := (q1.div (Away.of (k := 0) (by simpa using hN))).round hr hf (by decide)
    have q3 := (q2.mul (Same.of hl)).round hr hf (by decide)
    have q4 := (q3.mul th).round hr hf (by decide)
    have pos : position64 f window_edge mm_edge length p.tb = position64 rn window_edge mm_edge length p.tb := by
      unfold position64
      push_cast
      exact q4.1
    rw [pos]

end

/-- The operations of `k` with another rounding. -/
noncomputable def Kin64.withRounding (k : Kin64) (f : ℝ → ℝ) : Kin64 := { k with rn := f }

/-- All components of a four-vector are at most `2^100`. -/
structure VecRange (v : Vec4) : Prop where
  px : |v.px| ≤ 2 ^ 100
  py : |v.py| ≤ 2 ^ 100
  pz : |v.pz| ≤ 2 ^ 100
  E : |v.E| ≤ 2 ^ 100

/-- Magnitudes needed of `np.sin` and `np.cos`. -/
structure Kin64.Range (k : Kin64) : Prop where
  sin : ∀ x, |k.sin x| ≤ 2
  cos : ∀ x, |k.cos x| ≤ 2

section
variable {k : Kin64} {f : ℝ → ℝ}

theorem sqrt64_same (hr : Rounding k.rn) (hf : SameBelow k.rn f) {j : ℕ} (hj : j ≤ 1023) {a b : ℝ} (h : Same j a b) :
    npSqrt64 f a = npSqrt64 k.rn b ∧ ∀ p, npSqrt64 k.rn b = some p → |p| ≤ 2 ^ j := by
  have q := h.sqrt.round hr hf hj
  unfold npSqrt64
  constructor
  · rw [q.1, h.1]
  · intro p hp
    split_ifs at hp
    rw [← Option.some.inj hp]
    exact q.2

theorem cmVector_same (hr : Rounding k.rn) (hk : k.Range) (hf : SameBelow k.rn f) {m1 m2 m2' e polar azimuth : ℝ}
    (h1 : |m1| ≤ 2 ^ 100) (h2 : Same 100 m2' m2) (he : |e| ≤ 2 ^ 100) (he' : (2 : ℝ) ^ (-100 : ℤ) ≤ |e|) :
    cmVector64 (k.withRounding f) m1 m2' e polar azimuth = cmVector64 k m1 m2 e polar azimuth := by
  have two : Same 1 (2 : ℝ) 2 := Same.of (by norm_num [abs_of_pos])
  have two' : Away 0 (2 : ℝ) 2 := Away.of (by norm_num [abs_of_pos])
  have hs : Same 100 e e := Same.of he
  have ha : Away 100 e e := Away.of he'
  have d1 := (two.mul hs).round hr hf (by decide)
  have d2 := (two'.mul ha).round hr hf (by decide) (two.mul hs).2 (by decide)
  have a1 := (Same.of h1).sq.round hr hf (by decide)
  have a2 := h2.sq.round hr hf (by decide)
  have a3 := hs.sq.round hr hf (by decide)
  have n1 := (((a1.sub a2).round hr hf (by decide)).add a3).round hr hf (by decide)
  have e1 := (n1.div d2).round hr hf (by decide)
  have r1 := ((e1.sq.round hr hf (by decide)).sub a1).round hr hf (by decide)
  obtain ⟨s1, s2⟩ := sqrt64_same hr hf (by decide) r1
  unfold cmVector64 Kin64.withRounding
  simp only
  rw [s1, if_neg (by rw [d1.1]; exact d2.ne), if_neg d2.ne]
  generalize npSqrt64 k.rn _ = o at s2
  cases o with
  | none => rfl
  | some p =>
    have hp := Same.of (s2 p rfl)
    have sp := (hp.mul (Same.of (k := 1) (a := k.sin polar) (by simpa using hk.sin polar))).round hr hf (by decide)
    have x := (sp.mul (Same.of (k := 1) (a := k.cos azimuth) (by simpa using hk.cos azimuth))).round hr hf (by decide)
    have y := (sp.mul (Same.of (k := 1) (a := k.sin azimuth) (by simpa using hk.sin azimuth))).round hr hf (by decide)
    have z := (hp.mul (Same.of (k := 1) (a := k.cos polar) (by simpa using hk.cos polar))).round hr hf (by decide)
    simp only
    rw [x.1, y.1, z.1, e1.1]


/-- Magnitudes of the masses of a reaction: between `2^-50` and `2^50` MeV in any case. -/
structure MassRange (r : Reaction) : Prop where
  target : |r.target.mass| ≤ 2 ^ 50
  projectile : |r.projectile.mass| ≤ 2 ^ 50
  ejectile : |r.ejectile.mass| ≤ 2 ^ 50
  residual : |r.residual.mass| ≤ 2 ^ 50
  /-- the difference in the denominator of the threshold is zero or not tiny -/
  gap : k.rn (k.rn (r.ejectile.mass + r.residual.mass) - r.projectile.mass) = 0 ∨
    (2 : ℝ) ^ (-50 : ℤ) ≤ |k.rn (k.rn (r.ejectile.mass + r.residual.mass) - r.projectile.mass)|

/-- **C111, test of a sample.** -/
theorem C111_allowed (hr : Rounding k.rn) (hf : SameBelow k.rn f) {r : Reaction} (hm : MassRange (k := k) r) {T ex : ℝ}
    (hT : |T| ≤ 2 ^ 50) (hx : |ex| ≤ 2 ^ 50) :
    reaction_allowed64 (k.withRounding f) r T ex = reaction_allowed64 k r T ex := by
  have two : Same 1 (2 : ℝ) 2 := Same.of (by norm_num [abs_of_pos])
  have t1 : Same 50 T T := Same.of hT
  have p1 := ((two.mul (Same.of hm.projectile)).round hr hf (by decide))
  have p2 := (t1.mul ((t1.add p1).round hr hf (by decide))).round hr hf (by decide)
  obtain ⟨s1, s2⟩ := sqrt64_same hr hf (by decide) p2
  have o1 := (((((Same.of hm.ejectile).add (Same.of hm.residual)).round hr hf (by decide)).add
    (Same.of hx)).round hr hf (by decide))
  have w1 := ((((((Same.of hm.target).add t1).round hr hf (by decide)).add (Same.of hm.projectile)).round hr hf
    (by decide)).sq.round hr hf (by decide))
  unfold reaction_allowed64 Kin64.withRounding
  simp only
  simp only [s1, o1.1]
  generalize npSqrt64 k.rn (k.rn (T * _)) = o at s2
  cases o with
  | none => rfl
  | some pz =>
    have q1 := (w1.sub ((Same.of (s2 pz rfl)).sq.round hr hf (by decide))).round hr hf (by decide)
    simp only
    rw [(sqrt64_same hr hf (by decide) q1).1]

/-- The total four-momentum of beam and target as computed in float64. -/
noncomputable def parent64 (rn : ℝ → ℝ) (r : Reaction) (T pz : ℝ) : Vec4 :=
  add64 rn { px := 0, py := 0, pz := 0, E := r.target.mass }
    { px := 0, py := 0, pz := pz, E := rn (T + r.projectile.mass) }

/-- **C111, reaction.** If the boosts of the `vector` package return numbers of reasonable size for the vectors they are
applied to, `Reaction.calculate` is free of overflow. -/
theorem C111_reaction (hr : Rounding k.rn) (hk : k.Range) (hf : SameBelow k.rn f) {r : Reaction}
    (hm : MassRange (k := k) r) {T ex polar azimuth : ℝ} (hT : |T| ≤ 2 ^ 50) (hx : |ex| ≤ 2 ^ 50)
    (hcm : ∀ pz v, npSqrt64 k.rn (k.rn (T * k.rn (T + k.rn (2 * r.projectile.mass)))) = some pz →
      k.boostCM_of (parent64 k.rn r T pz) (parent64 k.rn r T pz) = some v →
      |v.E| ≤ 2 ^ 100 ∧ (2 : ℝ) ^ (-100 : ℤ) ≤ |v.E| ∧
      ∀ u w, cmVector64 k r.ejectile.mass (k.rn (r.residual.mass + ex)) v.E polar azimuth = some u →
        k.boost u (parent64 k.rn r T pz) = some w → VecRange w) :
    reaction_calculate64 (k.withRounding f) r T polar azimuth ex = reaction_calculate64 k r T polar azimuth ex := by
  have two : Same 1 (2 : ℝ) 2 := Same.of (by norm_num [abs_of_pos])
  have zero : Same 0 (0 : ℝ) 0 := Same.of (by norm_num)
  have t1 : Same 50 T T := Same.of hT
  have er := ((Same.of hm.ejectile).add (Same.of hm.residual)).round hr hf (by decide)
  have tp := ((Same.of hm.target).add (Same.of hm.projectile)).round hr hf (by decide)
  have q := (tp.sub ((er.add (Same.of hx)).round hr hf (by decide))).round hr hf (by decide)
  have gap := (er.sub (Same.of hm.projectile)).round hr hf (by decide)
  have p1 := ((two.mul (Same.of hm.projectile)).round hr hf (by decide))
  have p2 := (t1.mul ((t1.add p1).round hr hf (by decide))).round hr hf (by decide)
  obtain ⟨s1, s2⟩ := sqrt64_same hr hf (by decide) p2
  have m2 := ((Same.of hm.residual).add (Same.of hx)).round hr hf (by decide)
  have pe := (t1.add (Same.of hm.projectile)).round hr hf (by decide)
  unfold reaction_calculate64
  rw [show (k.withRounding f).rn = f from rfl, show (k.withRounding f).boostCM_of = k.boostCM_of from rfl,
    show (k.withRounding f).boost = k.boost from rfl]
  simp only
  by_cases hg : k.rn (k.rn (r.ejectile.mass + r.residual.mass) - r.projectile.mass) = 0
  · rw [if_pos hg, if_pos (by rw [gap.1]; exact hg)]
  rw [if_neg hg, if_neg (by rw [gap.1]; exact hg)]
  have ga : Away 50 (f (f (r.ejectile.mass + r.residual.mass) - r.projectile.mass))
      (k.rn (k.rn (r.ejectile.mass + r.residual.mass) - r.projectile.mass)) :=
    ⟨gap.1, hm.gap.resolve_left hg⟩
  have th := (((q.neg.mul er).round hr hf (by decide)).div ga).round hr hf (by decide)
  rw [th.1, s1, pe.1]
  split_ifs with hth
  · rfl
  generalize npSqrt64 k.rn (k.rn (T * _)) = o at s2 hcm
  cases o with
  | none => rfl
  | some pz =>
    have hz := Same.of (s2 pz rfl)
    have z1 := (zero.add zero).round hr hf (by decide)
    have z2 := (zero.add hz).round hr hf (by decide)
    have z3 := ((Same.of hm.target).add pe).round hr hf (by decide)
    have hadd : add64 f { px := 0, py := 0, pz := 0, E := r.target.mass }
        { px := 0, py := 0, pz := pz, E := k.rn (T + r.projectile.mass) } = parent64 k.rn r T pz := by
      unfold add64 parent64 add64
      simp only
      rw [z1.1, z2.1, ← pe.1, z3.1, pe.1]
    simp only
    rw [hadd]
    change _ = match k.boostCM_of (parent64 k.rn r T pz) (parent64 k.rn r T pz) with
      | none => _
      | some parent_cm => _
    have b1 := fun v => hcm pz v rfl
    generalize k.boostCM_of (parent64 k.rn r T pz) (parent64 k.rn r T pz) = o1 at b1
    cases o1 with
    | none => rfl
    | some v =>
      obtain ⟨v1, v2, b2⟩ := b1 v rfl
      simp only
      rw [cmVector_same hr hk hf (hm.ejectile.trans (pow_le_pow_right₀ (by norm_num) (by decide)))
        (m2.mono (by decide)) v1 v2]
      generalize cmVector64 k _ _ _ _ _ = o2 at b2
      cases o2 with
      | none => rfl
      | some u =>
        simp only
        change _ = match k.boost u (parent64 k.rn r T pz) with
          | none => _
          | some eject_vec => _
        have b3 := fun w => b2 u w rfl
        generalize k.boost u (parent64 k.rn r T pz) = o3 at b3
        cases o3 with
        | none => rfl
        | some w =>
          have hw := b3 w rfl
          simp only
          congr 5
          change sub64 f (parent64 k.rn r T pz) w = sub64 k.rn (parent64 k.rn r T pz) w
          have x := ((Same.of (a := (parent64 k.rn r T pz).px) z1.2).sub (Same.of hw.px)).round hr hf (by decide)
          have y := ((Same.of (a := (parent64 k.rn r T pz).py) z1.2).sub (Same.of hw.py)).round hr hf (by decide)
          have z := ((Same.of (a := (parent64 k.rn r T pz).pz) z2.2).sub (Same.of hw.pz)).round hr hf (by decide)
          have e := ((Same.of (a := (parent64 k.rn r T pz).E) z3.2).sub (Same.of hw.E)).round hr hf (by decide)
          unfold sub64
          rw [x.1, y.1, z.1, e.1]

/-- **C111, decay.** The same for `Decay.calculate`. -/
theorem C111_decay (hr : Rounding k.rn) (hk : k.Range) (hf : SameBelow k.rn f) {d : Decay}
    (h1 : |d.residual_1.mass| ≤ 2 ^ 50) (h2 : |d.residual_2.mass| ≤ 2 ^ 50) {P : Vec4} (hP : VecRange P)
    {ex polar azimuth : ℝ} (hx : |ex| ≤ 2 ^ 50) (hM : |k.M P| ≤ 2 ^ 100)
    (hcm : ∀ v, k.boostCM_of P P = some v → |v.E| ≤ 2 ^ 100 ∧ (2 : ℝ) ^ (-100 : ℤ) ≤ |v.E| ∧
      ∀ u w, cmVector64 k d.residual_1.mass (k.rn (d.residual_2.mass + ex)) v.E polar azimuth = some u →
        k.boost u P = some w → VecRange w) :
    decay_allowed64 (k.withRounding f) d P ex = decay_allowed64 k d P ex ∧
    decay_calculate64 (k.withRounding f) d P polar azimuth ex = decay_calculate64 k d P polar azimuth ex := by
  have er := ((Same.of h1).add (Same.of h2)).round hr hf (by decide)
  have q := ((Same.of hM).sub ((er.add (Same.of hx)).round hr hf (by decide))).round hr hf (by decide)
  have m2 := ((Same.of h2).add (Same.of hx)).round hr hf (by decide)
  constructor
  · unfold decay_allowed64
    rw [show (k.withRounding f).rn = f from rfl, show (k.withRounding f).M = k.M from rfl]
    simp only
    rw [q.1]
  unfold decay_calculate64
  rw [show (k.withRounding f).rn = f from rfl, show (k.withRounding f).boostCM_of = k.boostCM_of from rfl,
    show (k.withRounding f).boost = k.boost from rfl, show (k.withRounding f).M = k.M from rfl]
  simp only
  rw [q.1]
  split_ifs with hq
  · rfl
  generalize k.boostCM_of P P = o1 at hcm
  cases o1 with
  | none => rfl
  | some v =>
    obtain ⟨v1, v2, b2⟩ := hcm v rfl
    simp only
    rw [cmVector_same hr hk hf (h1.trans (pow_le_pow_right₀ (by norm_num) (by decide)))
      (m2.mono (by decide)) v1 v2]
    generalize cmVector64 k _ _ _ _ _ = o2 at b2
    cases o2 with
    | none => rfl
    | some u =>
      simp only
      have b3 := fun w => b2 u w rfl
      generalize k.boost u P = o3 at b3
      cases o3 with
      | none => rfl
      | some w =>
        have hw := b3 w rfl
        have hsub : sub64 f P w = sub64 k.rn P w := by
          have x := ((Same.of hP.px).sub (Same.of hw.px)).round hr hf (by decide)
          have y := ((Same.of hP.py).sub (Same.of hw.py)).round hr hf (by decide)
          have z := ((Same.of hP.pz).sub (Same.of hw.pz)).round hr hf (by decide)
          have e := ((Same.of hP.E).sub (Same.of hw.E)).round hr hf (by decide)
          unfold sub64
          rw [x.1, y.1, z.1, e.1]
        simp only
        rw [hsub]

end

/-! ### Examples: a treatment of overflow that returns 0 -/

/-- Rounding that gives up beyond `2^1023`. -/
noncomputable def cutRounding (rn : ℝ → ℝ) (x : ℝ) : ℝ := if |x| ≤ 2 ^ 1023 then rn x else 0

theorem cutRounding_same (rn : ℝ → ℝ) : SameBelow rn (cutRounding rn) := fun x hx => by
  unfold cutRounding
  rw [if_pos hx]

example (rn : ℝ → ℝ) (hr : Rounding rn) : unpair64 (cutRounding rn) (2 ^ 62 + 17) = unpair64 rn (2 ^ 62 + 17) :=
  C111_unpair hr (cutRounding_same rn) (by norm_num)

/-- The packaged grid. -/
example (rn : ℝ → ℝ) (hr : Rounding rn) : position_to_index64 (cutRounding rn) ⟨-280, 279.9, 0.1⟩ (0.1, -0.25) =
    position_to_index64 rn ⟨-280, 279.9, 0.1⟩ (0.1, -0.25) :=
  C111_grid hr (cutRounding_same rn) ⟨by norm_num [abs_of_neg], by norm_num [abs_of_pos]⟩
    ((by norm_num [abs_of_pos] : |(0.1 : ℝ)| ≤ 2 ^ 1).trans (pow_le_pow_right₀ (by norm_num) (by decide)))
    ((by norm_num [abs_of_neg] : |(-0.25 : ℝ)| ≤ 2 ^ 1).trans (pow_le_pow_right₀ (by norm_num) (by decide)))

/-- A track of three points in a detector of one metre with diffusion. -/
example (m : Math64) (h : m.Ok) (hexp : ∀ x, x ≤ 0 → |m.exp x| ≤ 2) :
    drift_track64 (m.withRounding (cutRounding m.rn)) exShifted exGrid exEdges
      [{ exTrack0 with z := 0.5 }, { exTrack1 with x := 0.1, z := 0.625 }, { exTrack1 with y := -0.2, z := 1 }]
      [20, 0, 35] [(5, (70, 2))] 3 =
    drift_track64 m exShifted exGrid exEdges
      [{ exTrack0 with z := 0.5 }, { exTrack1 with x := 0.1, z := 0.625 }, { exTrack1 with y := -0.2, z := 1 }]
      [20, 0, 35] [(5, (70, 2))] 3 := by
  refine C111_drift h.rounding ⟨?_, hexp⟩ (cutRounding_same m.rn) ⟨?_, ?_, ?_, ?_, ?_, ?_, ?_, Or.inr ⟨?_, ?_⟩⟩ _
    ⟨?_, ?_⟩ _ ?_ _ _ _
  · have h1 := abs_le.1 h.pi
    have h2 : (2 : ℝ) ^ (-50 : ℤ) ≤ 1 := by norm_num
    rw [le_abs]
    left
    linarith [Real.pi_gt_three]
  all_goals norm_num [exShifted, exConfig, exDet, exEdges, exTrack0, exTrack1, abs_of_pos, abs_of_neg]

/-- A carbon nucleus (11178 MeV) that slows down. -/
example (rn : ℝ → ℝ) (hr : Rounding rn) (std : ℕ → ℝ × ℕ) (hstd : ∀ s, |(std s).1| ≤ 2 ^ 20) :
    generate_electrons64 (cutRounding rn) std [⟨0, 0, 0, 0.01, 0, 0.1⟩, ⟨0, 0, 0.1, 0.01, 0, 0.09⟩] ⟨6, 12, 11178, "12C"⟩
      { exDet 1000 0 with w_value := 34, fano_factor := 0.2 } 0 =
    generate_electrons64 rn std [⟨0, 0, 0, 0.01, 0, 0.1⟩, ⟨0, 0, 0.1, 0.01, 0, 0.09⟩] ⟨6, 12, 11178, "12C"⟩
      { exDet 1000 0 with w_value := 34, fano_factor := 0.2 } 0 := by
  refine C111_electrons hr (cutRounding_same rn) hstd ?_ ?_ ?_ _ ?_ _
  · norm_num [exDet, abs_of_pos]
  · norm_num [exDet, abs_of_pos]
  · norm_num [abs_of_pos]
  · intro r hr'
    simp only [List.mem_cons, List.not_mem_nil, or_false] at hr'
    rcases hr' with rfl | rfl
    · exact ⟨by norm_num [abs_of_pos], by norm_num, by norm_num [abs_of_pos], Or.inl (by norm_num [abs_of_pos])⟩
    · exact ⟨by norm_num [abs_of_pos], by norm_num, by norm_num [abs_of_pos], Or.inl (by norm_num [abs_of_pos])⟩

/-- Two points, a response of three samples. -/
example (rn : ℝ → ℝ) (hr : Rounding rn) :
    convert_to_spyral64 (cutRounding rn) [⟨1, 17.25, 1000⟩, ⟨0, 400.5, 123456⟩] 560 10 1 [0, 0.5, 0.25] [(1, 2), (3, 4)]
      [1, 2] =
    convert_to_spyral64 rn [⟨1, 17.25, 1000⟩, ⟨0, 400.5, 123456⟩] 560 10 1 [0, 0.5, 0.25] [(1, 2), (3, 4)] [1, 2] := by
  have big : ∀ {x : ℝ}, |x| ≤ 2 ^ 20 → |x| ≤ 2 ^ 200 := fun h => h.trans (pow_le_pow_right₀ (by norm_num) (by decide))
  refine C111_rows hr (cutRounding_same rn) _ ?_ (by norm_num) (by norm_num) _ (by simp) ?_ _ _
  · intro p hp
    simp only [List.mem_cons, List.not_mem_nil, or_false] at hp
    rcases hp with rfl | rfl <;> norm_num [abs_of_pos]
  · intro r hr'
    simp only [List.mem_cons, List.not_mem_nil, or_false] at hr'
    rcases hr' with rfl | rfl | rfl <;> exact big (by norm_num [abs_of_pos])

/-- Elastic scattering of mass 5 on mass 7 with the standard boosts. -/
example (rn : ℝ → ℝ) (h : Rounding rn) : reaction_calculate64 ((exactKin rn).withRounding (cutRounding rn))
      ⟨⟨1, 7, 7, "t"⟩, ⟨1, 5, 5, "p"⟩, ⟨1, 5, 5, "p"⟩, ⟨1, 7, 7, "t"⟩⟩ 8 (Real.pi / 2) 0 0 =
    reaction_calculate64 (exactKin rn) ⟨⟨1, 7, 7, "t"⟩, ⟨1, 5, 5, "p"⟩, ⟨1, 5, 5, "p"⟩, ⟨1, 7, 7, "t"⟩⟩ 8
      (Real.pi / 2) 0 0 := by
  have d : ∀ {x : ℝ} (n : ℤ), x = n / 16 → |n| < 2 ^ 53 → rn x = x := by
    intro x n hx hn
    rw [hx]
    exact dyadic h n hn
  have r0 : rn (0) = 0 := d (0) (by norm_num) (by norm_num)
  have r1 : rn (3) = 3 := d (48) (by norm_num) (by norm_num)
  have r2 : rn (5) = 5 := d (80) (by norm_num) (by norm_num)
  have r3 : rn (7) = 7 := d (112) (by norm_num) (by norm_num)
  have r4 : rn (8) = 8 := d (128) (by norm_num) (by norm_num)
  have r5 : rn (9) = 9 := d (144) (by norm_num) (by norm_num)
  have r6 : rn (10) = 10 := d (160) (by norm_num) (by norm_num)
  have r7 : rn (12) = 12 := d (192) (by norm_num) (by norm_num)
  have r8 : rn (13) = 13 := d (208) (by norm_num) (by norm_num)
  have r9 : rn (14) = 14 := d (224) (by norm_num) (by norm_num)
  have r10 : rn (15) = 15 := d (240) (by norm_num) (by norm_num)
  have r11 : rn (16) = 16 := d (256) (by norm_num) (by norm_num)
  have r12 : rn (18) = 18 := d (288) (by norm_num) (by norm_num)
  have r13 : rn (20) = 20 := d (320) (by norm_num) (by norm_num)
  have r14 : rn (25) = 25 := d (400) (by norm_num) (by norm_num)
  have r15 : rn (32) = 32 := d (512) (by norm_num) (by norm_num)
  have r16 : rn (49) = 49 := d (784) (by norm_num) (by norm_num)
  have r17 : rn (144) = 144 := d (2304) (by norm_num) (by norm_num)
  have r18 : rn (232) = 232 := d (3712) (by norm_num) (by norm_num)
  have r19 : rn (256) = 256 := d (4096) (by norm_num) (by norm_num)
  have r20 : rn (400) = 400 := d (6400) (by norm_num) (by norm_num)
  have r21 : rn (-24) = -24 := d (-384) (by norm_num) (by norm_num)
  have r22 : rn (6) = 6 := d (96) (by norm_num) (by norm_num)
  have r23 : rn (1) = 1 := d (16) (by norm_num) (by norm_num)
  have r24 : rn (29 / 4) = 29 / 4 := d (116) (by norm_num) (by norm_num)
  have r25 : rn (841 / 16) = 841 / 16 := d (841) (by norm_num) (by norm_num)
  have r26 : rn (441 / 16) = 441 / 16 := d (441) (by norm_num) (by norm_num)
  have r27 : rn (21 / 4) = 21 / 4 := d (84) (by norm_num) (by norm_num)
  have r28 : rn (87 / 16) = 87 / 16 := d (87) (by norm_num) (by norm_num)
  have r29 : rn (145 / 16) = 145 / 16 := d (145) (by norm_num) (by norm_num)
  have r30 : rn (-(21 / 4)) = -(21 / 4) := d (-84) (by norm_num) (by norm_num)
  have r31 : rn (105 / 16) = 105 / 16 := d (105) (by norm_num) (by norm_num)
  have r32 : rn (175 / 16) = 175 / 16 := d (175) (by norm_num) (by norm_num)
  have r33 : rn (24) = 24 := d (384) (by norm_num) (by norm_num)
  have r34 : rn (7 / 2) = 7 / 2 := d (56) (by norm_num) (by norm_num)
  have r35 : rn (49 / 4) = 49 / 4 := d (196) (by norm_num) (by norm_num)
  have r36 : rn (13 / 4) = 13 / 4 := d (52) (by norm_num) (by norm_num)
  have r37 : rn (-7) = -7 := d (-112) (by norm_num) (by norm_num)
  have r38 : rn (512) = 512 := d (8192) (by norm_num) (by norm_num)
  have s16 : Real.sqrt 256 = 16 := by rw [show (256 : ℝ) = 16 ^ 2 by norm_num]; exact Real.sqrt_sq (by norm_num)
  have s144 : Real.sqrt 144 = 12 := by
    rw [show (144 : ℝ) = 12 ^ 2 by norm_num]; exact Real.sqrt_sq (by norm_num)
  have sp : Real.sqrt (441 / 16) = 21 / 4 := by
    rw [show (441 / 16 : ℝ) = (21 / 4) ^ 2 by norm_num]; exact Real.sqrt_sq (by norm_num)
  have sg : Real.sqrt (16 / 25) = 4 / 5 := by
    rw [show (16 / 25 : ℝ) = (4 / 5) ^ 2 by norm_num]; exact Real.sqrt_sq (by norm_num)
  have big : ∀ {x : ℝ}, |x| ≤ 2 ^ 20 → |x| ≤ 2 ^ 100 := fun h => h.trans (pow_le_pow_right₀ (by norm_num) (by decide))
  have hs : ∀ x, |rn (Real.sin x)| ≤ 2 := fun x => by
    have h1 := h.le_of_le (show (1 : ℝ) ∈ Binary64 by simpa using int_mem (n := 1) (by norm_num)) (Real.sin_le_one x)
    have h2 := h.ge_of_ge (show (-1 : ℝ) ∈ Binary64 by simpa using int_mem (n := -1) (by norm_num))
      (Real.neg_one_le_sin x)
    rw [abs_le]
    constructor <;> linarith
  have hc : ∀ x, |rn (Real.cos x)| ≤ 2 := fun x => by
    have h1 := h.le_of_le (show (1 : ℝ) ∈ Binary64 by simpa using int_mem (n := 1) (by norm_num)) (Real.cos_le_one x)
    have h2 := h.ge_of_ge (show (-1 : ℝ) ∈ Binary64 by simpa using int_mem (n := -1) (by norm_num))
      (Real.neg_one_le_cos x)
    rw [abs_le]
    constructor <;> linarith
  refine C111_reaction (k := exactKin rn) h ⟨hs, hc⟩ (cutRounding_same rn)
    ⟨by norm_num [abs_of_pos], by norm_num [abs_of_pos], by norm_num [abs_of_pos], by norm_num [abs_of_pos], Or.inr ?_⟩
    (by norm_num [abs_of_pos]) (by norm_num) ?_
  · norm_num [exactKin, r0, r1, r2, r3, r4, r5, r6, r7, r8, r9, r10, r11, r12, r13, r14, r15, r16, r17, r18, r19, r20, r21, r22, r23, r24, r25, r26, r27, r28, r29, r30, r31, r32, r33, r34, r35, r36, r37, r38, abs_of_pos]
  · intro pz v hpz hv
    have e1 : pz = 12 := by
      norm_num [npSqrt64, exactKin, s144, r0, r1, r2, r3, r4, r5, r6, r7, r8, r9, r10, r11, r12, r13, r14, r15, r16, r17, r18, r19, r20, r21, r22, r23, r24, r25, r26, r27, r28, r29, r30, r31, r32, r33, r34, r35, r36, r37, r38] at hpz
      exact hpz.symm
    subst e1
    have e2 : v = ⟨0, 0, 0, 16⟩ := by
      norm_num [exactKin, parent64, add64, round4, Vec4.boostCM_of, Vec4.boost, Vec4.boostBeta, sg, r0, r1, r2, r3, r4, r5, r6, r7, r8, r9, r10, r11, r12, r13, r14, r15, r16, r17, r18, r19, r20, r21, r22, r23, r24, r25, r26, r27, r28, r29, r30, r31, r32, r33, r34, r35, r36, r37, r38] at hv
      exact hv.symm
    subst e2
    refine ⟨big (by norm_num [abs_of_pos]), by norm_num [abs_of_pos], ?_⟩
    intro u w hu hw
    have e3 : u = ⟨21 / 4, 0, 0, 29 / 4⟩ := by
      norm_num [exactKin, cmVector64, npSqrt64, sp, r0, r1, r2, r3, r4, r5, r6, r7, r8, r9, r10, r11, r12, r13, r14, r15, r16, r17, r18, r19, r20, r21, r22, r23, r24, r25, r26, r27, r28, r29, r30, r31, r32, r33, r34, r35, r36, r37, r38] at hu
      exact hu.symm
    subst e3
    have e4 : w = ⟨21 / 4, 0, 87 / 16, 145 / 16⟩ := by
      norm_num [exactKin, parent64, add64, round4, Vec4.boost, Vec4.boostBeta, sg, r0, r1, r2, r3, r4, r5, r6, r7, r8, r9, r10, r11, r12, r13, r14, r15, r16, r17, r18, r19, r20, r21, r22, r23, r24, r25, r26, r27, r28, r29, r30, r31, r32, r33, r34, r35, r36, r37, r38] at hw
      exact hw.symm
    subst e4
    exact ⟨big (by norm_num [abs_of_pos]), big (by norm_num), big (by norm_num [abs_of_pos]),
      big (by norm_num [abs_of_pos])⟩

end Verif.Machine
