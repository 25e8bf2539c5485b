import Verif.Proofs.Same64
import Verif.Props.Grid

/-! # C145: away from edges, the cloud in float64 has the same cells as in exact arithmetic -/

namespace Verif.Machine

open Verif.Detector Verif.Spec Verif.Kinematics

/-! ## What a clear event is -/

/-- The exact width of the electrons released at the height `z`. -/
noncomputable def exactWidth (config : Config) (z : ℝ) : ℝ :=
  Real.sqrt (2 * config.det_params.diffusion * config.drift_velocity * arrival config z / config.det_params.efield)

/-- A track point whose electrons arrive before time bucket 511 and not at the border of a time bucket, and whose mesh
lines are not on a whole millimetre. -/
structure ClearPosition (config : Config) (r : Row) : Prop where
  early : arrival config r.z < 511
  bucket : ∀ n : ℤ, 2 ^ (-40 : ℤ) < |arrival config r.z - n|
  x : ∀ i < 10, ∀ n : ℤ, 1e-8 < |(r.x + meshOffset i * exactWidth config r.z) * 1000 - n|
  y : ∀ i < 10, ∀ n : ℤ, 1e-8 < |(r.y + meshOffset i * exactWidth config r.z) * 1000 - n|

/-- A track point with the number `v` of electrons before truncation: either it clearly has no electron, or it clearly
has one and its position is clear. -/
def ClearPoint (config : Config) (r : Row) (v : ℝ) : Prop := v < 0.9 ∨ (1.1 ≤ v ∧ ClearPosition config r)

open Classical in
/-- 1 if the number of electrons before truncation is within a tenth of a whole number, else 0. -/
noncomputable def doubtful (v : ℝ) : ℝ := if ∃ n : ℤ, |v - n| ≤ 1 / 10 then 1 else 0

/-- How far the charges of one track point may be apart. -/
noncomputable def deviation (gain : ℤ) (v : ℝ) : ℝ :=
  if v < 1 then 0 else gain * (3e-4 * (v + 1) + 1.01 * doubtful v) + 100

/-- The numbers of electrons before truncation for the given means. -/
noncomputable def fanoValues {σ : Type} (std : σ → ℝ × σ) (F : ℝ) : List (Option ℝ) → σ → List ℝ
  | [], _ => []
  | m :: ms, s => (m.getD 0 + Real.sqrt (F * m.getD 0) * (std s).1) :: fanoValues std F ms (std s).2

/-- The numbers of electrons of a track before truncation. -/
noncomputable def electronValues {σ : Type} (std : σ → ℝ × σ) (track : List Row) (nucleus : Nucleus)
    (P : DetectorParams) (s : σ) : List ℝ :=
  fanoValues std P.fano_factor
    ((energy_lost (track.map (track_energy nucleus))).map (Option.map (· * (1.0e6 / P.w_value)))) s

/-- `ClearEvent … indices s n B s'`: the charged nuclei of `indices`, simulated in order from the generator state `s`,
have clear tracks inside the detector with at most `n` electrons, and charges that differ by at most `B`. -/
inductive ClearEvent {σ : Type} (std : σ → ℝ × σ) (env : SimEnv) (momenta : List Vec4)
    (vertex : ℝ × ℝ × ℝ) (Zs As : List ℤ) (config : Config) (rng : Gen σ) :
    List ℤ → σ → ℤ → ℝ → σ → Prop
  | nil (s : σ) : ClearEvent std env momenta vertex Zs As config rng [] s 0 0 s
  | neutral (idx : ℤ) (rest : List ℤ) (s s' : σ) (n : ℤ) (B : ℝ) (hz : pyGet Zs idx = .ok 0)
      (h : ClearEvent std env momenta vertex Zs As config rng rest s n B s') :
      ClearEvent std env momenta vertex Zs As config rng (idx :: rest) s n B s'
  | charged (idx z a : ℤ) (nucleus : Nucleus) (momentum : Vec4) (track : List Row) (primary : List ℤ)
      (rest : List ℤ) (s s₁ s' : σ) (n : ℤ) (B : ℝ)
      (hz : pyGet Zs idx = .ok z) (hz0 : z ≠ 0) (ha : pyGet As idx = .ok a)
      (hn : env.get_data z a = .ok nucleus) (hm : pyGet momenta idx = .ok momentum)
      (ht : generate_trajectory env.solve_ivp vertex (momentum.px, momentum.py, momentum.pz)
        nucleus config.det_params = .ok track)
      (he : generate_electrons track nucleus config.det_params rng s = .ok (primary, s₁))
      (hin : ∀ r ∈ track, |r.x| ≤ 1 ∧ |r.y| ≤ 1 ∧ 0 ≤ r.z ∧ r.z ≤ config.det_params.length)
      (hrec : Recordable nucleus config.det_params track)
      (hclear : ∀ rv ∈ track.zip (electronValues std track nucleus config.det_params s), ClearPoint config rv.1 rv.2)
      (h : ClearEvent std env momenta vertex Zs As config rng rest s₁ n B s') :
      ClearEvent std env momenta vertex Zs As config rng (idx :: rest) s (drawnAbove track primary + n)
        (((electronValues std track nucleus config.det_params s).map
          (deviation config.det_params.mpgd_gain)).sum + B) s'

/-- Two rows of a cloud on the same pad at nearly the same time, which is in the window. -/
structure SameRow (a b : CloudPoint) : Prop where
  pad : a.pad = b.pad
  time : |a.tb - b.tb| ≤ 1e-13
  window : 0 ≤ b.tb ∧ b.tb < 511
  charge : 0 ≤ a.e

/-- The differences of the charges of two clouds, row by row, added up. -/
noncomputable def cloudDistance (a b : List CloudPoint) : ℝ := (List.zipWith (fun x y => |x.e - y.e|) a b).sum

/-! ## The packaged grid -/

/-- **C145.** The packaged grid edges as stored give the same indices as the exact ones. -/
theorem C145_packaged {rn : ℝ → ℝ} (h : Rounding rn) : GridSame rn packagedEdges64 packagedEdges := by
  refine ⟨fun n => Iff.rfl, fun n => Iff.rfl, fun n h1 h2 => ?_⟩
  simp only [packagedEdges, packagedEdges64] at h1 h2 ⊢
  have n1 : -280 ≤ n := by exact_mod_cast h1
  have n2 : n < 279 := by exact_mod_cast h2
  have e1 : rn ((n : ℝ) - (-280)) = ((n + 280 : ℤ) : ℝ) := by
    have := h.int (n := n + 280) (by rw [abs_lt]; constructor <;> omega)
    rw [← this]; congr 1; push_cast; ring
  rw [e1, C16_division rn h _ (by omega) (by omega)]
  congr 1
  push_cast
  ring

/-! ## The electrons -/

/-- The number of electrons drawn in float64 beside the exact number before truncation. -/
def Drawn (n : ℤ) (v : ℝ) : Prop := ∃ x : ℝ, n = pyInt x ∧ |x - v| ≤ 1 / 10

theorem fano_values {σ : Type} {rn : ℝ → ℝ} (h : Rounding rn) {rng : Gen σ} {std : σ → ℝ × σ}
    (hstd : ShiftScale rng std) (hg : ∀ s, |(std s).1| ≤ 40) {F : ℝ} (F0 : 0 ≤ F) (F1 : F ≤ 1)
    {l l' : List (Option ℝ)} (hl : List.Forall₂ MeanNear l l') : ∀ s : σ, ∃ ns64 s',
      fano_draws64 rn std F l s = .ok (ns64, s') ∧
      fano_draws rng F l' s = .ok ((fanoValues std F l' s).map pyInt, s') ∧
      List.Forall₂ Drawn ns64 (fanoValues std F l' s) := by
  induction hl with
  | nil => intro s; exact ⟨[], s, rfl, rfl, .nil⟩
  | cons hab _ ih =>
    intro s
    obtain ⟨x, y, rfl, rfl, x0, y0, y1, hxy⟩ := hab
    obtain ⟨ns64, s', h1, h2, h3⟩ := ih (std s).2
    have near := draw64_near h F0 F1 y0 y1 x0 hxy (hg s)
    refine ⟨_ :: ns64, s', ?_, ?_, .cons ⟨_, rfl, near⟩ h3⟩
    · unfold fano_draws64
      have : fano_draw64 rn std F (some x) s
          = .ok (pyInt (rn (x + rn (rn (Real.sqrt (rn (F * x))) * (std s).1))), (std s).2) := by
        unfold fano_draw64 npSqrt
        simp only
        rw [if_neg (not_lt.2 (h.nonneg (mul_nonneg F0 x0)))]
      rw [this]
      simp only [bind, Except.bind]
      rw [h1]
      rfl
    · unfold fano_draws
      have : fano_draw rng F (some y) s = .ok (pyInt (y + Real.sqrt (F * y) * (std s).1), (std s).2) := by
        unfold fano_draw npSqrt
        simp only
        rw [if_neg (not_lt.2 (mul_nonneg F0 y0))]
        change Except.ok (pyInt (rng.normal y (Real.sqrt (F * y)) s).1, (rng.normal y (Real.sqrt (F * y)) s).2) = _
        rw [hstd]
      rw [this]
      simp only [bind, Except.bind]
      rw [h2]
      rfl

theorem electron_values {σ : Type} {rn : ℝ → ℝ} (h : Rounding rn) {rng : Gen σ} {std : σ → ℝ × σ}
    (hstd : ShiftScale rng std) (hg : ∀ s, |(std s).1| ≤ 40) {n : Nucleus} {P : DetectorParams} {track : List Row}
    (hr : Recordable n P track) (s : σ) : ∃ ns64 s',
      generate_electrons64 rn std track n P s = .ok (ns64, s') ∧
      generate_electrons track n P rng s = .ok ((electronValues std track n P s).map pyInt, s') ∧
      List.Forall₂ Drawn ns64 (electronValues std track n P s) := by
  have hw : P.w_value ≠ 0 := by linarith [hr.w]
  obtain ⟨ns64, s', h1, h2, h3⟩ := fano_values h hstd hg hr.fano hr.fano_le (means_near h hr) s
  refine ⟨ns64, s', ?_, ?_, h3⟩
  · unfold generate_electrons64
    simp only
    rw [if_neg hw]
    exact h1
  · unfold generate_electrons
    simp only
    rw [if_neg hw]
    exact h2

theorem drawn_near {ns64 : List ℤ} {vs : List ℝ} (h : List.Forall₂ Drawn ns64 vs) :
    List.Forall₂ (fun a b : ℤ => |a - b| ≤ 1) ns64 (vs.map pyInt) := by
  induction h with
  | nil => exact .nil
  | cons hab _ ih =>
    obtain ⟨x, rfl, hx⟩ := hab
    exact .cons (pyInt_near (hx.trans_lt (by norm_num))) ih

theorem doubtful_nonneg (v : ℝ) : 0 ≤ doubtful v := by
  unfold doubtful
  split_ifs <;> norm_num

theorem deviation_nonneg {gain : ℤ} (hg : 0 ≤ gain) (v : ℝ) : 0 ≤ deviation gain v := by
  unfold deviation
  split_ifs with h
  · exact le_rfl
  · have h1 := doubtful_nonneg v
    have h2 : (0 : ℝ) ≤ gain := by exact_mod_cast hg
    have : 0 ≤ 3e-4 * (v + 1) + 1.01 * doubtful v := by linarith
    positivity

theorem drawn_none {n : ℤ} {v : ℝ} (h : Drawn n v) (hv : v < 0.9) : ¬ (1 ≤ n) ∧ ¬ (1 ≤ pyInt v) := by
  obtain ⟨x, rfl, hx⟩ := h
  have key : ∀ y : ℝ, y < 1 → ¬ (1 ≤ pyInt y) := by
    intro y hy
    unfold pyInt
    split_ifs with h0
    · rw [not_le, Int.floor_lt]
      exact_mod_cast hy
    · rw [not_le, Int.lt_iff_add_one_le]
      have : ⌈y⌉ ≤ 0 := Int.ceil_le.2 (by push_cast; linarith)
      omega
  have := (abs_le.1 hx).2
  norm_num at hv
  exact ⟨key x (by linarith), key v (by linarith)⟩

theorem drawn_some {n : ℤ} {v : ℝ} (h : Drawn n v) (hv : 1.1 ≤ v) :
    1 ≤ n ∧ 1 ≤ pyInt v ∧ |((n - pyInt v : ℤ) : ℝ)| ≤ doubtful v ∧ (n : ℝ) ≤ v + 1 / 10 := by
  obtain ⟨x, rfl, hx⟩ := h
  obtain ⟨x1, x2⟩ := abs_le.1 hx
  have hx1 : 1 ≤ x := by norm_num at hv; linarith
  have hv1 : 1 ≤ v := by linarith
  rw [pyInt_of_nonneg (by linarith), pyInt_of_nonneg (by linarith)]
  refine ⟨Int.le_floor.2 (by exact_mod_cast hx1), Int.le_floor.2 (by exact_mod_cast hv1), ?_, ?_⟩
  · unfold doubtful
    split_ifs with hd
    · have := pyInt_near (hx.trans_lt (by norm_num))
      rw [pyInt_of_nonneg (by linarith), pyInt_of_nonneg (by linarith)] at this
      exact_mod_cast this
    · push Not at hd
      rw [floor_same hx hd]
      simp
  · have := Int.floor_le x
    linarith

/-! ## One track point -/

section

variable {m : Math64} {config : Config} {grid : PadGrid} {g64 g : GridEdges}

theorem arrival_near (h : m.Ok) (hok : DriftOk config.det_params config.elec_params)
    (hv : config.drift_velocity = config.det_params.length /
      ((config.elec_params.windows_edge - config.elec_params.micromegas_edge : ℤ) : ℝ)) {z : ℝ} (h0 : 0 ≤ z)
    (hz : z ≤ config.det_params.length) :
    |driftTime64 m.rn config.det_params config.elec_params z - arrival config z| ≤ 2 ^ (-40 : ℤ) ∧
    (config.elec_params.micromegas_edge : ℝ) ≤ arrival config z ∧
    arrival config z ≤ config.elec_params.windows_edge := by
  have hN : (0 : ℝ) < ((config.elec_params.windows_edge - config.elec_params.micromegas_edge : ℤ) : ℝ) := by
    have := hok.edges
    exact_mod_cast (by omega : 0 < config.elec_params.windows_edge - config.elec_params.micromegas_edge)
  have hL : (0 : ℝ) < config.det_params.length := by linarith [hok.length_ge]
  unfold arrival
  rw [hv]
  refine ⟨drift_near h.rounding hok.length_ge hok.length_le hok.micromegas hok.edges hok.windows h0 hz, ?_, ?_⟩
  · have : 0 ≤ (config.det_params.length - z) / (config.det_params.length /
        ((config.elec_params.windows_edge - config.elec_params.micromegas_edge : ℤ) : ℝ)) :=
      div_nonneg (by linarith) (by positivity)
    linarith
  · have : (config.det_params.length - z) / (config.det_params.length /
        ((config.elec_params.windows_edge - config.elec_params.micromegas_edge : ℤ) : ℝ))
        ≤ ((config.elec_params.windows_edge - config.elec_params.micromegas_edge : ℤ) : ℝ) := by
      rw [div_le_iff₀ (by positivity), mul_div_assoc', mul_div_right_comm, div_self hN.ne', one_mul]
      linarith
    push_cast at this ⊢
    linarith

/-- **C145, one point.** The electrons of a clear track point, transported in machine arithmetic and in exact
arithmetic into two dictionaries with the same cells, change the same cells. -/
theorem C145_point (h : m.Ok) (hok : DriftOk config.det_params config.elec_params)
    (hsp : SpreadOk config.det_params config.elec_params)
    (hv : config.drift_velocity = config.det_params.length /
      ((config.elec_params.windows_edge - config.elec_params.micromegas_edge : ℤ) : ℝ))
    (hg : GridSame m.rn g64 g) (hpads : ∀ i j, grid.cell i j < 2 ^ 26) {r : Row}
    (hin : |r.x| ≤ 1 ∧ |r.y| ≤ 1 ∧ 0 ≤ r.z ∧ r.z ≤ config.det_params.length) (hc : ClearPosition config r)
    {e e' : ℤ} (he : 0 ≤ e) (he2 : e < 2 ^ 53) (he' : 0 ≤ e') (label : ℤ) {p q : Points} (hpq : sameCells p q)
    (hp : ∀ entry ∈ p, 0 ≤ entry.2.1) (hroom : storedCharge p + e < 2 ^ 63) :
    ∃ p' q', transport_step64 m grid g64 config.det_params.diffusion config.det_params.efield
        (drift_velocity64 m.rn config.det_params.length config.elec_params.micromegas_edge
          config.elec_params.windows_edge) label p
        ({ r with z := driftTime64 m.rn config.det_params config.elec_params r.z }, e) = .ok p' ∧
      transport_step grid g config.det_params.diffusion config.det_params.efield config.drift_velocity label q
        ({ r with z := to_time_bucket config r.z }, e') = .ok q' ∧
      sameCells p' q' ∧
      chargeDistance p' q' ≤ chargeDistance p q + (|((e - e' : ℤ) : ℝ)| + 3e-4 * e + 100) := by
  obtain ⟨hx, hy, hz0, hz1⟩ := hin
  obtain ⟨t1, t2, t3⟩ := arrival_near h hok hv hz0 hz1
  obtain ⟨u1, -⟩ := C89_range h.rounding hok hz0 hz1
  have hE : config.det_params.efield ≠ 0 := by linarith [hsp.efield]
  have hM : (1 : ℝ) ≤ config.elec_params.micromegas_edge := by exact_mod_cast hsp.micromegas
  have heR : (0 : ℝ) ≤ e := by exact_mod_cast he
  have ha : to_time_bucket config r.z = arrival config r.z := rfl
  have htime : pyInt (driftTime64 m.rn config.det_params config.elec_params r.z) = pyInt (arrival config r.z) := by
    rw [pyInt_of_nonneg (by linarith), pyInt_of_nonneg (by linarith)]
    exact floor_same t1 hc.bucket
  have hbound : pyInt (arrival config r.z) < 2 ^ 31 := by
    rw [pyInt_of_nonneg (by linarith), Int.floor_lt]
    have := hc.early
    push_cast
    linarith
  have hxc := hc.x
  have hyc := hc.y
  unfold exactWidth at hxc hyc
  unfold transport_step64 transport_step
  simp only
  rw [if_neg hE, if_neg hE, ha]
  rcases hsp.diffusion with hD | ⟨hD1, hD2, hlo, hwide⟩
  · have hz : 2 * config.det_params.diffusion * config.drift_velocity * arrival config r.z / config.det_params.efield
        = 0 := by rw [hD]; simp
    rw [hz, Real.sqrt_zero] at hxc hyc
    simp only [mul_zero, add_zero] at hxc hyc
    rw [hz, hD, spread64_zero h.rounding, npSqrt_of_nonneg le_rfl, Real.sqrt_zero]
    simp only [if_true]
    have hidx : position_to_index64 m.rn g64 (r.x, r.y) = position_to_index g (r.x, r.y) :=
      index_same h.rounding hg (by norm_num) (by norm_num) (hx.trans (by norm_num)) (hy.trans (by norm_num))
        (hxc 0 (by norm_num)) (hyc 0 (by norm_num))
    obtain ⟨k1, k2⟩ := same_point hpads htime hbound hidx hpq hp (e' := e') he hroom label
    exact ⟨_, _, rfl, rfl, k1, k2.trans (by linarith)⟩
  · obtain ⟨v1, v2, d1, d2⟩ := drift_velocity_near h.rounding hok.length_ge hok.length_le hok.micromegas
      hok.edges hok.windows
    rw [← hv] at v1 v2 d1 d2 hlo hwide
    have hW : (config.elec_params.windows_edge : ℝ) ≤ 1000 := by exact_mod_cast hok.windows
    have hE0 : 0 < config.det_params.efield := by linarith [hsp.efield]
    have hP : 0 ≤ 2 * config.det_params.diffusion * config.drift_velocity :=
      mul_nonneg (by linarith) (by linarith)
    have hX1 : (2 : ℝ) ^ (-59 : ℤ) ≤ 2 * config.det_params.diffusion * config.drift_velocity * arrival config r.z
        / config.det_params.efield := by
      refine hlo.trans ?_
      apply div_le_div_of_nonneg_right _ hE0.le
      exact mul_le_mul_of_nonneg_left t2 hP
    have hX2 : 2 * config.det_params.diffusion * config.drift_velocity * arrival config r.z
        / config.det_params.efield ≤ 0.9 := by
      refine le_trans ?_ hwide
      apply div_le_div_of_nonneg_right _ hE0.le
      exact mul_le_mul_of_nonneg_left t3 hP
    have hM1 : 1 ≤ arrival config r.z := hM.trans t2
    have hW1 : arrival config r.z ≤ 2e3 := by linarith
    obtain ⟨s64, hs, hnear⟩ := spread64_near h.rounding hD1 hD2 hsp.efield v1 v2 d1 d2 hM1 hW1 t1
      (by refine le_trans ?_ hX1; norm_num) (by linarith)
    rw [hs]
    generalize 2 * config.det_params.diffusion * config.drift_velocity * arrival config r.z
        / config.det_params.efield = X at *
    have hX0 : 0 ≤ X := le_trans (by positivity) hX1
    have hlow : 1.4 * (2 : ℝ) ^ (-30 : ℤ) ≤ Real.sqrt X := by
      apply Real.le_sqrt_of_sq_le
      refine le_trans ?_ hX1
      norm_num
    have hup : Real.sqrt X ≤ 0.95 := by
      rw [Real.sqrt_le_left (by norm_num)]
      refine hX2.trans (by norm_num)
    obtain ⟨n1, n2⟩ := abs_le.1 hnear
    have hs30 : (2 : ℝ) ^ (-30 : ℤ) ≤ s64 := by
      norm_num at hlow n1 ⊢
      linarith
    have hs64 : s64 ≤ 1 := by
      norm_num at hup n2 ⊢
      linarith
    have hpos : 0 < Real.sqrt X := lt_of_lt_of_le (by positivity) hlow
    have hne : s64 ≠ 0 := ne_of_gt (lt_of_lt_of_le (by positivity) hs30)
    rw [npSqrt_of_nonneg hX0]
    simp only [if_neg hne, if_neg hpos.ne']
    obtain ⟨k1, k2⟩ := same_transverse h hg hpads htime hbound (center := (r.x, r.y)) hx hy hs30 hs64 hpos
      (by linarith) hnear hxc hyc he he2 he' label hpq hp hroom
    exact ⟨_, _, rfl, rfl, k1, k2⟩

/-! ## A track -/

theorem same_fold (h : m.Ok) (hok : DriftOk config.det_params config.elec_params)
    (hsp : SpreadOk config.det_params config.elec_params)
    (hv : config.drift_velocity = config.det_params.length /
      ((config.elec_params.windows_edge - config.elec_params.micromegas_edge : ℤ) : ℝ))
    (hg : GridSame m.rn g64 g) (hpads : ∀ i j, grid.cell i j < 2 ^ 26) (hgain : 0 ≤ config.det_params.mpgd_gain)
    (label : ℤ) {ns64 : List ℤ} {vs : List ℝ} (hd : List.Forall₂ Drawn ns64 vs) :
    ∀ (track : List Row) (p q : Points),
    (∀ r ∈ track, |r.x| ≤ 1 ∧ |r.y| ≤ 1 ∧ 0 ≤ r.z ∧ r.z ≤ config.det_params.length) →
    (∀ rv ∈ track.zip vs, ClearPoint config rv.1 rv.2) →
    (∀ n ∈ ns64, n * config.det_params.mpgd_gain < 2 ^ 53) → sameCells p q → (∀ entry ∈ p, 0 ≤ entry.2.1) →
    storedCharge p + releasedCharge track ns64 config.det_params.mpgd_gain < 2 ^ 63 →
    ∃ p' q', (((track.zip ns64).filter fun re => decide (1 ≤ re.2)).map fun re =>
        ({ re.1 with z := driftTime64 m.rn config.det_params config.elec_params re.1.z },
          re.2 * config.det_params.mpgd_gain)).foldlM
        (transport_step64 m grid g64 config.det_params.diffusion config.det_params.efield
          (drift_velocity64 m.rn config.det_params.length config.elec_params.micromegas_edge
            config.elec_params.windows_edge) label) p = .ok p' ∧
      (((track.zip (vs.map pyInt)).filter fun re => decide (1 ≤ re.2)).map fun re =>
        ({ re.1 with z := to_time_bucket config re.1.z }, re.2 * config.det_params.mpgd_gain)).foldlM
        (transport_step grid g config.det_params.diffusion config.det_params.efield config.drift_velocity label) q
        = .ok q' ∧
      sameCells p' q' ∧
      chargeDistance p' q' ≤ chargeDistance p q + (vs.map (deviation config.det_params.mpgd_gain)).sum ∧
      Grown grid config.elec_params.micromegas_edge 510 p
        (releasedCharge track ns64 config.det_params.mpgd_gain) p' := by
  have hg0 : (0 : ℝ) ≤ config.det_params.mpgd_gain := by exact_mod_cast hgain
  have hsum : ∀ vs : List ℝ, 0 ≤ (vs.map (deviation config.det_params.mpgd_gain)).sum := by
    intro vs
    apply List.sum_nonneg
    intro x hx
    obtain ⟨y, -, rfl⟩ := List.mem_map.1 hx
    exact deviation_nonneg hgain y
  induction hd with
  | nil =>
    intro track p q _ _ _ hpq hp _
    refine ⟨p, q, by simp; rfl, by simp; rfl, hpq, by simp, ?_⟩
    simpa [releasedCharge] using Grown.refl hp le_rfl
  | @cons n v ns vs hnv hrest ih =>
    intro track p q hin hclear he hpq hp hroom
    cases track with
    | nil =>
      refine ⟨p, q, by simp; rfl, by simp; rfl, hpq, by linarith [hsum (v :: vs)], ?_⟩
      simpa [releasedCharge] using Grown.refl hp le_rfl
    | cons r track =>
      have hin' := fun r' (hr' : r' ∈ track) => hin r' (List.mem_cons_of_mem _ hr')
      have hclear' : ∀ rv ∈ track.zip vs, ClearPoint config rv.1 rv.2 := fun rv hrv =>
        hclear rv (by rw [List.zip_cons_cons]; exact List.mem_cons_of_mem _ hrv)
      have he' := fun k (hk : k ∈ ns) => he k (List.mem_cons_of_mem _ hk)
      have hrel0 : 0 ≤ releasedCharge track ns config.det_params.mpgd_gain := by
        unfold releasedCharge
        apply List.sum_nonneg
        intro x hx
        obtain ⟨y, hy, rfl⟩ := List.mem_map.1 hx
        have := (List.mem_filter.1 hy).2
        simp only [decide_eq_true_eq] at this
        exact mul_nonneg (by omega) hgain
      simp only [List.map_cons, List.sum_cons, List.zip_cons_cons]
      rcases hclear (r, v) (by rw [List.zip_cons_cons]; exact List.mem_cons_self) with hlow | ⟨hhigh, hpos⟩
      · simp only at hlow
        obtain ⟨a1, a2⟩ := drawn_none hnv hlow
        have hrel : releasedCharge (r :: track) (n :: ns) config.det_params.mpgd_gain
            = releasedCharge track ns config.det_params.mpgd_gain := by
          unfold releasedCharge
          rw [List.zip_cons_cons, List.filter_cons_of_neg (by simpa using a1)]
        rw [hrel] at hroom ⊢
        rw [List.filter_cons_of_neg (by simpa using a1), List.filter_cons_of_neg (by simpa using a2)]
        obtain ⟨p', q', b1, b2, b3, b4, b5⟩ := ih track p q hin' hclear' he' hpq hp hroom
        refine ⟨p', q', b1, b2, b3, ?_, b5⟩
        linarith [deviation_nonneg hgain v]
      · simp only at hhigh hpos
        obtain ⟨a1, a2, a3, a4⟩ := drawn_some hnv hhigh
        have hrel : releasedCharge (r :: track) (n :: ns) config.det_params.mpgd_gain
            = n * config.det_params.mpgd_gain + releasedCharge track ns config.det_params.mpgd_gain := by
          unfold releasedCharge
          rw [List.zip_cons_cons, List.filter_cons_of_pos (by simpa using a1)]
          simp
        rw [hrel] at hroom ⊢
        rw [List.filter_cons_of_pos (by simpa using a1), List.filter_cons_of_pos (by simpa using a2)]
        simp only [List.map_cons, List.foldlM_cons]
        have e0 : 0 ≤ n * config.det_params.mpgd_gain := mul_nonneg (by omega) hgain
        have e1 := he n List.mem_cons_self
        have e2 : 0 ≤ pyInt v * config.det_params.mpgd_gain := mul_nonneg (by omega) hgain
        obtain ⟨i1, i2, i3, i4⟩ := hin r List.mem_cons_self
        obtain ⟨p₁, q₁, c1, c2, c3, c4⟩ := C145_point h hok hsp hv hg hpads (hin r List.mem_cons_self) hpos e0 e1 e2
          label hpq hp (by omega)
        have htb : pyInt (driftTime64 m.rn config.det_params config.elec_params r.z) ≤ 510 := by
          obtain ⟨t1, t2, -⟩ := arrival_near h hok hv i3 i4
          obtain ⟨u1, -⟩ := C89_range h.rounding hok i3 i4
          have hM : (0 : ℝ) ≤ config.elec_params.micromegas_edge := by exact_mod_cast hok.micromegas
          rw [pyInt_of_nonneg (by linarith), floor_same t1 hpos.bucket]
          have := Int.floor_lt.2 (show arrival config r.z < ((511 : ℤ) : ℝ) by exact_mod_cast hpos.early)
          omega
        obtain ⟨p₂, d1, d2⟩ := grown_step h hok hsp (grid := grid) (g := g64) i1 i2 i3 i4 e0 e1 htb label hp
          (by omega)
        rw [c1] at d1
        obtain rfl := Except.ok.inj d1
        obtain ⟨p', q', b1, b2, b3, b4, b5⟩ := ih track p₁ q₁ hin' hclear' he' c3 d2.nonneg
          (by linarith [d2.le])
        refine ⟨p', q', ?_, ?_, b3, ?_, d2.trans b5⟩
        · rw [c1]
          exact b1
        · rw [c2]
          exact b2
        · have hdev : |((n * config.det_params.mpgd_gain - pyInt v * config.det_params.mpgd_gain : ℤ) : ℝ)|
              + 3e-4 * ((n * config.det_params.mpgd_gain : ℤ) : ℝ) + 100
              ≤ deviation config.det_params.mpgd_gain v := by
            unfold deviation
            rw [if_neg (by norm_num at hhigh ⊢; linarith), ← sub_mul, Int.cast_mul, abs_mul, abs_of_nonneg hg0,
              Int.cast_mul]
            have d0 := doubtful_nonneg v
            have f1 : |((n - pyInt v : ℤ) : ℝ)| * (config.det_params.mpgd_gain : ℝ)
                ≤ doubtful v * config.det_params.mpgd_gain := mul_le_mul_of_nonneg_right a3 hg0
            have f2 : (n : ℝ) * config.det_params.mpgd_gain ≤ (v + 1 / 10) * config.det_params.mpgd_gain :=
              mul_le_mul_of_nonneg_right a4 hg0
            have f3 : 0 ≤ doubtful v * config.det_params.mpgd_gain := mul_nonneg d0 hg0
            generalize |((n - pyInt v : ℤ) : ℝ)| * (config.det_params.mpgd_gain : ℝ) = Q at *
            generalize (n : ℝ) * config.det_params.mpgd_gain = R at *
            nlinarith
          linarith

/-- **C145, a track.** For a clear track, the transport in machine arithmetic and in exact arithmetic, into two
dictionaries with the same cells, succeeds in both and changes the same cells. -/
theorem C145_track (h : m.Ok) (hok : DriftOk config.det_params config.elec_params)
    (hsp : SpreadOk config.det_params config.elec_params)
    (hv : config.drift_velocity = config.det_params.length /
      ((config.elec_params.windows_edge - config.elec_params.micromegas_edge : ℤ) : ℝ))
    (hg : GridSame m.rn g64 g) (hpads : ∀ i j, grid.cell i j < 2 ^ 26) (hgain : 0 ≤ config.det_params.mpgd_gain)
    (label : ℤ) {ns64 : List ℤ} {vs : List ℝ} (hd : List.Forall₂ Drawn ns64 vs) {track : List Row} {p q : Points}
    (hin : ∀ r ∈ track, |r.x| ≤ 1 ∧ |r.y| ≤ 1 ∧ 0 ≤ r.z ∧ r.z ≤ config.det_params.length)
    (hclear : ∀ rv ∈ track.zip vs, ClearPoint config rv.1 rv.2)
    (he : ∀ n ∈ ns64, n * config.det_params.mpgd_gain < 2 ^ 53) (hpq : sameCells p q)
    (hp : ∀ entry ∈ p, 0 ≤ entry.2.1)
    (hroom : storedCharge p + releasedCharge track ns64 config.det_params.mpgd_gain < 2 ^ 63) :
    ∃ p' q', drift_track64 m config grid g64 track ns64 p label = .ok p' ∧
      transport_track grid g config.det_params.diffusion config.det_params.efield config.drift_velocity
        ((maskSel ((vs.map pyInt).map fun e => decide (1 ≤ e)) track).map fun r =>
          { r with z := to_time_bucket config r.z })
        ((maskSel ((vs.map pyInt).map fun e => decide (1 ≤ e)) (vs.map pyInt)).map
          (· * config.det_params.mpgd_gain)) q label = .ok q' ∧
      sameCells p' q' ∧
      chargeDistance p' q' ≤ chargeDistance p q + (vs.map (deviation config.det_params.mpgd_gain)).sum ∧
      Grown grid config.elec_params.micromegas_edge 510 p
        (releasedCharge track ns64 config.det_params.mpgd_gain) p' := by
  obtain ⟨p', q', b1, b2, b3, b4, b5⟩ := same_fold h hok hsp hv hg hpads hgain label hd track p q hin hclear he hpq hp
    hroom
  refine ⟨p', q', ?_, ?_, b3, b4, b5⟩
  · unfold drift_track64 transport_track64
    simp only
    rw [masked_zip64, ← b1]
    congr 1
    apply List.map_congr_left
    intro re hre
    obtain ⟨h1, h2⟩ := List.mem_filter.1 hre
    obtain ⟨-, h4⟩ := List.of_mem_zip h1
    have h3 : 1 ≤ re.2 := by simpa using h2
    have h5 := he _ h4
    have h6 : 0 ≤ re.2 * config.det_params.mpgd_gain := mul_nonneg (by omega) hgain
    rw [wrap64_eq (by linarith) (by linarith)]
    rfl
  · unfold transport_track
    rw [masked_zip64]
    exact b2

/-! ## The event -/

theorem clearEvent_nonneg {σ : Type} {std : σ → ℝ × σ} {env : SimEnv} {momenta : List Vec4} {vertex : ℝ × ℝ × ℝ}
    {Zs As : List ℤ} {rng : Gen σ} {indices : List ℤ} {s s' : σ} {n : ℤ} {B : ℝ}
    (ht : ClearEvent std env momenta vertex Zs As config rng indices s n B s') : 0 ≤ n := by
  induction ht with
  | nil => exact le_rfl
  | neutral _ _ _ _ _ _ _ _ ih => exact ih
  | charged _ _ _ _ _ t pr _ _ _ _ _ _ _ _ _ _ _ _ _ _ _ _ _ ih =>
    have := drawnAbove_nonneg t pr
    linarith

/-- The loop over the nuclei. -/
theorem same_event (h : m.Ok) (hgrid : config.pad_grid = some (grid, g))
    (hok : DriftOk config.det_params config.elec_params)
    (hsp : SpreadOk config.det_params config.elec_params)
    (hv : config.drift_velocity = config.det_params.length /
      ((config.elec_params.windows_edge - config.elec_params.micromegas_edge : ℤ) : ℝ))
    (hg : GridSame m.rn g64 g) (hpads : ∀ i j, grid.cell i j < 2 ^ 26) (hgain : 0 ≤ config.det_params.mpgd_gain)
    {σ : Type} {env : SimEnv} {momenta : List Vec4} {vertex : ℝ × ℝ × ℝ} {Zs As : List ℤ}
    {rng : Gen σ} {std : σ → ℝ × σ} (hstd : ShiftScale rng std) (hgs : ∀ s, |(std s).1| ≤ 40)
    {indices : List ℤ} {s s' : σ} {n : ℤ} {B : ℝ}
    (ht : ClearEvent std env momenta vertex Zs As config rng indices s n B s') :
    ∀ p q : Points, sameCells p q → (∀ entry ∈ p, 0 ≤ entry.2.1) →
    storedCharge p + config.det_params.mpgd_gain * n < 2 ^ 53 →
    ∃ p' q', indices.foldlM (simulate_nucleus64 m std env momenta vertex Zs As
        { config with pad_grid := some (grid, g64) }) (p, s) = .ok (p', s') ∧
      indices.foldlM (simulate_nucleus env momenta vertex Zs As config rng) (q, s) = .ok (q', s') ∧
      sameCells p' q' ∧ chargeDistance p' q' ≤ chargeDistance p q + B ∧
      Grown grid config.elec_params.micromegas_edge 510 p (config.det_params.mpgd_gain * n) p' := by
  induction ht with
  | nil s =>
    intro p q hpq hp _
    exact ⟨p, q, rfl, rfl, hpq, by simp, Grown.refl hp (by simp)⟩
  | neutral idx rest s s' n B hz _ ih =>
    intro p q hpq hp hroom
    obtain ⟨p', q', b1, b2, b3, b4, b5⟩ := ih p q hpq hp hroom
    refine ⟨p', q', ?_, ?_, b3, b4, b5⟩
    · rw [List.foldlM_cons]
      have : simulate_nucleus64 m std env momenta vertex Zs As { config with pad_grid := some (grid, g64) } (p, s) idx
          = .ok (p, s) := by
        unfold simulate_nucleus64
        rw [hz]
        rfl
      rw [this]
      exact b1
    · rw [List.foldlM_cons]
      have : simulate_nucleus env momenta vertex Zs As config rng (q, s) idx = .ok (q, s) := by
        unfold simulate_nucleus
        rw [hz]
        rfl
      rw [this]
      exact b2
  | charged idx z a nucleus momentum track primary rest s s₁ s' n B hz hz0 ha hn hm ht he hin hrec hclear hrest ih =>
    intro p q hpq hp hroom
    obtain ⟨ns64, s₂, e1, e2, e3⟩ := electron_values h.rounding hstd hgs hrec s
    have he' := he
    rw [e2] at he
    injection he with he
    injection he with he he4
    subst he he4
    generalize hvs : electronValues std track nucleus config.det_params s = vs at *
    have e4 := drawn_near e3
    have hp0 : 0 ≤ storedCharge p := by
      apply List.sum_nonneg
      intro x hx
      obtain ⟨y, hy, rfl⟩ := List.mem_map.1 hx
      exact hp y hy
    have hd0 := drawnAbove_nonneg track (vs.map pyInt)
    have hn0 := clearEvent_nonneg hrest
    have hgn : 0 ≤ config.det_params.mpgd_gain * n := mul_nonneg hgain hn0
    rw [mul_add] at hroom ⊢
    have hrel := releasedCharge_le hgain track e4
    obtain ⟨p₁, q₁, c1, c2, c3, c4, c5⟩ := C145_track h hok hsp hv hg hpads hgain idx e3 hin hclear (fun k hk => by
      have := drawn_each hgain track e4 k hk
      linarith) hpq hp (by
      have : (2 : ℤ) ^ 53 < 2 ^ 63 := by norm_num
      linarith)
    have c5' := c5.weaken hrel
    obtain ⟨p', q', b1, b2, b3, b4, b5⟩ := ih p₁ q₁ c3 c5.nonneg (by linarith [c5'.le])
    refine ⟨p', q', ?_, ?_, b3, by linarith, c5'.trans b5⟩
    · rw [List.foldlM_cons]
      have : simulate_nucleus64 m std env momenta vertex Zs As { config with pad_grid := some (grid, g64) } (p, s) idx
          = .ok (p₁, s₂) := by
        unfold simulate_nucleus64
        rw [hz]
        simp only [bind, Except.bind]
        rw [if_neg hz0, ha]
        simp only
        rw [hn]
        simp only
        rw [hm]
        simp only
        rw [ht]
        simp only
        rw [e1]
        simp only
        have c1' : drift_track64 m { config with pad_grid := some (grid, g64) } grid g64 track ns64 p idx = .ok p₁ := c1
        rw [c1']
        rfl
      rw [this]
      exact b1
    · rw [List.foldlM_cons]
      have : simulate_nucleus env momenta vertex Zs As config rng (q, s) idx = .ok (q₁, s₂) := by
        unfold simulate_nucleus generate_point_cloud
        rw [hz]
        simp only [bind, Except.bind]
        rw [if_neg hz0, ha]
        simp only
        rw [hn]
        simp only
        rw [hm]
        simp only
        rw [ht]
        simp only
        rw [he']
        simp only
        rw [hgrid]
        simp only
        rw [c2]
        rfl
      rw [this]
      exact b2

/-- The rows before the selection, in exact arithmetic. -/
noncomputable def exactShifted (q : Points) (w : List ℝ) : List CloudPoint :=
  ((dict_to_points q).1.zip w).map fun pw => { pw.1 with tb := pw.1.tb + pw.2 }

theorem same_rows {rn : ℝ → ℝ} (h : Rounding rn)
    (hpads : ∀ i j, -1 ≤ grid.cell i j ∧ grid.cell i j < 2 ^ 26) {lo : ℤ} (hlo : 0 ≤ lo) {p q : Points}
    (hpq : sameCells p q) : ∀ w : List ℝ, w.length = p.length → (∀ u ∈ w, 0 ≤ u ∧ u < 1) →
    (∀ entry ∈ p, 0 ≤ entry.2.1) → storedCharge p < 2 ^ 53 →
    (∀ entry ∈ p, ∃ tb pad i j : ℤ, entry.1 = pair64 tb pad ∧ lo ≤ tb ∧ tb ≤ 510 ∧ pad = grid.cell i j ∧
      pad ≠ -1 ∧ pad ∉ BEAM_PADS) →
    List.Forall₂ SameRow (maskSel (windowMask (shifted rn p w)) (shifted rn p w))
      (maskSel (windowMask (exactShifted q w)) (exactShifted q w)) ∧
    cloudDistance (maskSel (windowMask (shifted rn p w)) (shifted rn p w))
      (maskSel (windowMask (exactShifted q w)) (exactShifted q w)) = chargeDistance p q ∧
    maskSel (windowMask (shifted rn p w)) (dict_to_points64 rn p).2
      = maskSel (windowMask (exactShifted q w)) (dict_to_points q).2 ∧
    (maskSel (windowMask (exactShifted q w)) (dict_to_points q).2).length = q.length := by
  unfold sameCells at hpq
  induction hpq with
  | nil =>
    intro w hw _ _ _ _
    obtain rfl : w = [] := by simpa using hw
    simp [shifted, exactShifted, windowMask, dict_to_points64, dict_to_points, maskSel, cloudDistance, chargeDistance]
  | @cons a b p q hab hpq ih =>
    intro w hw hu hp hs hk
    obtain ⟨k, c, lab⟩ := a
    obtain ⟨k', c', lab'⟩ := b
    obtain ⟨h1, h2⟩ := hab
    simp only at h1 h2
    subst h1 h2
    cases w with
    | nil => simp at hw
    | cons u w =>
      have hs' : storedCharge ((k, c, lab) :: p) = c + storedCharge p := by simp [storedCharge]
      have hq0 : 0 ≤ storedCharge p := by
        apply List.sum_nonneg
        intro x hx
        obtain ⟨y, hy, rfl⟩ := List.mem_map.1 hx
        exact hp y (by simp [hy])
      have hc0 : 0 ≤ c := hp (k, c, lab) (by simp)
      obtain ⟨i1, i2, i3, i4⟩ := ih w (by simpa using hw) (fun v hv => hu v (by simp [hv]))
        (fun e he => hp e (by simp [he])) (by linarith) (fun e he => hk e (by simp [he]))
      obtain ⟨tb, pad, i, j, e1, e2, e3, e4, e5, e6⟩ := hk (k, c, lab) (by simp)
      simp only at e1
      obtain ⟨p1, p2⟩ := hpads i j
      rw [← e4] at p1 p2
      have p0 : 0 ≤ pad := by omega
      have htb31 : tb < 2 ^ 31 := lt_of_le_of_lt e3 (by norm_num)
      have hup64 : unpair64 rn k = ((tb : ℝ), (pad : ℝ)) := by
        rw [e1]
        exact C02_roundtrip rn h tb pad (by omega) (lt_of_le_of_lt e3 (by norm_num)) p0 p2
      have hup : unpair k = (tb, pad) := by
        rw [e1, pair64_eq htb31 (lt_trans p2 (by norm_num))]
        exact C01_unpair_pair tb pad (by omega) p0
      have hce : rn (c : ℝ) = c := C59_stored rn h c hc0 (by linarith)
      have hsh : shifted rn ((k, c, lab) :: p) (u :: w)
          = { pad := pad, tb := rn (tb + u), e := c } :: shifted rn p w := by
        unfold shifted dict_to_points64
        simp only [List.map_cons, List.zip_cons_cons, hup64, hce]
      have hsx : exactShifted ((k, c', lab) :: q) (u :: w)
          = { pad := pad, tb := tb + u, e := c' } :: exactShifted q w := by
        unfold exactShifted dict_to_points
        simp only [List.map_cons, List.zip_cons_cons, hup]
      have hdl : (dict_to_points64 rn ((k, c, lab) :: p)).2 = lab :: (dict_to_points64 rn p).2 := rfl
      have hdx : (dict_to_points ((k, c', lab) :: q)).2 = lab :: (dict_to_points q).2 := rfl
      obtain ⟨u0, u1⟩ := hu u (by simp)
      obtain ⟨b1, b2⟩ := C19_float_bound_partial rn h tb u (by omega) (by omega) u0 u1
      unfold wiggle64 at b1 b2
      have hN : (NUM_TB : ℝ) = 512 := by norm_num [NUM_TB]
      have ht0 : (0 : ℝ) ≤ tb := by exact_mod_cast (by omega : (0 : ℤ) ≤ tb)
      have ht1 : (tb : ℝ) ≤ 510 := by exact_mod_cast e3
      have m1 : windowMask ({ pad := (pad : ℝ), tb := rn (tb + u), e := (c : ℝ) } :: shifted rn p w)
          = true :: windowMask (shifted rn p w) := by
        unfold windowMask
        rw [List.map_cons]
        congr 1
        rw [hN, Bool.and_eq_true, decide_eq_true_eq, decide_eq_true_eq]
        exact ⟨by linarith, by linarith⟩
      have m2 : windowMask ({ pad := (pad : ℝ), tb := (tb : ℝ) + u, e := (c' : ℝ) } :: exactShifted q w)
          = true :: windowMask (exactShifted q w) := by
        unfold windowMask
        rw [List.map_cons]
        congr 1
        rw [hN, Bool.and_eq_true, decide_eq_true_eq, decide_eq_true_eq]
        exact ⟨by linarith, by linarith⟩
      rw [hsh, hsx, hdl, hdx, m1, m2]
      simp only [maskSel]
      refine ⟨.cons ⟨rfl, ?_, ⟨by simp only; linarith, by simp only; linarith⟩, by simp only; exact_mod_cast hc0⟩ i1, ?_,
        by rw [i3], by simp [i4]⟩
      · simp only
        have hT : |(tb : ℝ) + u| ≤ 511 := by rw [abs_le]; constructor <;> linarith
        have := h.absolute (x := (tb : ℝ) + u) (X := (tb : ℝ) + u) (d := 0) (by simp) (by linarith) (by norm_num)
        refine this.trans ?_
        norm_num
        linarith
      · unfold cloudDistance chargeDistance at i2 ⊢
        simp only [List.zipWith_cons_cons, List.sum_cons]
        rw [i2]
        push_cast
        rfl

/-- **C145.** An event whose tracks are clear of the borders of the pads and of the time buckets, and whose track points
clearly have an electron or none, is simulated in machine arithmetic and in exact arithmetic without exceptions. Both
clouds have the same labels and the same rows in the same order: the same pad, the time within `10^-13`, and charges
whose differences add up to at most the bound `B` of the event. -/
theorem C145_event (h : m.Ok) (hgrid : config.pad_grid = some (grid, g))
    (hok : DriftOk config.det_params config.elec_params)
    (hsp : SpreadOk config.det_params config.elec_params)
    (hv : config.drift_velocity = config.det_params.length /
      ((config.elec_params.windows_edge - config.elec_params.micromegas_edge : ℤ) : ℝ))
    (hg : GridSame m.rn g64 g) (hpads : ∀ i j, -1 ≤ grid.cell i j ∧ grid.cell i j < 2 ^ 26)
    (hgain : 0 ≤ config.det_params.mpgd_gain)
    {σ : Type} {env : SimEnv} {momenta : List Vec4} {vertex : ℝ × ℝ × ℝ} {Zs As : List ℤ}
    {rng : Gen σ} (hr : LawfulGen rng) {std : σ → ℝ × σ} (hstd : ShiftScale rng std) (hgs : ∀ s, |(std s).1| ≤ 40)
    {indices : List ℤ} {s s₁ : σ} {n : ℤ} {B : ℝ}
    (ht : ClearEvent std env momenta vertex Zs As config rng indices s n B s₁)
    (hroom : config.det_params.mpgd_gain * n < 2 ^ 53) :
    ∃ cloud64 cloud labels s',
      simulate64 m std env momenta vertex Zs As { config with pad_grid := some (grid, g64) } rng indices s
        = .ok ((cloud64, labels), s') ∧
      simulate env momenta vertex Zs As config rng indices s = .ok ((cloud, labels), s') ∧
      labels.length = cloud.length ∧ List.Forall₂ SameRow cloud64 cloud ∧ cloudDistance cloud64 cloud ≤ B := by
  obtain ⟨p, q, b1, b2, b3, b4, b5⟩ := same_event h hgrid hok hsp hv hg (fun i j => (hpads i j).2) hgain hstd hgs ht [] []
    .nil (by simp) (by simpa [storedCharge] using hroom)
  have hle : storedCharge p ≤ config.det_params.mpgd_gain * n := by simpa [storedCharge] using b5.le
  have hlen := same_key b3
  have l64 : (dict_to_points64 m.rn p).1.length = p.length := by simp [dict_to_points64]
  have lx : (dict_to_points q).1.length = p.length := by simp [dict_to_points, hlen]
  obtain ⟨r1, r2, r3, r4⟩ := same_rows h.rounding hpads hok.micromegas b3 (rng.uniformN 0 1 p.length s₁).1
    (by rw [Verif.Detector.uniformN_length]) (fun u hu => uniformN_mem hr 0 1 (by norm_num) _ _ u hu) b5.nonneg
    (by linarith) (fun entry he => by
      rcases b5.keys entry he with ⟨old, ho, -⟩ | h1
      · simp at ho
      · exact h1)
  have hd0 : chargeDistance [] [] = 0 := by simp [chargeDistance]
  refine ⟨_, _, maskSel (windowMask (exactShifted q (rng.uniformN 0 1 p.length s₁).1)) (dict_to_points q).2,
    (rng.uniformN 0 1 p.length s₁).2, ?_, ?_, ?_, r1, r2.le.trans (by linarith)⟩
  · unfold simulate64
    rw [b1, ← r3]
    simp only [bind, Except.bind]
    rw [l64]
    rfl
  · unfold simulate
    rw [b2]
    simp only [bind, Except.bind]
    rw [lx]
    rfl
  · refine r4.trans ?_
    have hx : (exactShifted q (rng.uniformN 0 1 p.length s₁).1).length = q.length := by
      unfold exactShifted
      rw [List.length_map, List.length_zip, Verif.Detector.uniformN_length, lx, min_self, hlen]
    have := maskSel_length_eq (windowMask (exactShifted q (rng.uniformN 0 1 p.length s₁).1))
      (exactShifted q (rng.uniformN 0 1 p.length s₁).1) (dict_to_points q).2
      (by rw [hx]; simp [dict_to_points])
    rw [this, r4]

/-- **C145.** The total charges of two such clouds differ by at most the bound of the event. -/
theorem C145_total {a b : List CloudPoint} (hab : List.Forall₂ SameRow a b) :
    |(a.map (·.e)).sum - (b.map (·.e)).sum| ≤ cloudDistance a b := by
  induction hab with
  | nil => simp [cloudDistance]
  | @cons x y a b _ _ ih =>
    have e : cloudDistance (x :: a) (y :: b) = |x.e - y.e| + cloudDistance a b := by simp [cloudDistance]
    rw [e, List.map_cons, List.map_cons, List.sum_cons, List.sum_cons]
    have : x.e + (a.map (·.e)).sum - (y.e + (b.map (·.e)).sum)
        = (x.e - y.e) + ((a.map (·.e)).sum - (b.map (·.e)).sum) := by ring
    rw [this]
    exact (abs_add_le _ _).trans (by linarith)

end

/-! ## An example -/

/-- First point of the example track: gamma = 5/4. -/
noncomputable def exClear0 : Row := { x := 0.05005, y := 0.05005, z := 0.495, gvx := 0, gvy := 0, gvz := 3 / 4 }

/-- Second point of the example track: gamma = 13/12. -/
noncomputable def exClear1 : Row := { x := 0.05005, y := 0.05005, z := 0.495, gvx := 0, gvy := 0, gvz := 5 / 12 }

/-- An environment with this track. -/
noncomputable def exClearEnv : SimEnv :=
  { get_data := fun _ _ => .ok exNucleus, solve_ivp := fun _ => .ok [(0, exClear0), (1e-10, exClear1)] }

/-- A detector of one metre with gain 100000, 2.5 electrons per MeV, a diffusion that widens the charge of the track to
0.3 mm, and the packaged grid edges. -/
noncomputable def exClearConfig : Config :=
  { det_params := { exDet 100000 (9e-8 / 1.21) with w_value := 4.0e5 }
    elec_params := { exElec with micromegas_edge := 10, windows_edge := 110 }, pad_params := {}
    pad_grid := some (exGrid, packagedEdges), pad_centers := none, pad_sizes := []
    drift_velocity := 0.01 }

theorem exClear0_gv : exClear0.gv = 3 / 4 := sqrt_of_sq (by norm_num) (by norm_num [exClear0])

theorem exClear1_gv : exClear1.gv = 5 / 12 := sqrt_of_sq (by norm_num) (by norm_num [exClear1])

theorem exClear_means : (energy_lost ([exClear0, exClear1].map (track_energy exNucleus))).map
    (Option.map (· * (1.0e6 / exClearConfig.det_params.w_value))) = [some 0, some (5 / 2)] := by
  have b0 : betaOf (3 / 4) = 3 / 5 := sqrt_of_sq (by norm_num) (by norm_num)
  have b1 : betaOf (5 / 12) = 5 / 13 := sqrt_of_sq (by norm_num) (by norm_num)
  have hen : [exClear0, exClear1].map (track_energy exNucleus) = [some (3 / 2), some (1 / 2)] := by
    simp only [List.map_cons, List.map_nil, track_energy, exClear0_gv, exClear1_gv, b0, b1, exNucleus]
    norm_num
  rw [hen]
  simp only [energy_lost, energy_lost.go, List.map_cons, List.map_nil, exClearConfig, exDet]
  have : |(1 / 2 : ℝ) - 3 / 2| = 1 := by norm_num
  simp only [Option.bind_eq_bind, Option.bind_some, Option.pure_def, this, Option.map_some]
  norm_num

theorem exClear_values (s : Unit) :
    electronValues (fun s => (0, s)) [exClear0, exClear1] exNucleus exClearConfig.det_params s = [0, 5 / 2] := by
  unfold electronValues
  rw [exClear_means]
  simp [fanoValues]

theorem exClear_electrons : generate_electrons [exClear0, exClear1] exNucleus exClearConfig.det_params exGen ()
    = .ok ([0, 2], ()) := by
  have h0 : npSqrt (0 : ℝ) = some 0 := by simp [npSqrt]
  have h1 : pyInt (5 / 2) = 2 := by
    unfold pyInt
    rw [if_pos (by norm_num), Int.floor_eq_iff]
    norm_num
  have h2 : pyInt 0 = 0 := by simp [pyInt]
  have hf : exClearConfig.det_params.fano_factor = 0 := rfl
  have hw0 : exClearConfig.det_params.w_value ≠ 0 := by norm_num [exClearConfig]
  unfold generate_electrons
  simp only
  rw [if_neg hw0, exClear_means, hf]
  simp only [fano_draws, fano_draw, zero_mul, h0, exGen, h1, h2]
  rfl

theorem twentieth_clear (k n : ℤ) (hk : ¬ (20 ∣ k)) : (1e-8 : ℝ) < |(k : ℝ) / 20 - n| := by
  have h1 : (1 : ℝ) ≤ |(k : ℝ) - 20 * n| := by
    have : (1 : ℤ) ≤ |k - 20 * n| := by
      apply Int.one_le_abs
      intro h
      exact hk ⟨n, by omega⟩
    exact_mod_cast this
  have : (k : ℝ) / 20 - n = (k - 20 * n) / 20 := by ring
  rw [this, abs_div, abs_of_pos (show (0 : ℝ) < 20 by norm_num)]
  norm_num
  linarith

theorem exClear_position : ClearPosition exClearConfig exClear1 := by
  have ha : arrival exClearConfig exClear1.z = 60.5 := by
    norm_num [arrival, exClearConfig, exDet, exClear1]
  have hw : exactWidth exClearConfig exClear1.z = 3e-4 := by
    unfold exactWidth
    rw [ha]
    exact sqrt_of_sq (by norm_num) (by norm_num [exClearConfig, exDet])
  have key : ∀ i < 10, ∀ n : ℤ,
      (1e-8 : ℝ) < |((0.05005 : ℝ) + meshOffset i * exactWidth exClearConfig exClear1.z) * 1000 - n| := by
    intro i _ n
    have : ((0.05005 : ℝ) + meshOffset i * exactWidth exClearConfig exClear1.z) * 1000
        = ((983 + 4 * i : ℤ) : ℝ) / 20 := by
      rw [hw]
      unfold meshOffset
      push_cast
      ring
    rw [this]
    exact twentieth_clear _ n (by omega)
  refine ⟨by rw [ha]; norm_num, fun n => ?_, key, key⟩
  rw [ha]
  have h1 : (1 : ℝ) ≤ |121 - 2 * (n : ℝ)| := by
    have : (1 : ℤ) ≤ |121 - 2 * n| := Int.one_le_abs (by omega)
    exact_mod_cast this
  have : (60.5 : ℝ) - n = (121 - 2 * n) / 2 := by ring
  rw [this, abs_div, abs_of_pos (show (0 : ℝ) < 2 by norm_num)]
  norm_num
  linarith

theorem exClear_deviation : deviation 100000 (5 / 2) = 205 := by
  unfold deviation doubtful
  rw [if_neg (by norm_num), if_neg ?_]
  · norm_num
  · rintro ⟨n, hn⟩
    have h1 : (1 : ℝ) ≤ |5 - 2 * (n : ℝ)| := by
      have : (1 : ℤ) ≤ |5 - 2 * n| := Int.one_le_abs (by omega)
      exact_mod_cast this
    have : (5 / 2 : ℝ) - n = (5 - 2 * n) / 2 := by ring
    rw [this, abs_div, abs_of_pos (show (0 : ℝ) < 2 by norm_num)] at hn
    linarith

/-- An event of a neutral and a charged nucleus with diffusion meets the hypotheses of C145. -/
example (m : Math64) (h : m.Ok) : ∃ cloud64 cloud labels s',
    simulate64 m (fun s => (0, s)) exClearEnv exMomenta (0, 0, 0.5) [1, 0, 1] [1, 1, 1]
      { exClearConfig with pad_grid := some (exGrid, packagedEdges64) } exGen [1, 2] () = .ok ((cloud64, labels), s') ∧
    simulate exClearEnv exMomenta (0, 0, 0.5) [1, 0, 1] [1, 1, 1] exClearConfig exGen [1, 2] ()
      = .ok ((cloud, labels), s') ∧
    labels.length = cloud.length ∧ List.Forall₂ SameRow cloud64 cloud ∧ cloudDistance cloud64 cloud ≤ 205 := by
  have htr : ∀ q : Vec4, generate_trajectory exClearEnv.solve_ivp (0, 0, 0.5) (q.px, q.py, q.pz) exNucleus
      exClearConfig.det_params = .ok [exClear0, exClear1] := fun _ => rfl
  have g0 := exClear0_gv
  have g1 := exClear1_gv
  have hlor : ∀ v : ℝ, 0 ≤ v → v ≤ 1 →
      exNucleus.mass * lorentz v * (1.0e6 / exClearConfig.det_params.w_value) ≤ 1e9 := by
    intro v h0 h1
    have := lorentz_le h0
    change 6 * lorentz v * (1.0e6 / 4.0e5) ≤ 1e9
    norm_num
    linarith
  have hrec : Recordable exNucleus exClearConfig.det_params [exClear0, exClear1] := by
    refine ⟨?_, ?_, ?_, ?_, ?_, ?_, ?_, ?_⟩
    · norm_num [exNucleus]
    · norm_num [exNucleus]
    · norm_num [exClearConfig]
    · norm_num [exClearConfig]
    · norm_num [exClearConfig, exDet]
    · norm_num [exClearConfig, exDet]
    · intro s hs
      simp only [List.mem_cons, List.not_mem_nil, or_false] at hs
      rcases hs with rfl | rfl
      · exact ⟨by rw [g0]; norm_num, by rw [g0]; norm_num⟩
      · exact ⟨by rw [g1]; norm_num, by rw [g1]; norm_num⟩
    · intro s hs
      simp only [List.mem_cons, List.not_mem_nil, or_false] at hs
      rcases hs with rfl | rfl
      · exact hlor _ (by rw [g0]; norm_num) (by rw [g0]; norm_num)
      · exact hlor _ (by rw [g1]; norm_num) (by rw [g1]; norm_num)
  have ht : ClearEvent (fun s => (0, s)) exClearEnv exMomenta (0, 0, 0.5) [1, 0, 1] [1, 1, 1] exClearConfig exGen
      [1, 2] () (drawnAbove [exClear0, exClear1] [0, 2] + 0)
      (((electronValues (fun s => (0, s)) [exClear0, exClear1] exNucleus exClearConfig.det_params ()).map
          (deviation exClearConfig.det_params.mpgd_gain)).sum + 0) () :=
    .neutral 1 _ () () _ _ rfl (.charged 2 1 1 exNucleus ⟨0, 0, 4.5, 7.5⟩ [exClear0, exClear1] [0, 2] [] () () () 0 0
      rfl (by norm_num) rfl rfl rfl (htr _) exClear_electrons
      (fun r hr => by
        simp only [List.mem_cons, List.not_mem_nil, or_false] at hr
        rcases hr with rfl | rfl <;> norm_num [exClear0, exClear1, exClearConfig, exDet, abs_of_pos])
      hrec
      (fun rv hrv => by
        rw [exClear_values] at hrv
        simp only [List.zip_cons_cons, List.zip_nil_right, List.mem_cons, List.not_mem_nil, or_false] at hrv
        rcases hrv with rfl | rfl
        · exact Or.inl (by norm_num)
        · exact Or.inr ⟨by norm_num, exClear_position⟩)
      (.nil ()))
  have hgain : exClearConfig.det_params.mpgd_gain = 100000 := rfl
  have hB : ((electronValues (fun s => (0, s)) [exClear0, exClear1] exNucleus exClearConfig.det_params ()).map
      (deviation exClearConfig.det_params.mpgd_gain)).sum + 0 = 205 := by
    rw [exClear_values, hgain]
    have h0 : deviation 100000 0 = 0 := by unfold deviation; rw [if_pos (by norm_num)]
    simp [h0, exClear_deviation]
  have hn : drawnAbove [exClear0, exClear1] [0, 2] + 0 = 4 := by decide
  rw [hn, hB] at ht
  exact C145_event h rfl
    ⟨by simpa [exClearConfig, exDet] using int_mem (n := 1) (by norm_num),
      by norm_num [exClearConfig, exDet], by norm_num [exClearConfig, exDet],
      by norm_num [exClearConfig], by norm_num [exClearConfig], by norm_num [exClearConfig]⟩
    ⟨by norm_num [exClearConfig], by norm_num [exClearConfig, exDet],
      Or.inr ⟨by norm_num [exClearConfig, exDet], by norm_num [exClearConfig, exDet],
        by norm_num [exClearConfig, exDet], by norm_num [exClearConfig, exDet]⟩⟩
    (by norm_num [exClearConfig, exDet]) (C145_packaged h.rounding)
    (fun _ _ => ⟨by norm_num [exGrid], by norm_num [exGrid]⟩) (by rw [hgain]; norm_num) exGen_lawful
    (fun loc scale s => by simp [exGen]) (fun _ => by norm_num) ht (by rw [hgain]; norm_num)

end Verif.Machine
