import Verif.Props.MachineEvent
import Verif.Props.SolverError

/-! # The charge kept by the pads, in machine arithmetic -/

namespace Verif.Machine

open Verif.Detector Verif.Spec Verif.Kinematics Verif.Props

/-! ## Nothing is lost on the pad plane -/

/-- In machine arithmetic the position is on a pad that records. -/
def Active64 (rn : ℝ → ℝ) (grid : PadGrid) (g : GridEdges) (p : ℝ × ℝ) : Prop :=
  (position_to_index64 rn g p).1 ≠ -1 ∧ (position_to_index64 rn g p).2 ≠ -1 ∧
  grid.cell (position_to_index64 rn g p).1 (position_to_index64 rn g p).2 ≠ -1 ∧
  grid.cell (position_to_index64 rn g p).1 (position_to_index64 rn g p).2 ∉ BEAM_PADS

/-- The whole square of half side `ρ` around the position is on pads that record. -/
def Surrounded (rn : ℝ → ℝ) (grid : PadGrid) (g : GridEdges) (ρ x y : ℝ) : Prop :=
  ∀ u v, |u - x| ≤ ρ → |v - y| ≤ ρ → Active64 rn grid g (u, v)

theorem kept_point {rn : ℝ → ℝ} {grid : PadGrid} {g : GridEdges} {p : Points}
    (hp : ∀ entry ∈ p, 0 ≤ entry.2.1) {time : ℝ} {center : ℝ × ℝ} (ha : Active64 rn grid g center) {e : ℤ}
    (he : 0 ≤ e) (hroom : storedCharge p + e < 2 ^ 63) (label : ℤ) :
    storedCharge (point_transport64 rn grid g time center e p label) = storedCharge p + e := by
  obtain ⟨h1, h2, h3, h4⟩ := ha
  unfold point_transport64
  simp only
  rw [if_neg (by rintro (h | h); exacts [h1 h, h2 h]), if_pos ⟨h3, h4⟩]
  exact (addCharge64_total hp he hroom).1

theorem kept_pixels (m : Math64) {grid : PadGrid} {g : GridEdges} {time : ℝ} (center : ℝ × ℝ) (electrons : ℤ)
    (sigma : ℝ) (label : ℤ) (l : List (ℝ × ℝ)) (hl : ∀ pixel ∈ l, 0 ≤ pixel_electrons64 m center sigma electrons pixel)
    (ha : ∀ pixel ∈ l, Active64 m.rn grid g pixel) (p : Points) (hp : ∀ entry ∈ p, 0 ≤ entry.2.1)
    (hroom : storedCharge p + (l.map (pixel_electrons64 m center sigma electrons)).sum < 2 ^ 63) :
    storedCharge (l.foldl (transverse_pixel64 m grid g time center electrons sigma label) p)
      = storedCharge p + (l.map (pixel_electrons64 m center sigma electrons)).sum := by
  induction l generalizing p with
  | nil => simp
  | cons a l ih =>
    have ha0 := hl a (by simp)
    have hl' : ∀ pixel ∈ l, 0 ≤ pixel_electrons64 m center sigma electrons pixel :=
      fun pixel h => hl pixel (by simp [h])
    have hs : 0 ≤ (l.map (pixel_electrons64 m center sigma electrons)).sum := by
      apply List.sum_nonneg
      intro x hx
      obtain ⟨y, hy, rfl⟩ := List.mem_map.1 hx
      exact hl' y hy
    rw [List.map_cons, List.sum_cons] at hroom ⊢
    rw [List.foldl_cons]
    obtain ⟨h1, h2, h3, h4⟩ := ha a (by simp)
    have step : transverse_pixel64 m grid g time center electrons sigma label p a
        = addCharge64 p (pyInt time) (grid.cell (position_to_index64 m.rn g a).1 (position_to_index64 m.rn g a).2)
          (pixel_electrons64 m center sigma electrons a) label := by
      unfold transverse_pixel64
      simp only
      rw [if_neg (by rintro (h | h); exacts [h1 h, h2 h]), if_pos ⟨h3, h4⟩]
    obtain ⟨t1, t2⟩ := addCharge64_total hp (tb := pyInt time)
      (pad := grid.cell (position_to_index64 m.rn g a).1 (position_to_index64 m.rn g a).2) (label := label) ha0
      (by omega)
    rw [step, ih hl' (fun q hq => ha q (by simp [hq])) _ t2 (by omega), t1]
    ring

/-- The mesh lines are within three widths of the centre, up to rounding. -/
theorem mesh64_within {m : Math64} (h : m.Ok) {center : ℝ × ℝ} (hx : |center.1| ≤ 1)
    (hy : |center.2| ≤ 1) {sigma : ℝ} (hs : (2 : ℝ) ^ (-30 : ℤ) ≤ sigma) (hs1 : sigma ≤ 1) :
    ∀ pixel ∈ transverse_mesh64 m center sigma,
      |pixel.1 - center.1| ≤ 3.01 * sigma ∧ |pixel.2 - center.2| ≤ 3.01 * sigma := by
  have h0 : 0 ≤ sigma := le_trans (by positivity) hs
  have line : ∀ (c : ℝ) (i : ℕ), |c| ≤ 1 → i < 10 → |line64 m.rn c sigma i - c| ≤ 3.01 * sigma := by
    intro c i hc hi
    have h1 := linspace_position h.rounding hc h0 hs1 hi (x := line64 m.rn c sigma i) rfl
    have h2 : |meshOffset i * sigma| ≤ 3 * sigma := by
      rw [abs_mul, abs_of_nonneg h0]
      exact mul_le_mul_of_nonneg_right (meshOffset_abs hi) h0
    have h3 : 2 * uro * 64 ≤ 0.01 * sigma := by
      have : 2 * uro * 64 ≤ 0.01 * (2 : ℝ) ^ (-30 : ℤ) := by unfold uro; norm_num
      exact this.trans (mul_le_mul_of_nonneg_left hs (by norm_num))
    calc |line64 m.rn c sigma i - c|
        = |(line64 m.rn c sigma i - (c + meshOffset i * sigma)) + meshOffset i * sigma| := by congr 1; ring
      _ ≤ _ := abs_add_le _ _
      _ ≤ _ := by linarith
  intro pixel hp
  rw [mesh64_eq] at hp
  obtain ⟨i, hi, hp⟩ := List.mem_flatMap.1 hp
  obtain ⟨j, hj, rfl⟩ := List.mem_map.1 hp
  exact ⟨line _ _ hx (List.mem_range.1 hi), line _ _ hy (List.mem_range.1 hj)⟩

/-- Together the pixels receive at least 99.77 % of the electrons, less one each. -/
theorem mesh64_low {m : Math64} (h : m.Ok) {center : ℝ × ℝ} (hx : |center.1| ≤ 1)
    (hy : |center.2| ≤ 1) {sigma : ℝ} (hs : (2 : ℝ) ^ (-30 : ℤ) ≤ sigma) (hs1 : sigma ≤ 1) {e : ℤ}
    (he : 0 ≤ e) (he2 : e < 2 ^ 53) :
    0.9977 * (e : ℝ) - 100
      ≤ (((transverse_mesh64 m center sigma).map (pixel_electrons64 m center sigma e)).sum : ℤ) := by
  have h0 : 0 ≤ sigma := le_trans (by positivity) hs
  have he' : (0 : ℝ) ≤ e := by exact_mod_cast he
  have key := fun (i j : ℕ) (hi : i < 10) (hj : j < 10) =>
    (pixel_value_near h hs hs1 hi hj
      (pixel := (line64 m.rn center.1 sigma i, line64 m.rn center.2 sigma j))
      (linspace_near h.rounding hx h0 hs1 hi rfl) (linspace_near h.rounding hy h0 hs1 hj rfl) he he2).2.2
  rw [mesh64_eq]
  have hsum : ((meshPoints center sigma).map fun pw => pw.2 * ((e : ℝ) * (1 - 3e-4)) - 1).sum
      ≤ (((List.range 10).flatMap fun (i : ℕ) => (List.range 10).map fun (j : ℕ) =>
        (line64 m.rn center.1 sigma i, line64 m.rn center.2 sigma j)).map fun pixel =>
        ((pixel_electrons64 m center sigma e pixel : ℤ) : ℝ)).sum := by
    unfold meshPoints
    rw [sum_flatMap_map, sum_flatMap_map]
    apply List.sum_le_sum
    intro i hi
    simp only [List.map_map]
    apply List.sum_le_sum
    intro j hj
    have := key i j (List.mem_range.1 hi) (List.mem_range.1 hj)
    simp only [Function.comp_apply]
    linarith
  have e1 : ∀ (l : List ((ℝ × ℝ) × ℝ)) (c : ℝ), (l.map fun pw => pw.2 * c - 1).sum
      = (l.map (·.2)).sum * c - l.length := by
    intro l c
    induction l with
    | nil => simp
    | cons a l ih => simp only [List.map_cons, List.sum_cons, ih, List.length_cons]; push_cast; ring
  have e2 : (meshPoints center sigma).length = 100 := by simp [meshPoints]
  have hw := (meshWeights_sum_bounds center sigma).1
  rw [e1, e2] at hsum
  have h1 : 0.9977 * (e : ℝ) ≤ ((meshPoints center sigma).map (·.2)).sum * ((e : ℝ) * (1 - 3e-4)) := by
    have := mul_le_mul_of_nonneg_right hw (mul_nonneg he' (by norm_num : (0 : ℝ) ≤ 1 - 3e-4))
    refine le_trans ?_ this
    norm_num
    linarith
  generalize ((List.range 10).flatMap fun (i : ℕ) => (List.range 10).map fun (j : ℕ) =>
        (line64 m.rn center.1 sigma i, line64 m.rn center.2 sigma j)) = l at *
  have hc : (l.map fun pixel => ((pixel_electrons64 m center sigma e pixel : ℤ) : ℝ))
      = (l.map (pixel_electrons64 m center sigma e)).map Int.cast := by
    rw [List.map_map]
    rfl
  rw [hc, ← Int.cast_list_sum, Nat.cast_ofNat] at hsum
  linarith

/-! ## A track point -/

/-- No mesh of the detector is wider than `ρ`: a bound on the widest diffusion, that of electrons released at the
window, with a margin of three per cent. -/
def SpreadWithin (d : DetectorParams) (e : ElectronicsParams) (ρ : ℝ) : Prop :=
  0 ≤ ρ ∧ 2 * d.diffusion * (d.length / ((e.windows_edge - e.micromegas_edge : ℤ) : ℝ))
    * e.windows_edge / d.efield ≤ (ρ / 3.1) ^ 2

theorem spread64_within {rn : ℝ → ℝ} (h : Rounding rn) {D E V dv t ρ : ℝ} (hD1 : 1e-10 ≤ D) (hD2 : D ≤ 1e3)
    (hE1 : 1 ≤ E) (hV1 : 1e-6 ≤ V) (hV2 : V ≤ 1e3) (hv1 : V * (1 - uro) ≤ dv)
    (hv2 : dv ≤ V * (1 + 2 * uro)) (ht1 : 1 ≤ t) (ht2 : t ≤ 2e3)
    (hlo : (2 : ℝ) ^ (-59 : ℤ) ≤ 2 * D * V * t / E) (hρ0 : 0 ≤ ρ) (hρ1 : ρ ≤ 1000)
    (hhi : 2 * D * V * t / E ≤ 1.01 * (ρ / 3.1) ^ 2) {sigma : ℝ}
    (hs : spread64 rn D E dv t = some sigma) : 3.01 * sigma ≤ ρ := by
  obtain ⟨g1, g2⟩ := radicand_near h hD1 hD2 hE1 hV1 hV2 hv1 hv2 ht1 ht2 (le_trans (by norm_num) hlo)
  unfold spread64 at hs
  clear hD1 hD2 hE1 hV1 hV2 hv1 hv2 ht1 ht2
  generalize rn (rn (rn (rn (2 * D) * dv) * t) / E) = r at *
  generalize 2 * D * V * t / E = X at *
  have hX0 : 0 ≤ X := le_trans (by positivity) hlo
  have r0 : 0 ≤ r := le_trans (mul_nonneg hX0 (by norm_num)) g1
  rw [npSqrt_of_nonneg r0] at hs
  obtain rfl := Option.some.inj hs
  have hr : r ≤ (1.01 * (ρ / 3.1)) ^ 2 := by
    have : 0 ≤ (ρ / 3.1) ^ 2 := sq_nonneg _
    calc r ≤ X * (1 + 1e-3) := g2
      _ ≤ 1.01 * (ρ / 3.1) ^ 2 * (1 + 1e-3) := mul_le_mul_of_nonneg_right hhi (by norm_num)
      _ ≤ (1.01 * (ρ / 3.1)) ^ 2 := by
        rw [mul_pow]
        generalize (ρ / 3.1) ^ 2 = Y at *
        norm_num
        linarith
  have hsq : Real.sqrt r ≤ 1.01 * (ρ / 3.1) := by
    rw [Real.sqrt_le_left (by positivity)]
    exact hr
  have hρ : 1e-10 ≤ ρ := by
    by_contra hc
    push Not at hc
    have h1 : ρ ^ 2 ≤ (1e-10) ^ 2 := pow_le_pow_left₀ hρ0 hc.le 2
    have h2 : (ρ / 3.1) ^ 2 ≤ (1e-10) ^ 2 / 3.1 ^ 2 := by
      rw [div_pow]
      exact div_le_div_of_nonneg_right h1 (by norm_num)
    have h3 : (2 : ℝ) ^ (-59 : ℤ) ≤ 1.01 * ((1e-10) ^ 2 / 3.1 ^ 2) :=
      (hlo.trans hhi).trans (mul_le_mul_of_nonneg_left h2 (by norm_num))
    norm_num at h3
  have := h.le_up hsq (tiny_le (by norm_num at hρ ⊢; linarith)) (big_ge (by norm_num; linarith))
  have hu := uro_pos
  have hu1 := uro_lt
  have h4 : 1.01 * (ρ / 3.1) * (1 + uro) ≤ 1.01 * (ρ / 3.1) * (1 + 1e-15) :=
    mul_le_mul_of_nonneg_left (by linarith) (by positivity)
  norm_num at this h4 ⊢
  linarith

/-- One track point within reach of recording pads keeps its charge. -/
theorem kept_step {m : Math64} (h : m.Ok) {d : DetectorParams} {e : ElectronicsParams}
    (hok : DriftOk d e) (hsp : SpreadOk d e) {ρ : ℝ} (hρ : SpreadWithin d e ρ) {grid : PadGrid} {g : GridEdges}
    {r : Row} (hx : |r.x| ≤ 1) (hy : |r.y| ≤ 1) (hz0 : 0 ≤ r.z) (hz1 : r.z ≤ d.length)
    (hact : Surrounded m.rn grid g ρ r.x r.y) {n : ℤ} (hn : 0 ≤ n)
    (hn2 : n < 2 ^ 53) (label : ℤ) {p q : Points} (hp : ∀ entry ∈ p, 0 ≤ entry.2.1)
    (hroom : storedCharge p + n < 2 ^ 63)
    (hq : transport_step64 m grid g d.diffusion d.efield
        (drift_velocity64 m.rn d.length e.micromegas_edge e.windows_edge) label p
        ({ r with z := driftTime64 m.rn d e r.z }, n) = .ok q) :
    (storedCharge p : ℝ) + (0.9977 * n - 100) ≤ storedCharge q := by
  obtain ⟨t1, t2, t3, t4⟩ := C89_range h.rounding hok hz0 hz1
  have hE : d.efield ≠ 0 := by linarith [hsp.efield]
  have hn' : (0 : ℝ) ≤ n := by exact_mod_cast hn
  unfold transport_step64 at hq
  simp only at hq
  rw [if_neg hE] at hq
  obtain ⟨hρ0, hρ1⟩ := hρ
  rcases hsp.diffusion with hD | ⟨hD1, hD2, hlo, hwide⟩
  · rw [hD, spread64_zero h.rounding] at hq
    simp only [if_true] at hq
    obtain rfl := Except.ok.inj hq
    rw [kept_point hp (hact _ _ (by simpa using hρ0) (by simpa using hρ0)) hn hroom]
    push_cast
    linarith
  · obtain ⟨v1, v2, d1, d2⟩ := drift_velocity_near h.rounding hok.length_ge hok.length_le hok.micromegas
      hok.edges hok.windows
    have hM : (1 : ℝ) ≤ e.micromegas_edge := by exact_mod_cast hsp.micromegas
    have hW : (e.windows_edge : ℝ) ≤ 1000 := by exact_mod_cast hok.windows
    have hWM : (e.micromegas_edge : ℝ) < e.windows_edge := by exact_mod_cast hok.edges
    have hE0 : 0 < d.efield := by linarith [hsp.efield]
    have ht40 : driftTime64 m.rn d e r.z ≤ e.windows_edge + 1e-3 := by
      refine t2.trans ?_
      gcongr
      norm_num
    have hup : driftTime64 m.rn d e r.z ≤ 1.01 * e.windows_edge := by clear t2; linarith
    have hP : 0 ≤ 2 * d.diffusion * (d.length / ((e.windows_edge - e.micromegas_edge : ℤ) : ℝ)) :=
      mul_nonneg (by linarith) (by linarith)
    have hX : 2 * d.diffusion * (d.length / ((e.windows_edge - e.micromegas_edge : ℤ) : ℝ))
        * driftTime64 m.rn d e r.z / d.efield
        ≤ 1.01 * (2 * d.diffusion * (d.length / ((e.windows_edge - e.micromegas_edge : ℤ) : ℝ))
          * e.windows_edge / d.efield) := by
      calc _ ≤ 2 * d.diffusion * (d.length / ((e.windows_edge - e.micromegas_edge : ℤ) : ℝ))
            * (1.01 * e.windows_edge) / d.efield := by
            apply div_le_div_of_nonneg_right _ hE0.le
            exact mul_le_mul_of_nonneg_left hup hP
        _ = _ := by ring
    have hlo' : (2 : ℝ) ^ (-59 : ℤ) ≤ 2 * d.diffusion * (d.length / ((e.windows_edge - e.micromegas_edge : ℤ) : ℝ))
        * driftTime64 m.rn d e r.z / d.efield := by
      refine hlo.trans ?_
      apply div_le_div_of_nonneg_right _ hE0.le
      exact mul_le_mul_of_nonneg_left t1 hP
    obtain ⟨sigma, hs, hs1, hs2⟩ := spread64_bounds h.rounding (t := driftTime64 m.rn d e r.z) hD1 hD2
      hsp.efield v1 v2 d1 d2 (hM.trans t1) (by clear t2; linarith) hlo' (by linarith)
    have hreach : 3.01 * sigma ≤ ρ ∨ 1000 < ρ := by
      rcases le_or_gt ρ 1000 with hb | hb
      · left
        exact spread64_within h.rounding hD1 hD2 hsp.efield v1 v2 d1 d2 (hM.trans t1) (by clear t2; linarith) hlo'
          hρ0 hb (by linarith) hs
      · exact Or.inr hb
    have hreach : 3.01 * sigma ≤ ρ := by
      rcases hreach with hb | hb
      · exact hb
      · linarith
    rw [hs] at hq
    have hne : sigma ≠ 0 := ne_of_gt (lt_of_lt_of_le (by positivity) hs1)
    simp only [if_neg hne] at hq
    obtain rfl := Except.ok.inj hq
    obtain ⟨k1, k2⟩ := mesh64_electrons h (center := (r.x, r.y)) hx hy hs1 hs2 hn hn2
    have k3 := mesh64_low h (center := (r.x, r.y)) hx hy hs1 hs2 hn hn2
    have k4 := mesh64_within h (center := (r.x, r.y)) hx hy hs1 hs2
    unfold transverse_transport64
    rw [kept_pixels m (r.x, r.y) n sigma label _ k1
      (fun pixel hpix => hact _ _ ((k4 pixel hpix).1.trans hreach) ((k4 pixel hpix).2.trans hreach)) p hp (by omega)]
    push_cast at k3 ⊢
    linarith

/-! ## A track -/

theorem kept_fold {m : Math64} (h : m.Ok) {d : DetectorParams} {e : ElectronicsParams}
    (hok : DriftOk d e) (hsp : SpreadOk d e) {ρ : ℝ} (hρ : SpreadWithin d e ρ) (grid : PadGrid) (g : GridEdges)
    (label : ℤ) (l : List (Row × ℤ))
    (hrow : ∀ re ∈ l, |re.1.x| ≤ 1 ∧ |re.1.y| ≤ 1 ∧ 0 ≤ re.1.z ∧ re.1.z ≤ d.length)
    (hact : ∀ re ∈ l, Surrounded m.rn grid g ρ re.1.x re.1.y)
    (hn : ∀ re ∈ l, 0 ≤ re.2 ∧ re.2 < 2 ^ 53) (p : Points) (hp : ∀ entry ∈ p, 0 ≤ entry.2.1)
    (hroom : storedCharge p + (l.map (·.2)).sum < 2 ^ 63) {q : Points}
    (hq : (l.map fun re => ({ re.1 with z := driftTime64 m.rn d e re.1.z }, re.2)).foldlM
        (transport_step64 m grid g d.diffusion d.efield
          (drift_velocity64 m.rn d.length e.micromegas_edge e.windows_edge) label) p = .ok q) :
    (storedCharge p : ℝ) + (l.map fun re => 0.9977 * (re.2 : ℝ) - 100).sum ≤ storedCharge q := by
  induction l generalizing p with
  | nil =>
    obtain rfl : p = q := Except.ok.inj hq
    simp
  | cons a l ih =>
    have hs : 0 ≤ (l.map (·.2)).sum := by
      apply List.sum_nonneg
      intro x hx
      obtain ⟨y, hy, rfl⟩ := List.mem_map.1 hx
      exact (hn y (by simp [hy])).1
    have hcons : ((a :: l).map (·.2)).sum = a.2 + (l.map (·.2)).sum := by simp
    rw [hcons] at hroom
    obtain ⟨h1, h2, h3, h4⟩ := hrow a (by simp)
    obtain ⟨n1, n2⟩ := hn a (by simp)
    obtain ⟨q₁, hq₁, gq⟩ := grown_step h hok hsp (grid := grid) (g := g) h1 h2 h3 h4 n1 n2 le_rfl label
      hp (by omega)
    have hk := kept_step h hok hsp hρ h1 h2 h3 h4 (hact a (by simp)) n1 n2 label hp (by omega) hq₁
    rw [List.map_cons, List.foldlM_cons, hq₁] at hq
    have := ih (fun re hre => hrow re (by simp [hre])) (fun re hre => hact re (by simp [hre]))
      (fun re hre => hn re (by simp [hre])) q₁ gq.nonneg (by linarith [gq.le]) hq
    rw [List.map_cons, List.sum_cons]
    linarith

/-- A track all of whose points are within reach of recording pads. -/
theorem kept_track {m : Math64} (h : m.Ok) {config : Config}
    (hok : DriftOk config.det_params config.elec_params)
    (hsp : SpreadOk config.det_params config.elec_params) {ρ : ℝ}
    (hρ : SpreadWithin config.det_params config.elec_params ρ) (grid : PadGrid) (g : GridEdges)
    (track : List Row) (electrons : List ℤ) (hgain : 0 ≤ config.det_params.mpgd_gain)
    (hin : ∀ r ∈ track, |r.x| ≤ 1 ∧ |r.y| ≤ 1 ∧ 0 ≤ r.z ∧ r.z ≤ config.det_params.length)
    (hact : ∀ r ∈ track, Surrounded m.rn grid g ρ r.x r.y)
    (he : ∀ n ∈ electrons, n * config.det_params.mpgd_gain < 2 ^ 53) (p : Points)
    (hp : ∀ entry ∈ p, 0 ≤ entry.2.1)
    (hroom : storedCharge p + releasedCharge track electrons config.det_params.mpgd_gain < 2 ^ 63)
    (label : ℤ) {q : Points} (hq : drift_track64 m config grid g track electrons p label = .ok q) :
    (storedCharge p : ℝ) + (((track.zip electrons).filter fun re => decide (1 ≤ re.2)).map fun re =>
      0.9977 * ((re.2 * config.det_params.mpgd_gain : ℤ) : ℝ) - 100).sum ≤ storedCharge q := by
  set L := (track.zip electrons).filter fun re => decide (1 ≤ re.2) with hL
  have hmem : ∀ re ∈ L, re.1 ∈ track ∧ re.2 ∈ electrons ∧ 1 ≤ re.2 := by
    intro re hre
    obtain ⟨h1, h2⟩ := List.mem_filter.1 hre
    obtain ⟨h3, h4⟩ := List.of_mem_zip h1
    exact ⟨h3, h4, by simpa using h2⟩
  have hw : ∀ re ∈ L, wrap64 (re.2 * config.det_params.mpgd_gain) = re.2 * config.det_params.mpgd_gain := by
    intro re hre
    obtain ⟨-, h2, h3⟩ := hmem re hre
    have := he _ h2
    have h0 : 0 ≤ re.2 * config.det_params.mpgd_gain := mul_nonneg (by omega) hgain
    exact wrap64_eq (by linarith) (by linarith)
  set l : List (Row × ℤ) := L.map fun re => (re.1, re.2 * config.det_params.mpgd_gain) with hl
  have hsum : (l.map (·.2)).sum = releasedCharge track electrons config.det_params.mpgd_gain := by
    rw [hl, List.map_map]
    rfl
  have := kept_fold h hok hsp hρ grid g label l (by
      intro re hre
      obtain ⟨a, ha, rfl⟩ := List.mem_map.1 hre
      exact hin _ (hmem a ha).1) (by
      intro re hre
      obtain ⟨a, ha, rfl⟩ := List.mem_map.1 hre
      exact hact _ (hmem a ha).1) (by
      intro re hre
      obtain ⟨a, ha, rfl⟩ := List.mem_map.1 hre
      obtain ⟨-, h2, h3⟩ := hmem a ha
      exact ⟨mul_nonneg (by omega) hgain, he _ h2⟩) p hp (by rw [hsum]; exact hroom) (q := q) (by
      rw [← hq]
      unfold drift_track64 transport_track64
      simp only
      rw [masked_zip64, hl, List.map_map]
      congr 1
      apply List.map_congr_left
      intro re hre
      simp only [Function.comp_apply, hw re hre]
      rfl)
  rw [hl, List.map_map] at this
  exact this

/-- The charge kept is at least that of the electrons drawn in exact arithmetic, less one per track point. -/
theorem kept_drawn {gain : ℝ} (hgain : 0 ≤ gain) :
    ∀ {ns64 ns : List ℤ} {track : List Row}, List.Forall₂ (fun a b : ℤ => |a - b| ≤ 1) ns64 ns →
      track.length = ns.length →
      0.9977 * (gain * ((ns.sum : ℤ) - track.length : ℝ)) - 100 * track.length
        ≤ (((track.zip ns64).filter fun re => decide (1 ≤ re.2)).map fun re =>
          0.9977 * ((re.2 : ℝ) * gain) - 100).sum := by
  intro ns64 ns track hf
  induction hf generalizing track with
  | nil => intro hl; cases track with
    | nil => simp
    | cons _ _ => simp at hl
  | @cons a b as bs hab _ ih =>
    intro hl
    cases track with
    | nil => simp at hl
    | cons t ts =>
      have hi := ih (track := ts) (by simpa using hl)
      have hb : (b : ℝ) - 1 ≤ a := by
        have := (abs_le.1 hab).1
        have : b - 1 ≤ a := by omega
        exact_mod_cast this
      rw [List.zip_cons_cons, List.sum_cons, List.length_cons]
      push_cast at hi ⊢
      rw [List.filter_cons]
      have hg := mul_le_mul_of_nonneg_left hb hgain
      split_ifs with h1
      · rw [List.map_cons, List.sum_cons]
        simp only
        linarith
      · have h2 : (a : ℝ) ≤ 0 := by
          simp only [decide_eq_true_eq, not_le] at h1
          exact_mod_cast (by omega : a ≤ 0)
        have := mul_nonneg hgain (sub_nonneg.2 (hb.trans h2))
        have h3 : gain * (b - 1) ≤ 0 := by
          have := mul_nonneg hgain (by linarith : (0 : ℝ) ≤ -(b - 1))
          linarith
        linarith

end Verif.Machine
