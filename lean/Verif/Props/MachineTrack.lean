import Verif.Props.MachineDrift
import Verif.Props.Diffusion

/-! # C90: the transport of a whole track in machine arithmetic -/

namespace Verif.Machine

open Verif.Detector Verif.Spec

/-- `q` arises from the dictionary `p` by adding at most the charge `e`, all of it on active pads that are
not beam pads and on time buckets from `lo` to `hi`. -/
structure Grown (grid : PadGrid) (lo hi : ℤ) (p : Points) (e : ℤ) (q : Points) : Prop where
  ge : storedCharge p ≤ storedCharge q
  le : storedCharge q ≤ storedCharge p + e
  nonneg : ∀ entry ∈ q, 0 ≤ entry.2.1
  keys : ∀ entry ∈ q, (∃ old ∈ p, old.1 = entry.1) ∨ ∃ tb pad i j : ℤ, entry.1 = pair64 tb pad ∧
    lo ≤ tb ∧ tb ≤ hi ∧ pad = grid.cell i j ∧ pad ≠ -1 ∧ pad ∉ BEAM_PADS

theorem Grown.refl {grid : PadGrid} {lo hi : ℤ} {p : Points} (hp : ∀ entry ∈ p, 0 ≤ entry.2.1) {e : ℤ}
    (he : 0 ≤ e) : Grown grid lo hi p e p :=
  ⟨le_rfl, by omega, hp, fun entry h => Or.inl ⟨entry, h, rfl⟩⟩

theorem Grown.trans {grid : PadGrid} {lo hi : ℤ} {p q r : Points} {e f : ℤ} (h : Grown grid lo hi p e q)
    (h' : Grown grid lo hi q f r) : Grown grid lo hi p (e + f) r := by
  refine ⟨h.ge.trans h'.ge, by linarith [h.le, h'.le], h'.nonneg, fun entry hen => ?_⟩
  rcases h'.keys entry hen with ⟨old, ho, e1⟩ | h1
  · rcases h.keys old ho with ⟨old', ho', e2⟩ | h2
    · exact Or.inl ⟨old', ho', e2.trans e1⟩
    · rw [e1] at h2
      exact Or.inr h2
  · exact Or.inr h1

theorem Grown.weaken {grid : PadGrid} {lo hi : ℤ} {p q : Points} {e f : ℤ} (h : Grown grid lo hi p e q)
    (hef : e ≤ f) : Grown grid lo hi p f q := ⟨h.ge, by linarith [h.le], h.nonneg, h.keys⟩

theorem set_keys {p : Points} {k : ℤ} {v : ℤ × ℤ} :
    ∀ entry ∈ p.set k v, (∃ old ∈ p, old.1 = entry.1) ∨ entry.1 = k := by
  induction p with
  | nil => intro entry h; simp [Points.set] at h; right; rw [h]
  | cons a p ih =>
    obtain ⟨k', w⟩ := a
    intro entry h
    unfold Points.set at h
    split_ifs at h with hk
    · rcases List.mem_cons.1 h with rfl | h
      · right; simp [hk]
      · left; exact ⟨entry, by simp [h], rfl⟩
    · rcases List.mem_cons.1 h with rfl | h
      · left; exact ⟨(k', w), by simp, rfl⟩
      · rcases ih entry h with ⟨old, ho, e⟩ | e
        · left; exact ⟨old, by simp [ho], e⟩
        · right; exact e

/-- One deposit. -/
theorem grown_add {grid : PadGrid} {lo hi : ℤ} {p : Points} (hp : ∀ entry ∈ p, 0 ≤ entry.2.1)
    {tb pad e label i j : ℤ} (he : 0 ≤ e) (hroom : storedCharge p + e < 2 ^ 63) (h1 : lo ≤ tb)
    (h2 : tb ≤ hi) (h3 : pad = grid.cell i j) (h4 : pad ≠ -1) (h5 : pad ∉ BEAM_PADS) :
    Grown grid lo hi p e (addCharge64 p tb pad e label) := by
  obtain ⟨t1, t2⟩ := addCharge64_total hp (tb := tb) (pad := pad) (label := label) he hroom
  refine ⟨by omega, by omega, t2, fun entry hen => ?_⟩
  unfold addCharge64 at hen
  rcases set_keys entry hen with h | h
  · exact Or.inl h
  · exact Or.inr ⟨tb, pad, i, j, h, h1, h2, h3, h4, h5⟩

/-- Transport without diffusion. -/
theorem grown_point {rn : ℝ → ℝ} {grid : PadGrid} {g : GridEdges} {lo hi : ℤ} {p : Points}
    (hp : ∀ entry ∈ p, 0 ≤ entry.2.1) {time : ℝ} (h1 : lo ≤ pyInt time) (h2 : pyInt time ≤ hi)
    (center : ℝ × ℝ) {e : ℤ} (he : 0 ≤ e) (hroom : storedCharge p + e < 2 ^ 63) (label : ℤ) :
    Grown grid lo hi p e (point_transport64 rn grid g time center e p label) := by
  unfold point_transport64
  simp only
  split_ifs with ha hb
  · exact Grown.refl hp he
  · exact grown_add hp he hroom h1 h2 rfl hb.1 hb.2
  · exact Grown.refl hp he

/-- The pixel loop. -/
theorem grown_pixels (m : Math64) {grid : PadGrid} {g : GridEdges} {lo hi : ℤ} {time : ℝ}
    (h1 : lo ≤ pyInt time) (h2 : pyInt time ≤ hi) (center : ℝ × ℝ) (electrons : ℤ) (sigma : ℝ) (label : ℤ)
    (l : List (ℝ × ℝ)) (hl : ∀ pixel ∈ l, 0 ≤ pixel_electrons64 m center sigma electrons pixel)
    (p : Points) (hp : ∀ entry ∈ p, 0 ≤ entry.2.1)
    (hroom : storedCharge p + (l.map (pixel_electrons64 m center sigma electrons)).sum < 2 ^ 63) :
    Grown grid lo hi p (l.map (pixel_electrons64 m center sigma electrons)).sum
      (l.foldl (transverse_pixel64 m grid g time center electrons sigma label) p) := by
  induction l generalizing p with
  | nil => exact Grown.refl hp le_rfl
  | cons a l ih =>
    have ha := hl a (by simp)
    have hl' : ∀ pixel ∈ l, 0 ≤ pixel_electrons64 m center sigma electrons pixel :=
      fun pixel h => hl pixel (by simp [h])
    have hs : 0 ≤ (l.map (pixel_electrons64 m center sigma electrons)).sum := by
      apply List.sum_nonneg
      intro x hx
      obtain ⟨y, hy, rfl⟩ := List.mem_map.1 hx
      exact hl' y hy
    rw [List.map_cons, List.sum_cons] at hroom ⊢
    rw [List.foldl_cons]
    have step : Grown grid lo hi p (pixel_electrons64 m center sigma electrons a)
        (transverse_pixel64 m grid g time center electrons sigma label p a) := by
      unfold transverse_pixel64
      simp only
      split_ifs with hb hc
      · exact Grown.refl hp ha
      · exact grown_add hp ha (by omega) h1 h2 rfl hc.1 hc.2
      · exact Grown.refl hp ha
    exact step.trans (ih hl' _ step.nonneg (by linarith [step.le]))

/-- The transport with diffusion. -/
theorem grown_transverse {m : Math64} (h : m.Ok) {grid : PadGrid} {g : GridEdges} {lo hi : ℤ} {time : ℝ}
    (h1 : lo ≤ pyInt time) (h2 : pyInt time ≤ hi) {center : ℝ × ℝ}
    (hx : |center.1| ≤ 1) (hy : |center.2| ≤ 1) {sigma : ℝ} (hs : (2 : ℝ) ^ (-30 : ℤ) ≤ sigma)
    (hs1 : sigma ≤ 1) {e : ℤ} (he : 0 ≤ e) (he2 : e < 2 ^ 53) (label : ℤ) (p : Points)
    (hp : ∀ entry ∈ p, 0 ≤ entry.2.1) (hroom : storedCharge p + e < 2 ^ 63) :
    Grown grid lo hi p e (transverse_transport64 m grid g time center e sigma p label) := by
  obtain ⟨k1, k2⟩ := mesh64_electrons h hx hy hs hs1 he he2
  unfold transverse_transport64
  exact (grown_pixels m h1 h2 center e sigma label _ k1 p hp (by omega)).weaken k2

/-! ## The width -/

/-- A rounded operation keeps a value within a relative margin. -/
theorem Rounding.margin {rn : ℝ → ℝ} (h : Rounding rn) {x X a : ℝ} (l1 : 1e-40 ≤ X) (l2 : X ≤ 1e40)
    (ha0 : 0 ≤ a) (ha : a ≤ 1 / 2) (h1 : X * (1 - a) ≤ x) (h2 : x ≤ X * (1 + a)) :
    X * (1 - (a + 1e-15)) ≤ rn x ∧ rn x ≤ X * (1 + (a + 1e-15)) := by
  have hX : 0 < X := lt_of_lt_of_le (by norm_num) l1
  have hu := uro_pos
  have hu1 : 2 * uro < 1e-15 := by unfold uro; norm_num
  obtain ⟨k1, k2⟩ := h.within hX h1 h2 ha ha0 (by linarith) ha0 l1 l2
  refine ⟨le_trans ?_ k1, le_trans k2 ?_⟩
  · apply mul_le_mul_of_nonneg_left _ hX.le
    linarith
  · apply mul_le_mul_of_nonneg_left _ hX.le
    linarith

theorem margin_mul {x X y Y a b : ℝ} (hX : 0 < X) (hY : 0 < Y) (ha0 : 0 ≤ a) (ha : a ≤ 1) (hb0 : 0 ≤ b)
    (hb : b ≤ 1) (h1 : X * (1 - a) ≤ x) (h2 : x ≤ X * (1 + a)) (k1 : Y * (1 - b) ≤ y)
    (k2 : y ≤ Y * (1 + b)) :
    X * Y * (1 - (2 * a + 2 * b)) ≤ x * y ∧ x * y ≤ X * Y * (1 + (2 * a + 2 * b)) := by
  have hXY := mul_pos hX hY
  have hx0 : 0 ≤ x := le_trans (mul_nonneg hX.le (by linarith)) h1
  have hab : 0 ≤ a * b := mul_nonneg ha0 hb0
  have hab1 : a * b ≤ b := by nlinarith
  constructor
  · calc X * Y * (1 - (2 * a + 2 * b)) ≤ X * Y * ((1 - a) * (1 - b)) := by
          apply mul_le_mul_of_nonneg_left _ hXY.le
          nlinarith
      _ = (X * (1 - a)) * (Y * (1 - b)) := by ring
      _ ≤ x * y := mul_le_mul h1 k1 (mul_nonneg hY.le (by linarith)) hx0
  · calc x * y ≤ (X * (1 + a)) * (Y * (1 + b)) :=
          mul_le_mul h2 k2 (le_trans (mul_nonneg hY.le (by linarith)) k1) (mul_nonneg hX.le (by linarith))
      _ = X * Y * ((1 + a) * (1 + b)) := by ring
      _ ≤ _ := by
          apply mul_le_mul_of_nonneg_left _ hXY.le
          nlinarith

/-- The radicand of the width. -/
theorem radicand_near {rn : ℝ → ℝ} (h : Rounding rn) {D E V dv t : ℝ} (hD1 : 1e-10 ≤ D) (hD2 : D ≤ 1e3)
    (hE1 : 1 ≤ E) (hV1 : 1e-6 ≤ V) (hV2 : V ≤ 1e3) (hv1 : V * (1 - uro) ≤ dv)
    (hv2 : dv ≤ V * (1 + 2 * uro)) (ht1 : 1 ≤ t) (ht2 : t ≤ 2e3)
    (hlo : 1e-40 ≤ 2 * D * V * t / E) :
    2 * D * V * t / E * (1 - 1e-3) ≤ rn (rn (rn (rn (2 * D) * dv) * t) / E) ∧
      rn (rn (rn (rn (2 * D) * dv) * t) / E) ≤ 2 * D * V * t / E * (1 + 1e-3) := by
  have hu := uro_pos
  have hu1 : 2 * uro < 1e-15 := by unfold uro; norm_num
  have hv1' : V * (1 - 1e-15) ≤ dv := le_trans (by
    apply mul_le_mul_of_nonneg_left _ (by linarith); linarith) hv1
  have hv2' : dv ≤ V * (1 + 1e-15) := le_trans hv2 (by
    apply mul_le_mul_of_nonneg_left _ (by linarith); linarith)
  obtain ⟨a1, a2⟩ := h.margin (x := 2 * D) (X := 2 * D) (a := 0) (by linarith) (by linarith) le_rfl
    (by norm_num) (by simp) (by simp)
  obtain ⟨b1, b2⟩ := margin_mul (by linarith) (by linarith) (by norm_num) (by norm_num) (by norm_num)
    (by norm_num) a1 a2 hv1' hv2'
  have s1 : (1e-16 : ℝ) ≤ 2 * D * V := by
    have : (2e-10 : ℝ) * 1e-6 ≤ 2 * D * V := mul_le_mul (by linarith) hV1 (by norm_num) (by linarith)
    linarith
  have s2 : 2 * D * V ≤ 2e6 := by
    have : 2 * D * V ≤ 2e3 * 1e3 := mul_le_mul (by linarith) hV2 (by linarith) (by norm_num)
    linarith
  obtain ⟨c1, c2⟩ := h.margin (by linarith) (by linarith) (by norm_num) (by norm_num) b1 b2
  obtain ⟨d1, d2⟩ := margin_mul (y := t) (Y := t) (b := 0) (by linarith) (by linarith) (by norm_num)
    (by norm_num) (by norm_num) (by norm_num) c1 c2 (by simp) (by simp)
  have s3 : (1e-16 : ℝ) ≤ 2 * D * V * t := by
    have : (1e-16 : ℝ) * 1 ≤ 2 * D * V * t := mul_le_mul s1 ht1 (by norm_num) (by linarith)
    linarith
  have s4 : 2 * D * V * t ≤ 4e9 := by
    have : 2 * D * V * t ≤ 2e6 * 2e3 := mul_le_mul s2 ht2 (by linarith) (by norm_num)
    linarith
  obtain ⟨e1, e2⟩ := h.margin (by linarith) (by linarith) (by norm_num) (by norm_num) d1 d2
  have hEi : (0 : ℝ) < E⁻¹ := by positivity
  obtain ⟨f1, f2⟩ := margin_mul (y := E⁻¹) (Y := E⁻¹) (b := 0) (by linarith) hEi (by norm_num)
    (by norm_num) (by norm_num) (by norm_num) e1 e2 (by simp) (by simp)
  rw [← div_eq_mul_inv, ← div_eq_mul_inv] at f1 f2
  have s6 : 2 * D * V * t / E ≤ 4e9 := by
    rw [div_le_iff₀ (by linarith)]
    have : (4e9 : ℝ) * 1 ≤ 4e9 * E := by gcongr
    linarith
  obtain ⟨g1, g2⟩ := h.margin hlo (by linarith) (by norm_num) (by norm_num) f1 f2
  have hX : (0 : ℝ) ≤ 2 * D * V * t / E := le_trans (by norm_num) hlo
  refine ⟨le_trans ?_ g1, le_trans g2 ?_⟩
  · apply mul_le_mul_of_nonneg_left _ hX
    norm_num
  · apply mul_le_mul_of_nonneg_left _ hX
    norm_num

/-- The width of the diffusion in float64 is between a nanometre and a metre if the exact one is, with a
margin. -/
theorem spread64_bounds {rn : ℝ → ℝ} (h : Rounding rn) {D E V dv t : ℝ} (hD1 : 1e-10 ≤ D) (hD2 : D ≤ 1e3)
    (hE1 : 1 ≤ E) (hV1 : 1e-6 ≤ V) (hV2 : V ≤ 1e3) (hv1 : V * (1 - uro) ≤ dv)
    (hv2 : dv ≤ V * (1 + 2 * uro)) (ht1 : 1 ≤ t) (ht2 : t ≤ 2e3)
    (hlo : (2 : ℝ) ^ (-59 : ℤ) ≤ 2 * D * V * t / E) (hhi : 2 * D * V * t / E ≤ 0.95) :
    ∃ sigma, spread64 rn D E dv t = some sigma ∧ (2 : ℝ) ^ (-30 : ℤ) ≤ sigma ∧ sigma ≤ 1 := by
  obtain ⟨g1, g2⟩ := radicand_near h hD1 hD2 hE1 hV1 hV2 hv1 hv2 ht1 ht2 (le_trans (by norm_num) hlo)
  unfold spread64
  clear hD1 hD2 hE1 hV1 hV2 hv1 hv2 ht1 ht2
  generalize rn (rn (rn (rn (2 * D) * dv) * t) / E) = r at *
  generalize 2 * D * V * t / E = X at *
  have hp : (0 : ℝ) < 2 ^ (-60 : ℤ) := by positivity
  have h2 : (2 : ℝ) ^ (-59 : ℤ) = 2 * 2 ^ (-60 : ℤ) := by norm_num
  rw [h2] at hlo
  have r1 : (2 : ℝ) ^ (-60 : ℤ) ≤ r := by linarith
  have r2 : r ≤ 1 := by linarith
  have r0 : 0 ≤ r := le_trans (by positivity) r1
  refine ⟨rn (Real.sqrt r), ?_, ?_, ?_⟩
  · rw [npSqrt_of_nonneg r0]
    rfl
  · apply h.ge_of_ge (mem_of_eq 1 (-30) (by norm_num) (by norm_num) (by norm_num) (by simp))
    apply Real.le_sqrt_of_sq_le
    refine le_trans ?_ r1
    norm_num
  · apply h.le_of_le (by simpa using int_mem (n := 1) (by norm_num))
    rw [Real.sqrt_le_iff]
    exact ⟨by norm_num, by linarith⟩

/-! ## C90 -/

/-- Parameters for which the width of the diffusion is either zero or, for all drift times, between two
nanometres and 0.9 m. -/
structure SpreadOk (d : DetectorParams) (e : ElectronicsParams) : Prop where
  micromegas : 1 ≤ e.micromegas_edge
  efield : 1 ≤ d.efield
  diffusion : d.diffusion = 0 ∨ (1e-10 ≤ d.diffusion ∧ d.diffusion ≤ 1e3 ∧
    (2 : ℝ) ^ (-59 : ℤ) ≤ 2 * d.diffusion * (d.length / ((e.windows_edge - e.micromegas_edge : ℤ) : ℝ))
      * e.micromegas_edge / d.efield ∧
    2 * d.diffusion * (d.length / ((e.windows_edge - e.micromegas_edge : ℤ) : ℝ))
      * e.windows_edge / d.efield ≤ 0.9)

theorem spread64_zero {rn : ℝ → ℝ} (h : Rounding rn) (E dv t : ℝ) : spread64 rn 0 E dv t = some 0 := by
  have h0 : rn 0 = 0 := h.exact zero_mem
  unfold spread64
  simp only [mul_zero, h0, zero_mul, zero_div]
  rw [npSqrt_of_nonneg le_rfl]
  simp [h0]

/-- One track point. -/
theorem grown_step {m : Math64} (h : m.Ok) {d : DetectorParams} {e : ElectronicsParams}
    (hok : DriftOk d e) (hsp : SpreadOk d e) {grid : PadGrid} {g : GridEdges} {r : Row}
    (hx : |r.x| ≤ 1) (hy : |r.y| ≤ 1) (hz0 : 0 ≤ r.z) (hz1 : r.z ≤ d.length) {n : ℤ} (hn : 0 ≤ n)
    (hn2 : n < 2 ^ 53) {hi : ℤ} (hhi : pyInt (driftTime64 m.rn d e r.z) ≤ hi) (label : ℤ) {p : Points}
    (hp : ∀ entry ∈ p, 0 ≤ entry.2.1) (hroom : storedCharge p + n < 2 ^ 63) :
    ∃ q, transport_step64 m grid g d.diffusion d.efield
        (drift_velocity64 m.rn d.length e.micromegas_edge e.windows_edge) label p
        ({ r with z := driftTime64 m.rn d e r.z }, n) = .ok q ∧
      Grown grid e.micromegas_edge hi p n q := by
  obtain ⟨t1, t2, t3, -⟩ := C89_range h.rounding hok hz0 hz1
  have hE : d.efield ≠ 0 := by linarith [hsp.efield]
  unfold transport_step64
  simp only
  rw [if_neg hE]
  rcases hsp.diffusion with hD | ⟨hD1, hD2, hlo, hwide⟩
  · rw [hD, spread64_zero h.rounding]
    simp only [if_true]
    exact ⟨_, rfl, grown_point hp t3 hhi _ hn hroom label⟩
  · obtain ⟨v1, v2, d1, d2⟩ := drift_velocity_near h.rounding hok.length_ge hok.length_le hok.micromegas
      hok.edges hok.windows
    have hM : (1 : ℝ) ≤ e.micromegas_edge := by exact_mod_cast hsp.micromegas
    have hW : (e.windows_edge : ℝ) ≤ 1000 := by exact_mod_cast hok.windows
    have hWM : (e.micromegas_edge : ℝ) < e.windows_edge := by exact_mod_cast hok.edges
    have hE0 : 0 < d.efield := by linarith [hsp.efield]
    have ht40 : driftTime64 m.rn d e r.z ≤ e.windows_edge + 1e-3 := by
      refine t2.trans ?_
      gcongr
      norm_num
    obtain ⟨sigma, hs, hs1, hs2⟩ := spread64_bounds h.rounding (t := driftTime64 m.rn d e r.z) hD1 hD2
      hsp.efield v1 v2 d1 d2 (hM.trans t1)
      (by clear t2; linarith) (by
        refine hlo.trans ?_
        apply div_le_div_of_nonneg_right _ hE0.le
        apply mul_le_mul_of_nonneg_left t1
        exact mul_nonneg (by linarith) (by linarith)) (by
        have hup : driftTime64 m.rn d e r.z ≤ 1.01 * e.windows_edge := by clear t2; linarith
        have hP : 0 ≤ 2 * d.diffusion * (d.length / ((e.windows_edge - e.micromegas_edge : ℤ) : ℝ)) :=
          mul_nonneg (by linarith) (by linarith)
        calc _ ≤ 2 * d.diffusion * (d.length / ((e.windows_edge - e.micromegas_edge : ℤ) : ℝ))
              * (1.01 * e.windows_edge) / d.efield := by
              apply div_le_div_of_nonneg_right _ hE0.le
              exact mul_le_mul_of_nonneg_left hup hP
          _ = 1.01 * (2 * d.diffusion * (d.length / ((e.windows_edge - e.micromegas_edge : ℤ) : ℝ))
              * e.windows_edge / d.efield) := by ring
          _ ≤ _ := by linarith)
    rw [hs]
    have hne : sigma ≠ 0 := ne_of_gt (lt_of_lt_of_le (by positivity) hs1)
    simp only [if_neg hne]
    exact ⟨_, rfl, grown_transverse h t3 hhi hx hy hs1 hs2 hn hn2 label p hp hroom⟩

theorem grown_fold {m : Math64} (h : m.Ok) {d : DetectorParams} {e : ElectronicsParams}
    (hok : DriftOk d e) (hsp : SpreadOk d e) (grid : PadGrid) (g : GridEdges) (label : ℤ)
    (l : List (Row × ℤ)) (hrow : ∀ re ∈ l, |re.1.x| ≤ 1 ∧ |re.1.y| ≤ 1 ∧ 0 ≤ re.1.z ∧ re.1.z ≤ d.length)
    (hn : ∀ re ∈ l, 0 ≤ re.2 ∧ re.2 < 2 ^ 53) {hi : ℤ}
    (hhi : ∀ re ∈ l, pyInt (driftTime64 m.rn d e re.1.z) ≤ hi) (p : Points) (hp : ∀ entry ∈ p, 0 ≤ entry.2.1)
    (hroom : storedCharge p + (l.map (·.2)).sum < 2 ^ 63) :
    ∃ q, (l.map fun re => ({ re.1 with z := driftTime64 m.rn d e re.1.z }, re.2)).foldlM
        (transport_step64 m grid g d.diffusion d.efield
          (drift_velocity64 m.rn d.length e.micromegas_edge e.windows_edge) label) p = .ok q ∧
      Grown grid e.micromegas_edge hi p (l.map (·.2)).sum q := by
  induction l generalizing p with
  | nil => exact ⟨p, rfl, Grown.refl hp le_rfl⟩
  | cons a l ih =>
    have hs : 0 ≤ (l.map (·.2)).sum := by
      apply List.sum_nonneg
      intro x hx
      obtain ⟨y, hy, rfl⟩ := List.mem_map.1 hx
      exact (hn y (by simp [hy])).1
    have hcons : ((a :: l).map (·.2)).sum = a.2 + (l.map (·.2)).sum := by simp
    rw [hcons] at hroom ⊢
    obtain ⟨h1, h2, h3, h4⟩ := hrow a (by simp)
    obtain ⟨n1, n2⟩ := hn a (by simp)
    obtain ⟨q, hq, gq⟩ := grown_step h hok hsp (grid := grid) (g := g) h1 h2 h3 h4 n1 n2 (hhi a (by simp)) label
      hp
      (by omega)
    obtain ⟨q', hq', gq'⟩ := ih (fun re hre => hrow re (by simp [hre])) (fun re hre => hn re (by simp [hre]))
      (fun re hre => hhi re (by simp [hre])) q gq.nonneg (by linarith [gq.le])
    refine ⟨q', ?_, gq.trans gq'⟩
    rw [List.map_cons, List.foldlM_cons, hq]
    exact hq'

theorem masked_zip64 {α : Type} (track : List α) (el : List ℤ) (f : α → α) (k : ℤ → ℤ) :
    ((maskSel (el.map fun e => decide (1 ≤ e)) track).map f).zip
      ((maskSel (el.map fun e => decide (1 ≤ e)) el).map k)
    = ((track.zip el).filter fun re => decide (1 ≤ re.2)).map fun re => (f re.1, k re.2) := by
  induction el generalizing track with
  | nil => cases track <;> simp [maskSel]
  | cons e el ih =>
    cases track with
    | nil => cases h : decide (1 ≤ e) <;> simp [maskSel, h]
    | cons t ts =>
      by_cases h : 1 ≤ e
      · simp [maskSel, h]; simpa using ih ts
      · simp [maskSel, h]; simpa using ih ts

/-- The primary electrons of the track points that are transported, multiplied by the gain. -/
def releasedCharge (track : List Row) (electrons : List ℤ) (gain : ℤ) : ℤ :=
  (((track.zip electrons).filter fun re => decide (1 ≤ re.2)).map fun re => re.2 * gain).sum

/-- A track whose electrons arrive up to time bucket `hi`. -/
theorem grown_track {m : Math64} (h : m.Ok) {config : Config}
    (hok : DriftOk config.det_params config.elec_params)
    (hsp : SpreadOk config.det_params config.elec_params) (grid : PadGrid) (g : GridEdges)
    (track : List Row) (electrons : List ℤ) (hgain : 0 ≤ config.det_params.mpgd_gain)
    (hin : ∀ r ∈ track, |r.x| ≤ 1 ∧ |r.y| ≤ 1 ∧ 0 ≤ r.z ∧ r.z ≤ config.det_params.length)
    (he : ∀ n ∈ electrons, n * config.det_params.mpgd_gain < 2 ^ 53) {hi : ℤ}
    (hhi : ∀ r ∈ track, pyInt (driftTime64 m.rn config.det_params config.elec_params r.z) ≤ hi) (p : Points)
    (hp : ∀ entry ∈ p, 0 ≤ entry.2.1)
    (hroom : storedCharge p + releasedCharge track electrons config.det_params.mpgd_gain < 2 ^ 63)
    (label : ℤ) :
    ∃ q, drift_track64 m config grid g track electrons p label = .ok q ∧
      Grown grid config.elec_params.micromegas_edge hi p
        (releasedCharge track electrons config.det_params.mpgd_gain) q := by
  set L := (track.zip electrons).filter fun re => decide (1 ≤ re.2) with hL
  have hmem : ∀ re ∈ L, re.1 ∈ track ∧ re.2 ∈ electrons ∧ 1 ≤ re.2 := by
    intro re hre
    obtain ⟨h1, h2⟩ := List.mem_filter.1 hre
    obtain ⟨h3, h4⟩ := List.of_mem_zip h1
    exact ⟨h3, h4, by simpa using h2⟩
  have hw : ∀ re ∈ L, wrap64 (re.2 * config.det_params.mpgd_gain) = re.2 * config.det_params.mpgd_gain := by
    intro re hre
    obtain ⟨-, h2, h3⟩ := hmem re hre
    have := he _ h2
    have h0 : 0 ≤ re.2 * config.det_params.mpgd_gain := mul_nonneg (by omega) hgain
    exact wrap64_eq (by linarith) (by linarith)
  set l : List (Row × ℤ) := L.map fun re => (re.1, re.2 * config.det_params.mpgd_gain) with hl
  have hsum : (l.map (·.2)).sum = releasedCharge track electrons config.det_params.mpgd_gain := by
    rw [hl, List.map_map]
    rfl
  obtain ⟨q, hq, gq⟩ := grown_fold h hok hsp grid g label l (by
      intro re hre
      obtain ⟨a, ha, rfl⟩ := List.mem_map.1 hre
      exact hin _ (hmem a ha).1) (by
      intro re hre
      obtain ⟨a, ha, rfl⟩ := List.mem_map.1 hre
      obtain ⟨-, h2, h3⟩ := hmem a ha
      exact ⟨mul_nonneg (by omega) hgain, he _ h2⟩) (by
      intro re hre
      obtain ⟨a, ha, rfl⟩ := List.mem_map.1 hre
      exact hhi _ (hmem a ha).1) p hp (by rw [hsum]; exact hroom)
  rw [hsum] at gq
  refine ⟨q, ?_, gq⟩
  unfold drift_track64 transport_track64
  simp only
  rw [masked_zip64, ← hq, hl, List.map_map]
  congr 1
  apply List.map_congr_left
  intro re hre
  simp only [Function.comp_apply, hw re hre]
  rfl

/-- **C90.** In machine arithmetic (float64 positions, times and widths, int64 counters), the transport of
every track inside the detector succeeds. It only adds charge to the dictionary, never more than the
primary electrons times the gain, and only on active pads that are not beam pads and on time buckets from
the micromegas edge to the windows edge. -/
theorem C90_track {m : Math64} (h : m.Ok) {config : Config}
    (hok : DriftOk config.det_params config.elec_params)
    (hsp : SpreadOk config.det_params config.elec_params) (grid : PadGrid) (g : GridEdges)
    (track : List Row) (electrons : List ℤ) (hgain : 0 ≤ config.det_params.mpgd_gain)
    (hin : ∀ r ∈ track, |r.x| ≤ 1 ∧ |r.y| ≤ 1 ∧ 0 ≤ r.z ∧ r.z ≤ config.det_params.length)
    (he : ∀ n ∈ electrons, n * config.det_params.mpgd_gain < 2 ^ 53) (p : Points)
    (hp : ∀ entry ∈ p, 0 ≤ entry.2.1)
    (hroom : storedCharge p + releasedCharge track electrons config.det_params.mpgd_gain < 2 ^ 63)
    (label : ℤ) :
    ∃ q, drift_track64 m config grid g track electrons p label = .ok q ∧
      Grown grid config.elec_params.micromegas_edge config.elec_params.windows_edge p
        (releasedCharge track electrons config.det_params.mpgd_gain) q := by
  exact grown_track h hok hsp grid g track electrons hgain hin he
    (fun r hr => (C89_range h.rounding hok (hin r hr).2.2.1 (hin r hr).2.2.2).2.2.2) p hp hroom label

/-- The hypotheses of C90 are met by a track of three points, one of which releases no electron, in a
detector of one metre with diffusion and the micromegas at time bucket 10. -/
example (m : Math64) (h : m.Ok) : ∃ q, drift_track64 m exShifted exGrid exEdges
      [{ exTrack0 with z := 0.5 }, { exTrack1 with x := 0.1, z := 0.625 }, { exTrack1 with y := -0.2, z := 1 }]
      [20, 0, 35] [(5, (70, 2))] 3 = .ok q ∧ Grown exGrid 10 110 [(5, (70, 2))] 55 q := by
  have hr : releasedCharge [{ exTrack0 with z := 0.5 }, { exTrack1 with x := 0.1, z := 0.625 },
      { exTrack1 with y := -0.2, z := 1 }] [20, 0, 35] exShifted.det_params.mpgd_gain = 55 := by
    unfold releasedCharge exShifted exConfig exDet
    simp [List.filter_cons]
  have := C90_track (config := exShifted) h
    ⟨by simpa [exShifted, exConfig, exDet] using int_mem (n := 1) (by norm_num),
      by norm_num [exShifted, exConfig, exDet], by norm_num [exShifted, exConfig, exDet],
      by norm_num [exShifted], by norm_num [exShifted], by norm_num [exShifted]⟩
    ⟨by norm_num [exShifted], by norm_num [exShifted, exConfig, exDet],
      Or.inr ⟨by norm_num [exShifted, exConfig, exDet], by norm_num [exShifted, exConfig, exDet],
        by norm_num [exShifted, exConfig, exDet], by norm_num [exShifted, exConfig, exDet]⟩⟩
    exGrid exEdges
    [{ exTrack0 with z := 0.5 }, { exTrack1 with x := 0.1, z := 0.625 }, { exTrack1 with y := -0.2, z := 1 }]
    [20, 0, 35] (by norm_num [exShifted, exConfig, exDet])
    (by
      intro r hr
      simp only [List.mem_cons, List.not_mem_nil, or_false] at hr
      rcases hr with rfl | rfl | rfl <;>
        norm_num [exTrack0, exTrack1, exShifted, exConfig, exDet, abs_le])
    (by
      intro n hn
      simp only [List.mem_cons, List.not_mem_nil, or_false] at hn
      rcases hn with rfl | rfl | rfl <;> norm_num [exShifted, exConfig, exDet])
    [(5, (70, 2))] (by simp) (by rw [hr]; decide) 3
  rw [hr] at this
  exact this

end Verif.Machine
