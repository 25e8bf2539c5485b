import Verif.Machine.Drift
import Verif.Props.MachineDiffusion
import Verif.Props.Drift

/-! # C89, C90: drift times and transport of a track in machine arithmetic -/

namespace Verif.Machine

open Verif.Detector Verif.Spec

/-! ## C89 -/

theorem drift_velocity_near {rn : ℝ → ℝ} (h : Rounding rn) {L : ℝ} (hL1 : 1e-3 ≤ L) (hL2 : L ≤ 1e3)
    {M W : ℤ} (hM : 0 ≤ M) (hMW : M < W) (hW : W ≤ 1000) :
    let V : ℝ := L / ((W - M : ℤ) : ℝ)
    1e-6 ≤ V ∧ V ≤ 1e3 ∧ V * (1 - uro) ≤ drift_velocity64 rn L M W ∧
      drift_velocity64 rn L M W ≤ V * (1 + 2 * uro) := by
  intro V
  have hN1 : (1 : ℝ) ≤ ((W - M : ℤ) : ℝ) := by exact_mod_cast (by omega : (1 : ℤ) ≤ W - M)
  have hN2 : ((W - M : ℤ) : ℝ) ≤ 1000 := by exact_mod_cast (by omega : W - M ≤ (1000 : ℤ))
  have h1 : (1e-6 : ℝ) ≤ V := by
    rw [le_div_iff₀ (by linarith)]
    linarith
  have h2 : V ≤ 1e3 := by
    rw [div_le_iff₀ (by linarith)]
    linarith
  have := h.within (x := V) (X := V) (a := 0) (b := 0) (by linarith) (by simp) (by simp) (by norm_num)
    le_rfl (by norm_num) le_rfl (by linarith) (by linarith)
  simp only [zero_add] at this
  exact ⟨h1, h2, this⟩

/-- The computed drift time differs from the exact one by at most `2^-40` time buckets. -/
theorem drift_near {rn : ℝ → ℝ} (h : Rounding rn) {L : ℝ} (hL1 : 1e-3 ≤ L) (hL2 : L ≤ 1e3)
    {M W : ℤ} (hM : 0 ≤ M) (hMW : M < W) (hW : W ≤ 1000) {z : ℝ} (h0 : 0 ≤ z) (hz : z ≤ L) :
    |to_time_bucket64 rn L M (drift_velocity64 rn L M W) z
      - ((L - z) / (L / ((W - M : ℤ) : ℝ)) + M)| ≤ 2 ^ (-40 : ℤ) := by
  have hu := uro_pos
  have hu1 := uro_lt
  obtain ⟨v1, v2, d1, d2⟩ := drift_velocity_near h hL1 hL2 hM hMW hW
  have hN1 : (1 : ℝ) ≤ ((W - M : ℤ) : ℝ) := by exact_mod_cast (by omega : (1 : ℤ) ≤ W - M)
  have hWr : ((W - M : ℤ) : ℝ) + M ≤ 1000 := by push_cast; exact_mod_cast (by omega : W - M + M ≤ (1000 : ℤ))
  have hMr : (0 : ℝ) ≤ M := by exact_mod_cast hM
  generalize drift_velocity64 rn L M W = dv at *
  generalize hN : ((W - M : ℤ) : ℝ) = N at *
  set V : ℝ := L / N with hV
  have hVN : V * N = L := by rw [hV]; field_simp
  have hV0 : 0 < V := by linarith
  have hdv : 0 < dv := lt_of_lt_of_le (by nlinarith) d1
  have hdv1 : 1e-7 ≤ dv := by nlinarith
  have hy0 : 0 ≤ L - z := by linarith
  have hyL : L - z ≤ L := by linarith
  set y := L - z with hy
  have e1 := h.err (x := y) (big_ge (by rw [abs_of_nonneg hy0]; linarith))
  rw [abs_of_nonneg hy0] at e1
  change |rn y - y| ≤ uro * y + _ at e1
  have ht : (2 : ℝ) ^ (-1075 : ℤ) ≤ 1e-7 * uro := by
    have : (2 : ℝ) ^ (-1075 : ℤ) ≤ 2 ^ (-100 : ℤ) := zpow_le_zpow_right₀ (by norm_num) (by norm_num)
    refine this.trans ?_
    unfold uro
    norm_num
  have e2 : |rn y - y| ≤ uro * y + 1e-7 * uro := by linarith
  have e3 : |rn y / dv - y / V| ≤ 4 * uro * N + uro := by
    have hkey : rn y / dv - y / V = (rn y - y) / dv + y * (V - dv) / (V * dv) := by
      field_simp
      ring
    have hyN : y / dv ≤ 1.1 * N := by
      rw [div_le_iff₀ hdv]
      have : 1.1 * N * (V * (1 - uro)) ≤ 1.1 * N * dv := by gcongr
      nlinarith
    have hf1 : |(rn y - y) / dv| ≤ uro * (1.1 * N) + uro := by
      rw [abs_div, abs_of_pos hdv, div_le_iff₀ hdv]
      have g1 : uro * y ≤ uro * (1.1 * N) * dv := by
        have : y ≤ 1.1 * N * dv := (div_le_iff₀ hdv).1 hyN
        calc uro * y ≤ uro * (1.1 * N * dv) := by gcongr
          _ = _ := by ring
      have g2 : 1e-7 * uro ≤ uro * dv := by nlinarith
      linarith
    have hf2 : |y * (V - dv) / (V * dv)| ≤ 2 * uro * (1.1 * N) := by
      have hw : |V - dv| ≤ 2 * uro * V := by
        rw [abs_le]
        constructor <;> nlinarith
      have : y * (V - dv) / (V * dv) = (y / dv) * ((V - dv) / V) := by field_simp
      rw [this, abs_mul, abs_of_nonneg (div_nonneg hy0 hdv.le), abs_div, abs_of_pos hV0]
      have g1 : |V - dv| / V ≤ 2 * uro := by
        rw [div_le_iff₀ hV0]; exact hw
      calc _ ≤ (1.1 * N) * (2 * uro) :=
            mul_le_mul hyN g1 (by positivity) (by linarith)
        _ = _ := by ring
    rw [hkey]
    refine (abs_add_le _ _).trans ?_
    nlinarith
  have hq0 : 0 ≤ y / V := div_nonneg hy0 hV0.le
  have hqN : y / V ≤ N := by
    rw [div_le_iff₀ hV0]
    linarith
  have hN512 : N ≤ 1000 := by linarith
  have e3' : |rn y / dv - y / V| ≤ 4001 * uro := by nlinarith
  have b3 := abs_le.1 e3'
  have e4 : |rn (rn y / dv) - y / V| ≤ 4001 * uro + 2 * uro * 1001 :=
    h.near e3' (by rw [abs_le]; constructor <;> linarith [b3.1, b3.2]) (by norm_num) (by norm_num)
  have b4 := abs_le.1 e4
  have e5 : |rn (rn (rn y / dv) + (M : ℝ)) - (y / V + M)| ≤ (4001 * uro + 2 * uro * 1001) + 2 * uro * 1001 :=
    h.near (by rw [abs_le]; constructor <;> linarith [b4.1, b4.2])
      (by rw [abs_le]; constructor <;> linarith [b4.1, b4.2]) (by norm_num) (by norm_num)
  unfold to_time_bucket64
  refine e5.trans ?_
  have : (2 : ℝ) ^ (-40 : ℤ) = 8192 * uro := by unfold uro; norm_num
  rw [this]
  linarith

/-- Sizes of a detector for which the float results below hold: a double length between 1 mm and 1 km
and edges in order within the first thousand time buckets, of which only 512 are recorded. -/
structure DriftOk (d : DetectorParams) (e : ElectronicsParams) : Prop where
  length_mem : d.length ∈ Binary64
  length_ge : 1e-3 ≤ d.length
  length_le : d.length ≤ 1e3
  micromegas : 0 ≤ e.micromegas_edge
  edges : e.micromegas_edge < e.windows_edge
  windows : e.windows_edge ≤ 1000

/-- The time bucket computed in float64 for the height `z`. -/
noncomputable def driftTime64 (rn : ℝ → ℝ) (d : DetectorParams) (e : ElectronicsParams) (z : ℝ) : ℝ :=
  to_time_bucket64 rn d.length e.micromegas_edge
    (drift_velocity64 rn d.length e.micromegas_edge e.windows_edge) z

theorem drift_velocity64_pos {rn : ℝ → ℝ} (h : Rounding rn) {d : DetectorParams} {e : ElectronicsParams}
    (hok : DriftOk d e) : 0 < drift_velocity64 rn d.length e.micromegas_edge e.windows_edge := by
  obtain ⟨v1, -, d1, -⟩ := drift_velocity_near h hok.length_ge hok.length_le hok.micromegas hok.edges
    hok.windows
  have hu1 := uro_lt
  have : (0 : ℝ) < 1e-6 * (1 - uro) := by
    have : uro < 1 := by linarith
    nlinarith
  refine lt_of_lt_of_le this (le_trans ?_ d1)
  apply mul_le_mul_of_nonneg_right v1
  linarith

/-- **C89, error.** In the active volume the time bucket computed in float64 differs from the exact one by
at most `2^-40`. -/
theorem C89_error {rn : ℝ → ℝ} (h : Rounding rn) {fs : FileSystem} {d : DetectorParams}
    {e : ElectronicsParams} {p : PadParams} {config : Config} (hc : mkConfig fs d e p = .ok config)
    (hok : DriftOk d e) {z : ℝ} (h0 : 0 ≤ z) (hz : z ≤ d.length) :
    |driftTime64 rn d e z - to_time_bucket config z| ≤ 2 ^ (-40 : ℤ) := by
  have := drift_near h hok.length_ge hok.length_le hok.micromegas hok.edges hok.windows h0 hz
  obtain ⟨hv, hne, hd, he⟩ := C60_drift_velocity fs d e p config hc
  rw [hd, he] at hv
  have hN : ((e.windows_edge - e.micromegas_edge : ℤ) : ℝ) ≠ 0 := by
    have := hok.edges
    exact_mod_cast (by omega : e.windows_edge - e.micromegas_edge ≠ 0)
  have hv' : config.drift_velocity = d.length / ((e.windows_edge - e.micromegas_edge : ℤ) : ℝ) := by
    rw [eq_div_iff hN]
    push_cast
    linarith
  unfold driftTime64 to_time_bucket
  rw [hv', hd, he]
  exact this

/-- **C89, range.** The computed time bucket is never below the micromegas edge, so that the width of the
diffusion is never computed from a negative time, and its integer part never exceeds the windows edge. -/
theorem C89_range {rn : ℝ → ℝ} (h : Rounding rn) {d : DetectorParams} {e : ElectronicsParams}
    (hok : DriftOk d e) {z : ℝ} (h0 : 0 ≤ z) (hz : z ≤ d.length) :
    (e.micromegas_edge : ℝ) ≤ driftTime64 rn d e z ∧
    driftTime64 rn d e z ≤ e.windows_edge + 2 ^ (-40 : ℤ) ∧
    e.micromegas_edge ≤ pyInt (driftTime64 rn d e z) ∧ pyInt (driftTime64 rn d e z) ≤ e.windows_edge := by
  have hdv := drift_velocity64_pos h hok
  have hM : (0 : ℝ) ≤ e.micromegas_edge := by exact_mod_cast hok.micromegas
  have hmm : e.micromegas_edge < 1000 := lt_of_lt_of_le hok.edges hok.windows
  have hlow : (e.micromegas_edge : ℝ) ≤ driftTime64 rn d e z := by
    unfold driftTime64 to_time_bucket64
    apply h.ge_of_ge (int_mem (by
      rw [abs_of_nonneg hok.micromegas]
      have : (1000 : ℤ) < 2 ^ 53 := by norm_num
      omega))
    have : 0 ≤ rn (rn (d.length - z)
        / drift_velocity64 rn d.length e.micromegas_edge e.windows_edge) :=
      h.nonneg (div_nonneg (h.nonneg (by linarith)) hdv.le)
    linarith
  have hup : driftTime64 rn d e z ≤ e.windows_edge + 2 ^ (-40 : ℤ) := by
    have := abs_le.1 (drift_near h hok.length_ge hok.length_le hok.micromegas hok.edges hok.windows h0 hz)
    refine le_trans (b := (d.length - z) / (d.length / ((e.windows_edge - e.micromegas_edge : ℤ) : ℝ))
      + e.micromegas_edge + 2 ^ (-40 : ℤ)) ?_ ?_
    · have h2 := this.2
      unfold driftTime64
      linarith
    · have hN : (0 : ℝ) < ((e.windows_edge - e.micromegas_edge : ℤ) : ℝ) := by
        have := hok.edges
        exact_mod_cast (by omega : 0 < e.windows_edge - e.micromegas_edge)
      have hL : (0 : ℝ) < d.length := by linarith [hok.length_ge]
      have : (d.length - z) / (d.length / ((e.windows_edge - e.micromegas_edge : ℤ) : ℝ))
          ≤ ((e.windows_edge - e.micromegas_edge : ℤ) : ℝ) := by
        rw [div_le_iff₀ (by positivity), mul_div_assoc', mul_div_right_comm, div_self hN.ne', one_mul]
        linarith
      push_cast at this ⊢
      linarith
  refine ⟨hlow, hup, ?_, ?_⟩
  · rw [pyInt_of_nonneg (hM.trans hlow)]
    exact Int.le_floor.2 hlow
  · rw [pyInt_of_nonneg (hM.trans hlow), ← Int.lt_add_one_iff, Int.floor_lt]
    push_cast
    have : (2 : ℝ) ^ (-40 : ℤ) < 1 := by norm_num
    linarith

/-- **C89, order.** Electrons released further from the pad plane never arrive earlier. -/
theorem C89_order {rn : ℝ → ℝ} (h : Rounding rn) {d : DetectorParams} {e : ElectronicsParams}
    (hok : DriftOk d e) {z₁ z₂ : ℝ} (hz : z₁ ≤ z₂) : driftTime64 rn d e z₂ ≤ driftTime64 rn d e z₁ := by
  have hdv := drift_velocity64_pos h hok
  unfold driftTime64 to_time_bucket64
  apply h.mono
  have := h.mono (x := rn (d.length - z₂) / drift_velocity64 rn d.length e.micromegas_edge e.windows_edge)
    (y := rn (d.length - z₁) / drift_velocity64 rn d.length e.micromegas_edge e.windows_edge) (by
      apply div_le_div_of_nonneg_right _ hdv.le
      exact h.mono (by linarith))
  linarith

/-- **C89, bucket.** The recorded time bucket is that of the exact drift time, unless the exact time is
within `2^-40` of an integer. -/
theorem C89_bucket {rn : ℝ → ℝ} (h : Rounding rn) {fs : FileSystem} {d : DetectorParams}
    {e : ElectronicsParams} {p : PadParams} {config : Config} (hc : mkConfig fs d e p = .ok config)
    (hok : DriftOk d e) {z : ℝ} (h0 : 0 ≤ z) (hz : z ≤ d.length)
    (hfar : ∀ n : ℤ, 2 ^ (-40 : ℤ) < |to_time_bucket config z - n|) :
    pyInt (driftTime64 rn d e z) = ⌊to_time_bucket config z⌋ := by
  have he := abs_le.1 (C89_error h hc hok h0 hz)
  obtain ⟨hlow, -⟩ := C89_range h hok h0 hz
  have hM : (0 : ℝ) ≤ e.micromegas_edge := by exact_mod_cast hok.micromegas
  rw [pyInt_of_nonneg (hM.trans hlow), Int.floor_eq_iff]
  have f1 := Int.floor_le (to_time_bucket config z)
  have f2 := Int.lt_floor_add_one (to_time_bucket config z)
  have g1 := hfar ⌊to_time_bucket config z⌋
  have g2 := hfar (⌊to_time_bucket config z⌋ + 1)
  rw [abs_of_nonneg (by linarith)] at g1
  rw [abs_of_nonpos (by push_cast; linarith)] at g2
  push_cast at g2
  constructor <;> linarith [he.1, he.2]

/-- A detector of one metre with the edges at 10 and 110. -/
theorem exDriftOk : DriftOk (exDet 100 0.0001) { exElec with micromegas_edge := 10, windows_edge := 110 } where
  length_mem := by simpa [exDet] using int_mem (n := 1) (by norm_num)
  length_ge := by norm_num [exDet]
  length_le := by norm_num [exDet]
  micromegas := by norm_num
  edges := by norm_num
  windows := by norm_num

/-- A height whose exact drift time, 97.5, is far from an integer: the bucket is exact whatever the
rounding of ties. -/
example (rn : ℝ → ℝ) (h : Rounding rn) : ∃ config,
    mkConfig exFS (exDet 100 0.0001) { exElec with micromegas_edge := 10, windows_edge := 110 } {}
      = .ok config ∧ to_time_bucket config 0.125 = 97.5 ∧
    pyInt (driftTime64 rn (exDet 100 0.0001) { exElec with micromegas_edge := 10, windows_edge := 110 }
      0.125) = 97 := by
  obtain ⟨config, hc⟩ := exConfig_built (exDet 100 0.0001)
    { exElec with micromegas_edge := 10, windows_edge := 110 } (by norm_num)
  obtain ⟨hv, -, hd, he⟩ := C60_drift_velocity _ _ _ _ _ hc
  have ht : to_time_bucket config 0.125 = 97.5 := by
    have hv' : config.drift_velocity = 0.01 := by
      rw [hd, he] at hv
      norm_num [exDet] at hv ⊢
      linarith
    unfold to_time_bucket
    rw [hv', hd, he]
    norm_num [exDet]
  refine ⟨config, hc, ht, ?_⟩
  have := C89_bucket h hc exDriftOk (z := 0.125) (by norm_num) (by norm_num [exDet]) (by
    intro n
    rw [ht]
    have hlt : (2 : ℝ) ^ (-40 : ℤ) < 1 / 2 := by norm_num
    refine lt_of_lt_of_le hlt ?_
    rcases le_or_gt n 97 with hn | hn
    · have : (n : ℝ) ≤ 97 := by exact_mod_cast hn
      rw [le_abs]; left; linarith
    · have : (98 : ℝ) ≤ n := by exact_mod_cast hn
      rw [le_abs]; right; linarith)
  rw [this, ht]
  norm_num

end Verif.Machine
