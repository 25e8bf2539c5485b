import Verif.Props.MachineCloud
import Verif.Props.MachineTemplate
import Verif.Props.Superposition

/-! # C146: the stored event in float64 has the rows of the exact one, away from the threshold and from ties -/

namespace Verif.Machine

open Verif.Detector Verif.Spec Verif.Props Verif.Kinematics

/-! ## What is near -/

/-- How far the heights of two rows may be apart, in mm. -/
noncomputable def heightError (config : Config) : ℝ :=
  1e-9 * (config.det_params.length / ((config.elec_params.windows_edge - config.elec_params.micromegas_edge : ℤ) : ℝ))

/-- How far the amplitudes may be apart for charges of at most `E` that differ by at most `B`. -/
noncomputable def amplitudeError (config : Config) (B E : ℝ) : ℝ :=
  countsPerElectron config.elec_params * (0.06 * B + 2e-15 * E) + 1e-12

/-- How far the integrals may be apart. -/
noncomputable def integralError (config : Config) (B E : ℝ) : ℝ :=
  countsPerElectron config.elec_params * (26 * B + 1e-12 * E) + 1e-6

/-- Two rows of the file for the same pad, with nearly the same numbers. -/
structure StoredNear (config : Config) (B E : ℝ) (a b : SpyralRow) : Prop where
  x : a.x = b.x
  y : a.y = b.y
  pad : a.pad = b.pad
  scale : a.scale = b.scale
  tb : |a.tb - b.tb| ≤ 1e-13
  z : |a.z - b.z| ≤ heightError config
  amp : |a.amp - b.amp| ≤ amplitudeError config B E
  integral : |a.integral - b.integral| ≤ integralError config B E

/-- Two rows of clouds on the same pad with charges and times near each other. -/
structure PointNear (B E : ℝ) (a b : CloudPoint) : Prop where
  same : SameRow a b
  time : 0 ≤ b.tb ∧ b.tb ≤ 1000
  charge : 0 ≤ a.e ∧ 0 ≤ b.e ∧ b.e ≤ E
  near : |a.e - b.e| ≤ B

/-- A cloud whose amplitudes are not at the threshold and whose times are not nearly equal. -/
structure ClearCloud (config : Config) (B E : ℝ) (cloud : List CloudPoint) : Prop where
  threshold : ∀ p ∈ cloud, amplitudeError config B E
    < |(apply_response (get_response config) p.e).1 - (config.elec_params.adc_threshold : ℝ)|
  apart : cloud.Pairwise fun p q => 2e-12 < |p.tb - q.tb|

/-! ## One row -/

theorem round_step {rn : ℝ → ℝ} (h : Rounding rn) {x X c S : ℝ} (hx : |x - X| ≤ c * S) (hX : |X| ≤ 1000 * S)
    (h1 : 1e-10 ≤ S) (h2 : S ≤ 1e10) (hc : c ≤ 1e-12) : |rn x - X| ≤ (c + 1.2e-13) * S := by
  have hcS : c * S ≤ 1e-12 * S := mul_le_mul_of_nonneg_right hc (by linarith)
  have := h.absolute hx (by linarith) (by linarith)
  refine this.trans ?_
  rw [add_mul]
  generalize c * S = d at *
  norm_num at *
  linarith

theorem height_near {rn : ℝ → ℝ} (h : Rounding rn) {M W : ℤ} (hM : 0 ≤ M) (hMW : M < W) (hW : W ≤ 1000) {L : ℝ}
    (hL0 : 1e-3 ≤ L) (hL1 : L ≤ 1e3) {t' t : ℝ} (h0 : 0 ≤ t) (h1 : t ≤ 1000) (ht : |t' - t| ≤ 1e-13) :
    |position64 rn W M L t' - ((W : ℝ) - t) / ((W - M : ℤ) : ℝ) * L * 1000| ≤ 1e-9 * (L / ((W - M : ℤ) : ℝ)) := by
  have hN1 : (1 : ℝ) ≤ ((W - M : ℤ) : ℝ) := by exact_mod_cast (by omega : (1 : ℤ) ≤ W - M)
  have hN2 : ((W - M : ℤ) : ℝ) ≤ 1000 := by exact_mod_cast (by omega : W - M ≤ (1000 : ℤ))
  have w0 : (0 : ℝ) ≤ W := by exact_mod_cast (by omega : (0 : ℤ) ≤ W)
  have w1 : (W : ℝ) ≤ 1000 := by exact_mod_cast hW
  unfold position64
  have hy : |((W : ℝ) - t') - ((W : ℝ) - t)| ≤ 1e-13 * 1 := by
    rw [show ((W : ℝ) - t') - ((W : ℝ) - t) = -(t' - t) by ring, abs_neg]
    linarith
  have hY : |(W : ℝ) - t| ≤ 1000 * 1 := by rw [abs_le]; constructor <;> linarith
  generalize ((W - M : ℤ) : ℝ) = N at *
  generalize (W : ℝ) - t' = y at *
  generalize (W : ℝ) - t = Y at *
  have hN0 : 0 < N := by linarith
  have hi : 0 < 1 / N := by positivity
  have hi1 : 1 / N ≤ 1 := by rw [div_le_one hN0]; exact hN1
  have hi2 : 1e-3 ≤ 1 / N := by rw [le_div_iff₀ hN0]; norm_num; linarith
  have hL : 0 < L := by linarith
  have hq1 : L * (1 / N) ≤ 1e3 := by nlinarith
  have hq2 : 1e-6 ≤ L * (1 / N) := by
    calc (1e-6 : ℝ) = 1e-3 * 1e-3 := by norm_num
      _ ≤ L * (1 / N) := mul_le_mul hL0 hi2 (by norm_num) hL.le
  have s1 := round_step h hy hY (by norm_num) (by norm_num) (by norm_num)
  have s2 := round_step h (x := rn y / N) (X := Y / N) (c := 1e-13 + 1.2e-13) (S := 1 / N) (by
      rw [← sub_div, abs_div, abs_of_pos hN0, mul_one_div]
      exact div_le_div_of_nonneg_right (by linarith) hN0.le) (by
      rw [abs_div, abs_of_pos hN0, mul_one_div]
      exact div_le_div_of_nonneg_right (by linarith) hN0.le) (by linarith) (by linarith) (by norm_num)
  have s3 := round_step h (x := rn (rn y / N) * L) (X := Y / N * L) (c := 1e-13 + 1.2e-13 + 1.2e-13)
    (S := L * (1 / N)) (by
      rw [← sub_mul, abs_mul, abs_of_pos hL]
      calc _ ≤ ((1e-13 + 1.2e-13 + 1.2e-13) * (1 / N)) * L := mul_le_mul_of_nonneg_right s2 hL.le
        _ = _ := by ring) (by
      rw [abs_mul, abs_of_pos hL, abs_div, abs_of_pos hN0]
      calc |Y| / N * L ≤ (1000 * 1) / N * L := by gcongr
        _ = _ := by ring) (by linarith) (by linarith) (by norm_num)
  have s4 := round_step h (x := rn (rn (rn y / N) * L) * 1000) (X := Y / N * L * 1000)
    (c := 1e-13 + 1.2e-13 + 1.2e-13 + 1.2e-13) (S := L * (1 / N) * 1000) (by
      rw [← sub_mul, abs_mul, abs_of_pos (by norm_num : (0 : ℝ) < 1000)]
      calc _ ≤ ((1e-13 + 1.2e-13 + 1.2e-13 + 1.2e-13) * (L * (1 / N))) * 1000 :=
            mul_le_mul_of_nonneg_right s3 (by norm_num)
        _ = _ := by ring) (by
      rw [abs_mul, abs_of_pos (by norm_num : (0 : ℝ) < 1000), abs_mul, abs_of_pos hL, abs_div, abs_of_pos hN0]
      calc |Y| / N * L * 1000 ≤ (1000 * 1) / N * L * 1000 := by gcongr
        _ = _ := by ring) (by linarith) (by linarith) (by norm_num)
  refine s4.trans ?_
  rw [show L / N = L * (1 / N) by ring]
  generalize L * (1 / N) = q at *
  norm_num
  linarith

/-- Signals of two charges. -/
theorem signal_charges (config : Config) (hok : ElectronicsOk config.elec_params) (e' e : ℝ) :
    |(apply_response (get_response config) e').1 - (apply_response (get_response config) e).1|
      ≤ 0.05 * (countsPerElectron config.elec_params * |e' - e|) ∧
    |(apply_response (get_response config) e').2 - (apply_response (get_response config) e).2|
      ≤ 25.6 * (countsPerElectron config.elec_params * |e' - e|) := by
  obtain ⟨m, hpk, m0, m1⟩ := C80_peak config hok
  have hlen := get_response_length config
  have hc : 0 ≤ countsPerElectron config.elec_params := by
    exact div_nonneg (div_nonneg (by norm_num) hok.gain.le) (by norm_num)
  have hexp : Real.exp (-3) ≤ 0.05 := by
    have := (envelope_le (x := 1) (by norm_num)).1
    norm_num at this ⊢
    linarith
  have hm : m ≤ 0.05 * countsPerElectron config.elec_params := by
    have : countsPerElectron config.elec_params * Real.exp (-3) ≤ countsPerElectron config.elec_params * 0.05 :=
      mul_le_mul_of_nonneg_left hexp hc
    linarith
  have hR : ∀ r ∈ get_response config, 0 ≤ r ∧ r ≤ 0.05 * countsPerElectron config.elec_params := fun r hr =>
    ⟨get_response_nonneg config r hr, (hpk.2 r hr).trans hm⟩
  have hne : get_response config ≠ [] := by
    intro h
    rw [h] at hlen
    simp at hlen
  rw [apply_response_eq, apply_response_eq]
  generalize get_response config = R at *
  have hs : List.Forall₂ (fun r' r => |r' - r| ≤ 0.05 * (countsPerElectron config.elec_params * |e' - e|))
      (R.map fun r => min (r * e') 4095) (R.map fun r => min (r * e) 4095) := by
    rw [List.forall₂_map_left_iff, List.forall₂_map_right_iff]
    refine List.forall₂_same.2 fun r hr => ?_
    apply clipped_near
    obtain ⟨r0, r1⟩ := hR r hr
    rw [← mul_sub, abs_mul, abs_of_nonneg r0, ← mul_assoc]
    exact mul_le_mul_of_nonneg_right r1 (abs_nonneg _)
  refine ⟨npMax_near (by simpa using hne) hs, ?_⟩
  have := sum_near hs
  rw [List.length_map, hlen] at this
  refine this.trans (le_of_eq ?_)
  push_cast
  ring

theorem signal_rows {nm : NumpyMath} (hn : nm.Ok) {config : Config} (ht : TemplateOk config.elec_params)
    (hok : ElectronicsOk config.elec_params) {e' e B E : ℝ} (he' : 0 ≤ e') (he : 0 ≤ e) (hE : e ≤ E)
    (hB : |e' - e| ≤ B) :
    |(apply_response64 nm.rn (get_response64 nm config) e').1 - (apply_response (get_response config) e).1|
      ≤ amplitudeError config B E ∧
    |(apply_response64 nm.rn (get_response64 nm config) e').2 - (apply_response (get_response config) e).2|
      ≤ integralError config B E := by
  obtain ⟨a1, a2⟩ := C132_signal hn ht he'
  obtain ⟨b1, b2⟩ := signal_charges config hok e' e
  have hlen := get_response_length config
  have hne : get_response config ≠ [] := by
    intro h
    rw [h] at hlen
    simp at hlen
  have hc : 0 ≤ countsPerElectron config.elec_params := by
    exact div_nonneg (div_nonneg (by norm_num) hok.gain.le) (by norm_num)
  have amp1 : (apply_response (get_response config) e').1 ≤ 4095 := by
    rw [amplitude_eq hne he']
    exact min_le_right _ _
  have int1 : (apply_response (get_response config) e').2 ≤ 2100000 := by
    rw [apply_response_eq]
    have := List.sum_le_card_nsmul ((get_response config).map fun r => min (r * e') 4095) 4095 (fun x hx => by
      obtain ⟨r, -, rfl⟩ := List.mem_map.1 hx
      exact min_le_right _ _)
    rw [List.length_map, hlen, nsmul_eq_mul] at this
    push_cast at this
    linarith
  have hη : (2 : ℝ) ^ (-1075 : ℤ) ≤ 1e-15 := by
    have := tiny_lt_uro
    have := uro_lt
    linarith
  have hle : e' ≤ E + B := by
    have := (abs_le.1 hB).2
    linarith
  have k1 : countsPerElectron config.elec_params * e'
      ≤ countsPerElectron config.elec_params * E + countsPerElectron config.elec_params * B := by
    rw [← mul_add]
    exact mul_le_mul_of_nonneg_left hle hc
  have k2 : countsPerElectron config.elec_params * |e' - e| ≤ countsPerElectron config.elec_params * B :=
    mul_le_mul_of_nonneg_left hB hc
  have k3 : 0 ≤ countsPerElectron config.elec_params * E := mul_nonneg hc (he.trans hE)
  have k4 : 0 ≤ countsPerElectron config.elec_params * B := mul_nonneg hc ((abs_nonneg _).trans hB)
  unfold amplitudeError integralError
  rw [show countsPerElectron config.elec_params * (0.06 * B + 2e-15 * E)
      = 0.06 * (countsPerElectron config.elec_params * B) + 2e-15 * (countsPerElectron config.elec_params * E) by ring,
    show countsPerElectron config.elec_params * (26 * B + 1e-12 * E)
      = 26 * (countsPerElectron config.elec_params * B) + 1e-12 * (countsPerElectron config.elec_params * E) by ring]
  generalize countsPerElectron config.elec_params * e' = K' at *
  generalize countsPerElectron config.elec_params * |e' - e| = Kd at *
  generalize countsPerElectron config.elec_params * E = KE at *
  generalize countsPerElectron config.elec_params * B = KB at *
  generalize (apply_response (get_response config) e').1 = A' at *
  generalize (apply_response (get_response config) e').2 = I' at *
  generalize (apply_response (get_response config) e).1 = A at *
  generalize (apply_response (get_response config) e).2 = I at *
  generalize (apply_response64 nm.rn (get_response64 nm config) e').1 = A64 at *
  generalize (apply_response64 nm.rn (get_response64 nm config) e').2 = I64 at *
  generalize (2 : ℝ) ^ (-1075 : ℤ) = η at *
  constructor
  · rw [show A64 - A = (A64 - A') + (A' - A) by ring]
    refine (abs_add_le _ _).trans ?_
    norm_num at *
    linarith
  · rw [show I64 - I = (I64 - I') + (I' - I) by ring]
    refine (abs_add_le _ _).trans ?_
    norm_num at *
    linarith

/-- **C146.** If a point is turned into a row in exact arithmetic, the point near it is turned into a row near that
one in machine arithmetic. -/
theorem C146_row {nm : NumpyMath} (hn : nm.Ok) {config : Config} (ht : TemplateOk config.elec_params)
    (hok : ElectronicsOk config.elec_params) (hd : DriftOk config.det_params config.elec_params)
    {centers : List (ℝ × ℝ)} {B E : ℝ} {a b : CloudPoint} (hab : PointNear B E a b) {r : SpyralRow}
    (hr : convert_point config.elec_params.windows_edge config.elec_params.micromegas_edge config.det_params.length
      (get_response config) centers config.pad_sizes b = .ok r) :
    ∃ r64, convert_point64 nm.rn config.elec_params.windows_edge config.elec_params.micromegas_edge
      config.det_params.length (get_response64 nm config) centers config.pad_sizes a = .ok r64 ∧
      StoredNear config B E r64 r ∧ r.amp = (apply_response (get_response config) b.e).1 ∧ r.tb = b.tb ∧
      r.z = ((config.elec_params.windows_edge : ℝ) - b.tb)
        / ((config.elec_params.windows_edge - config.elec_params.micromegas_edge : ℤ) : ℝ)
          * config.det_params.length * 1000 := by
  obtain ⟨s1, s2⟩ := signal_rows hn ht hok hab.charge.1 hab.charge.2.1 hab.charge.2.2 hab.near
  have s3 := height_near hn.rounding hd.micromegas hd.edges hd.windows hd.length_ge hd.length_le hab.time.1 hab.time.2
    hab.same.time
  generalize get_response64 nm config = R64 at *
  generalize get_response config = R at *
  unfold convert_point at hr
  unfold convert_point64
  rw [hab.same.pad]
  cases h1 : numbaGet centers (pyInt b.pad) with
  | error e =>
    rw [h1] at hr
    simp [bind, Except.bind] at hr
  | ok c =>
    rw [h1] at hr
    simp only [bind, Except.bind] at hr ⊢
    have hne : config.elec_params.windows_edge - config.elec_params.micromegas_edge ≠ 0 := by
      have := hd.edges
      omega
    rw [if_neg hne] at hr ⊢
    cases h2 : numbaGet config.pad_sizes (pyInt b.pad) with
    | error e =>
      rw [h2] at hr
      simp at hr
    | ok size =>
      rw [h2] at hr
      simp only [pure, Except.pure, Except.ok.injEq] at hr
      subst hr
      exact ⟨_, rfl, ⟨rfl, rfl, rfl, rfl, hab.same.time, s3, s1, s2⟩, rfl, rfl, rfl⟩

/-! ## Selection and order -/

theorem maskSel_forall₂ {α β : Type} {R : α → β → Prop} {a : List α} {b : List β} (h : List.Forall₂ R a b) :
    ∀ mask : List Bool, List.Forall₂ R (maskSel mask a) (maskSel mask b) := by
  induction h with
  | nil => intro mask; cases mask with
    | nil => exact .nil
    | cons x m => cases x <;> exact .nil
  | cons hab _ ih =>
    intro mask
    cases mask with
    | nil => exact .nil
    | cons x m =>
      cases x
      · exact ih m
      · exact .cons hab (ih m)

theorem takeIdx_forall₂ {α β : Type} {R : α → β → Prop} {a : List α} {b : List β} (h : List.Forall₂ R a b) :
    ∀ idx : List ℕ, List.Forall₂ R (takeIdx idx a) (takeIdx idx b)
  | [] => .nil
  | i :: idx => by
    have ih := takeIdx_forall₂ h idx
    unfold takeIdx at ih ⊢
    rcases lt_or_ge i a.length with hi | hi
    · have hi' : i < b.length := by rw [← h.length_eq]; exact hi
      rw [List.filterMap_cons, List.filterMap_cons, List.getElem?_eq_getElem hi, List.getElem?_eq_getElem hi']
      exact .cons (List.Forall₂.get h hi hi') ih
    · have hi' : b.length ≤ i := by rw [← h.length_eq]; exact hi
      rw [List.filterMap_cons, List.filterMap_cons, List.getElem?_eq_none hi, List.getElem?_eq_none hi']
      exact ih

theorem getD_lt {l : List ℝ} {i : ℕ} (h : i < l.length) : l.getD i 0 = l[i] := by
  rw [List.getD_eq_getElem?_getD, List.getElem?_eq_getElem h, Option.getD_some]

theorem takeIdx_map_getD (keys : List ℝ) : ∀ {idx : List ℕ}, (∀ i ∈ idx, i < keys.length) →
    takeIdx idx keys = idx.map fun i => keys.getD i 0
  | [], _ => rfl
  | i :: idx, h => by
    have ih := takeIdx_map_getD keys (idx := idx) fun j hj => h j (by simp [hj])
    unfold takeIdx at ih ⊢
    rw [List.filterMap_cons, List.getElem?_eq_getElem (h i (by simp)), List.map_cons, ih,
      getD_lt (h i (by simp))]

/-- Sorting keys that are near well separated keys gives the same order. -/
theorem sort_same {argsort : Argsort} (hA : IsArgsort argsort) {k64 k : List ℝ} {d : ℝ}
    (h : List.Forall₂ (fun x y => |x - y| ≤ d) k64 k) (hsep : k.Pairwise fun a b => 2 * d < |a - b|) :
    argsort k64 = argsort k := by
  have hlen := h.length_eq
  have p1 := hA.perm k64
  have p2 := hA.perm k
  rw [hlen] at p1
  have hnear : ∀ i < k.length, |k64.getD i 0 - k.getD i 0| ≤ d := fun i hi => by
    have hi' : i < k64.length := by rw [hlen]; exact hi
    rw [getD_lt hi, getD_lt hi']
    exact List.Forall₂.get h hi' hi
  have hap : ∀ i < k.length, ∀ j < k.length, i ≠ j → 2 * d < |k.getD i 0 - k.getD j 0| := by
    intro i hi j hj hij
    rw [getD_lt hi, getD_lt hj]
    rw [List.pairwise_iff_getElem] at hsep
    rcases lt_or_gt_of_ne hij with hlt | hlt
    · exact hsep i j hi hj hlt
    · rw [abs_sub_comm]
      exact hsep j i hj hi hlt
  have m1 : ∀ i ∈ argsort k64, i < k.length := fun i hi => List.mem_range.1 (p1.subset hi)
  have m2 : ∀ i ∈ argsort k, i < k.length := fun i hi => List.mem_range.1 (p2.subset hi)
  have n1 : (argsort k64).Nodup := p1.nodup_iff.2 List.nodup_range
  have o1 : (argsort k64).Pairwise fun i j => k64.getD i 0 ≤ k64.getD j 0 := by
    have := hA.sorted k64
    rwa [takeIdx_map_getD _ (by rw [hlen]; exact m1), List.pairwise_map] at this
  have o2 : (argsort k).Pairwise fun i j => k.getD i 0 ≤ k.getD j 0 := by
    have := hA.sorted k
    rwa [takeIdx_map_getD _ m2, List.pairwise_map] at this
  have o1' : (argsort k64).Pairwise fun i j => k.getD i 0 ≤ k.getD j 0 := by
    refine ((List.pairwise_and_iff.2 ⟨o1, n1⟩).imp_of_mem) ?_
    rintro i j hi hj ⟨hij, hne⟩
    have a1 := abs_le.1 (hnear i (m1 i hi))
    have a2 := abs_le.1 (hnear j (m1 j hj))
    have a3 := hap i (m1 i hi) j (m1 j hj) hne
    by_contra hc
    push Not at hc
    rw [abs_of_pos (by linarith)] at a3
    linarith [a1.1, a1.2, a2.1, a2.2]
  refine List.Perm.eq_of_pairwise (le := fun i j => k.getD i 0 ≤ k.getD j 0) ?_ o1' o2 (p1.trans p2.symm)
  intro i j hi hj h1 h2
  by_contra hne
  have a3 := hap i (m1 i hi) j (m2 j hj) hne
  rw [le_antisymm h1 h2, sub_self, abs_zero] at a3
  have := (abs_nonneg _).trans (hnear i (m1 i hi))
  linarith

theorem maskSel_sublist {α : Type} : ∀ (mask : List Bool) (l : List α), (maskSel mask l).Sublist l
  | [], l => List.nil_sublist l
  | true :: _, [] => .slnil
  | false :: _, [] => .slnil
  | true :: m, a :: l => (maskSel_sublist m l).cons_cons a
  | false :: m, a :: l => (maskSel_sublist m l).cons a

theorem convert_both {nm : NumpyMath} (hn : nm.Ok) {config : Config} (ht : TemplateOk config.elec_params)
    (hok : ElectronicsOk config.elec_params) (hd : DriftOk config.det_params config.elec_params)
    {centers : List (ℝ × ℝ)} {B E : ℝ} {cloud64 cloud : List CloudPoint}
    (hc : List.Forall₂ (PointNear B E) cloud64 cloud) : ∀ {conv : List SpyralRow},
    convert_to_spyral cloud config.elec_params.windows_edge config.elec_params.micromegas_edge
      config.det_params.length (get_response config) centers config.pad_sizes = .ok conv →
    ∃ conv64, convert_to_spyral64 nm.rn cloud64 config.elec_params.windows_edge config.elec_params.micromegas_edge
      config.det_params.length (get_response64 nm config) centers config.pad_sizes = .ok conv64 ∧
      List.Forall₂ (StoredNear config B E) conv64 conv ∧
      List.Forall₂ (fun b r => r.amp = (apply_response (get_response config) b.e).1 ∧ r.tb = b.tb ∧
        r.z = ((config.elec_params.windows_edge : ℝ) - b.tb)
          / ((config.elec_params.windows_edge - config.elec_params.micromegas_edge : ℤ) : ℝ)
            * config.det_params.length * 1000) cloud conv := by
  unfold convert_to_spyral convert_to_spyral64
  induction hc with
  | nil =>
    intro conv h
    simp only [List.mapM_nil] at h
    obtain rfl := Except.ok.inj h
    exact ⟨[], rfl, .nil, .nil⟩
  | @cons a b as bs hab _ ih =>
    intro conv h
    rw [List.mapM_cons] at h ⊢
    cases h1 : convert_point config.elec_params.windows_edge config.elec_params.micromegas_edge
        config.det_params.length (get_response config) centers config.pad_sizes b with
    | error e =>
      rw [h1] at h
      simp [bind, Except.bind] at h
    | ok r =>
      rw [h1] at h
      simp only [bind, Except.bind] at h
      cases h2 : bs.mapM (convert_point config.elec_params.windows_edge config.elec_params.micromegas_edge
        config.det_params.length (get_response config) centers config.pad_sizes) with
      | error e =>
        rw [h2] at h
        simp at h
      | ok rs =>
        rw [h2] at h
        obtain rfl := Except.ok.inj h
        obtain ⟨r64, c1, c2, c3⟩ := C146_row hn ht hok hd hab h1
        obtain ⟨rs64, i1, i2, i3⟩ := ih h2
        refine ⟨r64 :: rs64, ?_, .cons c2 i2, .cons c3 i3⟩
        rw [c1, i1]
        rfl

theorem mask_both {config : Config} {B E : ℝ} {conv64 conv : List SpyralRow}
    {Q : CloudPoint → SpyralRow → Prop}
    (hQ : ∀ b r, Q b r → r.amp = (apply_response (get_response config) b.e).1)
    (h1 : List.Forall₂ (StoredNear config B E) conv64 conv) : ∀ {cloud : List CloudPoint},
    List.Forall₂ Q cloud conv →
    (∀ p ∈ cloud, amplitudeError config B E
      < |(apply_response (get_response config) p.e).1 - (config.elec_params.adc_threshold : ℝ)|) →
    (conv64.map fun r => decide (r.amp > (config.elec_params.adc_threshold : ℝ)))
      = conv.map fun r => decide (r.amp > (config.elec_params.adc_threshold : ℝ)) := by
  induction h1 with
  | nil => intro _ _ _; rfl
  | @cons a b as bs hab _ ih =>
    intro cloud h2 h3
    cases h2 with
    | @cons c _ cs _ hc hcs =>
      rw [List.map_cons, List.map_cons, ih hcs fun p hp => h3 p (by simp [hp])]
      congr 1
      have k1 := h3 c (by simp)
      rw [← hQ _ _ hc] at k1
      have k2 := hab.amp.trans_lt k1
      rw [decide_eq_decide]
      generalize (config.elec_params.adc_threshold : ℝ) = thr at *
      constructor
      · intro hgt
        by_contra hcon
        push Not at hcon
        rw [abs_of_nonpos (by linarith : b.amp - thr ≤ 0)] at k2
        have := (abs_lt.1 k2).2
        linarith
      · intro hgt
        rw [abs_of_pos (by linarith : 0 < b.amp - thr)] at k2
        have := (abs_lt.1 k2).1
        linarith

theorem heights_apart {config : Config} (hd : DriftOk config.det_params config.elec_params)
    {Q : CloudPoint → SpyralRow → Prop}
    (hQ : ∀ b r, Q b r → r.z = ((config.elec_params.windows_edge : ℝ) - b.tb)
          / ((config.elec_params.windows_edge - config.elec_params.micromegas_edge : ℤ) : ℝ)
            * config.det_params.length * 1000) {cloud : List CloudPoint} {conv : List SpyralRow}
    (h : List.Forall₂ Q cloud conv) (ha : cloud.Pairwise fun p q => 2e-12 < |p.tb - q.tb|) :
    conv.Pairwise fun r r' => 2 * heightError config < |r.z - r'.z| := by
  rw [List.pairwise_iff_getElem] at ha ⊢
  intro i j hi hj hij
  have hi' : i < cloud.length := by rw [h.length_eq]; exact hi
  have hj' : j < cloud.length := by rw [h.length_eq]; exact hj
  have e1 := hQ _ _ (List.Forall₂.get h hi' hi)
  have e2 := hQ _ _ (List.Forall₂.get h hj' hj)
  have k := ha i j hi' hj' hij
  simp only [List.get_eq_getElem] at e1 e2
  rw [e1, e2]
  have hN : (0 : ℝ) < ((config.elec_params.windows_edge - config.elec_params.micromegas_edge : ℤ) : ℝ) := by
    have := hd.edges
    exact_mod_cast (by omega : (0 : ℤ) < config.elec_params.windows_edge - config.elec_params.micromegas_edge)
  have hL : 0 < config.det_params.length := by linarith [hd.length_ge]
  unfold heightError
  generalize ((config.elec_params.windows_edge - config.elec_params.micromegas_edge : ℤ) : ℝ) = N at *
  generalize (config.elec_params.windows_edge : ℝ) = W at *
  generalize config.det_params.length = L at *
  generalize cloud[i].tb = s at *
  generalize cloud[j].tb = t at *
  have hq : 0 < L / N := div_pos hL hN
  have : (W - s) / N * L * 1000 - (W - t) / N * L * 1000 = -(s - t) * (L / N) * 1000 := by ring
  rw [this, abs_mul, abs_mul, abs_neg, abs_of_pos hq, abs_of_pos (by norm_num : (0 : ℝ) < 1000)]
  have := mul_lt_mul_of_pos_right k hq
  norm_num at *
  linarith

/-- **C146.** A cloud that is clear of the threshold and of equal times is turned into rows of the file in exact
arithmetic. Then a cloud near it is turned into rows in machine arithmetic: the same rows in the same order with the
same labels, and with heights, amplitudes and integrals near those of exact arithmetic. -/
theorem C146_stored {argsort : Argsort} (hA : IsArgsort argsort) {nm : NumpyMath} (hn : nm.Ok) {config : Config}
    (ht : TemplateOk config.elec_params) (hok : ElectronicsOk config.elec_params)
    (hd : DriftOk config.det_params config.elec_params) {B E : ℝ} {cloud64 cloud : List CloudPoint}
    (hc : List.Forall₂ (PointNear B E) cloud64 cloud) (hclear : ClearCloud config B E cloud) {labels labels' : List ℤ}
    {rows : List SpyralRow}
    (h : format_event argsort (get_response config) cloud labels config = .ok (rows, labels')) :
    ∃ rows64, format_event64 nm.rn argsort (get_response64 nm config) cloud64 labels config = .ok (rows64, labels') ∧
      List.Forall₂ (StoredNear config B E) rows64 rows := by
  unfold format_event at h
  unfold format_event64
  cases hcent : config.pad_centers with
  | none =>
    rw [hcent] at h
    simp at h
  | some centers =>
    rw [hcent] at h
    simp only at h ⊢
    cases hconv : convert_to_spyral cloud config.elec_params.windows_edge config.elec_params.micromegas_edge
        config.det_params.length (get_response config) centers config.pad_sizes with
    | error e =>
      rw [hconv] at h
      simp [bind, Except.bind] at h
    | ok conv =>
      rw [hconv] at h
      obtain ⟨conv64, c1, c2, c3⟩ := convert_both hn ht hok hd hc hconv
      rw [c1]
      simp only [bind, Except.bind] at h ⊢
      have hm := mask_both (fun b r hq => hq.1) c2 c3 hclear.threshold
      rw [hm]
      have hz := heights_apart hd (fun b r hq => hq.2.2) c3 hclear.apart
      have hsel := maskSel_forall₂ c2 (conv.map fun r => decide (r.amp > (config.elec_params.adc_threshold : ℝ)))
      have hz' := hz.sublist (maskSel_sublist
        (conv.map fun r => decide (r.amp > (config.elec_params.adc_threshold : ℝ))) conv)
      have hs := sort_same hA (d := heightError config) (k64 := (maskSel (conv.map fun r =>
          decide (r.amp > (config.elec_params.adc_threshold : ℝ))) conv64).map (·.z))
        (k := (maskSel (conv.map fun r =>
          decide (r.amp > (config.elec_params.adc_threshold : ℝ))) conv).map (·.z)) (by
          rw [List.forall₂_map_left_iff, List.forall₂_map_right_iff]
          exact hsel.imp fun a b hab => hab.z) (by
          rw [List.pairwise_map]
          exact hz')
      rw [hs]
      have h' := Except.ok.inj h
      injection h' with e1 e2
      subst e1 e2
      exact ⟨_, rfl, takeIdx_forall₂ hsel _⟩

/-! ## A whole event -/

theorem points_near {B E : ℝ} {a b : List CloudPoint} (h : List.Forall₂ SameRow a b) : cloudDistance a b ≤ B →
    (∀ p ∈ b, 0 ≤ p.e) → (∀ p ∈ b, p.e ≤ E) → List.Forall₂ (PointNear B E) a b := by
  induction h with
  | nil => intro _ _ _; exact .nil
  | @cons x y a b hxy _ ih =>
    intro hd h0 hE
    have e : cloudDistance (x :: a) (y :: b) = |x.e - y.e| + cloudDistance a b := by simp [cloudDistance]
    have hn : 0 ≤ cloudDistance a b := by
      unfold cloudDistance
      apply List.sum_nonneg
      intro v hv
      rw [← List.map_uncurry_zip_eq_zipWith] at hv
      obtain ⟨w, -, rfl⟩ := List.mem_map.1 hv
      exact abs_nonneg _
    rw [e] at hd
    have hp := abs_nonneg (x.e - y.e)
    exact .cons ⟨hxy, ⟨hxy.window.1, by linarith [hxy.window.2]⟩, ⟨hxy.charge, h0 y (by simp), hE y (by simp)⟩,
      by linarith⟩ (ih (by linarith) (fun p hp => h0 p (by simp [hp])) fun p hp => hE p (by simp [hp]))

/-- The charges of a cloud are not negative. -/
theorem cloud_nonneg {σ : Type} {env : SimEnv} {momenta : List Vec4} {vertex : ℝ × ℝ × ℝ}
    {Zs As : List ℤ} {config : Config} {grid : PadGrid} {g : GridEdges} (hb : 0 < g.bin)
    (hgrid : config.pad_grid = some (grid, g)) (hgain : 0 ≤ config.det_params.mpgd_gain) {rng : Gen σ}
    (hr : LawfulGen rng) {indices : List ℤ} {s s' : σ} {cloud : List CloudPoint} {labels : List ℤ}
    (h : simulate env momenta vertex Zs As config rng indices s = .ok ((cloud, labels), s')) :
    ∀ p ∈ cloud, 0 ≤ p.e := by
  obtain ⟨tr, s₁, htr, hlen, cells, -, -, hcells⟩ := simulate_cells hb hgrid hr h
  intro p hp
  obtain ⟨i, hi, rfl⟩ := List.mem_iff_getElem.1 hp
  have hi2 : i < (cloud.zip labels).length := by rw [List.length_zip, ← hlen, min_self]; exact hi
  have hi1 : i < cells.length := by rw [hcells.length_eq]; exact hi2
  have hdesc := List.Forall₂.get hcells hi1 hi2
  simp only [List.get_eq_getElem, List.getElem_zip] at hdesc
  rw [hdesc.2.2.2.1]
  have : 0 ≤ chargeAt (history tr) (cells[i]).1 (cells[i]).2 := by
    unfold chargeAt
    apply List.sum_nonneg
    intro x hx
    obtain ⟨d, hd, rfl⟩ := List.mem_map.1 hx
    exact history_nonneg hgain htr d (List.mem_filter.1 hd).1
  exact_mod_cast this

/-- **C146.** An event that is clear in the sense of C145, and whose cloud in exact arithmetic is clear of the threshold
and of equal times, is stored in machine arithmetic as in exact arithmetic: the same rows in the same order with the
same labels, with heights, amplitudes and integrals near the exact ones. -/
theorem C146_event {m : Math64} {config : Config} {grid : PadGrid} {g g64 : GridEdges} (h : m.Ok)
    (hgrid : config.pad_grid = some (grid, g)) (hb : 0 < g.bin)
    (hok : DriftOk config.det_params config.elec_params)
    (hsp : SpreadOk config.det_params config.elec_params)
    (hv : config.drift_velocity = config.det_params.length /
      ((config.elec_params.windows_edge - config.elec_params.micromegas_edge : ℤ) : ℝ))
    (hg : GridSame m.rn g64 g) (hpads : ∀ i j, -1 ≤ grid.cell i j ∧ grid.cell i j < 2 ^ 26)
    (hgain : 0 ≤ config.det_params.mpgd_gain)
    {σ : Type} {env : SimEnv} {momenta : List Vec4} {vertex : ℝ × ℝ × ℝ} {Zs As : List ℤ}
    {rng : Gen σ} (hr : LawfulGen rng) {std : σ → ℝ × σ} (hstd : ShiftScale rng std) (hgs : ∀ s, |(std s).1| ≤ 40)
    {indices : List ℤ} {s s₁ : σ} {n : ℤ} {B : ℝ}
    (hev : ClearEvent std env momenta vertex Zs As config rng indices s n B s₁)
    (hroom : config.det_params.mpgd_gain * n < 2 ^ 53)
    {argsort : Argsort} (hA : IsArgsort argsort) {nm : NumpyMath} (hn : nm.Ok) (hnm : nm.rn = m.rn)
    (ht : TemplateOk config.elec_params) (hel : ElectronicsOk config.elec_params)
    {cloud : List CloudPoint} {labels labels' : List ℤ} {s' : σ} {E : ℝ} {rows : List SpyralRow}
    (hsim : simulate env momenta vertex Zs As config rng indices s = .ok ((cloud, labels), s'))
    (hE : ∀ p ∈ cloud, p.e ≤ E) (hclear : ClearCloud config B E cloud)
    (hf : format_event argsort (get_response config) cloud labels config = .ok (rows, labels')) :
    ∃ cloud64 rows64,
      simulate64 m std env momenta vertex Zs As { config with pad_grid := some (grid, g64) } rng indices s
        = .ok ((cloud64, labels), s') ∧
      format_event64 m.rn argsort (get_response64 nm { config with pad_grid := some (grid, g64) }) cloud64 labels
        { config with pad_grid := some (grid, g64) } = .ok (rows64, labels') ∧
      List.Forall₂ (StoredNear config B E) rows64 rows := by
  obtain ⟨cloud64, cloud', lab, s'', a1, a2, -, a4, a5⟩ := C145_event h hgrid hok hsp hv hg hpads hgain hr hstd hgs hev
    hroom
  rw [hsim] at a2
  injection a2 with a2
  injection a2 with a2 e3
  injection a2 with e1 e2
  subst e1 e2 e3
  have hp := points_near a4 a5 (cloud_nonneg hb hgrid hgain hr hsim) hE
  obtain ⟨rows64, f1, f2⟩ := C146_stored hA hn ht hel hok hp hclear hf
  rw [hnm] at f1
  exact ⟨cloud64, rows64, a1, f1, f2⟩

/-! ## An example -/

/-- A detector of one metre with the electronics of C132 and one pad. -/
noncomputable def exStoredConfig : Config :=
  { exClearConfig with
    elec_params := ⟨6.25, 900, 1000, 10, 560, 40⟩, pad_centers := some [(3, 4)], pad_sizes := [1] }

/-- Three rows of a cloud, the last of them below the threshold. -/
noncomputable def exStored : List CloudPoint := [⟨0, 260, 3000000⟩, ⟨0, 100, 3000000⟩, ⟨0, 300, 1000⟩]

/-- Rows of another cloud near them. -/
noncomputable def exStored64 : List CloudPoint :=
  [⟨0, 260 + 5e-14, 3000205⟩, ⟨0, 100, 2999795⟩, ⟨0, 300 - 5e-14, 1000⟩]

theorem exStored_clear : ClearCloud exStoredConfig 205 3000000 exStored := by
  have hpk := default_peak exStoredConfig rfl
  have hlen := get_response_length exStoredConfig
  have hne : get_response exStoredConfig ≠ [] := by
    intro h
    rw [h] at hlen
    simp at hlen
  have hel : ElectronicsOk exStoredConfig.elec_params := by constructor <;> norm_num [exStoredConfig]
  have herr : amplitudeError exStoredConfig 205 3000000 ≤ 1 := by
    norm_num [amplitudeError, countsPerElectron, exStoredConfig]
  have hthr : (exStoredConfig.elec_params.adc_threshold : ℝ) = 40 := by norm_num [exStoredConfig]
  have big : amplitudeError exStoredConfig 205 3000000 < |(apply_response (get_response exStoredConfig) 3000000).1
      - (exStoredConfig.elec_params.adc_threshold : ℝ)| := by
    rw [hthr, amplitude_eq hne (by norm_num)]
    have : 70 ≤ min (npMax (get_response exStoredConfig) * 3000000) 4095 := by
      refine le_min ?_ (by norm_num)
      norm_num at hpk ⊢
      linarith
    generalize min (npMax (get_response exStoredConfig) * 3000000) 4095 = A at *
    rw [abs_of_pos (by linarith)]
    linarith
  have small : amplitudeError exStoredConfig 205 3000000 < |(apply_response (get_response exStoredConfig) 1000).1
      - (exStoredConfig.elec_params.adc_threshold : ℝ)| := by
    have h0 : (apply_response (get_response exStoredConfig) 0).1 = 0 := by
      rw [amplitude_eq hne le_rfl, mul_zero]
      norm_num
    have := (signal_charges exStoredConfig hel 1000 0).1
    rw [h0, sub_zero, sub_zero] at this
    have hK : countsPerElectron exStoredConfig.elec_params ≤ 1e-3 := by
      norm_num [countsPerElectron, exStoredConfig]
    rw [hthr]
    have h1 := (abs_le.1 this).2
    generalize (apply_response (get_response exStoredConfig) 1000).1 = A at *
    rw [abs_of_pos (by norm_num : (0 : ℝ) < 1000)] at h1
    have : A ≤ 1 := by
      norm_num at hK h1 ⊢
      linarith
    rw [abs_of_neg (by linarith)]
    linarith
  refine ⟨fun p hp => ?_, ?_⟩
  · simp only [exStored, List.mem_cons, List.not_mem_nil, or_false] at hp
    rcases hp with rfl | rfl | rfl
    · exact big
    · exact big
    · exact small
  · norm_num [exStored, abs_of_pos, abs_of_neg]

/-- The rows of the example are stored in machine arithmetic as in exact arithmetic. -/
example {rn : ℝ → ℝ} (h : Rounding rn) : ∃ rows rows64 labels',
    format_event exArgsort (get_response exStoredConfig) exStored [2, 2, 3] exStoredConfig = .ok (rows, labels') ∧
    format_event64 rn exArgsort (get_response64 (exactNumpy rn) exStoredConfig) exStored64 [2, 2, 3] exStoredConfig
      = .ok (rows64, labels') ∧ List.Forall₂ (StoredNear exStoredConfig 205 3000000) rows64 rows := by
  have one_mem : (1 : ℝ) ∈ Binary64 := by simpa using int_mem (n := 1) (by norm_num)
  have hd : DriftOk exStoredConfig.det_params exStoredConfig.elec_params :=
    ⟨one_mem, by norm_num [exStoredConfig, exClearConfig, exDet], by norm_num [exStoredConfig, exClearConfig, exDet],
      by norm_num [exStoredConfig], by norm_num [exStoredConfig], by norm_num [exStoredConfig]⟩
  have hel : ElectronicsOk exStoredConfig.elec_params := by constructor <;> norm_num [exStoredConfig]
  have hc : List.Forall₂ (PointNear 205 3000000) exStored64 exStored := by
    refine .cons ⟨⟨rfl, ?_, ?_, ?_⟩, ?_, ?_, ?_⟩ (.cons ⟨⟨rfl, ?_, ?_, ?_⟩, ?_, ?_, ?_⟩
      (.cons ⟨⟨rfl, ?_, ?_, ?_⟩, ?_, ?_, ?_⟩ .nil)) <;> norm_num [abs_of_pos, abs_of_neg]
  obtain ⟨⟨rows, labels'⟩, hf⟩ := C27_no_error exArgsort (get_response exStoredConfig) exStored [2, 2, 3] exStoredConfig
    [(3, 4)] rfl (by norm_num [exStoredConfig]) (fun p hp => by
      refine ⟨0, ?_, by simp, by simp [exStoredConfig]⟩
      simp only [exStored, List.mem_cons, List.not_mem_nil, or_false] at hp
      rcases hp with rfl | rfl | rfl <;> simp)
  obtain ⟨rows64, f1, f2⟩ := C146_stored exArgsort_ok (exactNumpy_ok h) default_template hel hd hc exStored_clear hf
  exact ⟨rows, rows64, labels', hf, f1, f2⟩

end Verif.Machine
