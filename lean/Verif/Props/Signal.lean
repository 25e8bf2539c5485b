import Verif.Props.Format
import Verif.Props.Response

/-! # C80: the charge above which a point is stored -/

namespace Verif.Detector

open Verif.Spec

/-- `m` is the largest sample of a response. -/
def IsPeak (response : List ℝ) (m : ℝ) : Prop := m ∈ response ∧ ∀ r ∈ response, r ≤ m

/-- ADC counts per electron of an ideal integrator: `4095 q / (amp_gain fC)`. -/
noncomputable def countsPerElectron (e : ElectronicsParams) : ℝ :=
  4095 * 1.602176634e-19 / (e.amp_gain : ℝ) / 1e-15

theorem cube_exp_le {x : ℝ} (hx : 0 ≤ x) : Real.exp (-3 * x) * x ^ 3 ≤ Real.exp (-3) := by
  have h1 : x ≤ Real.exp (x - 1) := by linarith [Real.add_one_le_exp (x - 1)]
  have h2 : x ^ 3 ≤ Real.exp (x - 1) ^ 3 := pow_le_pow_left₀ hx h1 3
  calc Real.exp (-3 * x) * x ^ 3 ≤ Real.exp (-3 * x) * Real.exp (x - 1) ^ 3 :=
        mul_le_mul_of_nonneg_left h2 (Real.exp_pos _).le
    _ = Real.exp (-3) := by
        rw [← Real.exp_nat_mul, ← Real.exp_add]
        congr 1
        push_cast
        ring

end Verif.Detector

namespace Verif.Props

open Verif.Detector Verif.Spec

/-- **C80.** The amplitude is the peak of the response times the charge, at most 4095. -/
theorem C80_amplitude (config : Config) {m : ℝ} (hm : IsPeak (get_response config) m) {e : ℝ}
    (he : 0 ≤ e) : (apply_response (get_response config) e).1 = min (m * e) 4095 := by
  rw [apply_response_eq]
  generalize get_response config = R at *
  have hne : R.map (fun r => min (r * e) 4095) ≠ [] := by
    intro h
    rw [List.map_eq_nil_iff] at h
    rw [h] at hm
    exact absurd hm.1 List.not_mem_nil
  obtain ⟨h1, h2⟩ := npMax_isMax _ hne
  apply le_antisymm
  · obtain ⟨r, hr, h⟩ := List.mem_map.1 h1
    simp only
    rw [← h]
    exact min_le_min_right _ (mul_le_mul_of_nonneg_right (hm.2 r hr) he)
  · exact h2 _ (List.mem_map.2 ⟨m, hm.1, rfl⟩)

/-- **C80.** Every response has a peak. It is not negative, and at most the counts per electron of the
electronics times `exp(-3)`, whatever the shaping time and the clock frequency. -/
theorem C80_peak (config : Config) (hok : ElectronicsOk config.elec_params) :
    ∃ m, IsPeak (get_response config) m ∧ 0 ≤ m ∧
      m ≤ countsPerElectron config.elec_params * Real.exp (-3) := by
  have hne : get_response config ≠ [] := by
    intro h
    have := get_response_length config
    rw [h] at this
    simp at this
  have hpk : IsPeak (get_response config) (npMax (get_response config)) := npMax_isMax _ hne
  refine ⟨_, hpk, get_response_nonneg config _ hpk.1, ?_⟩
  generalize npMax (get_response config) = m at hpk
  obtain ⟨i, hi, hmi⟩ := List.mem_iff_getElem.1 hpk.1
  have hi' : i < 512 := by rw [get_response_length] at hi; exact hi
  have hsm := (C26_samples config hok i hi').2
  rw [List.getElem?_eq_getElem hi, hmi, Option.some.injEq] at hsm
  rw [hsm]
  have hd : 0 < (config.elec_params.shaping_time : ℝ) * config.elec_params.clock_freq * 0.001 :=
    mul_pos (mul_pos hok.shaping hok.clock) (by norm_num)
  have hx : 0 ≤ (i : ℝ) * (512 / 511)
      / ((config.elec_params.shaping_time : ℝ) * config.elec_params.clock_freq * 0.001) :=
    div_nonneg (mul_nonneg (Nat.cast_nonneg i) (by norm_num)) hd.le
  generalize (i : ℝ) * (512 / 511)
      / ((config.elec_params.shaping_time : ℝ) * config.elec_params.clock_freq * 0.001) = x at hx
  have hc : 0 ≤ countsPerElectron config.elec_params := by
    exact div_nonneg (div_nonneg (by norm_num) hok.gain.le) (by norm_num)
  change max 0 (countsPerElectron config.elec_params * Real.exp (-3 * x) * x ^ 3 * Real.sin x) ≤ _
  refine max_le (mul_nonneg hc (Real.exp_pos _).le) ?_
  have h0 : 0 ≤ Real.exp (-3 * x) * x ^ 3 := mul_nonneg (Real.exp_pos _).le (pow_nonneg hx 3)
  calc countsPerElectron config.elec_params * Real.exp (-3 * x) * x ^ 3 * Real.sin x
      = countsPerElectron config.elec_params * ((Real.exp (-3 * x) * x ^ 3) * Real.sin x) := by ring
    _ ≤ countsPerElectron config.elec_params * ((Real.exp (-3 * x) * x ^ 3) * 1) :=
        mul_le_mul_of_nonneg_left (mul_le_mul_of_nonneg_left (Real.sin_le_one x) h0) hc
    _ ≤ countsPerElectron config.elec_params * Real.exp (-3) := by
        rw [mul_one]
        exact mul_le_mul_of_nonneg_left (cube_exp_le hx) hc

/-- **C80.** Which points of a cloud are stored depends on their charge alone: those whose charge times
the peak of the response exceeds the threshold, if the threshold is below 4095, otherwise none. -/
theorem C80_stored (argsort : Argsort) (hA : IsArgsort argsort) (wconfig : Config)
    (cloud : List CloudPoint) (labels : List ℤ) (config : Config)
    (hlen : cloud.length = labels.length) (hpads : ∀ p ∈ cloud, ∃ n : ℕ, p.pad = n)
    (hq : ∀ p ∈ cloud, 0 ≤ p.e) {m : ℝ} (hm : IsPeak (get_response wconfig) m)
    (rows : List SpyralRow) (labels' : List ℤ)
    (h : format_event argsort (get_response wconfig) cloud labels config = .ok (rows, labels')) :
    ∃ centers converted, config.pad_centers = some centers ∧
      List.Forall₂ (RowOf config centers (get_response wconfig)) cloud converted ∧
      (rows.zip labels').Perm (((cloud.zip (converted.zip labels)).filter fun x =>
        decide ((config.elec_params.adc_threshold : ℝ) < m * x.1.e ∧
          config.elec_params.adc_threshold < 4095)).map (·.2)) := by
  obtain ⟨centers, converted, h1, h2, -, h3, -⟩ :=
    C27_content argsort hA _ cloud labels config hlen hpads rows labels' h
  refine ⟨centers, converted, h1, h2, ?_⟩
  refine h3.trans (List.Perm.of_eq ?_)
  clear h3 h1 h hpads
  induction h2 generalizing labels with
  | nil => simp
  | @cons p r cloud converted hpr _ ih =>
    rcases labels with _ | ⟨l, labels⟩
    · simp
    · have hamp : r.amp = min (m * p.e) 4095 := by
        rw [← C80_amplitude wconfig hm (hq p List.mem_cons_self)]
        exact congrArg Prod.fst hpr.signal
      have ih' := ih labels (by simpa using hlen) fun q hqm => hq q (List.mem_cons_of_mem _ hqm)
      have hiff : ((config.elec_params.adc_threshold : ℝ) < r.amp) ↔
          ((config.elec_params.adc_threshold : ℝ) < m * p.e ∧ config.elec_params.adc_threshold < 4095) := by
        rw [hamp, lt_min_iff]
        refine and_congr Iff.rfl ?_
        exact_mod_cast Iff.rfl
      simp only [List.zip_cons_cons, List.filter_cons, decide_eq_true_eq, hiff]
      split_ifs
      · simp only [List.map_cons, ih']
      · exact ih'

/-- **C80.** No point with fewer than `threshold · exp(3) / (counts per electron)` electrons is stored. -/
theorem C80_least_charge (argsort : Argsort) (hA : IsArgsort argsort) (wconfig : Config)
    (hok : ElectronicsOk wconfig.elec_params) (cloud : List CloudPoint) (labels : List ℤ)
    (config : Config) (hlen : cloud.length = labels.length) (hpads : ∀ p ∈ cloud, ∃ n : ℕ, p.pad = n)
    (hq : ∀ p ∈ cloud, 0 ≤ p.e) (rows : List SpyralRow) (labels' : List ℤ)
    (h : format_event argsort (get_response wconfig) cloud labels config = .ok (rows, labels')) :
    ∀ row ∈ rows, ∃ p ∈ cloud, row.pad = p.pad ∧ row.tb = p.tb ∧
      config.elec_params.adc_threshold * Real.exp 3 < countsPerElectron wconfig.elec_params * p.e := by
  obtain ⟨m, hm, -, hle⟩ := C80_peak wconfig hok
  obtain ⟨centers, converted, -, h2, h3⟩ :=
    C80_stored argsort hA wconfig cloud labels config hlen hpads hq hm rows labels' h
  intro row hrow
  have hrl : rows.length = labels'.length := by
    obtain ⟨_, _, _, _, h4, _⟩ := C27_content argsort hA _ cloud labels config hlen hpads rows labels' h
    exact h4
  obtain ⟨k, hk, rfl⟩ := List.mem_iff_getElem.1 hrow
  have hz : (rows[k], labels'[k]) ∈ rows.zip labels' :=
    List.mem_iff_getElem.2 ⟨k, by simp; omega, by simp⟩
  obtain ⟨x, hx, hxe⟩ := List.mem_map.1 (h3.mem_iff.1 hz)
  rw [List.mem_filter, decide_eq_true_eq] at hx
  obtain ⟨hx, ht, -⟩ := hx
  obtain ⟨j, hj, hjx⟩ := List.mem_iff_getElem.1 hx
  have hj1 : j < cloud.length := by simp at hj; omega
  have hj2 : j < converted.length := by simp at hj; omega
  have hr := List.Forall₂.get h2 hj1 hj2
  have e1 : x.1 = cloud[j] := by rw [← hjx]; simp
  have e2 : rows[k] = converted[j] := by
    have : x.2.1 = converted[j] := by rw [← hjx]; simp
    rw [← this, hxe]
  simp only [List.get_eq_getElem] at hr
  refine ⟨cloud[j], List.getElem_mem hj1, ?_, ?_, ?_⟩
  · rw [e2, hr.pad]
  · rw [e2, hr.tb]
  · rw [e1] at ht
    have he := hq _ (List.getElem_mem hj1)
    have h5 := ht.trans_le (mul_le_mul_of_nonneg_right hle he)
    have h6 := mul_lt_mul_of_pos_right h5 (Real.exp_pos 3)
    calc _ < _ := h6
      _ = countsPerElectron wconfig.elec_params * cloud[j].e * (Real.exp (-3) * Real.exp 3) := by ring
      _ = _ := by rw [← Real.exp_add]; norm_num

/-- A configuration with one pad and the electronics parameters of a real run. -/
noncomputable def exOnePad : Config :=
  { det_params := { length := 1, efield := 1, bfield := 1, mpgd_gain := 1, diffusion := 0
                    fano_factor := 0, w_value := 1
                    gas_target := { density := 1, get_dedx := fun _ _ => 0
                                    get_energy_loss := fun _ _ _ => 0 } }
    elec_params := { clock_freq := 6.25, amp_gain := 900, shaping_time := 1000, micromegas_edge := 10
                     windows_edge := 560, adc_threshold := 40 }
    pad_params := {}, pad_grid := none, pad_centers := some [(0, 0)], pad_sizes := [1]
    drift_velocity := 1 / 550 }

/-- Of a point with a million electrons and a point with a thousand, the second is not stored. -/
example : ∃ rows labels', format_event exArgsort (get_response exOnePad)
    [⟨0, 20, 1000000⟩, ⟨0, 30, 1000⟩] [1, 2] exOnePad = .ok (rows, labels') ∧
    ∀ row ∈ rows, row.tb = 20 := by
  have hpads : ∀ p ∈ ([⟨0, 20, 1000000⟩, ⟨0, 30, 1000⟩] : List CloudPoint), p.pad = 0 ∧ 0 ≤ p.e := by
    intro p hp
    simp only [List.mem_cons, List.not_mem_nil, or_false] at hp
    rcases hp with rfl | rfl <;> norm_num
  obtain ⟨⟨rows, labels'⟩, h⟩ := C27_no_error exArgsort (get_response exOnePad)
    [⟨0, 20, 1000000⟩, ⟨0, 30, 1000⟩] [1, 2] exOnePad [(0, 0)] rfl (by norm_num [exOnePad])
    (fun p hp => ⟨0, by rw [(hpads p hp).1]; simp, by simp, by simp [exOnePad]⟩)
  refine ⟨rows, labels', h, ?_⟩
  intro row hrow
  obtain ⟨p, hp, -, ht, hq⟩ := C80_least_charge exArgsort exArgsort_ok exOnePad
    ⟨by norm_num [exOnePad], by norm_num [exOnePad], by norm_num [exOnePad]⟩ _ _ exOnePad rfl
    (fun p hp => ⟨0, by rw [(hpads p hp).1]; simp⟩) (fun p hp => (hpads p hp).2) rows labels' h row hrow
  simp only [List.mem_cons, List.not_mem_nil, or_false] at hp
  rcases hp with rfl | rfl
  · exact ht
  · exfalso
    have h1 : (1 : ℝ) ≤ Real.exp 3 := Real.one_le_exp (by norm_num)
    have hc : countsPerElectron exOnePad.elec_params ≤ 0.001 := by
      norm_num [countsPerElectron, exOnePad]
    have hthr : (exOnePad.elec_params.adc_threshold : ℝ) = 40 := by norm_num [exOnePad]
    rw [hthr] at hq
    simp only at hq
    nlinarith

end Verif.Props
