import Verif.Tactics
import Verif.Detector.Response

/-! # C24, C25, C26: electronics response -/

namespace Verif.Detector

/-! ## Lemmas -/

theorem foldl_max_ge (l : List ℝ) (x : ℝ) : x ≤ l.foldl max x ∧ ∀ y ∈ l, y ≤ l.foldl max x := by
  induction l generalizing x with
  | nil => simp
  | cons a l ih =>
    obtain ⟨h1, h2⟩ := ih (max x a)
    simp only [List.foldl_cons, List.mem_cons]
    refine ⟨(le_max_left x a).trans h1, ?_⟩
    rintro y (rfl | hy)
    · exact (le_max_right x y).trans h1
    · exact h2 y hy

theorem foldl_max_mem (l : List ℝ) (x : ℝ) : l.foldl max x ∈ x :: l := by
  induction l generalizing x with
  | nil => simp
  | cons a l ih =>
    rw [List.foldl_cons]
    have := ih (max x a)
    rcases List.mem_cons.1 this with h | h
    · rw [h]
      rcases max_choice x a with h' | h' <;> rw [h'] <;> simp
    · simp [h]

/-- `npMax` of a non-empty list is its maximum. -/
theorem npMax_isMax (l : List ℝ) (h : l ≠ []) : npMax l ∈ l ∧ ∀ y ∈ l, y ≤ npMax l := by
  cases l with
  | nil => exact absurd rfl h
  | cons x xs =>
    refine ⟨foldl_max_mem xs x, ?_⟩
    intro y hy
    obtain ⟨h1, h2⟩ := foldl_max_ge xs x
    rcases List.mem_cons.1 hy with rfl | hy
    · exact h1
    · exact h2 y hy

theorem get_response_length (config : Config) : (get_response config).length = 512 := by
  simp [get_response, linspace, NUM_TB]

theorem get_response_nonneg (config : Config) : ∀ r ∈ get_response config, 0 ≤ r := by
  intro r hr
  unfold get_response at hr
  simp only [List.mem_map] at hr
  obtain ⟨x, -, rfl⟩ := hr
  split_ifs with h
  · exact le_rfl
  · exact not_lt.1 h

/-- One sample of the clipped signal. -/
noncomputable def clip (x : ℝ) : ℝ := if x > 4095 then 4095 else x

theorem clip_eq (x : ℝ) : clip x = min x 4095 := by
  unfold clip
  split_ifs with h
  · exact (min_eq_right (le_of_lt h)).symm
  · exact (min_eq_left (not_lt.1 h)).symm

theorem apply_response_eq (response : List ℝ) (e : ℝ) :
    apply_response response e = (npMax (response.map fun r => min (r * e) 4095),
      (response.map fun r => min (r * e) 4095).sum) := by
  unfold apply_response
  simp only [List.map_map]
  have : ((fun s : ℝ => if s > 4095 then 4095 else s) ∘ fun r => r * e)
      = fun r => min (r * e) 4095 := by
    funext r
    exact clip_eq (r * e)
  rw [this]

/-! ## C26 -/

/-- The settings for which the formulas of the code are defined: Python raises for a gain of 0 and
numpy yields NaN when shaping time or clock frequency vanish. -/
structure ElectronicsOk (e : ElectronicsParams) : Prop where
  gain : 0 < (e.amp_gain : ℝ)
  shaping : 0 < (e.shaping_time : ℝ)
  clock : 0 < (e.clock_freq : ℝ)

/-- C26: `get_response` returns 512 samples; sample `i` is the analytic response
`4095 q / gain / fC · exp(-3x) x³ sin x` at `x = t / (shaping time · clock frequency · 0.001)`, or 0
where that is negative; the samples are taken at `t = i · 512/511`. -/
theorem C26_samples (config : Config) (_hok : ElectronicsOk config.elec_params) (i : ℕ) (hi : i < 512) :
    (get_response config).length = 512 ∧
    (get_response config)[i]? = some (max 0
      (4095 * 1.602176634e-19 / (config.elec_params.amp_gain : ℝ) / 1e-15
        * Real.exp (-3 * ((i : ℝ) * (512 / 511)
            / ((config.elec_params.shaping_time : ℝ) * config.elec_params.clock_freq * 0.001)))
        * ((i : ℝ) * (512 / 511)
            / ((config.elec_params.shaping_time : ℝ) * config.elec_params.clock_freq * 0.001)) ^ 3
        * Real.sin ((i : ℝ) * (512 / 511)
            / ((config.elec_params.shaping_time : ℝ) * config.elec_params.clock_freq * 0.001)))) := by
  refine ⟨get_response_length config, ?_⟩
  unfold get_response linspace
  simp only [List.getElem?_map, List.getElem?_range, NUM_TB, hi, Option.map_some]
  have h : (0 : ℝ) + (i : ℝ) * (((512 : ℕ) : ℝ) - 0) / (((512 : ℕ) : ℝ) - 1)
      = (i : ℝ) * (512 / 511) := by
    push_cast; ring
  have h' : (0 : ℝ) + (i : ℝ) * ((((512 : ℕ) : ℝ) - 0) / (((512 : ℕ) : ℝ) - 1))
      = (i : ℝ) * (512 / 511) := by
    push_cast; ring
  rw [h']
  congr 1
  unfold response_at E_CHARGE
  simp only
  split_ifs with hneg
  · rw [max_eq_left hneg.le]
  · rw [max_eq_right (not_lt.1 hneg)]

/-- C26: all samples are non-negative and the first one is 0. -/
theorem C26_nonneg_first_zero (config : Config) (hok : ElectronicsOk config.elec_params) :
    (∀ r ∈ get_response config, 0 ≤ r) ∧ (get_response config)[0]? = some 0 := by
  refine ⟨get_response_nonneg config, ?_⟩
  rw [(C26_samples config hok 0 (by norm_num)).2]
  norm_num

/-! ## C24 -/

/-- C24: for every configuration and every non-negative charge the amplitude lies between 0 and
4095, and the integral between the amplitude and 512 · 4095. -/
theorem C24_bounds (config : Config) (_hok : ElectronicsOk config.elec_params) (e : ℝ) (he : 0 ≤ e) :
    0 ≤ (apply_response (get_response config) e).1 ∧
    (apply_response (get_response config) e).1 ≤ 4095 ∧
    (apply_response (get_response config) e).1 ≤ (apply_response (get_response config) e).2 ∧
    (apply_response (get_response config) e).2 ≤ 512 * 4095 := by
  rw [apply_response_eq]
  generalize hl' : (get_response config).map (fun r => min (r * e) 4095) = l
  have hl := hl'.symm
  have hlen : l.length = 512 := by rw [hl, List.length_map, get_response_length]
  have h0 : ∀ x ∈ l, 0 ≤ x ∧ x ≤ 4095 := by
    intro x hx
    rw [hl] at hx
    obtain ⟨r, hr, rfl⟩ := List.mem_map.1 hx
    exact ⟨le_min (mul_nonneg (get_response_nonneg config r hr) he) (by norm_num), min_le_right _ _⟩
  have hne : l ≠ [] := by
    intro h; rw [h] at hlen; simp at hlen
  obtain ⟨hmem, hmax⟩ := npMax_isMax l hne
  refine ⟨(h0 _ hmem).1, (h0 _ hmem).2, List.single_le_sum (fun x hx => (h0 x hx).1) _ hmem, ?_⟩
  have := List.sum_le_card_nsmul l 4095 (fun x hx => (h0 x hx).2)
  rw [hlen] at this
  simpa using this

/-! ## C25 -/

/-- C25: more charge never gives a smaller amplitude or integral. -/
theorem C25_monotone (config : Config) (_hok : ElectronicsOk config.elec_params) (e e' : ℝ) (h : e ≤ e') :
    (apply_response (get_response config) e).1 ≤ (apply_response (get_response config) e').1 ∧
    (apply_response (get_response config) e).2 ≤ (apply_response (get_response config) e').2 := by
  rw [apply_response_eq, apply_response_eq]
  have hlen := get_response_length config
  have hnn := get_response_nonneg config
  generalize get_response config = R at *
  have hne : R ≠ [] := by
    intro h; rw [h] at hlen; simp at hlen
  have hle : ∀ r ∈ R, min (r * e) 4095 ≤ min (r * e') 4095 := by
    intro r hr
    exact min_le_min_right _ (mul_le_mul_of_nonneg_left h (hnn r hr))
  constructor
  · obtain ⟨hmem, -⟩ := npMax_isMax (R.map fun r => min (r * e) 4095) (by simpa using hne)
    obtain ⟨-, hmax⟩ := npMax_isMax (R.map fun r => min (r * e') 4095) (by simpa using hne)
    obtain ⟨r, hr, hre⟩ := List.mem_map.1 hmem
    rw [← hre]
    exact (hle r hr).trans (hmax _ (List.mem_map.2 ⟨r, hr, rfl⟩))
  · exact List.sum_le_sum hle

/-- C25: while no sample saturates, the amplitude is the charge times the largest sample of the
response and the integral is the charge times the sum of the samples. -/
theorem C25_linear (config : Config) (_hok : ElectronicsOk config.elec_params) (e : ℝ) (he : 0 ≤ e)
    (hsat : ∀ r ∈ get_response config, r * e ≤ 4095) :
    (∃ m ∈ get_response config, (∀ r ∈ get_response config, r ≤ m) ∧
      (apply_response (get_response config) e).1 = m * e) ∧
    (apply_response (get_response config) e).2 = (get_response config).sum * e := by
  rw [apply_response_eq]
  have hlen := get_response_length config
  generalize get_response config = R at *
  have hne : R ≠ [] := by
    intro h; rw [h] at hlen; simp at hlen
  have hmap : (R.map fun r => min (r * e) 4095) = R.map fun r => r * e :=
    List.map_congr_left fun r hr => min_eq_left (hsat r hr)
  rw [hmap]
  obtain ⟨m1, m2⟩ := npMax_isMax R hne
  refine ⟨⟨npMax R, m1, m2, ?_⟩, ?_⟩
  · obtain ⟨hmem, hmax⟩ := npMax_isMax (R.map fun r => r * e) (by simpa using hne)
    obtain ⟨r, hr, hre⟩ := List.mem_map.1 hmem
    apply le_antisymm
    · rw [← hre]
      exact mul_le_mul_of_nonneg_right (m2 r hr) he
    · exact hmax _ (List.mem_map.2 ⟨npMax R, m1, rfl⟩)
  · simp only
    rw [List.sum_map_mul_right, List.map_id']

/-- Small positive charges meet the hypothesis of `C25_linear`, for every configuration. -/
example (config : Config) : ∃ e : ℝ, 0 < e ∧ ∀ r ∈ get_response config, r * e ≤ 4095 := by
  have hs : ∀ r ∈ get_response config, r ≤ (get_response config).sum := fun r hr =>
    List.single_le_sum (get_response_nonneg config) r hr
  have h0 : 0 ≤ (get_response config).sum := List.sum_nonneg (get_response_nonneg config)
  refine ⟨4095 / ((get_response config).sum + 1), by positivity, ?_⟩
  intro r hr
  rw [mul_div_assoc', div_le_iff₀ (by linarith)]
  nlinarith [hs r hr, get_response_nonneg config r hr]

/-- Ordinary AT-TPC settings (900 gain, 1000 ns, 6.25 MHz). -/
example : ElectronicsOk ⟨6.25, 900, 1000, 10, 560, 40⟩ := by
  constructor <;> norm_num

/-! ## C61: samples "evaluated at each time bucket" -/

/-- The claim of the docstring of `get_response`: sample `i` is the response at time bucket `i`. -/
def SampledAtBuckets (config : Config) : Prop :=
  ∀ i : ℕ, i < 512 → (get_response config)[i]? = some (max 0
    (4095 * 1.602176634e-19 / (config.elec_params.amp_gain : ℝ) / 1e-15
      * Real.exp (-3 * ((i : ℝ)
          / ((config.elec_params.shaping_time : ℝ) * config.elec_params.clock_freq * 0.001)))
      * ((i : ℝ)
          / ((config.elec_params.shaping_time : ℝ) * config.elec_params.clock_freq * 0.001)) ^ 3
      * Real.sin ((i : ℝ)
          / ((config.elec_params.shaping_time : ℝ) * config.elec_params.clock_freq * 0.001))))

/-- C61 is false: `np.linspace(0, 512, 512)` spaces the samples by 512/511 buckets. For every
configuration whose pulse (up to its first zero) lasts exactly one sample of the code, sample 1 is 0
although the response at time bucket 1 is positive. -/
theorem C61_refuted (config : Config) (hok : ElectronicsOk config.elec_params)
    (hT : (config.elec_params.shaping_time : ℝ) * config.elec_params.clock_freq * 0.001
      = 512 / 511 / Real.pi) : ¬ SampledAtBuckets config := by
  intro h
  have h1 := h 1 (by norm_num)
  rw [(C26_samples config hok 1 (by norm_num)).2, hT] at h1
  have hpi := Real.pi_pos
  have e1 : ((1 : ℕ) : ℝ) * (512 / 511) / (512 / 511 / Real.pi) = Real.pi := by
    field_simp; norm_num
  have e2 : ((1 : ℕ) : ℝ) / (512 / 511 / Real.pi) = Real.pi * (511 / 512) := by
    field_simp; norm_num
  rw [e1, e2, Real.sin_pi, mul_zero, max_self] at h1
  have hg := hok.gain
  have hsin : 0 < Real.sin (Real.pi * (511 / 512)) :=
    Real.sin_pos_of_pos_of_lt_pi (by positivity) (by nlinarith)
  have hpos : 0 < 4095 * 1.602176634e-19 / (config.elec_params.amp_gain : ℝ) / 1e-15
      * Real.exp (-3 * (Real.pi * (511 / 512))) * (Real.pi * (511 / 512)) ^ 3
      * Real.sin (Real.pi * (511 / 512)) := by positivity
  have := Option.some.inj h1
  rw [max_eq_right hpos.le] at this
  exact absurd this hpos.ne

/-- The settings of `C61_refuted` exist: 1000 ns shaping and a clock of 512/511/π MHz. -/
example : ElectronicsOk ⟨512 / 511 / Real.pi, 900, 1000, 10, 560, 40⟩ ∧
    ((1000 : ℤ) : ℝ) * (512 / 511 / Real.pi) * 0.001 = 512 / 511 / Real.pi := by
  have hpi := Real.pi_pos
  refine ⟨⟨by norm_num, by norm_num, by simp only; positivity⟩, ?_⟩
  push_cast; ring

/-- The shape of the pulse rises strictly up to `x = 1`. -/
theorem pulse_strictMono {a b : ℝ} (ha : 0 < a) (hab : a < b) (hb : b ≤ 1) :
    Real.exp (-3 * a) * a ^ 3 * Real.sin a < Real.exp (-3 * b) * b ^ 3 * Real.sin b := by
  have hpi := Real.pi_gt_three
  have hcube : ∀ x : ℝ, Real.exp (-3 * x) * x ^ 3 = (x * Real.exp (-x)) ^ 3 := by
    intro x
    rw [mul_pow, ← Real.exp_nat_mul, mul_comm]
    congr 2
    push_cast; ring
  have h1 : a * Real.exp (-a) < b * Real.exp (-b) := by
    have he : (a - b) + 1 < Real.exp (a - b) := Real.add_one_lt_exp (by linarith)
    have hx : Real.exp (a - b) * Real.exp (-a) = Real.exp (-b) := by
      rw [← Real.exp_add]; congr 1; ring
    rw [← hx, ← mul_assoc]
    refine mul_lt_mul_of_pos_right ?_ (Real.exp_pos _)
    nlinarith
  have h2 : Real.sin a < Real.sin b :=
    Real.sin_lt_sin_of_lt_of_le_pi_div_two (by linarith) (by linarith) hab
  have h3 : 0 < Real.sin a := Real.sin_pos_of_pos_of_lt_pi ha (by linarith)
  rw [hcube, hcube]
  have h4 : 0 < a * Real.exp (-a) := mul_pos ha (Real.exp_pos _)
  have h5 : (a * Real.exp (-a)) ^ 3 < (b * Real.exp (-b)) ^ 3 :=
    pow_lt_pow_left₀ h1 h4.le (by norm_num)
  exact mul_lt_mul'' h5 h2 (by positivity) h3.le

/-- C61 is false for all ordinary settings: with a shaping time of at least 512/511 time buckets,
every sample `i ≥ 1` taken no later than the shaping time is larger than the response at time bucket
`i`. -/
theorem C61_ordinary_refuted (config : Config) (hok : ElectronicsOk config.elec_params)
    (hT : 512 / 511 ≤ (config.elec_params.shaping_time : ℝ) * config.elec_params.clock_freq * 0.001) :
    ¬ SampledAtBuckets config ∧
    ∀ i : ℕ, 1 ≤ i → i < 512 → (i : ℝ) * (512 / 511)
        ≤ (config.elec_params.shaping_time : ℝ) * config.elec_params.clock_freq * 0.001 →
      ∃ r, (get_response config)[i]? = some r ∧
        4095 * 1.602176634e-19 / (config.elec_params.amp_gain : ℝ) / 1e-15
          * Real.exp (-3 * ((i : ℝ)
              / ((config.elec_params.shaping_time : ℝ) * config.elec_params.clock_freq * 0.001)))
          * ((i : ℝ)
              / ((config.elec_params.shaping_time : ℝ) * config.elec_params.clock_freq * 0.001)) ^ 3
          * Real.sin ((i : ℝ)
              / ((config.elec_params.shaping_time : ℝ) * config.elec_params.clock_freq * 0.001))
        < r := by
  have hg := hok.gain
  have key : ∀ i : ℕ, 1 ≤ i → i < 512 → (i : ℝ) * (512 / 511)
        ≤ (config.elec_params.shaping_time : ℝ) * config.elec_params.clock_freq * 0.001 →
      ∃ r, (get_response config)[i]? = some r ∧
        max 0 (4095 * 1.602176634e-19 / (config.elec_params.amp_gain : ℝ) / 1e-15
          * Real.exp (-3 * ((i : ℝ)
              / ((config.elec_params.shaping_time : ℝ) * config.elec_params.clock_freq * 0.001)))
          * ((i : ℝ)
              / ((config.elec_params.shaping_time : ℝ) * config.elec_params.clock_freq * 0.001)) ^ 3
          * Real.sin ((i : ℝ)
              / ((config.elec_params.shaping_time : ℝ) * config.elec_params.clock_freq * 0.001)))
        < r := by
    intro i h1 h2 h3
    refine ⟨_, (C26_samples config hok i h2).2, ?_⟩
    generalize (config.elec_params.shaping_time : ℝ) * config.elec_params.clock_freq * 0.001 = T at *
    have hT0 : 0 < T := lt_of_lt_of_le (by norm_num) hT
    have hi : (1 : ℝ) ≤ i := by exact_mod_cast h1
    have ha : 0 < (i : ℝ) / T := by positivity
    have hab : (i : ℝ) / T < (i : ℝ) * (512 / 511) / T := by
      apply div_lt_div_of_pos_right _ hT0
      nlinarith
    have hb : (i : ℝ) * (512 / 511) / T ≤ 1 := by
      rw [div_le_one hT0]; exact h3
    have hp := pulse_strictMono ha hab hb
    have hc : 0 < 4095 * 1.602176634e-19 / (config.elec_params.amp_gain : ℝ) / 1e-15 := by positivity
    generalize 4095 * 1.602176634e-19 / (config.elec_params.amp_gain : ℝ) / 1e-15 = c at *
    have hpi := Real.pi_gt_three
    have hs : 0 < Real.sin ((i : ℝ) / T) := Real.sin_pos_of_pos_of_lt_pi ha (by linarith)
    have h0 : 0 < c * Real.exp (-3 * ((i : ℝ) / T)) * ((i : ℝ) / T) ^ 3 * Real.sin ((i : ℝ) / T) := by
      positivity
    rw [max_eq_right h0.le]
    refine lt_of_lt_of_le ?_ (le_max_right _ _)
    have := mul_lt_mul_of_pos_left hp hc
    nlinarith [this]
  refine ⟨fun h => ?_, fun i h1 h2 h3 => ?_⟩
  · obtain ⟨r, hr, hlt⟩ := key 1 le_rfl (by norm_num) (by simpa using hT)
    rw [h 1 (by norm_num)] at hr
    exact absurd (Option.some.inj hr) hlt.ne
  · obtain ⟨r, hr, hlt⟩ := key i h1 h2 h3
    exact ⟨r, hr, lt_of_le_of_lt (le_max_right _ _) hlt⟩

/-- Ordinary AT-TPC settings (1000 ns shaping, 6.25 MHz): the shaping time is 6.25 time buckets. -/
example : ElectronicsOk ⟨6.25, 900, 1000, 10, 560, 40⟩ ∧
    (512 / 511 : ℝ) ≤ ((1000 : ℤ) : ℝ) * 6.25 * 0.001 := by
  refine ⟨⟨by norm_num, by norm_num, by norm_num⟩, by norm_num⟩

/-- What holds instead of C61: sample `i` is the response at a time between bucket `i` and bucket
`i + 1/511 · i ≤ i + 1`. Missing: the claimed time is `i` itself. -/
theorem C61_shifted_partial (config : Config) (hok : ElectronicsOk config.elec_params)
    (i : ℕ) (hi : i < 512) : ∃ t : ℝ, (i : ℝ) ≤ t ∧ t ≤ (i : ℝ) + 1 ∧
    (get_response config)[i]? = some (max 0
      (4095 * 1.602176634e-19 / (config.elec_params.amp_gain : ℝ) / 1e-15
        * Real.exp (-3 * (t
            / ((config.elec_params.shaping_time : ℝ) * config.elec_params.clock_freq * 0.001)))
        * (t
            / ((config.elec_params.shaping_time : ℝ) * config.elec_params.clock_freq * 0.001)) ^ 3
        * Real.sin (t
            / ((config.elec_params.shaping_time : ℝ) * config.elec_params.clock_freq * 0.001)))) := by
  have h0 : (0 : ℝ) ≤ i := Nat.cast_nonneg i
  have h1 : (i : ℝ) ≤ 511 := by exact_mod_cast Nat.le_of_lt_succ hi
  refine ⟨(i : ℝ) * (512 / 511), by nlinarith, by nlinarith, (C26_samples config hok i hi).2⟩

end Verif.Detector
