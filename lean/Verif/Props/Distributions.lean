import Verif.Kinematics.Excitation
import Verif.Proofs.Simulate
import Mathlib.MeasureTheory.Measure.Lebesgue.Basic

/-! # C54–C56: sampling distributions -/

namespace Verif.Props

open Verif.Kinematics MeasureTheory
open Verif.Detector (except_bind_ok)

variable {σ : Type}

/-- The generator in a random state: `uniform(a, b)` is `a + (b - a) * u`, where the standard uniform
number `u` is uniformly distributed on `[0, 1)`. -/
structure RandomGen [MeasurableSpace σ] (rng : Gen σ) (μ : Measure σ) (u : σ → ℝ) : Prop where
  affine : ∀ a b s, (rng.uniform a b s).1 = a + (b - a) * u s
  range : ∀ s, 0 ≤ u s ∧ u s < 1
  measurable : Measurable u
  law : μ.map u = volume.restrict (Set.Ico 0 1)

/-- The probability that the standard uniform number lies in `[a, b)`. -/
theorem RandomGen.prob [MeasurableSpace σ] {rng : Gen σ} {μ : Measure σ} {u : σ → ℝ}
    (h : RandomGen rng μ u) {a b : ℝ} (ha : 0 ≤ a) (hb : b ≤ 1) :
    μ {s | a ≤ u s ∧ u s < b} = ENNReal.ofReal (b - a) := by
  have : {s | a ≤ u s ∧ u s < b} = u ⁻¹' Set.Ico a b := rfl
  rw [this, ← Measure.map_apply h.measurable measurableSet_Ico, h.law,
    Measure.restrict_apply measurableSet_Ico, Set.inter_eq_left.2 (Set.Ico_subset_Ico ha hb),
    Real.volume_Ico]

/-! ## C54 -/

theorem polar_uniform_sample (rng : Gen σ) {d : PolarUniform} (h : d.cos_angle_min ≤ d.cos_angle_max)
    (s : σ) : d.sample rng s = .ok (Real.arccos (rng.uniform d.cos_angle_min d.cos_angle_max s).1,
      (rng.uniform d.cos_angle_min d.cos_angle_max s).2) := by
  unfold PolarUniform.sample
  rw [if_neg (not_lt.2 h)]

/-- **C54.** Angles in the wrong order make every call of `sample` raise ValueError. -/
theorem C54_order (rng : Gen σ) {a b : ℝ} (hb : 0 ≤ b) (hba : b < a) (ha : a ≤ Real.pi) (s : σ) :
    (mkPolarUniform a b).sample rng s = .error .valueError := by
  unfold PolarUniform.sample
  exact if_pos (Real.cos_lt_cos_of_nonneg_of_le_pi hb ha hba)

/-- **C54.** Every sample lies in `[angle_min, angle_max]`, for any lawful generator. -/
theorem C54_range {rng : Gen σ} (hg : LawfulGen rng) {a b : ℝ} (ha : 0 ≤ a) (hab : a ≤ b)
    (hb : b ≤ Real.pi) (s : σ) :
    ∃ x s', (mkPolarUniform a b).sample rng s = .ok (x, s') ∧ a ≤ x ∧ x ≤ b := by
  have hcos : Real.cos b ≤ Real.cos a := Real.cos_le_cos_of_nonneg_of_le_pi ha hb hab
  refine ⟨_, _, polar_uniform_sample rng (d := mkPolarUniform a b) hcos s, ?_, ?_⟩
  · have hle : (rng.uniform (Real.cos b) (Real.cos a) s).1 ≤ Real.cos a := by
      rcases hcos.eq_or_lt with h | h
      · rw [h, hg.uniform_eq]
      · exact (hg.uniform_lt _ _ _ h).le
    calc a = Real.arccos (Real.cos a) := (Real.arccos_cos ha (hab.trans hb)).symm
      _ ≤ _ := Real.arccos_le_arccos hle
  · calc _ ≤ Real.arccos (Real.cos b) := Real.arccos_le_arccos (hg.uniform_ge _ _ _ hcos)
      _ = b := Real.arccos_cos (ha.trans hab) hb

/-- **C54.** The polar angle is uniform in solid angle: the probability of an angle at most `t` is
`(cos min - cos t) / (cos min - cos max)`. -/
theorem C54_distribution [MeasurableSpace σ] {rng : Gen σ} {μ : Measure σ} {u : σ → ℝ}
    (hr : RandomGen rng μ u) {a b t : ℝ} (ha : 0 ≤ a) (hat : a ≤ t) (htb : t ≤ b) (hab : a < b)
    (hb : b ≤ Real.pi) :
    μ {s | ∃ x s', (mkPolarUniform a b).sample rng s = .ok (x, s') ∧ x ≤ t}
      = ENNReal.ofReal ((Real.cos a - Real.cos t) / (Real.cos a - Real.cos b)) := by
  have hcos : Real.cos b < Real.cos a := Real.cos_lt_cos_of_nonneg_of_le_pi ha hb hab
  have hct : Real.cos b ≤ Real.cos t := Real.cos_le_cos_of_nonneg_of_le_pi (ha.trans hat) hb htb
  have hta : Real.cos t ≤ Real.cos a :=
    Real.cos_le_cos_of_nonneg_of_le_pi ha (htb.trans hb) hat
  have hd : 0 < Real.cos a - Real.cos b := by linarith
  have hset : {s | ∃ x s', (mkPolarUniform a b).sample rng s = .ok (x, s') ∧ x ≤ t}
      = {s | (Real.cos t - Real.cos b) / (Real.cos a - Real.cos b) ≤ u s ∧ u s < 1} := by
    ext s
    simp only [Set.mem_setOf_eq]
    have hsample : (mkPolarUniform a b).sample rng s
        = .ok (Real.arccos (Real.cos b + (Real.cos a - Real.cos b) * u s),
            (rng.uniform (Real.cos b) (Real.cos a) s).2) := by
      rw [← hr.affine]
      exact polar_uniform_sample rng (d := mkPolarUniform a b) hcos.le s
    have h0 := (hr.range s).1
    have h1 := (hr.range s).2
    set w := Real.cos b + (Real.cos a - Real.cos b) * u s with hw
    have hw1 : w ≤ 1 := by
      have : (Real.cos a - Real.cos b) * u s ≤ Real.cos a - Real.cos b := by nlinarith
      linarith [Real.cos_le_one a]
    have hw2 : -1 ≤ w := by
      have : 0 ≤ (Real.cos a - Real.cos b) * u s := by positivity
      linarith [Real.neg_one_le_cos b]
    have hiff : Real.arccos w ≤ t ↔ Real.cos t ≤ w := by
      constructor
      · intro h
        have := Real.cos_le_cos_of_nonneg_of_le_pi (Real.arccos_nonneg w) (htb.trans hb) h
        rwa [Real.cos_arccos hw2 hw1] at this
      · intro h
        rw [← Real.arccos_cos (ha.trans hat) (htb.trans hb)]
        exact Real.arccos_le_arccos h
    have hfrac : (Real.cos t - Real.cos b) / (Real.cos a - Real.cos b) ≤ u s ↔ Real.cos t ≤ w := by
      rw [div_le_iff₀ hd, hw]
      constructor <;> intro h <;> linarith
    rw [hfrac, hsample]
    constructor
    · rintro ⟨x, s', h, hx⟩
      simp only [Except.ok.injEq, Prod.mk.injEq] at h
      obtain ⟨rfl, -⟩ := h
      exact ⟨hiff.1 hx, h1⟩
    · rintro ⟨h, -⟩
      exact ⟨_, _, rfl, hiff.2 h⟩
  rw [hset, hr.prob (div_nonneg (by linarith) hd.le) le_rfl]
  congr 1
  field_simp
  ring

/-! ## C55 -/

theorem cumsum_length (acc : ℝ) (p : List ℝ) : (cumsum acc p).length = p.length := by
  induction p generalizing acc with
  | nil => rfl
  | cons a p ih => simp [cumsum, ih]

/-- The number of cumulative sums (divided by `S`) at most `v` is `i` exactly when `v` lies in the
`i`-th interval. -/
theorem search_iff {S : ℝ} (hS : 0 < S) (v : ℝ) (p : List ℝ) : ∀ (acc : ℝ) (i : ℕ),
    (∀ x ∈ p, 0 ≤ x) → acc / S ≤ v → i < p.length →
    (searchsortedRight v ((cumsum acc p).map (· / S)) = i ↔
      (acc + (p.take i).sum) / S ≤ v ∧ v < (acc + (p.take (i + 1)).sum) / S) := by
  induction p with
  | nil => intro acc i _ _ h; simp at h
  | cons a p ih =>
    intro acc i hp hacc hi
    have ha : 0 ≤ a := hp a (by simp)
    have hp' : ∀ x ∈ p, 0 ≤ x := fun x hx => hp x (by simp [hx])
    have hnn : ∀ k, 0 ≤ (p.take k).sum := fun k => List.sum_nonneg fun x hx =>
      hp' x (List.mem_of_mem_take hx)
    simp only [cumsum, List.map_cons, searchsortedRight]
    cases i with
    | zero =>
      simp only [List.take_zero, List.sum_nil, add_zero, zero_add, List.take_succ_cons, List.sum_cons]
      by_cases h : (acc + a) / S ≤ v
      · rw [if_pos h]
        simp [not_lt.2 h]
      · rw [if_neg h]
        simp [hacc, not_le.1 h]
    | succ i =>
      simp only [List.take_succ_cons, List.sum_cons]
      by_cases h : (acc + a) / S ≤ v
      · rw [if_pos h]
        have := ih (acc + a) i hp' h (by simpa using hi)
        rw [Nat.add_right_cancel_iff, this]
        simp only [add_assoc]
      · rw [if_neg h]
        have hlt : v < (acc + (a + (p.take i).sum)) / S := by
          refine (not_le.1 h).trans_le ?_
          apply div_le_div_of_nonneg_right _ hS.le
          linarith [hnn i]
        simp only [Nat.succ_ne_zero, false_iff, not_and, right_eq_add, Nat.add_eq_zero_iff,
          one_ne_zero, and_false] 
        intro h'
        exact absurd h' (not_le.2 hlt)

/-- The index that `choice` picks, as long as the draw is below 1. -/
theorem search_lt {S : ℝ} (hS : 0 < S) (v : ℝ) (p : List ℝ) : ∀ (acc : ℝ), acc + p.sum = S → v < 1 →
    acc / S ≤ v → (∀ x ∈ p, 0 ≤ x) →
    searchsortedRight v ((cumsum acc p).map (· / S)) < p.length := by
  induction p with
  | nil =>
    intro acc h1 hv hacc _
    simp only [List.sum_nil, add_zero] at h1
    rw [h1, div_self hS.ne'] at hacc
    linarith
  | cons a p ih =>
    intro acc h1 hv hacc hp
    simp only [cumsum, List.map_cons, searchsortedRight, List.length_cons]
    by_cases h : (acc + a) / S ≤ v
    · rw [if_pos h]
      have := ih (acc + a) (by rw [← h1, List.sum_cons]; ring) hv h (fun x hx => hp x (by simp [hx]))
      omega
    · rw [if_neg h]; omega

/-- A table that `sample` accepts. -/
structure TableOk (d : PolarArbitrary) : Prop where
  nonempty : d.angles.length ≠ 0
  length : d.probs.length = d.angles.length
  nonneg : ∀ x ∈ d.probs, 0 ≤ x
  sum : |d.probs.sum - 1| ≤ 2 ^ (-26 : ℤ)

theorem TableOk.sum_pos {d : PolarArbitrary} (h : TableOk d) : 0 < d.probs.sum := by
  have := abs_le.1 h.sum
  have h2 : (2 : ℝ) ^ (-26 : ℤ) < 1 := by norm_num
  linarith [this.1]

/-- The bin that belongs to the standard uniform number `v`. -/
noncomputable def binOf (d : PolarArbitrary) (v : ℝ) : ℕ :=
  searchsortedRight v ((cumsum 0 d.probs).map (· / d.probs.sum))

theorem sample_eq {rng : Gen σ} (d : PolarArbitrary) (h : TableOk d) (s : σ)
    (hv : 0 ≤ (rng.uniform 0 1 s).1 ∧ (rng.uniform 0 1 s).1 < 1) :
    ∃ hlt : binOf d (rng.uniform 0 1 s).1 < d.angles.length,
      d.sample rng s = .ok (d.angles[binOf d (rng.uniform 0 1 s).1]
          + (rng.uniform 0 1 (rng.uniform 0 1 s).2).1 * d.angle_width,
        (rng.uniform 0 1 (rng.uniform 0 1 s).2).2) := by
  have hS := h.sum_pos
  have hlt : binOf d (rng.uniform 0 1 s).1 < d.angles.length := by
    rw [← h.length]
    exact search_lt hS _ _ 0 (by ring) hv.2 (by rw [zero_div]; exact hv.1) h.nonneg
  refine ⟨hlt, ?_⟩
  have hc : choice rng d.angles d.probs s
      = .ok (d.angles[binOf d (rng.uniform 0 1 s).1], (rng.uniform 0 1 s).2) := by
    unfold choice
    rw [if_neg h.nonempty, if_neg (not_not.2 h.length), if_neg, if_neg (not_lt.2 h.sum)]
    · simp only
      rw [show searchsortedRight (rng.uniform 0 1 s).1
        (List.map (fun x => x / d.probs.sum) (cumsum 0 d.probs)) = binOf d (rng.uniform 0 1 s).1 from rfl]
      rw [List.getElem?_eq_getElem hlt]
    · simp only [List.any_eq_true, decide_eq_true_eq, not_exists, not_and, not_lt]
      exact h.nonneg
  unfold PolarArbitrary.sample
  rw [hc]
  rfl

/-- **C55.** Every sample lies in a bin `[angle_i, angle_i + width)` of positive probability. -/
theorem C55_bin {rng : Gen σ} (hg : LawfulGen rng) {d : PolarArbitrary} (h : TableOk d)
    (hw : 0 < d.angle_width) (s : σ) :
    ∃ x s', d.sample rng s = .ok (x, s') ∧ ∃ (i : ℕ) (a p : ℝ), d.angles[i]? = some a ∧
      d.probs[i]? = some p ∧ 0 < p ∧ a ≤ x ∧ x < a + d.angle_width := by
  have hv : 0 ≤ (rng.uniform 0 1 s).1 ∧ (rng.uniform 0 1 s).1 < 1 :=
    ⟨hg.uniform_ge _ _ _ zero_le_one, hg.uniform_lt _ _ _ zero_lt_one⟩
  obtain ⟨hlt, he⟩ := sample_eq d h s hv
  have hlt' : binOf d (rng.uniform 0 1 s).1 < d.probs.length := by rw [h.length]; exact hlt
  refine ⟨_, _, he, _, _, _, List.getElem?_eq_getElem hlt, List.getElem?_eq_getElem hlt', ?_, ?_, ?_⟩
  · have hiff := (search_iff h.sum_pos (rng.uniform 0 1 s).1 d.probs 0 _ h.nonneg
      (by rw [zero_div]; exact hv.1) hlt').1 rfl
    have hlt2 := hiff.1.trans_lt hiff.2
    rw [div_lt_div_iff_of_pos_right h.sum_pos] at hlt2
    rw [List.sum_take_succ _ _ hlt'] at hlt2
    linarith
  · have := hg.uniform_ge 0 1 (rng.uniform 0 1 s).2 zero_le_one
    nlinarith
  · have := hg.uniform_lt 0 1 (rng.uniform 0 1 s).2 zero_lt_one
    nlinarith

/-- **C55.** With equally spaced bins, the probability that the sample lies in bin `i` is the weight of
that bin divided by the sum of the weights. -/
theorem C55_distribution [MeasurableSpace σ] {rng : Gen σ} {μ : Measure σ} {u : σ → ℝ}
    (hr : RandomGen rng μ u) {d : PolarArbitrary} (h : TableOk d) (hw : 0 < d.angle_width)
    (hspaced : ∀ (j : ℕ) (hj : j < d.angles.length),
      d.angles[j] = d.angles[0]'(Nat.pos_of_ne_zero h.nonempty) + j * d.angle_width)
    (i : ℕ) (hi : i < d.angles.length) :
    μ {s | ∃ x s', d.sample rng s = .ok (x, s') ∧ d.angles[i] ≤ x ∧ x < d.angles[i] + d.angle_width}
      = ENNReal.ofReal (d.probs[i]'(by rw [h.length]; exact hi) / d.probs.sum) := by
  have hS := h.sum_pos
  have hi' : i < d.probs.length := by rw [h.length]; exact hi
  have hu : ∀ s, (rng.uniform 0 1 s).1 = u s := fun s => by rw [hr.affine]; ring
  have hset : {s | ∃ x s', d.sample rng s = .ok (x, s') ∧ d.angles[i] ≤ x ∧
        x < d.angles[i] + d.angle_width}
      = {s | (d.probs.take i).sum / d.probs.sum ≤ u s ∧
          u s < (d.probs.take (i + 1)).sum / d.probs.sum} := by
    ext s
    simp only [Set.mem_setOf_eq]
    have hv : 0 ≤ (rng.uniform 0 1 s).1 ∧ (rng.uniform 0 1 s).1 < 1 := by rw [hu]; exact hr.range s
    obtain ⟨hlt, he⟩ := sample_eq d h s hv
    have hiff := search_iff hS (rng.uniform 0 1 s).1 d.probs 0 i h.nonneg
      (by rw [zero_div]; exact hv.1) hi'
    simp only [zero_add] at hiff
    simp only [hu s] at hiff he hlt
    have hw1 : 0 ≤ (rng.uniform 0 1 (rng.uniform 0 1 s).2).1 := by rw [hu]; exact (hr.range _).1
    have hw2 : (rng.uniform 0 1 (rng.uniform 0 1 s).2).1 < 1 := by rw [hu]; exact (hr.range _).2
    have hbin : (∃ x s', d.sample rng s = .ok (x, s') ∧ d.angles[i] ≤ x ∧
        x < d.angles[i] + d.angle_width) ↔ binOf d (u s) = i := by
      rw [he]
      set w := (rng.uniform 0 1 (rng.uniform 0 1 s).2).1
      constructor
      · rintro ⟨x, s', hx, h1, h2⟩
        simp only [Except.ok.injEq, Prod.mk.injEq] at hx
        obtain ⟨rfl, -⟩ := hx
        rw [hspaced _ hlt, hspaced _ hi] at h1 h2
        set j := binOf d (u s)
        have e1 : (i : ℝ) < j + 1 := by
          by_contra hc
          have := mul_le_mul_of_nonneg_right (not_lt.1 hc) hw.le
          nlinarith
        have e2 : (j : ℝ) < i + 1 := by
          by_contra hc
          have := mul_le_mul_of_nonneg_right (not_lt.1 hc) hw.le
          nlinarith
        have e1' : i < j + 1 := by exact_mod_cast e1
        have e2' : j < i + 1 := by exact_mod_cast e2
        omega
      · intro hb
        subst hb
        exact ⟨_, _, rfl, by nlinarith, by nlinarith⟩
    rw [hbin]
    exact hiff
  have hnn : ∀ k, 0 ≤ (d.probs.take k).sum := fun k => List.sum_nonneg fun x hx =>
    h.nonneg x (List.mem_of_mem_take hx)
  have hle : (d.probs.take (i + 1)).sum ≤ d.probs.sum := by
    have := List.sum_take_add_sum_drop d.probs (i + 1)
    have h2 : 0 ≤ (d.probs.drop (i + 1)).sum := List.sum_nonneg fun x hx =>
      h.nonneg x (List.mem_of_mem_drop hx)
    linarith
  rw [hset, hr.prob (div_nonneg (hnn i) hS.le) ((div_le_one hS).2 hle)]
  congr 1
  rw [List.sum_take_succ _ _ hi']
  field_simp
  ring

/-- **C55.** The constructor only rejects tables whose probabilities add up to more than one. A table
whose sum is too small is accepted, and every `sample` raises ValueError. -/
theorem C55_small_sum (angles probs : List ℝ) (w : ℝ) (h : probs.sum < 1 - 2 ^ (-26 : ℤ)) :
    ∃ d, mkPolarArbitrary angles probs w = .ok d ∧
      ∀ (rng : Gen σ) (s : σ), d.sample rng s = .error .valueError := by
  have h0 : (0 : ℝ) < 2 ^ (-26 : ℤ) := by positivity
  refine ⟨_, by unfold mkPolarArbitrary; rw [if_neg (by linarith)], fun rng s => ?_⟩
  have hc : choice rng angles probs s = .error .valueError := by
    unfold choice
    split_ifs with h1 h2 h3 h4
    · rfl
    · rfl
    · rfl
    · rfl
    · exfalso
      apply h4
      rw [abs_of_neg (by linarith)]
      linarith
  unfold PolarArbitrary.sample
  simp only [hc]
  rfl

/-! ## C56 -/

/-- **C56.** `ExcitationUniform` samples lie in `[min, max)`, or are the common value when both ends
coincide; ends in the wrong order raise ValueError. -/
theorem C56_uniform {rng : Gen σ} (hg : LawfulGen rng) (d : ExcitationUniform) (s : σ) :
    (d.min_value ≤ d.max_value → ∃ x s', d.sample rng s = .ok (x, s') ∧
      (d.min_value < d.max_value → d.min_value ≤ x ∧ x < d.max_value) ∧
      (d.min_value = d.max_value → x = d.min_value)) ∧
    (d.max_value < d.min_value → d.sample rng s = .error .valueError) := by
  unfold ExcitationUniform.sample
  refine ⟨fun h => ?_, fun h => if_pos h⟩
  rw [if_neg (not_lt.2 h)]
  refine ⟨_, _, rfl, fun h => ⟨hg.uniform_ge _ _ _ h.le, hg.uniform_lt _ _ _ h⟩, fun h => ?_⟩
  rw [← h]
  exact hg.uniform_eq _ _

/-- **C56.** `ExcitationGaussian` of width 0 always returns the centroid; a negative width raises
ValueError when sampled. -/
theorem C56_gaussian {rng : Gen σ} (hg : LawfulGen rng) (centroid : ℝ) (s : σ) :
    (∃ s', (mkExcitationGaussian centroid 0).sample rng s = .ok (centroid, s')) ∧
    ∀ width < 0, (mkExcitationGaussian centroid width).sample rng s = .error .valueError := by
  constructor
  · refine ⟨(rng.normal centroid 0 s).2, ?_⟩
    have : (mkExcitationGaussian centroid 0).sample rng s = .ok (rng.normal centroid 0 s) := by
      simp [mkExcitationGaussian, ExcitationGaussian.sample]
    rw [this]
    exact congrArg Except.ok (Prod.ext (hg.normal_zero centroid s) rfl)
  · intro width hw
    unfold ExcitationGaussian.sample mkExcitationGaussian
    rw [if_pos (div_neg_of_neg_of_pos hw (by norm_num))]

/-- **C56.** The relativistic Breit-Wigner distribution has support on positive energies, so
`ExcitationBreitWigner` never returns a value at or below minus the rest mass; it raises for width
zero, negative widths and non-positive resonance masses. -/
theorem C56_breit_wigner {rvs : BreitWignerRvs σ}
    (hpos : ∀ rho scale s, 0 < rho → 0 < scale → 0 < (rvs rho scale s).1)
    (d : ExcitationBreitWigner) (s : σ) :
    (0 < d.width ∧ 0 < d.rest_mass + d.centroid →
      ∃ x s', d.sample rvs s = .ok (x, s') ∧ -d.rest_mass < x) ∧
    (¬ (0 < d.width ∧ 0 < d.rest_mass + d.centroid) → ∃ e, d.sample rvs s = .error e) := by
  unfold ExcitationBreitWigner.sample
  constructor
  · rintro ⟨hw, hm⟩
    have hrho : 0 < (d.rest_mass + d.centroid) / d.width := div_pos hm hw
    rw [if_neg hw.ne', if_neg (by push Not; exact ⟨hrho, hw.le⟩)]
    have := hpos _ d.width s hrho hw
    exact ⟨_, _, rfl, by linarith⟩
  · intro h
    by_cases h0 : d.width = 0
    · rw [if_pos h0]; exact ⟨_, rfl⟩
    · rw [if_neg h0, if_pos]
      · exact ⟨_, rfl⟩
      · by_contra hc
        push Not at hc
        have hw : 0 < d.width := lt_of_le_of_ne hc.2 (Ne.symm h0)
        exact h ⟨hw, by
          have := mul_pos hc.1 hw
          rwa [div_mul_cancel₀ _ h0] at this⟩

/-! ## Examples -/

/-- A random generator exists: the state is the number itself. -/
noncomputable def unitGen : Gen (Set.Ico (0 : ℝ) 1) :=
  { normal := fun m _ s => (m, s), uniform := fun a b s => (a + (b - a) * s, s) }

theorem unitGen_lawful : LawfulGen unitGen where
  uniform_ge := fun a b s h => by
    have := s.2.1
    show a ≤ a + (b - a) * s
    nlinarith
  uniform_lt := fun a b s h => by
    have := s.2.2
    show a + (b - a) * s < b
    nlinarith
  uniform_eq := fun a s => by show a + (a - a) * s = a; ring
  normal_zero := fun _ _ => rfl

/-- C54 and C55 apply to it. -/
theorem unitGen_random : RandomGen unitGen (volume.comap ((↑) : Set.Ico (0 : ℝ) 1 → ℝ)) (↑) where
  affine := fun _ _ _ => rfl
  range := fun s => s.2
  measurable := measurable_subtype_coe
  law := by
    rw [map_comap_subtype_coe measurableSet_Ico]

/-- C55 applies to a table with a bin of probability zero. -/
example : TableOk { angle_width := 1 / 2, probs := [1 / 4, 0, 3 / 4], angles := [0, 1 / 2, 1] } where
  nonempty := by simp
  length := rfl
  nonneg := by norm_num
  sum := by norm_num

end Verif.Props
