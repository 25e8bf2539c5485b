import Verif.Props.Counts
import Verif.Props.Charge

/-! # Lemmas for the expected charge of an event -/

namespace Verif.Props

open MeasureTheory ProbabilityTheory Verif.Spec Verif.Detector Verif.Kinematics

section
variable {Ω : Type} [MeasurableSpace Ω] {P : Measure Ω} [IsProbabilityMeasure P]

/-- The positive part of a number with mean `m` and variance `v` has at most half the mean plus half the
root mean square. -/
theorem positive_part_mean {X : Ω → ℝ} (h2 : MemLp X 2 P) :
    ∫ ω, max (X ω) 0 ∂P ≤ ((∫ ω, X ω ∂P) + √((∫ ω, X ω ∂P) ^ 2 + Var[X; P])) / 2 := by
  have hi : Integrable X P := h2.integrable (by norm_num)
  have h3 : MemLp (fun ω => |X ω|) 2 P := h2.abs
  have e : (fun ω => max (X ω) 0) = fun ω => (X ω + |X ω|) / 2 := by
    funext ω
    rcases le_total (X ω) 0 with h | h
    · rw [max_eq_right h, abs_of_nonpos h]; ring
    · rw [max_eq_left h, abs_of_nonneg h]; ring
  rw [e, integral_div, integral_add hi hi.abs]
  have hv := variance_nonneg (fun ω => |X ω|) P
  rw [variance_eq_sub h3] at hv
  have hx := variance_eq_sub h2
  have e2 : ((fun ω => |X ω|) ^ 2 : Ω → ℝ) = X ^ 2 := by
    funext ω
    simp
  rw [e2] at hv
  have : ∫ ω, |X ω| ∂P ≤ √((∫ ω, X ω ∂P) ^ 2 + Var[X; P]) := by
    apply Real.le_sqrt_of_sq_le
    linarith
  linarith

theorem positive_part_le {m F : ℝ} (hm : 0 ≤ m) (hF : 0 ≤ F) :
    (m + √(m ^ 2 + F * m)) / 2 ≤ m + F / 4 := by
  have : √(m ^ 2 + F * m) ≤ m + F / 2 := by
    apply Real.sqrt_le_iff.2
    constructor
    · positivity
    · nlinarith [sq_nonneg F]
  linarith
end

theorem pyInt_pos_le (x : ℝ) (h : 1 ≤ pyInt x) : (pyInt x : ℝ) ≤ max x 0 := by
  have hx : 0 ≤ x := by
    by_contra hn
    push Not at hn
    have := pyInt_neg x
    have h2 : 0 ≤ pyInt (-x) := pyInt_nonneg (by linarith)
    omega
  have := (cut_of_nonneg hx).1
  unfold cut at this
  exact le_max_of_le_left (by linarith)

theorem kept_le (l : List ℝ) :
    ((((l.map pyInt).filter fun e => decide (1 ≤ e)).sum : ℤ) : ℝ) ≤ (l.map fun x => max x 0).sum := by
  induction l with
  | nil => simp
  | cons a l ih =>
    rw [List.map_cons, List.filter_cons, List.map_cons, List.sum_cons]
    split_ifs with h
    · simp only [decide_eq_true_eq] at h
      rw [List.sum_cons, Int.cast_add]
      exact add_le_add (pyInt_pos_le a h) ih
    · have : 0 ≤ max a 0 := le_max_right _ _
      linarith

variable {σ : Type} [MeasurableSpace σ] {μ : Measure σ} [IsProbabilityMeasure μ]
  {rng : Gen σ} {u z : σ → ℝ} {next skip : σ → σ}
  {track : List Row} {nucleus : Nucleus} {params : DetectorParams}

theorem fresh_preserving {V : Type} [MeasurableSpace V] {v : σ → V} {g : σ → σ} (h : Fresh μ v g) :
    MeasurePreserving g μ μ := by
  refine ⟨h.state, ?_⟩
  ext A hA
  rw [Measure.map_apply h.state hA]
  have := h.indep Set.univ A MeasurableSet.univ hA
  simp only [Set.mem_univ, true_and, Set.setOf_true, measure_univ, one_mul] at this
  exact this

/-- The bound for the mean number of electrons kept at the points of a track. -/
noncomputable def trackBound (nucleus : Nucleus) (params : DetectorParams) (track : List Row) : ℝ :=
  ((List.range track.length).map fun k =>
    if k = 0 then 0 else meanAt nucleus params.w_value track k + params.fano_factor / 4).sum

/-- The positive parts of the normal numbers drawn along a track. -/
noncomputable def positiveSum (nucleus : Nucleus) (params : DetectorParams) (track : List Row) (z : σ → ℝ)
    (skip : σ → σ) (s : σ) : ENNReal :=
  ((List.range track.length).map fun k => ENNReal.ofReal (drawAt nucleus params track z skip k s)).sum

theorem measurable_list_sum {ι : Type} (l : List ι) {f : ι → σ → ENNReal} (h : ∀ i, Measurable (f i)) :
    Measurable fun s => (l.map fun i => f i s).sum := by
  induction l with
  | nil => simp
  | cons a l ih =>
    simp only [List.map_cons, List.sum_cons]
    exact (h a).add ih

theorem lintegral_list_sum {ι : Type} (l : List ι) {f : ι → σ → ENNReal} (h : ∀ i, Measurable (f i)) :
    ∫⁻ s, (l.map fun i => f i s).sum ∂μ = (l.map fun i => ∫⁻ s, f i s ∂μ).sum := by
  induction l with
  | nil => simp
  | cons a l ih =>
    simp only [List.map_cons, List.sum_cons]
    rw [lintegral_add_left (h a), ih]

theorem ofReal_list_sum {ι : Type} (l : List ι) {f : ι → ℝ} (h : ∀ i, 0 ≤ f i) :
    ENNReal.ofReal (l.map f).sum = (l.map fun i => ENNReal.ofReal (f i)).sum := by
  induction l with
  | nil => simp
  | cons a l ih =>
    simp only [List.map_cons, List.sum_cons]
    rw [ENNReal.ofReal_add (h a) (List.sum_nonneg (by
      intro x hx
      obtain ⟨i, -, rfl⟩ := List.mem_map.1 hx
      exact h i)), ih]

theorem measurable_positiveSum (hr : FreshGen rng μ u z next skip) :
    Measurable (positiveSum nucleus params track z skip) :=
  measurable_list_sum _ fun k => (measurable_drawAt hr k).ennreal_ofReal

theorem positiveSum_mean (hr : IdealGen rng μ u z next skip) (hW : 0 < params.w_value)
    (hF : 0 ≤ params.fano_factor) :
    ∫⁻ s, positiveSum nucleus params track z skip s ∂μ
      ≤ ENNReal.ofReal (trackBound nucleus params track) := by
  unfold positiveSum trackBound
  rw [lintegral_list_sum _ fun k => (measurable_drawAt hr.fresh k).ennreal_ofReal, ofReal_list_sum]
  · refine List.sum_le_sum fun k _ => ?_
    obtain ⟨h1, h2, h3, -⟩ := drawAt_moments (track := track) (nucleus := nucleus) hr hW hF k
    rcases k with _ | k
    · have : ∀ s, drawAt nucleus params track z skip 0 s = 0 := by
        intro s
        simp [drawAt, meanAt]
      simp [this]
    · rw [if_neg (by omega)]
      have e : ∀ s, ENNReal.ofReal (drawAt nucleus params track z skip (k + 1) s)
          = ENNReal.ofReal (max (drawAt nucleus params track z skip (k + 1) s) 0) := by
        intro s
        rcases le_total (drawAt nucleus params track z skip (k + 1) s) 0 with h | h
        · rw [max_eq_right h, ENNReal.ofReal_of_nonpos h, ENNReal.ofReal_zero]
        · rw [max_eq_left h]
      simp_rw [e]
      have hint : Integrable (fun s => max (drawAt nucleus params track z skip (k + 1) s) 0) μ :=
        (h1.integrable (by norm_num)).pos_part
      rw [← ofReal_integral_eq_lintegral_ofReal hint (ae_of_all _ fun s => le_max_right _ _)]
      refine ENNReal.ofReal_le_ofReal ?_
      have := positive_part_mean h1
      rw [h2, h3] at this
      exact this.trans (positive_part_le (means_nonneg hW _) hF)
  · intro k
    split_ifs
    · exact le_rfl
    · have := means_nonneg (track := track) (nucleus := nucleus) hW k
      positivity

theorem released_le (hr : FreshGen rng μ u z next skip) {s s' : σ} {primary : List ℤ}
    (h : generate_electrons track nucleus params rng s = .ok (primary, s')) :
    ENNReal.ofReal (released track primary : ℝ) ≤ positiveSum nucleus params track z skip s := by
  rw [electrons_eq hr h]
  unfold released positiveSum
  have e : ((List.range track.length).map fun k => pyInt (drawAt nucleus params track z skip k s))
      = ((List.range track.length).map fun k => drawAt nucleus params track z skip k s).map pyInt := by
    rw [List.map_map]; rfl
  rw [e]
  have := kept_le ((List.range track.length).map fun k => drawAt nucleus params track z skip k s)
  refine (ENNReal.ofReal_le_ofReal this).trans ?_
  rw [List.map_map]
  change ENNReal.ofReal ((List.range track.length).map
    fun k => max (drawAt nucleus params track z skip k s) 0).sum ≤ _
  rw [ofReal_list_sum _ fun k => le_max_right _ _]
  refine List.sum_le_sum fun k _ => ?_
  rcases le_total (drawAt nucleus params track z skip k s) 0 with h | h
  · rw [max_eq_right h, ENNReal.ofReal_zero]; exact zero_le
  · rw [max_eq_left h]

theorem electrons_state (hr : FreshGen rng μ u z next skip) {s s' : σ} {primary : List ℤ}
    (h : generate_electrons track nucleus params rng s = .ok (primary, s')) :
    s' = skip^[track.length] s := by
  obtain ⟨hl, states, h0, h1, hd⟩ := C70_draws h
  have hst : ∀ k ≤ track.length, states k = skip^[k] s := by
    intro k
    induction k with
    | zero => intro _; exact h0
    | succ k ih =>
      intro hk
      have hp : primary[k]? = some (primary[k]'(by omega)) := List.getElem?_eq_getElem _
      obtain ⟨x, hx, -⟩ := hd k _ hp
      rw [hr.normal] at hx
      rw [Function.iterate_succ_apply', ← ih (by omega)]
      exact (Prod.mk.inj hx).2.symm
  rw [← hst _ le_rfl]
  first
    | exact h1.symm
    | exact h1

end Verif.Props
