import Verif.Proofs.Counts
import Verif.Proofs.Sequence
import Verif.Proofs.Sampling
import Verif.Props.Ionisation
import Verif.Props.Isotropy

/-! # C100: the distribution of the number of electrons -/

namespace Verif.Props

open MeasureTheory ProbabilityTheory Verif.Spec Verif.Detector Verif.Kinematics

variable {σ : Type} [MeasurableSpace σ] {μ : Measure σ} [IsProbabilityMeasure μ]
  {rng : Gen σ} {u z : σ → ℝ} {next skip : σ → σ}
  {track : List Row} {nucleus : Nucleus} {params : DetectorParams}

/-- An ideal generator of uniform and normal numbers, all independent. -/
structure IdealGen (rng : Gen σ) (μ : Measure σ) (u z : σ → ℝ) (next skip : σ → σ) : Prop where
  fresh : FreshGen rng μ u z next skip
  standard : μ.map z = gaussianReal 0 1

/-- From every state of the generator, `generate_electrons` returns the numbers `N 0 s`, `N 1 s`, … of
electrons at the track points. -/
def ElectronsAre (rng : Gen σ) (track : List Row) (nucleus : Nucleus) (params : DetectorParams)
    (N : ℕ → σ → ℤ) : Prop :=
  ∀ s, ∃ s', generate_electrons track nucleus params rng s
    = .ok ((List.range track.length).map fun k => N k s, s')

omit [MeasurableSpace σ] in
theorem means_nonneg (hW : 0 < params.w_value) (k : ℕ) : 0 ≤ meanAt nucleus params.w_value track k := by
  unfold meanAt
  rcases k with _ | k
  · exact le_rfl
  · simp only
    split
    · unfold meanElectrons
      positivity
    · exact le_rfl

/-- The normal number drawn at track point `k`. -/
noncomputable def drawAt (nucleus : Nucleus) (params : DetectorParams) (track : List Row) (z : σ → ℝ)
    (skip : σ → σ) (k : ℕ) (s : σ) : ℝ :=
  meanAt nucleus params.w_value track k
    + √(params.fano_factor * meanAt nucleus params.w_value track k) * z (skip^[k] s)

theorem electrons_eq (hr : FreshGen rng μ u z next skip) {s s' : σ} {primary : List ℤ}
    (h : generate_electrons track nucleus params rng s = .ok (primary, s')) :
    primary = (List.range track.length).map fun k => pyInt (drawAt nucleus params track z skip k s) := by
  obtain ⟨hl, states, h0, -, hd⟩ := C70_draws h
  have hst : ∀ k ≤ track.length, states k = skip^[k] s := by
    intro k
    induction k with
    | zero => intro _; exact h0
    | succ k ih =>
      intro hk
      have hp : primary[k]? = some (primary[k]'(by omega)) := List.getElem?_eq_getElem _
      obtain ⟨x, hx, -⟩ := hd k _ hp
      rw [hr.normal] at hx
      rw [Function.iterate_succ_apply', ← ih (by omega)]
      exact (Prod.mk.inj hx).2.symm
  apply List.ext_getElem (by simp [hl])
  intro k hk1 hk2
  obtain ⟨x, hx, hv⟩ := hd k _ (List.getElem?_eq_getElem hk1)
  rw [hv, List.getElem_map, List.getElem_range]
  congr 1
  rw [hr.normal, hst k (by omega)] at hx
  exact (Prod.mk.inj hx).1.symm

omit [MeasurableSpace σ] in
theorem electrons_ok (rng : Gen σ) (hW : 0 < params.w_value) (hF : 0 ≤ params.fano_factor)
    (hmov : track.length ≤ 1 ∨ ∀ r ∈ track, Moving r) (s : σ) :
    ∃ r, generate_electrons track nucleus params rng s = .ok r :=
  (C70_succeeds rng track nucleus params s).2
    ⟨hW.ne', hmov, fun k => mul_nonneg hF (means_nonneg hW k)⟩

theorem electronsAre_eq (hr : FreshGen rng μ u z next skip) {N : ℕ → σ → ℤ}
    (hN : ElectronsAre rng track nucleus params N) {k : ℕ} (hk : k < track.length) :
    N k = fun s => pyInt (drawAt nucleus params track z skip k s) := by
  funext s
  obtain ⟨s', h⟩ := hN s
  have h1 := electrons_eq hr h
  have := congrArg (·[k]?) h1
  simpa [hk] using this

theorem measurable_drawAt (hr : FreshGen rng μ u z next skip) (k : ℕ) :
    Measurable (drawAt nucleus params track z skip k) :=
  ((measurable_iterate hr.fresh_normal k).const_mul _).const_add _

theorem drawAt_law (hr : IdealGen rng μ u z next skip) (hW : 0 < params.w_value)
    (hF : 0 ≤ params.fano_factor) (k : ℕ) :
    μ.map (drawAt nucleus params track z skip k)
      = gaussianReal (meanAt nucleus params.w_value track k)
          (params.fano_factor * meanAt nucleus params.w_value track k).toNNReal := by
  set m := meanAt nucleus params.w_value track k with hm
  have hmn : 0 ≤ m := means_nonneg hW k
  have h1 : μ.map (fun s => z (skip^[k] s)) = gaussianReal 0 1 := by
    rw [← hr.standard]
    ext B hB
    rw [Measure.map_apply (measurable_iterate hr.fresh.fresh_normal k) hB,
      Measure.map_apply hr.fresh.fresh_normal.value hB]
    exact fresh_iterate_law hr.fresh.fresh_normal k hB
  have h2 : drawAt nucleus params track z skip k
      = (fun y => m + y) ∘ (fun x => √(params.fano_factor * m) * x) ∘ fun s => z (skip^[k] s) := rfl
  rw [h2, ← Measure.map_map (by fun_prop)
      ((measurable_const_mul _).comp (measurable_iterate hr.fresh.fresh_normal k)),
    ← Measure.map_map (by fun_prop) (measurable_iterate hr.fresh.fresh_normal k), h1,
    gaussianReal_map_const_mul, gaussianReal_map_const_add]
  congr 1
  · ring
  · ext
    simp only [mul_one, Real.coe_toNNReal _ (mul_nonneg hF hmn)]
    exact Real.sq_sqrt (mul_nonneg hF hmn)

/-- **C100.** With an ideal generator, the numbers of electrons at the points of a track are independent,
and the number at point `k` is a normal number with mean `m = |ΔE| / W` and variance `F m`, cut to an
integer. -/
theorem C100_law (hr : IdealGen rng μ u z next skip) (hW : 0 < params.w_value)
    (hF : 0 ≤ params.fano_factor) (hmov : track.length ≤ 1 ∨ ∀ r ∈ track, Moving r) :
    (∃ N, ElectronsAre rng track nucleus params N) ∧
    ∀ N, ElectronsAre rng track nucleus params N →
      iIndepFun (fun k : Fin track.length => N k) μ ∧
      ∀ k, k < track.length → Measurable (N k) ∧
        μ.map (N k) = (gaussianReal (meanAt nucleus params.w_value track k)
          (params.fano_factor * meanAt nucleus params.w_value track k).toNNReal).map pyInt := by
  refine ⟨⟨fun k s => pyInt (drawAt nucleus params track z skip k s), fun s => ?_⟩, fun N hN => ⟨?_, ?_⟩⟩
  · obtain ⟨⟨primary, s'⟩, h⟩ := electrons_ok (nucleus := nucleus) rng hW hF hmov s
    refine ⟨s', ?_⟩
    rw [h, electrons_eq hr.fresh h]
  · have h1 : (fun k : Fin track.length => N k)
        = fun k : Fin track.length => (fun x => pyInt (meanAt nucleus params.w_value track k
          + √(params.fano_factor * meanAt nucleus params.w_value track k) * x)) ∘
            (fun s => z (skip^[k] s)) := by
      funext k
      exact electronsAre_eq hr.fresh hN k.2
    rw [h1]
    refine iIndepFun.comp ?_ _ fun k => measurable_pyInt.comp (by fun_prop)
    exact (fresh_indep hr.fresh.fresh_normal).precomp Fin.val_injective
  · intro k hk
    rw [electronsAre_eq hr.fresh hN hk]
    refine ⟨measurable_pyInt.comp (measurable_drawAt hr.fresh k), ?_⟩
    rw [← drawAt_law hr hW hF, Measure.map_map measurable_pyInt (measurable_drawAt hr.fresh k)]
    rfl

theorem drawAt_moments (hr : IdealGen rng μ u z next skip) (hW : 0 < params.w_value)
    (hF : 0 ≤ params.fano_factor) (k : ℕ) :
    MemLp (drawAt nucleus params track z skip k) 2 μ ∧
    ∫ s, drawAt nucleus params track z skip k s ∂μ = meanAt nucleus params.w_value track k ∧
    Var[drawAt nucleus params track z skip k; μ]
      = params.fano_factor * meanAt nucleus params.w_value track k ∧
    ∫ s, cut (drawAt nucleus params track z skip k s) ∂μ
      = ∫ x, cut x ∂gaussianReal (meanAt nucleus params.w_value track k)
          (params.fano_factor * meanAt nucleus params.w_value track k).toNNReal := by
  have hm := measurable_drawAt (track := track) (nucleus := nucleus) (params := params) hr.fresh k
  have hl := drawAt_law (track := track) (nucleus := nucleus) hr hW hF k
  refine ⟨?_, ?_, ?_, ?_⟩
  · have := memLp_id_gaussianReal (μ := meanAt nucleus params.w_value track k)
      (v := (params.fano_factor * meanAt nucleus params.w_value track k).toNNReal) 2
    rw [← hl] at this
    exact (memLp_map_measure_iff measurable_id.aestronglyMeasurable hm.aemeasurable).1 this
  · have := integral_id_gaussianReal (μ := meanAt nucleus params.w_value track k)
      (v := (params.fano_factor * meanAt nucleus params.w_value track k).toNNReal)
    rw [← hl] at this
    rw [← this]
    exact (integral_map hm.aemeasurable measurable_id.aestronglyMeasurable).symm
  · have := variance_id_gaussianReal (μ := meanAt nucleus params.w_value track k)
      (v := (params.fano_factor * meanAt nucleus params.w_value track k).toNNReal)
    rw [← hl, variance_map measurable_id.aemeasurable hm.aemeasurable,
      Real.coe_toNNReal _ (mul_nonneg hF (means_nonneg hW k))] at this
    exact this
  · rw [← hl, integral_map hm.aemeasurable measurable_cut.aestronglyMeasurable]

/-- C100, the part that holds for one track point: the expected number of electrons is at most the mean
`m` and less than it by at most one; the standard deviation is `√(F m)` up to one electron. -/
theorem C100_point_partial (hr : IdealGen rng μ u z next skip) (hW : 0 < params.w_value)
    (hF : 0 ≤ params.fano_factor) {N : ℕ → σ → ℤ} (hN : ElectronsAre rng track nucleus params N)
    {k : ℕ} (hk : k < track.length) :
    MemLp (fun s => (N k s : ℝ)) 2 μ ∧
    ∫ s, (N k s : ℝ) ∂μ ≤ meanAt nucleus params.w_value track k ∧
    meanAt nucleus params.w_value track k - 1 ≤ ∫ s, (N k s : ℝ) ∂μ ∧
    |√(Var[fun s => (N k s : ℝ); μ]) - √(params.fano_factor * meanAt nucleus params.w_value track k)| ≤ 1 := by
  obtain ⟨h1, h2, h3, h4⟩ := drawAt_moments (track := track) (nucleus := nucleus) hr hW hF k
  obtain ⟨t1, t2, t3, t4⟩ := trunc_moments (measurable_drawAt hr.fresh k) h1
  rw [electronsAre_eq hr.fresh hN hk]
  have hc := integral_cut_nonneg (means_nonneg (track := track) (nucleus := nucleus) hW k)
    (params.fano_factor * meanAt nucleus params.w_value track k).toNNReal
  rw [← h4] at hc
  refine ⟨t1, ?_, ?_, ?_⟩
  · rw [t2, h2]; linarith
  · rw [h2] at t3
    have := (abs_le.1 t3).1
    linarith
  · rw [h3] at t4
    exact t4

/-- C100, the part that holds for the track: the expected total number of electrons is at most the total
of the means, and less by at most one per point; its variance is the sum of those of the points. -/
theorem C100_track_partial (hr : IdealGen rng μ u z next skip) (hW : 0 < params.w_value)
    (hF : 0 ≤ params.fano_factor) (hmov : track.length ≤ 1 ∨ ∀ r ∈ track, Moving r)
    {N : ℕ → σ → ℤ} (hN : ElectronsAre rng track nucleus params N) :
    (∫ s, ∑ k : Fin track.length, (N k s : ℝ) ∂μ
        ≤ ∑ k : Fin track.length, meanAt nucleus params.w_value track k) ∧
    ((∑ k : Fin track.length, meanAt nucleus params.w_value track k) - track.length
        ≤ ∫ s, ∑ k : Fin track.length, (N k s : ℝ) ∂μ) ∧
    Var[fun s => ∑ k : Fin track.length, (N k s : ℝ); μ]
      = ∑ k : Fin track.length, Var[fun s => (N k s : ℝ); μ] := by
  have hp := fun k : Fin track.length => C100_point_partial hr hW hF hN k.2
  have hint : ∫ s, ∑ k : Fin track.length, (N k s : ℝ) ∂μ
      = ∑ k : Fin track.length, ∫ s, (N k s : ℝ) ∂μ :=
    integral_finsetSum _ fun k _ => (hp k).1.integrable (by norm_num)
  rw [hint]
  refine ⟨Finset.sum_le_sum fun k _ => (hp k).2.1, ?_, ?_⟩
  · calc (∑ k : Fin track.length, meanAt nucleus params.w_value track k) - track.length
        = ∑ k : Fin track.length, (meanAt nucleus params.w_value track k - 1) := by simp
      _ ≤ _ := Finset.sum_le_sum fun k _ => (hp k).2.2.1
  · have hi := ((C100_law (nucleus := nucleus) hr hW hF hmov).2 N hN).1
    have := IndepFun.variance_sum (μ := μ) (X := fun k : Fin track.length => fun s => (N k s : ℝ))
      (s := Finset.univ) (fun k _ => (hp k).1) (fun i _ j _ hij => (hi.indepFun hij).comp
        (measurable_from_top (f := fun n : ℤ => (n : ℝ))) (measurable_from_top (f := fun n : ℤ => (n : ℝ))))
    have e : (∑ k : Fin track.length, fun s => (N k s : ℝ)) = fun s => ∑ k : Fin track.length, (N k s : ℝ) := by
      funext s
      simp
    rwa [e] at this

/-- C100 as stated is false: whenever there are fluctuations, the expected number of electrons is below
the energy lost divided by W, at every track point at which energy is lost. -/
theorem C100_refuted (hr : IdealGen rng μ u z next skip) (hW : 0 < params.w_value)
    (hF : 0 < params.fano_factor) {N : ℕ → σ → ℤ} (hN : ElectronsAre rng track nucleus params N)
    {k : ℕ} (hk : k < track.length) (hm : 0 < meanAt nucleus params.w_value track k) :
    ∫ s, (N k s : ℝ) ∂μ < meanAt nucleus params.w_value track k := by
  obtain ⟨h1, h2, h3, h4⟩ := drawAt_moments (track := track) (nucleus := nucleus) hr hW hF.le k
  obtain ⟨t1, t2, t3, t4⟩ := trunc_moments (measurable_drawAt hr.fresh k) h1
  rw [electronsAre_eq hr.fresh hN hk, t2, h2, h4]
  have := integral_cut_pos hm (v := (params.fano_factor * meanAt nucleus params.w_value track k).toNNReal)
    (by
      intro h0
      have := Real.toNNReal_eq_zero.1 h0
      have := mul_pos hF hm
      linarith)
  linarith

/-! ## An ideal generator -/

/-- The generator that reads a sequence of pairs of a normal and a uniform number. -/
noncomputable def pairGen : Gen (ℕ → ℝ × Set.Ico (0 : ℝ) 1) :=
  { normal := fun m sd s => (m + sd * (s 0).1, dropFirst s),
    uniform := fun a b s => (a + (b - a) * (s 0).2, dropFirst s) }

/-- The distribution of the sequences. -/
noncomputable def pairMeasure : Measure (ℕ → ℝ × Set.Ico (0 : ℝ) 1) :=
  Measure.infinitePi fun _ => (gaussianReal 0 1).prod unitMeasure

instance : IsProbabilityMeasure pairMeasure := by unfold pairMeasure; infer_instance

theorem pairGen_ideal : IdealGen pairGen pairMeasure (fun s => ((s 0).2 : ℝ)) (fun s => (s 0).1)
    dropFirst dropFirst where
  fresh :=
    { uniform := fun _ _ _ => rfl
      range := fun s => (s 0).2.2
      normal := fun _ _ _ => rfl
      fresh_uniform := Fresh.map (sequence_fresh ((gaussianReal 0 1).prod unitMeasure))
        (measurable_subtype_coe.comp measurable_snd)
      fresh_normal := Fresh.map (sequence_fresh ((gaussianReal 0 1).prod unitMeasure)) measurable_fst }
  standard := by
    have h1 : pairMeasure.map (fun s => s 0) = (gaussianReal 0 1).prod unitMeasure := by
      unfold pairMeasure
      exact Measure.infinitePi_map_eval _ 0
    have h2 : (fun s : ℕ → ℝ × Set.Ico (0 : ℝ) 1 => (s 0).1) = Prod.fst ∘ fun s => s 0 := rfl
    rw [h2, ← Measure.map_map measurable_fst (measurable_pi_apply 0), h1]
    simp

theorem exMean : meanAt exNucleus 1.0e6 [exTrack0, exTrack1] 1 = 1 := by
  have h := exTrack_energy
  simp only [List.map_cons, List.map_nil, List.cons.injEq, and_true] at h
  have h0 := track_energy_eq exNucleus exTrack0 (by rw [exTrack0_gv]; norm_num)
  have h1 := track_energy_eq exNucleus exTrack1 (by rw [exTrack1_gv]; norm_num)
  rw [h.1, Option.some.injEq] at h0
  rw [h.2, Option.some.injEq] at h1
  rw [meanAt_succ (a := exTrack0) (b := exTrack1) rfl rfl]
  unfold meanElectrons
  rw [← h0, ← h1]
  norm_num

theorem exMoving : ∀ r ∈ [exTrack0, exTrack1], Moving r := by
  intro r hr
  simp only [List.mem_cons, List.not_mem_nil, or_false] at hr
  rcases hr with rfl | rfl <;> norm_num [Moving, exTrack0, exTrack1]

/-- Example: two track points between which an energy of 1 MeV is lost, with W = 1 MeV and F = 0.2. One
electron is expected, and fewer than one are found on average. -/
example : ∃ N, ElectronsAre pairGen [exTrack0, exTrack1] exNucleus
      { exDet 100 0 with fano_factor := 0.2 } N ∧ ∫ s, (N 1 s : ℝ) ∂pairMeasure < 1 := by
  have hW : (0 : ℝ) < { exDet 100 0 with fano_factor := 0.2 }.w_value := by norm_num [exDet]
  have hF : (0 : ℝ) < { exDet 100 0 with fano_factor := 0.2 }.fano_factor := by norm_num
  obtain ⟨N, hN⟩ := (C100_law (nucleus := exNucleus) pairGen_ideal hW hF.le (.inr exMoving)).1
  refine ⟨N, hN, ?_⟩
  have hm : meanAt exNucleus { exDet 100 0 with fano_factor := 0.2 }.w_value [exTrack0, exTrack1] 1 = 1 :=
    exMean
  have := C100_refuted pairGen_ideal hW hF hN (k := 1) (by simp) (by rw [hm]; norm_num)
  rwa [hm] at this

end Verif.Props
