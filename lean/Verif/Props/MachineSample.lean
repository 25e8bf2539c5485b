import Verif.Machine.Sample
import Verif.Props.MachineUniform
import Verif.Props.MachineRun
import Mathlib.Analysis.Real.Pi.Bounds

/-! # C144: the samples of the reaction pipeline in machine arithmetic -/

namespace Verif.Machine

open Verif.Kinematics Verif.Spec Verif.Props
open Verif.Detector (read_event)

variable {σ : Type}

/-! ## Uniform and normal numbers -/

/-- `np.pi` lies just below π. -/
theorem pi64 {rn : ℝ → ℝ} (h : Rounding rn) : rn Real.pi = 7074237752028440 * (2 : ℝ) ^ (-51 : ℤ) := by
  have := h.nearest (x := Real.pi) (m := 7074237752028440) (e := -51) (by norm_num) (by norm_num) (by norm_num)
    (by norm_num) (by
      have h1 := Real.pi_gt_d20
      have h2 := Real.pi_lt_d20
      rw [abs_lt]
      constructor <;> norm_num at h1 h2 ⊢ <;> linarith)
  exact_mod_cast this

/-- `2.0 * np.pi` and `np.pi * 2.0` are exact, and lie just below 2π. -/
theorem two_pi64 {rn : ℝ → ℝ} (h : Rounding rn) : rn (2 * rn Real.pi) = 7074237752028440 * (2 : ℝ) ^ (-50 : ℤ) ∧
    rn (rn Real.pi * 2) = 7074237752028440 * (2 : ℝ) ^ (-50 : ℤ) ∧
    7074237752028440 * (2 : ℝ) ^ (-50 : ℤ) ∈ Binary64 ∧ 7074237752028440 * (2 : ℝ) ^ (-50 : ℤ) < 2 * Real.pi ∧
    2 * Real.pi ≤ 7074237752028440 * (2 : ℝ) ^ (-50 : ℤ) + 2.5e-16 := by
  have hm : 7074237752028440 * (2 : ℝ) ^ (-50 : ℤ) ∈ Binary64 :=
    mem_of_eq 7074237752028440 (-50) (by norm_num) (by norm_num) (by norm_num) (by norm_num)
  have h1 := Real.pi_gt_d20
  have h2 := Real.pi_lt_d20
  have e : 2 * (7074237752028440 * (2 : ℝ) ^ (-51 : ℤ)) = 7074237752028440 * (2 : ℝ) ^ (-50 : ℤ) := by norm_num
  refine ⟨?_, ?_, hm, ?_, ?_⟩
  · rw [pi64 h, e, h.exact hm]
  · rw [pi64 h, mul_comm, e, h.exact hm]
  · norm_num at h1 ⊢
    linarith
  · norm_num at h2 ⊢
    linarith

/-- An azimuthal angle in float64 lies in `[0, 2π)`, and near the exact angle for the same random number. -/
theorem azimuth64 {rn : ℝ → ℝ} (h : Rounding rn) {next : σ → ℝ × σ} (hr : RawOk next) (s : σ) :
    (0 ≤ (uniform64 rn next 0 (7074237752028440 * (2 : ℝ) ^ (-50 : ℤ)) s).1 ∧
      (uniform64 rn next 0 (7074237752028440 * (2 : ℝ) ^ (-50 : ℤ)) s).1 < 2 * Real.pi) ∧
    |(uniform64 rn next 0 (7074237752028440 * (2 : ℝ) ^ (-50 : ℤ)) s).1 - 2 * Real.pi * (next s).1| ≤ 1.1e-15 := by
  obtain ⟨-, -, hm, h1, h2⟩ := two_pi64 h
  have hb : (2 : ℝ) ^ (-1021 : ℤ) ≤ 7074237752028440 * (2 : ℝ) ^ (-50 : ℤ) := by
    have : (2 : ℝ) ^ (-1021 : ℤ) ≤ (2 : ℝ) ^ (-50 : ℤ) := zpow_le_zpow_right₀ (by norm_num) (by norm_num)
    have h50 : (0 : ℝ) < (2 : ℝ) ^ (-50 : ℤ) := by positivity
    linarith
  obtain ⟨i1, i2⟩ := C135_open h hr hm hb s
  refine ⟨⟨i1, i2.trans h1⟩, ?_⟩
  have hu := hr.range s
  have hu1 : (next s).1 ≤ 1 := (hr.lt s).le
  unfold uniform64
  simp only [sub_zero, zero_add]
  rw [h.exact hm, h.exact (h _).1]
  generalize (7074237752028440 : ℝ) * (2 : ℝ) ^ (-50 : ℤ) = H at *
  generalize (next s).1 = u at *
  have hp4 := Real.pi_le_four
  have hp3 := Real.pi_gt_three
  have hd : |H * u - 2 * Real.pi * u| ≤ 2.5e-16 := by
    rw [← sub_mul, abs_mul, abs_of_nonneg hu.1, abs_of_nonpos (by linarith)]
    have : -(H - 2 * Real.pi) * u ≤ (2.5e-16) * 1 :=
      mul_le_mul (by linarith) hu1 hu.1 (by norm_num)
    linarith
  have hX : |2 * Real.pi * u| ≤ 6.3 := by
    rw [abs_of_nonneg (mul_nonneg (by positivity) hu.1)]
    have h3 := Real.pi_lt_d2
    have : 2 * Real.pi * u ≤ 2 * Real.pi * 1 := mul_le_mul_of_nonneg_left hu1 (by positivity)
    norm_num at h3 ⊢
    linarith
  have := h.absolute hd (hX.trans (by norm_num)) (by norm_num)
  norm_num at this hX ⊢
  linarith

/-- `rng.uniform` in float64 is near the exact number. -/
theorem uniform_near {rn : ℝ → ℝ} (h : Rounding rn) {next : σ → ℝ × σ} (hr : RawOk next) {low high B : ℝ}
    (hl : |low| ≤ B) (hh : |high| ≤ B) (hB : B ≤ 1e19) (s : σ) :
    |(uniform64 rn next low high s).1 - (low + (high - low) * (next s).1)| ≤ 1e-15 * B + 1e-58 := by
  have hu := hr.range s
  have hu1 : (next s).1 ≤ 1 := (hr.lt s).le
  unfold uniform64
  simp only
  generalize (next s).1 = u at *
  have hB0 : 0 ≤ B := (abs_nonneg _).trans hl
  obtain ⟨l1, l2⟩ := abs_le.1 hl
  obtain ⟨k1, k2⟩ := abs_le.1 hh
  have hw : |high - low| ≤ 2 * B := abs_le.2 ⟨by linarith, by linarith⟩
  have hwu : |(high - low) * u| ≤ 2 * B := by
    rw [abs_mul, abs_of_nonneg hu.1]
    exact (mul_le_of_le_one_right (abs_nonneg _) hu1).trans hw
  have e1 := h.absolute (x := high - low) (X := high - low) (d := 0) (by simp) (hw.trans (by norm_num at *; linarith))
    (by norm_num)
  have e2 : |rn (high - low) * u - (high - low) * u| ≤ 2.24e-16 * B + 1e-60 := by
    rw [← sub_mul, abs_mul, abs_of_nonneg hu.1]
    refine (mul_le_of_le_one_right (abs_nonneg _) hu1).trans ?_
    norm_num at e1 hw ⊢
    linarith
  have e3 := h.absolute e2 (hwu.trans (by norm_num at *; linarith)) (by norm_num at *; linarith)
  have e4 : |low + rn (rn (high - low) * u) - (low + (high - low) * u)| ≤ 4.6e-16 * B + 3e-60 := by
    rw [add_sub_add_left_eq_sub]
    norm_num at e3 hwu ⊢
    linarith
  have hv : |low + (high - low) * u| ≤ B := by
    have : low + (high - low) * u = low * (1 - u) + high * u := by ring
    rw [this, abs_le]
    constructor <;> nlinarith [hu.1]
  have e5 := h.absolute e4 (hv.trans (by norm_num at *; linarith)) (by norm_num at *; linarith)
  norm_num at e5 hv ⊢
  linarith

/-- `rng.normal` in float64 is near the exact number. -/
theorem normal_near {rn : ℝ → ℝ} (h : Rounding rn) (gauss : σ → ℝ × σ) {loc scale : ℝ} (s : σ)
    (hl : |loc| ≤ 1e19) (hs : |scale * (gauss s).1| ≤ 1e19) :
    |(normal64 rn gauss loc scale s).1 - (loc + scale * (gauss s).1)|
      ≤ 1.12e-16 * |loc| + 2.3e-16 * |scale * (gauss s).1| + 1e-59 := by
  unfold normal64
  simp only
  generalize scale * (gauss s).1 = x at *
  have e1 := h.absolute (x := x) (X := x) (d := 0) (by simp) (hs.trans (by norm_num)) (by norm_num)
  have e2 : |loc + rn x - (loc + x)| ≤ 1.12e-16 * |x| + 1e-60 := by
    rw [add_sub_add_left_eq_sub]
    norm_num at e1 ⊢
    linarith
  have hx := abs_add_le loc x
  have e3 := h.absolute e2 (by norm_num at *; linarith) (by norm_num at *; linarith)
  norm_num at e3 hx ⊢
  linarith [abs_nonneg x, abs_nonneg loc]

/-! ## Vertex and angles -/

/-- The transverse position for a distance `R` from the beam axis: within `1e-14 R` of exact arithmetic. -/
theorem position_near {k : Kin64} (hk : k.Accurate) {n g th Th : ℝ} (hn : |n - g| ≤ 1.2e-16 * |g| + 1e-60)
    (hg : |g| ≤ 1e10) (hth : |th - Th| ≤ 1.1e-15) :
    |k.rn (|n| * k.cos th) - |g| * Real.cos Th| ≤ 1e-14 * |g| + 1e-58 ∧
    |k.rn (|n| * k.sin th) - |g| * Real.sin Th| ≤ 1e-14 * |g| + 1e-58 := by
  have hR : |(|n| - |g|)| ≤ 1.2e-16 * |g| + 1e-60 := (abs_abs_sub_abs_le n g).trans hn
  have key : ∀ c C : ℝ, |c - C| ≤ 2.1e-15 → |C| ≤ 1 → |k.rn (|n| * c) - |g| * C| ≤ 1e-14 * |g| + 1e-58 := by
    intro c C hc hC
    have g0 := abs_nonneg g
    generalize |g| = R at *
    generalize |n| = m at *
    have hc1 : |c| ≤ 1.1 := by
      have := abs_sub_abs_le_abs_sub c C
      norm_num at hc ⊢
      linarith
    have e : m * c - R * C = (m - R) * c + R * (c - C) := by ring
    have d1 : |(m - R) * c| ≤ (1.2e-16 * R + 1e-60) * 1.1 := by
      rw [abs_mul]
      exact mul_le_mul hR hc1 (abs_nonneg _) (by positivity)
    have d2 : |R * (c - C)| ≤ R * 2.1e-15 := by
      rw [abs_mul, abs_of_nonneg g0]
      exact mul_le_mul_of_nonneg_left hc g0
    have d : |m * c - R * C| ≤ 2.3e-15 * R + 2e-60 := by
      rw [e]
      refine (abs_add_le _ _).trans ?_
      norm_num at d1 d2 ⊢
      linarith
    have hX : |R * C| ≤ R := by
      rw [abs_mul, abs_of_nonneg g0]
      exact mul_le_of_le_one_right g0 hC
    have := hk.rounding.absolute d (hX.trans (by norm_num at *; linarith)) (by norm_num at *; linarith)
    generalize R * C = Q at this hX ⊢
    norm_num at this hX ⊢
    linarith
  constructor
  · refine key _ _ ?_ (Real.abs_cos_le_one Th)
    have h1 := hk.cos_near th
    have h2 : |Real.cos th - Real.cos Th| ≤ |th - Th| := by
      rw [← Real.sin_pi_div_two_sub, ← Real.sin_pi_div_two_sub]
      refine (sin_near _ _).trans (le_of_eq ?_)
      rw [← abs_neg]
      ring_nf
    have h3 := abs_sub_le (k.cos th) (Real.cos th) (Real.cos Th)
    norm_num at h1 hth ⊢
    linarith
  · refine key _ _ ?_ (Real.abs_sin_le_one Th)
    have h1 := hk.sin_near th
    have h2 := sin_near th Th
    have h3 := abs_sub_le (k.sin th) (Real.sin th) (Real.sin Th)
    norm_num at h1 hth ⊢
    linarith

/-- A target in the range in which rounding has been bounded. -/
structure TargetOk (t : TargetMaterial) : Prop where
  sigma : 0 ≤ t.rho_sigma ∧ t.rho_sigma ≤ 1e8
  low : t.z_range.1 ∈ Binary64
  high : t.z_range.2 ∈ Binary64
  order : t.z_range.1 ≤ t.z_range.2
  bound : |t.z_range.1| ≤ 1e10 ∧ |t.z_range.2| ≤ 1e10

/-- What a sample is meant to be: the vertex in the gas, within the beam spot; the beam slowed down up to there;
azimuthal angles on the circle, one for each decay. -/
structure InRange (rn : ℝ → ℝ) (p : Pipeline σ) (x : Sample) : Prop where
  phi : 0 ≤ x.reaction_phi ∧ x.reaction_phi < 2 * Real.pi
  phis : x.decay_phis.length = p.decays.length ∧ ∀ f ∈ x.decay_phis, 0 ≤ f ∧ f < 2 * Real.pi
  thin : p.target_material = none → x.vertex = (0, 0, 0) ∧ x.beam_energy = p.beam_energy
  gas : ∀ t, p.target_material = some t →
    (t.z_range.1 ≤ x.vertex.2.2 ∧ x.vertex.2.2 ≤ t.z_range.2) ∧
    Real.sqrt (x.vertex.1 ^ 2 + x.vertex.2.1 ^ 2) ≤ 40 * t.rho_sigma * (1 + 2e-14) + 2e-58 ∧
    x.beam_energy = rn (p.beam_energy - t.material.get_energy_loss p.reaction.projectile p.beam_energy x.vertex.2.2)

/-- Numbers of numpy's generator: `random()` is a multiple of `2^-53` below 1, and the normal numbers lie within 40
standard deviations. -/
structure Raw.Ok (raw : Raw σ) : Prop where
  next : RawOk raw.next
  gauss : ∀ s, |(raw.gauss s).1| ≤ 40

theorem uniformN64_range {rn : ℝ → ℝ} (h : Rounding rn) {next : σ → ℝ × σ} (hr : RawOk next) (n : ℕ) : ∀ s : σ,
    (uniformN64 rn next 0 (7074237752028440 * (2 : ℝ) ^ (-50 : ℤ)) n s).1.length = n ∧
    ∀ f ∈ (uniformN64 rn next 0 (7074237752028440 * (2 : ℝ) ^ (-50 : ℤ)) n s).1, 0 ≤ f ∧ f < 2 * Real.pi := by
  induction n with
  | zero => simp [uniformN64]
  | succ n ih =>
    intro s
    obtain ⟨h1, h2⟩ := ih (uniform64 rn next 0 (7074237752028440 * (2 : ℝ) ^ (-50 : ℤ)) s).2
    refine ⟨by simp only [uniformN64, List.length_cons, h1], fun f hf => ?_⟩
    rcases List.mem_cons.1 hf with rfl | hf
    · exact (azimuth64 h hr s).1
    · exact h2 f hf

/-- The triangle inequality for a position that is off by `d` in each coordinate. -/
theorem radius_le {x y X Y R d : ℝ} (hR : X ^ 2 + Y ^ 2 = R ^ 2) (h0 : 0 ≤ R) (hx : |x - X| ≤ d) (hy : |y - Y| ≤ d) :
    Real.sqrt (x ^ 2 + y ^ 2) ≤ R + 2 * d := by
  have d0 : 0 ≤ d := (abs_nonneg _).trans hx
  obtain ⟨x1, x2⟩ := abs_le.1 hx
  obtain ⟨y1, y2⟩ := abs_le.1 hy
  have hX : |X| ≤ R := abs_le_of_sq_le_sq (by nlinarith [sq_nonneg Y]) h0
  have hY : |Y| ≤ R := abs_le_of_sq_le_sq (by nlinarith [sq_nonneg X]) h0
  obtain ⟨a, ha⟩ : ∃ a, a = x - X := ⟨_, rfl⟩
  obtain ⟨b, hb⟩ : ∃ b, b = y - Y := ⟨_, rfl⟩
  have hxa : x = X + a := by rw [ha]; ring
  have hyb : y = Y + b := by rw [hb]; ring
  rw [← ha] at hx
  rw [← hb] at hy
  refine Real.sqrt_le_iff.2 ⟨by positivity, ?_⟩
  have m1 : X * a ≤ R * d := (le_abs_self _).trans (by rw [abs_mul]; exact mul_le_mul hX hx (abs_nonneg _) h0)
  have m2 : Y * b ≤ R * d := (le_abs_self _).trans (by rw [abs_mul]; exact mul_le_mul hY hy (abs_nonneg _) h0)
  have m3 : a ^ 2 ≤ d ^ 2 := sq_le_sq' (by linarith) (by linarith)
  have m4 : b ^ 2 ≤ d ^ 2 := sq_le_sq' (by linarith) (by linarith)
  have e : (X + a) ^ 2 + (Y + b) ^ 2 = R ^ 2 + 2 * (X * a) + 2 * (Y * b) + a ^ 2 + b ^ 2 := by rw [← hR]; ring
  rw [hxa, hyb, e]
  nlinarith

/-- The vertex in float64. -/
theorem vertex64 {k : Kin64} (hk : k.Accurate) {raw : Raw σ} (hr : raw.Ok) {p : Pipeline σ}
    {t : TargetMaterial} (ht : p.target_material = some t) (hok : TargetOk t) (s : σ) :
    ∃ x y z s', sample_vertex64 k raw p s
      = .ok ((k.rn (p.beam_energy - t.material.get_energy_loss p.reaction.projectile p.beam_energy z), (x, y, z)), s') ∧
      t.z_range.1 ≤ z ∧ z ≤ t.z_range.2 ∧
      ∃ g u v s1 s2, raw.gauss s = (g, s1) ∧ raw.next s1 = (u, s2) ∧ raw.next s2 = (v, s') ∧
        |x - |t.rho_sigma * g| * Real.cos (2 * Real.pi * u)| ≤ 1e-14 * |t.rho_sigma * g| + 1e-58 ∧
        |y - |t.rho_sigma * g| * Real.sin (2 * Real.pi * u)| ≤ 1e-14 * |t.rho_sigma * g| + 1e-58 ∧
        |z - (t.z_range.1 + (t.z_range.2 - t.z_range.1) * v)| ≤ 1e-15 * max |t.z_range.1| |t.z_range.2| + 1e-58 := by
  have h := hk.rounding
  obtain ⟨e1, -, -, -, -⟩ := two_pi64 h
  rcases hg : raw.gauss s with ⟨g, s1⟩
  rcases hu : raw.next s1 with ⟨u, s2⟩
  rcases hv : raw.next s2 with ⟨v, s3⟩
  have hg40 := hr.gauss s
  have hσ : |t.rho_sigma * g| ≤ 1e10 := by
    rw [hg] at hg40
    rw [abs_mul, abs_of_nonneg hok.sigma.1]
    refine (mul_le_mul hok.sigma.2 hg40 (abs_nonneg _) (by norm_num)).trans (by norm_num)
  have hn : |(normal64 k.rn raw.gauss 0 t.rho_sigma s).1 - t.rho_sigma * g| ≤ 1.2e-16 * |t.rho_sigma * g| + 1e-60 := by
    unfold normal64
    simp only [hg, zero_add]
    rw [h.exact (h _).1]
    have := h.absolute (x := t.rho_sigma * g) (X := t.rho_sigma * g) (d := 0) (by simp) (hσ.trans (by norm_num))
      (by norm_num)
    norm_num at this ⊢
    linarith [mul_nonneg (abs_nonneg t.rho_sigma) (abs_nonneg g)]
  have hth := (azimuth64 h hr.next s1).2
  rw [hu] at hth
  obtain ⟨p1, p2⟩ := position_near hk hn hσ hth
  have hz := C135_closed h hr.next hok.low hok.high hok.order s2
  have hzn := uniform_near h hr.next (B := max |t.z_range.1| |t.z_range.2|) (le_max_left _ _) (le_max_right _ _)
    (max_le (hok.bound.1.trans (by norm_num)) (hok.bound.2.trans (by norm_num))) s2
  rw [hv] at hzn
  refine ⟨_, _, _, s3, ?_, hz.1, hz.2, g, u, v, s1, s2, rfl, hu, hv, p1, p2, hzn⟩
  have a1 : (normal64 k.rn raw.gauss 0 t.rho_sigma s).2 = s1 := by simp [normal64, hg]
  have a2 : (uniform64 k.rn raw.next 0 (7074237752028440 * (2 : ℝ) ^ (-50 : ℤ)) s1).2 = s2 := by simp [uniform64, hu]
  have a3 : (uniform64 k.rn raw.next t.z_range.1 t.z_range.2 s2).2 = s3 := by simp [uniform64, hv]
  unfold sample_vertex64
  simp only [ht, e1]
  rw [if_neg (not_lt.2 hok.sigma.1), if_neg (not_lt.2 hok.order)]
  simp only [a1, a2, a3]

/-- The parts of a sample. -/
theorem sample64_parts {k : Kin64} {raw : Raw σ} {p : Pipeline σ} {s s' : σ} {x : Sample}
    (hx : sample64 k raw p s = .ok (x, s')) :
    ∃ s1 s2 s3, sample_vertex64 k raw p s = .ok ((x.beam_energy, x.vertex), s1) ∧
      x.reaction_phi = (uniform64 k.rn raw.next 0 (k.rn (k.rn Real.pi * 2)) s2).1 ∧
      x.decay_phis = (uniformN64 k.rn raw.next 0 (k.rn (k.rn Real.pi * 2)) p.decays.length s3).1 := by
  unfold sample64 at hx
  simp only [bind, Except.bind, pure, Except.pure] at hx
  rcases h1 : sample_vertex64 k raw p s with e | ⟨⟨E, V⟩, s1⟩
  · simp [h1] at hx
  rw [h1] at hx
  simp only at hx
  rcases h2 : sampleHead p.excitations s1 with e | ⟨ex, s2⟩
  · simp [h2] at hx
  rw [h2] at hx
  simp only at hx
  rcases h3 : sampleHead p.polar_dists s2 with e | ⟨th, s3⟩
  · simp [h3] at hx
  rw [h3] at hx
  simp only at hx
  split at hx
  · cases hx
  · split at hx
    · cases hx
    · simp only [Except.ok.injEq, Prod.mk.injEq] at hx
      obtain ⟨rfl, -⟩ := hx
      exact ⟨s1, s3, _, rfl, rfl, rfl⟩

/-- **C144.** A sample in float64 is in range: whatever the random numbers, the vertex lies between the ends of the gas
and within 40 standard deviations from the beam axis, and the azimuthal angles lie in `[0, 2π)`. -/
theorem C144_range {k : Kin64} (hk : k.Accurate) {raw : Raw σ} (hr : raw.Ok) {p : Pipeline σ}
    (hok : ∀ t, p.target_material = some t → TargetOk t) {s s' : σ} {x : Sample}
    (hx : sample64 k raw p s = .ok (x, s')) : InRange k.rn p x := by
  have h := hk.rounding
  obtain ⟨s1, s2, s3, h1, h2, h3⟩ := sample64_parts hx
  obtain ⟨-, e2, -, -, -⟩ := two_pi64 h
  rw [e2] at h2 h3
  refine ⟨h2 ▸ (azimuth64 h hr.next s2).1, h3 ▸ uniformN64_range h hr.next _ s3, fun ht => ?_, fun t ht => ?_⟩
  · unfold sample_vertex64 at h1
    simp only [ht, Except.ok.injEq, Prod.mk.injEq] at h1
    exact ⟨h1.1.2.symm, h1.1.1.symm⟩
  · obtain ⟨X, Y, Z, s4, g1, g2, g3, g, u, v, s5, s6, g4, -, -, g5, g6, -⟩ := vertex64 hk hr ht (hok t ht) s
    rw [g1] at h1
    simp only [Except.ok.injEq, Prod.mk.injEq] at h1
    obtain ⟨⟨hE, hV⟩, -⟩ := h1
    rw [← hV, ← hE]
    refine ⟨⟨g2, g3⟩, ?_, rfl⟩
    have hσ := (hok t ht).sigma.1
    have hg := hr.gauss s
    rw [g4] at hg
    have hR : |t.rho_sigma * g| ≤ 40 * t.rho_sigma := by
      rw [abs_mul, abs_of_nonneg hσ, mul_comm]
      exact mul_le_mul_of_nonneg_right hg hσ
    have := radius_le (R := |t.rho_sigma * g|) (by
      rw [mul_pow, mul_pow, ← mul_add, Real.cos_sq_add_sin_sq, mul_one]) (abs_nonneg _) g5 g6
    generalize |t.rho_sigma * g| = R at this hR
    norm_num at this ⊢
    linarith

/-- **C144.** A beam that does not stop before the vertex has an energy from 0 to its initial energy. -/
theorem C144_energy {k : Kin64} (hk : k.Accurate) {raw : Raw σ} (hr : raw.Ok) {p : Pipeline σ} {t : TargetMaterial}
    (ht : p.target_material = some t) (hok : TargetOk t) (hE : p.beam_energy ∈ Binary64)
    (hloss : ∀ z, t.z_range.1 ≤ z → z ≤ t.z_range.2 →
      0 ≤ t.material.get_energy_loss p.reaction.projectile p.beam_energy z ∧
      t.material.get_energy_loss p.reaction.projectile p.beam_energy z ≤ p.beam_energy) {s s' : σ} {x : Sample}
    (hx : sample64 k raw p s = .ok (x, s')) : 0 ≤ x.beam_energy ∧ x.beam_energy ≤ p.beam_energy := by
  obtain ⟨⟨h1, h2⟩, -, h3⟩ := (C144_range hk hr (fun t' ht' => by
    rw [ht] at ht'
    cases ht'
    exact hok) hx).gas t ht
  obtain ⟨l1, l2⟩ := hloss _ h1 h2
  rw [h3]
  exact ⟨hk.rounding.nonneg (by linarith), hk.rounding.le_of_le hE (by linarith)⟩

/-! ## Comparison with exact arithmetic -/

/-- The generator that computes with the same raw numbers in exact arithmetic. -/
noncomputable def Raw.exact (raw : Raw σ) : Gen σ where
  normal loc scale s := (loc + scale * (raw.gauss s).1, (raw.gauss s).2)
  uniform low high s := (low + (high - low) * (raw.next s).1, (raw.next s).2)

/-- Two procedures that use the same random numbers, and raise the same exception or return nearly the same result. -/
def SameDraw {α : Type} (R : α → α → Prop) (a b : σ → Except PyErr (α × σ)) : Prop :=
  ∀ s, (∃ e, a s = .error e ∧ b s = .error e) ∨ ∃ x y s', a s = .ok (x, s') ∧ b s = .ok (y, s') ∧ R x y

/-- Numbers that differ by at most `δ`. -/
def Within (δ : ℝ) (x y : ℝ) : Prop := |x - y| ≤ δ

/-- **C144.** `ExcitationGaussian` in float64 is within a few roundings of exact arithmetic. -/
theorem C144_gaussian {rn : ℝ → ℝ} (h : Rounding rn) {raw : Raw σ} (hr : raw.Ok) {centroid width : ℝ}
    (hc : |centroid| ≤ 1e10) (hw : width = 0 ∨ 1e-30 ≤ width ∧ width ≤ 1e8) :
    SameDraw (Within (1.2e-16 * |centroid| + 2e-14 * width + 1e-59))
      (excitation_gaussian_sample64 rn raw.gauss (mkExcitationGaussian64 rn centroid width))
      ((mkExcitationGaussian centroid width).sample raw.exact) := by
  intro s
  have hw0 : 0 ≤ width := by
    rcases hw with rfl | ⟨hw, -⟩
    · exact le_rfl
    · exact le_trans (by norm_num) hw
  have e0 : |rn 2.355 - 2.355| ≤ 1.12e-16 * |(2.355 : ℝ)| := by
    have := h.relative (x := 2.355) (X := 2.355) (a := 0) (by simp) (by norm_num) (by norm_num) (by norm_num)
    norm_num at this ⊢
    exact this
  have e1 : |rn (width / rn 2.355) - width / 2.355| ≤ 4e-16 * (width / 2.355) := by
    rcases hw with rfl | ⟨l1, l2⟩
    · simp [h.exact zero_mem]
    · have hq : |width / 2.355| = width / 2.355 := abs_of_nonneg (by positivity)
      have d := div_relative (x := width) (X := width) (a := 0) (b := 1.12e-16) (by norm_num) (by simp) e0 (by norm_num)
        (by norm_num) (by norm_num)
      have := h.relative (d.trans (mul_le_mul_of_nonneg_right (show _ ≤ (2.5e-16 : ℝ) by norm_num) (abs_nonneg _)))
        (by norm_num) (by rw [hq, le_div_iff₀ (by norm_num)]; norm_num at *; linarith)
        (by rw [hq, div_le_iff₀ (by norm_num)]; norm_num at *; linarith)
      rw [hq] at this
      have hp : 0 ≤ width / 2.355 := by positivity
      norm_num at this hp ⊢
      linarith
  have hp : 0 ≤ rn (width / rn 2.355) := by
    refine h.nonneg (div_nonneg hw0 (h.nonneg (by norm_num)))
  refine .inr ⟨(normal64 rn raw.gauss centroid (rn (width / rn 2.355)) s).1,
    centroid + width / 2.355 * (raw.gauss s).1, (raw.gauss s).2, ?_, ?_, ?_⟩
  · unfold excitation_gaussian_sample64 mkExcitationGaussian64
    rw [if_neg (not_lt.2 hp)]
    rfl
  · unfold ExcitationGaussian.sample mkExcitationGaussian
    rw [if_neg (not_lt.2 (by positivity))]
    rfl
  · have hg := hr.gauss s
    obtain ⟨S, hS⟩ : ∃ S, S = rn (width / rn 2.355) := ⟨_, rfl⟩
    rw [← hS] at e1 hp ⊢
    have hw8 : width ≤ 1e8 := by
      rcases hw with rfl | ⟨-, hw⟩
      · norm_num
      · exact hw
    have s1 : S ≤ width / 2 := by
      have := (abs_le.1 e1).2
      norm_num at this ⊢
      linarith
    have s2 : |S * (raw.gauss s).1| ≤ 20 * width := by
      rw [abs_mul, abs_of_nonneg hp]
      calc S * |(raw.gauss s).1| ≤ width / 2 * 40 := mul_le_mul s1 hg (abs_nonneg _) (by positivity)
        _ = 20 * width := by ring
    have n1 := normal_near h raw.gauss (loc := centroid) (scale := S) s (hc.trans (by norm_num))
      (s2.trans (by norm_num at *; linarith))
    have n2 : |centroid + S * (raw.gauss s).1 - (centroid + width / 2.355 * (raw.gauss s).1)|
        ≤ 4e-16 * (width / 2.355) * 40 := by
      rw [add_sub_add_left_eq_sub, ← sub_mul, abs_mul]
      exact mul_le_mul e1 hg (abs_nonneg _) (by positivity)
    have n3 := abs_sub_le (normal64 rn raw.gauss centroid S s).1 (centroid + S * (raw.gauss s).1)
      (centroid + width / 2.355 * (raw.gauss s).1)
    unfold Within
    generalize |S * (raw.gauss s).1| = A at *
    refine n3.trans ((add_le_add n1 n2).trans ?_)
    have c0 : 0 ≤ |centroid| := abs_nonneg centroid
    generalize |centroid| = D at *
    norm_num at s2 ⊢
    linarith

/-- **C144.** `ExcitationUniform` in float64 is within a few roundings of exact arithmetic. -/
theorem C144_uniform {rn : ℝ → ℝ} (h : Rounding rn) {raw : Raw σ} (hr : raw.Ok) {low high B : ℝ} (hl : |low| ≤ B)
    (hh : |high| ≤ B) (hB : B ≤ 1e19) :
    SameDraw (Within (1e-15 * B + 1e-58)) (excitation_uniform_sample64 rn raw.next low high)
      ((⟨low, high⟩ : ExcitationUniform).sample raw.exact) := by
  intro s
  unfold excitation_uniform_sample64 ExcitationUniform.sample
  simp only
  by_cases hlt : high < low
  · exact .inl ⟨_, if_pos hlt, if_pos hlt⟩
  · exact .inr ⟨_, _, _, if_neg hlt, if_neg hlt, uniform_near h hr.next hl hh hB s⟩

/-- Angles whose cosines are within `1.3e-15` differ by at most `6e-8`. -/
theorem arccos_near {a b : ℝ} (ha : -1 ≤ a) (ha' : a ≤ 1) (hb : -1 ≤ b) (hb' : b ≤ 1) (h : |a - b| ≤ 1.3e-15) :
    |Real.arccos a - Real.arccos b| ≤ 6e-8 := by
  have key : ∀ a b : ℝ, -1 ≤ a → a ≤ 1 → -1 ≤ b → b ≤ 1 → |a - b| ≤ 1.3e-15 →
      Real.arccos a - Real.arccos b ≤ 6e-8 := by
    intro a b ha ha' hb hb' h
    by_contra hc
    push Not at hc
    have c1 := Real.cos_arccos ha ha'
    have c2 := Real.cos_arccos hb hb'
    have a0 := Real.arccos_nonneg b
    have api := Real.arccos_le_pi a
    generalize Real.arccos a = s at *
    generalize Real.arccos b = t at *
    have h3 := cos_drop (t := t) (d := 6e-8) (by norm_num) a0 (by linarith)
    have hmono : Real.cos s ≤ Real.cos (t + 6e-8) :=
      Real.cos_le_cos_of_nonneg_of_le_pi (by positivity) api (by linarith)
    have h4 := Real.sin_gt_sub_cube (x := 6e-8 / 2) (by norm_num)
    have h5 : (2.9e-8 : ℝ) ≤ Real.sin (6e-8 / 2) := by
      refine le_trans ?_ h4.le
      norm_num
    have h6 : (2.9e-8 : ℝ) ^ 2 ≤ Real.sin (6e-8 / 2) ^ 2 := pow_le_pow_left₀ (by norm_num) h5 2
    have h7 := (abs_le.1 h).1
    rw [c2] at h3
    rw [c1] at hmono
    have h8 : 2 * (2.9e-8 : ℝ) ^ 2 ≤ b - a := by linarith
    norm_num at h7 h8
    linarith
  rw [abs_le]
  constructor
  · have := key b a hb hb' ha ha' (by rwa [abs_sub_comm])
    linarith
  · exact key a b ha ha' hb hb' h

/-- **C144.** `PolarUniform` in float64 is within `6.1e-8` rad of exact arithmetic. -/
theorem C144_polar {rn : ℝ → ℝ} (h : Rounding rn) {raw : Raw σ} (hr : raw.Ok) {cos arccos : ℝ → ℝ} (hc : CosOk cos)
    (ha : ArccosOk arccos) {angle_min angle_max : ℝ} (h0 : 0 ≤ angle_min) (hle : angle_min + 5e-8 ≤ angle_max)
    (hpi : angle_max ≤ Real.pi) :
    SameDraw (Within 6.1e-8) (polar_uniform_sample64 rn arccos raw.next (mkPolarUniform64 cos angle_min angle_max))
      ((mkPolarUniform angle_min angle_max).sample raw.exact) := by
  intro s
  have i0 : angle_min ≤ angle_max := by norm_num at *; linarith
  have i1 : 0 ≤ angle_max := h0.trans i0
  have i2 : angle_min ≤ Real.pi := i0.trans hpi
  obtain ⟨⟨x, s'⟩, hx⟩ := C135_polar_returns rn arccos raw.next hc h0 hle hpi s
  have hexact : (mkPolarUniform angle_min angle_max).sample raw.exact s = .ok (Real.arccos (Real.cos angle_max
      + (Real.cos angle_min - Real.cos angle_max) * (raw.next s).1), (raw.next s).2) := by
    unfold PolarUniform.sample mkPolarUniform
    exact if_neg (not_lt.2 (Real.cos_le_cos_of_nonneg_of_le_pi h0 hpi i0))
  unfold polar_uniform_sample64 mkPolarUniform64 at hx
  simp only at hx
  split_ifs at hx with hlt
  push Not at hlt
  simp only [Except.ok.injEq, Prod.mk.injEq] at hx
  obtain ⟨hx, hs'⟩ := hx
  refine .inr ⟨x, _, _, ?_, hexact, ?_⟩
  · unfold polar_uniform_sample64 mkPolarUniform64
    simp only
    rw [if_neg (not_lt.2 hlt), hx]
    rfl
  · rw [← hx]
    have b1 : |cos angle_max| ≤ 1 := abs_le.2 ⟨hc.low _ i1 hpi, hc.high _ i1 hpi⟩
    have b2 : |cos angle_min| ≤ 1 := abs_le.2 ⟨hc.low _ h0 i2, hc.high _ h0 i2⟩
    obtain ⟨v1, v2⟩ := C135_closed h hr.next (hc.mem _ i1 hpi) (hc.mem _ h0 i2) hlt s
    have n := uniform_near h hr.next b1 b2 (by norm_num) s
    have hu := hr.next.range s
    have hu1 : (raw.next s).1 ≤ 1 := (hr.next.lt s).le
    have n1 := hc.near _ i1 hpi
    have n2 := hc.near _ h0 i2
    have c1 := Real.neg_one_le_cos angle_max
    have c2 := Real.cos_le_one angle_min
    have c3 := Real.cos_le_cos_of_nonneg_of_le_pi h0 hpi i0
    have l1 := hc.low _ i1 hpi
    have l2 := hc.high _ h0 i2
    generalize (uniform64 rn raw.next (cos angle_max) (cos angle_min) s).1 = v at *
    generalize (raw.next s).1 = u at *
    generalize cos angle_max = a at *
    generalize cos angle_min = b at *
    generalize Real.cos angle_max = A at *
    generalize Real.cos angle_min = B at *
    have d : |a + (b - a) * u - (A + (B - A) * u)| ≤ 2 ^ (-52 : ℤ) := by
      have e : a + (b - a) * u - (A + (B - A) * u) = (a - A) * (1 - u) + (b - B) * u := by ring
      obtain ⟨p1, p2⟩ := abs_le.1 n1
      obtain ⟨q1, q2⟩ := abs_le.1 n2
      rw [e, abs_le]
      constructor <;> nlinarith [hu.1]
    have t := abs_sub_le v (a + (b - a) * u) (A + (B - A) * u)
    have near : |v - (A + (B - A) * u)| ≤ 1.3e-15 := by
      norm_num at n d t ⊢
      linarith
    have w1 : -1 ≤ A + (B - A) * u := by nlinarith [hu.1]
    have w2 : A + (B - A) * u ≤ 1 := by nlinarith [hu.1]
    have g1 := arccos_near (l1.trans v1) (v2.trans l2) w1 w2 near
    have g2 := ha v (l1.trans v1) (v2.trans l2)
    have g3 := abs_sub_le (arccos v) (Real.arccos v) (Real.arccos (A + (B - A) * u))
    unfold Within
    norm_num at g1 g2 ⊢
    linarith

/-- The gas slows the beam down by at most `K` MeV per metre, without stopping it. -/
structure SlowsDown (p : Pipeline σ) (t : TargetMaterial) (K : ℝ) : Prop where
  energy : p.beam_energy ≤ 1e10
  steep : 0 ≤ K ∧ K ≤ 1e8
  loss : ∀ z, t.z_range.1 ≤ z → z ≤ t.z_range.2 →
    0 ≤ t.material.get_energy_loss p.reaction.projectile p.beam_energy z ∧
    t.material.get_energy_loss p.reaction.projectile p.beam_energy z ≤ p.beam_energy
  lipschitz : ∀ z z', t.z_range.1 ≤ z → z ≤ t.z_range.2 → t.z_range.1 ≤ z' → z' ≤ t.z_range.2 →
    |t.material.get_energy_loss p.reaction.projectile p.beam_energy z
      - t.material.get_energy_loss p.reaction.projectile p.beam_energy z'| ≤ K * |z - z'|

/-- Beam energy and vertex in float64 beside the exact ones. -/
structure VertexNear (p : Pipeline σ) (K : ℝ) (a b : ℝ × (ℝ × ℝ × ℝ)) : Prop where
  thin : p.target_material = none → a = b
  gas : ∀ t, p.target_material = some t →
    |a.2.1 - b.2.1| ≤ 4e-13 * t.rho_sigma + 1e-58 ∧ |a.2.2.1 - b.2.2.1| ≤ 4e-13 * t.rho_sigma + 1e-58 ∧
    |a.2.2.2 - b.2.2.2| ≤ 1e-15 * max |t.z_range.1| |t.z_range.2| + 1e-58 ∧
    |a.1 - b.1| ≤ 2 * K * (1e-15 * max |t.z_range.1| |t.z_range.2| + 1e-58) + 1.2e-16 * p.beam_energy + 1e-60

/-- A sample in float64 beside the exact one. -/
structure SampleNear (p : Pipeline σ) (K δe δt : ℝ) (a b : Sample) : Prop where
  vertex : VertexNear p K (a.beam_energy, a.vertex) (b.beam_energy, b.vertex)
  excitation : |a.reaction_excitation - b.reaction_excitation| ≤ δe
  theta : |a.reaction_theta - b.reaction_theta| ≤ δt
  phi : |a.reaction_phi - b.reaction_phi| ≤ 1.1e-15
  excitations : List.Forall₂ (Within δe) a.decay_excitations b.decay_excitations
  thetas : List.Forall₂ (Within δt) a.decay_thetas b.decay_thetas
  phis : List.Forall₂ (Within 1.1e-15) a.decay_phis b.decay_phis

theorem sampleHead_same {δ : ℝ} {l l' : List (Sampler σ)} (h : List.Forall₂ (SameDraw (Within δ)) l l') :
    SameDraw (Within δ) (sampleHead l) (sampleHead l') := by
  intro s
  cases h with
  | nil => exact .inl ⟨_, rfl, rfl⟩
  | cons h _ => exact h s

theorem sampleAll_same {δ : ℝ} {l l' : List (Sampler σ)} (h : List.Forall₂ (SameDraw (Within δ)) l l') :
    SameDraw (List.Forall₂ (Within δ)) (sampleAll l) (sampleAll l') := by
  induction h with
  | nil => exact fun s => .inr ⟨[], [], s, rfl, rfl, .nil⟩
  | cons h _ ih =>
    intro s
    simp only [sampleAll, bind, Except.bind, pure, Except.pure]
    rcases h s with ⟨e, h1, h2⟩ | ⟨x, y, s1, h1, h2, h3⟩
    · exact .inl ⟨e, by rw [h1], by rw [h2]⟩
    · rw [h1, h2]
      rcases ih s1 with ⟨e, i1, i2⟩ | ⟨xs, ys, s2, i1, i2, i3⟩
      · exact .inl ⟨e, by simp only [i1], by simp only [i2]⟩
      · exact .inr ⟨x :: xs, y :: ys, s2, by simp only [i1], by simp only [i2], .cons h3 i3⟩

theorem tail_same {α : Type} {R : α → α → Prop} {l l' : List α} (h : List.Forall₂ R l l') :
    List.Forall₂ R l.tail l'.tail := by
  cases h with
  | nil => exact .nil
  | cons _ h => exact h

theorem uniformN64_near {rn : ℝ → ℝ} (h : Rounding rn) {raw : Raw σ} (hr : raw.Ok) (n : ℕ) : ∀ s : σ,
    (uniformN64 rn raw.next 0 (7074237752028440 * (2 : ℝ) ^ (-50 : ℤ)) n s).2
      = (raw.exact.uniformN 0 (Real.pi * 2) n s).2 ∧
    List.Forall₂ (Within 1.1e-15) (uniformN64 rn raw.next 0 (7074237752028440 * (2 : ℝ) ^ (-50 : ℤ)) n s).1
      (raw.exact.uniformN 0 (Real.pi * 2) n s).1 := by
  induction n with
  | zero => exact fun s => ⟨rfl, .nil⟩
  | succ n ih =>
    intro s
    obtain ⟨h1, h2⟩ := ih (raw.next s).2
    refine ⟨h1, .cons ?_ h2⟩
    have := (azimuth64 h hr.next s).2
    have e : 2 * Real.pi * (raw.next s).1 = 0 + (Real.pi * 2 - 0) * (raw.next s).1 := by ring
    rw [e] at this
    exact this

/-- The vertex in float64 is near the one for the same random numbers in exact arithmetic. -/
theorem vertex_same {k : Kin64} (hk : k.Accurate) {raw : Raw σ} (hr : raw.Ok) {p q : Pipeline σ}
    (hq : q.rng = raw.exact ∧ q.target_material = p.target_material ∧ q.beam_energy = p.beam_energy ∧
      q.reaction = p.reaction) {K : ℝ}
    (hok : ∀ t, p.target_material = some t → TargetOk t ∧ SlowsDown p t K) :
    SameDraw (VertexNear p K) (sample_vertex64 k raw p) q.sample_vertex := by
  obtain ⟨q1, q2, q3, q4⟩ := hq
  intro s
  have h := hk.rounding
  unfold Pipeline.sample_vertex
  rw [q1, q2, q3, q4]
  rcases ht : p.target_material with _ | t
  · refine .inr ⟨_, _, s, by unfold sample_vertex64; simp only [ht], rfl, fun _ => rfl, by simp [ht]⟩
  · obtain ⟨ok, sd⟩ := hok t ht
    obtain ⟨x, y, z, s', g1, z1, z2, g, u, v, s1, s2, d1, d2, d3, n1, n2, n3⟩ := vertex64 hk hr ht ok s
    refine .inr ⟨_, (p.beam_energy - t.material.get_energy_loss p.reaction.projectile p.beam_energy
          (t.z_range.1 + (t.z_range.2 - t.z_range.1) * v),
        |t.rho_sigma * g| * Real.cos (2 * Real.pi * u), |t.rho_sigma * g| * Real.sin (2 * Real.pi * u),
        t.z_range.1 + (t.z_range.2 - t.z_range.1) * v), s', g1, ?_, by simp [ht], ?_⟩
    · simp only [Raw.exact, d1, d2, d3, zero_add, sub_zero]
      rw [if_neg (not_lt.2 ok.sigma.1), if_neg (not_lt.2 ok.order)]
    · intro t' ht'
      rw [ht] at ht'
      cases ht'
      have hσ := ok.sigma.1
      have hg := hr.gauss s
      rw [d1] at hg
      have hR : |t.rho_sigma * g| ≤ 40 * t.rho_sigma := by
        rw [abs_mul, abs_of_nonneg hσ, mul_comm]
        exact mul_le_mul_of_nonneg_right hg hσ
      have hv := hr.next.range s2
      have hv1 := hr.next.lt s2
      rw [d3] at hv hv1
      simp only at hv hv1
      have w0 : 0 ≤ t.z_range.2 - t.z_range.1 := by linarith [ok.order]
      have w1 : t.z_range.1 ≤ t.z_range.1 + (t.z_range.2 - t.z_range.1) * v := by
        linarith [mul_nonneg w0 hv.1]
      have w2 : t.z_range.1 + (t.z_range.2 - t.z_range.1) * v ≤ t.z_range.2 := by
        have := mul_le_of_le_one_right w0 hv1.le
        linarith
      refine ⟨n1.trans ?_, n2.trans ?_, n3, ?_⟩
      · norm_num at hR ⊢
        linarith
      · norm_num at hR ⊢
        linarith
      · have lz := sd.lipschitz z _ z1 z2 w1 w2
        have lz2 := lz.trans (mul_le_mul_of_nonneg_left n3 sd.steep.1)
        obtain ⟨l1, l2⟩ := sd.loss _ w1 w2
        have hB : max |t.z_range.1| |t.z_range.2| ≤ 1e10 := max_le ok.bound.1 ok.bound.2
        have hB0 : 0 ≤ max |t.z_range.1| |t.z_range.2| := (abs_nonneg _).trans (le_max_left _ _)
        generalize max |t.z_range.1| |t.z_range.2| = B at *
        generalize t.material.get_energy_loss p.reaction.projectile p.beam_energy z = L at *
        generalize t.material.get_energy_loss p.reaction.projectile p.beam_energy
          (t.z_range.1 + (t.z_range.2 - t.z_range.1) * v) = L' at *
        obtain ⟨D, hD⟩ : ∃ D, D = K * (1e-15 * B + 1e-58) := ⟨_, rfl⟩
        have hD0 : 0 ≤ D := by rw [hD]; exact mul_nonneg sd.steep.1 (by positivity)
        have hD1 : D ≤ 1e10 := by
          rw [hD]
          refine (mul_le_mul sd.steep.2 (show _ ≤ (1 : ℝ) by norm_num at hB ⊢; linarith) (by positivity)
            (by norm_num)).trans (by norm_num)
        rw [← hD] at lz2
        have e : |p.beam_energy - L - (p.beam_energy - L')| ≤ D := by
          rw [show p.beam_energy - L - (p.beam_energy - L') = -(L - L') by ring, abs_neg]
          exact lz2
        have hE : |p.beam_energy - L'| ≤ p.beam_energy := by
          rw [abs_of_nonneg (by linarith)]
          linarith
        have hE1 := sd.energy
        have := h.absolute e (hE.trans (hE1.trans (by norm_num))) (hD1.trans (by norm_num))
        rw [show 2 * K * (1e-15 * B + 1e-58) = 2 * D by rw [hD]; ring]
        have hE0 : 0 ≤ p.beam_energy := (abs_nonneg _).trans hE
        simp only
        norm_num at this ⊢
        linarith

/-- **C144.** A sample in float64 is within the stated roundings of the sample for the same random numbers in exact
arithmetic, or both raise the same exception. -/
theorem C144_near {k : Kin64} (hk : k.Accurate) {raw : Raw σ} (hr : raw.Ok) {p : Pipeline σ} {K δe δt : ℝ}
    (hok : ∀ t, p.target_material = some t → TargetOk t ∧ SlowsDown p t K) {exs pds : List (Sampler σ)}
    (he : List.Forall₂ (SameDraw (Within δe)) p.excitations exs)
    (ht : List.Forall₂ (SameDraw (Within δt)) p.polar_dists pds) :
    SameDraw (SampleNear p K δe δt) (sample64 k raw p)
      { p with rng := raw.exact, excitations := exs, polar_dists := pds }.sample := by
  intro s
  have h := hk.rounding
  obtain ⟨-, e2, -, -, -⟩ := two_pi64 h
  have hte : List.Forall₂ (SameDraw (Within δe)) p.excitations.tail exs.tail := by
    exact tail_same he
  have htt : List.Forall₂ (SameDraw (Within δt)) p.polar_dists.tail pds.tail := by
    exact tail_same ht
  unfold sample64 Pipeline.sample
  simp only [bind, Except.bind, pure, Except.pure, e2]
  rcases vertex_same (p := p) (q := { p with rng := raw.exact, excitations := exs, polar_dists := pds }) hk hr
    ⟨rfl, rfl, rfl, rfl⟩ hok s with ⟨e, h1, h2⟩ | ⟨V, V', s1, h1, h2, h3⟩
  · exact .inl ⟨e, by simp only [h1], by simp only [h2]⟩
  rcases sampleHead_same he s1 with ⟨e, i1, i2⟩ | ⟨x, x', s2, i1, i2, i3⟩
  · exact .inl ⟨e, by simp only [h1, i1], by simp only [h2, i2]⟩
  rcases sampleHead_same ht s2 with ⟨e, j1, j2⟩ | ⟨y, y', s3, j1, j2, j3⟩
  · exact .inl ⟨e, by simp only [h1, i1, j1], by simp only [h2, i2, j2]⟩
  have f2 := (azimuth64 h hr.next s3).2
  have f1 : (uniform64 k.rn raw.next 0 (7074237752028440 * (2 : ℝ) ^ (-50 : ℤ)) s3).2
    = (raw.exact.uniform 0 (Real.pi * 2) s3).2 := rfl
  have f3 : (raw.exact.uniform 0 (Real.pi * 2) s3).1 = 2 * Real.pi * (raw.next s3).1 := by
    simp only [Raw.exact]
    ring
  rw [← f3] at f2
  rcases sampleAll_same hte (raw.exact.uniform 0 (Real.pi * 2) s3).2 with ⟨e, l1, l2⟩ | ⟨xs, xs', s4, l1, l2, l3⟩
  · exact .inl ⟨e, by simp only [h1, i1, j1, f1, l1], by simp only [h2, i2, j2, l2]⟩
  rcases sampleAll_same htt s4 with ⟨e, m1, m2⟩ | ⟨ys, ys', s5, m1, m2, m3⟩
  · exact .inl ⟨e, by simp only [h1, i1, j1, f1, l1, m1], by simp only [h2, i2, j2, l2, m2]⟩
  obtain ⟨o1, o2⟩ := uniformN64_near h hr p.decays.length s5
  simp only [h1, i1, j1, f1, l1, m1, o1, h2, i2, j2, l2, m2]
  exact .inr ⟨_, _, _, rfl, rfl, h3, i3, j3, f2, l3, m3, o2⟩

/-- What an event in float64 is: the sample `x` is drawn and is in range, its vertex and momenta are returned, and the
momenta are near those of exact arithmetic unless the sample is within rounding of a threshold. -/
def Sampled (k : Kin64) (raw : Raw σ) (p : Pipeline σ) (e : Event (List ResultRow)) : Prop :=
  ∃ x rows s s', sample64 k raw p s = .ok (x, s') ∧ InRange k.rn p x ∧ e = (x.vertex, rows.map some) ∧
    attempt64 k p x = .ok (some rows) ∧ (Decisive k p x → ∃ rows0, EventNear p x rows rows0 ∧
      ∀ buf : List ResultRow, buf.length = 4 + 2 * p.decays.length → p.attempt x buf = (.ok true, rows0.map some))

theorem runLoop_sampled {k : Kin64} (hk : k.Accurate) {raw : Raw σ} (hr : raw.Ok) {p : Pipeline σ}
    (hm : MassesOk p.reaction) (hok : ∀ t, p.target_material = some t → TargetOk t) (n : ℕ) : ∀ {s s' : σ}
    {e : Event (List ResultRow)}, runLoop64 k p (sample64 k raw p) n s = (.ok e, s') → Sampled k raw p e := by
  induction n with
  | zero =>
    intro s s' e h
    simp [runLoop64] at h
  | succ n ih =>
    intro s s' e h
    rw [runLoop64] at h
    rcases hx : sample64 k raw p s with err | ⟨x, s1⟩
    · simp [hx] at h
    · rw [hx] at h
      simp only at h
      rcases ha : attempt64 k p x with err | _ | rows
      · simp [ha] at h
      · rw [ha] at h
        exact ih h
      · rw [ha] at h
        simp only [Prod.mk.injEq, Except.ok.injEq] at h
        refine ⟨x, rows, s, s1, hx, C144_range hk hr hok hx, h.1.symm, ha, fun hd => ?_⟩
        rcases C142_sample hk hm hd with ⟨h1, -⟩ | ⟨rows', rows0, h1, h2, h3⟩
        · rw [ha] at h1
          simp at h1
        · rw [ha] at h1
          cases h1
          exact ⟨rows0, h3, h2⟩

/-- **C144.** A run in float64 that succeeds returns the vertex and the momenta of one sample, which is in range. -/
theorem C144_run {k : Kin64} (hk : k.Accurate) {raw : Raw σ} (hr : raw.Ok) {p : Pipeline σ}
    (hm : MassesOk p.reaction) (hok : ∀ t, p.target_material = some t → TargetOk t) {s s' : σ}
    {e : Event (List ResultRow)} (h : run64 k p (sample64 k raw p) s = (.ok e, s')) : Sampled k raw p e :=
  runLoop_sampled hk hr hm hok _ h

/-- **C144.** Every event in a kinematics file that has been computed in float64 is such an event. -/
theorem C144_file {k : Kin64} (hk : k.Accurate) {raw : Raw σ} (hr : raw.Ok) {p : Pipeline σ}
    (hm : MassesOk p.reaction) (hok : ∀ t, p.target_material = some t → TargetOk t) (zs as : List ℤ) {cs : ℕ}
    (hcs : 1 ≤ cs) (n : ℤ) {s : σ} {st : KinRun (List ResultRow) σ}
    (h : run_kinematics_pipeline (run64 k p (sample64 k raw p)) zs as cs n s = (.ok (), st)) :
    ∀ i < n.toNat, ∃ e, read_event st.file cs i = .ok (e.2, e.1) ∧ Sampled k raw p e := by
  obtain ⟨evs, h1, h2, -, -, -, -, h3⟩ := C37_round_trip _ zs as cs hcs n s st h
  have all : ∀ e ∈ evs, Sampled k raw p e := by
    clear h2 h3 h
    generalize st.pipe = s' at h1
    induction h1 with
    | nil => simp
    | cons hrun _ ih =>
      intro e he
      rcases List.mem_cons.1 he with rfl | he
      · exact C144_run hk hr hm hok hrun
      · exact ih e he
  intro i hi
  exact ⟨evs[i]'(by omega), h3 i (by omega), all _ (List.getElem_mem _)⟩

/-! ## Example -/

/-- Raw numbers which differ from call to call. -/
noncomputable def exRaw : Raw ℕ := ⟨fun s => (((s % 2 ^ 53 : ℕ) : ℝ) / 2 ^ 53, s + 1),
  fun s => (if s % 2 = 0 then 3 / 2 else -1, s + 1)⟩

theorem exRaw_ok : exRaw.Ok where
  next s := ⟨s % 2 ^ 53, Nat.mod_lt _ (by positivity), rfl⟩
  gauss s := by
    simp only [exRaw]
    split
    · rw [abs_of_pos] <;> norm_num
    · rw [abs_neg, abs_one]
      norm_num

/-- One metre of gas, in which the beam loses 2 MeV. -/
noncomputable def exTarget : TargetMaterial := ⟨⟨1, fun _ _ => 1, fun _ _ z => 2 * z⟩, (0, 1), 0.002⟩

theorem exTarget_ok : TargetOk exTarget where
  sigma := by norm_num [exTarget]
  low := by simpa [exTarget] using zero_mem
  high := by simpa [exTarget] using int_mem (n := 1) (by norm_num)
  order := by norm_num [exTarget]
  bound := by norm_num [exTarget]

/-- The scattering of C141, in gas and with all samplers in float64. -/
noncomputable def exSampled (rn : ℝ → ℝ) : Pipeline ℕ := ⟨exScatter, [],
  [excitation_gaussian_sample64 rn exRaw.gauss (mkExcitationGaussian64 rn 5 0.1)],
  [polar_uniform_sample64 rn (fun x => rn (Real.arccos x)) exRaw.next
    (mkPolarUniform64 (fun x => rn (Real.cos x)) 0 Real.pi)], 10, some exTarget, 100, exRaw.exact⟩

theorem exSampled_ok (rn : ℝ → ℝ) : SlowsDown (exSampled rn) exTarget 2 where
  energy := by norm_num [exSampled]
  steep := by norm_num
  loss z h1 h2 := by
    simp only [exSampled, exTarget] at *
    constructor <;> linarith
  lipschitz z z' _ _ _ _ := by
    simp only [exTarget]
    rw [← mul_sub, abs_mul, abs_of_pos (two_pos : (0 : ℝ) < 2)]

theorem rounded_arccos_ok {rn : ℝ → ℝ} (h : Rounding rn) : ArccosOk fun x => rn (Real.arccos x) := fun x _ _ => by
  have h1 : |Real.arccos x| ≤ 4 := by
    rw [abs_of_nonneg (Real.arccos_nonneg x)]
    exact (Real.arccos_le_pi x).trans (Real.pi_le_four)
  have := h.absolute (x := Real.arccos x) (X := Real.arccos x) (d := 0) (by simp) (by norm_num at *; linarith)
    (by norm_num)
  norm_num at *
  linarith

/-- Every sample of the example is near that of exact arithmetic, and is in range. -/
example : ∃ rn, Rounding rn ∧
    SameDraw (SampleNear (exSampled rn) 2 (1.2e-16 * |5| + 2e-14 * 0.1 + 1e-59) 6.1e-8)
      (sample64 (exactKin rn) exRaw (exSampled rn))
      { exSampled rn with
        excitations := [(mkExcitationGaussian 5 0.1).sample exRaw.exact],
        polar_dists := [(mkPolarUniform 0 Real.pi).sample exRaw.exact] }.sample ∧
    ∀ s, ∃ x s', sample64 (exactKin rn) exRaw (exSampled rn) s = .ok (x, s') ∧ InRange rn (exSampled rn) x := by
  obtain ⟨rn, h⟩ := exists_rounding
  have hk := exactKin_accurate h
  have hok : ∀ t, (exSampled rn).target_material = some t → TargetOk t ∧ SlowsDown (exSampled rn) t 2 := by
    intro t ht
    cases ht
    exact ⟨exTarget_ok, exSampled_ok rn⟩
  have near := C144_near hk exRaw_ok (p := exSampled rn) hok
    (.cons (C144_gaussian h exRaw_ok (centroid := 5) (width := 0.1) (by norm_num) (by norm_num)) .nil)
    (.cons (C144_polar h exRaw_ok (rounded_cos_ok h) (rounded_arccos_ok h) le_rfl (by
      have := Real.pi_gt_three
      norm_num
      linarith) le_rfl) .nil)
  refine ⟨rn, h, near, fun s => ?_⟩
  obtain ⟨V, s1, hV⟩ : ∃ V s1, sample_vertex64 (exactKin rn) exRaw (exSampled rn) s = .ok (V, s1) := by
    obtain ⟨_, _, _, s', g, -⟩ := vertex64 hk exRaw_ok (p := exSampled rn) rfl exTarget_ok s
    exact ⟨_, s', g⟩
  obtain ⟨⟨e, s3⟩, he⟩ : ∃ r, excitation_gaussian_sample64 rn exRaw.gauss (mkExcitationGaussian64 rn 5 0.1) s1
      = .ok r := by
    rcases C144_gaussian h exRaw_ok (centroid := 5) (width := 0.1) (by norm_num) (by norm_num) s1 with
      ⟨e, -, h2⟩ | ⟨x, _, s', h1, -⟩
    · have : ¬(mkExcitationGaussian 5 0.1).sigma < 0 := by norm_num [mkExcitationGaussian]
      unfold ExcitationGaussian.sample at h2
      simp [this] at h2
    · exact ⟨_, h1⟩
  obtain ⟨⟨t, s4⟩, ht⟩ := C135_polar_returns rn (fun x => rn (Real.arccos x)) exRaw.next (rounded_cos_ok h)
    (angle_min := 0) (angle_max := Real.pi) le_rfl (by
      have := Real.pi_gt_three
      norm_num
      linarith) le_rfl s3
  have e1 : sampleHead (exSampled rn).excitations s1 = .ok (e, s3) := he
  have e2 : sampleHead (exSampled rn).polar_dists s3 = .ok (t, s4) := ht
  obtain ⟨x, s', hx⟩ : ∃ x s', sample64 (exactKin rn) exRaw (exSampled rn) s = .ok (x, s') := by
    unfold sample64
    simp only [bind, Except.bind, pure, Except.pure, hV, e1, e2]
    exact ⟨_, _, rfl⟩
  exact ⟨x, s', hx, C144_range hk exRaw_ok (fun t ht => (hok t ht).1) hx⟩

end Verif.Machine
