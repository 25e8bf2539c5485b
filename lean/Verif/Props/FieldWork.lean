import Verif.Props.Energy
import Verif.Props.Charge
import Verif.Spec.ExactIvp

/-! # C95: the charge of an event in an electric field -/

namespace Verif.Detector

open Verif.Spec Verif.Kinematics

/-- The z component of the equation of motion. -/
theorem eom_gvz {t : ℝ} {r d : Row} {B E : ℝ} {target : GasTarget} {n : Nucleus}
    (h : equation_of_motion t r B E target n = .ok d) :
    ∃ k γ : ℝ, 0 < k ∧ 0 < γ ∧ d.z = r.gvz / γ * 299792458 ∧
      d.gvz = ((n.Z : ℝ) * E_CHARGE / (n.mass * MEV_2_KG) * E
        - target.get_dedx n (kinetic n r) * MEV_2_JOULE * target.density * 100 / (n.mass * MEV_2_KG)
          * (r.gvz * k)) / 299792458 := by
  have hgv := (eom_ok_iff _ _ _ _ _ _).1 ⟨d, h⟩
  have hgv0 : 0 < r.gv := lt_of_le_of_ne (Real.sqrt_nonneg _) (Ne.symm hgv)
  obtain ⟨-, -, hz, -⟩ := C22_velocity h
  have hb : betaOf r.gv ≠ 0 := by rw [Ne, betaOf_eq_zero_iff]; exact hgv
  have hg : r.gv / betaOf r.gv = lorentz r := by
    rw [betaOf_gv, div_div_cancel₀ hgv]
  unfold equation_of_motion at h
  simp only at h
  rw [if_neg hb] at h
  obtain rfl := Except.ok.inj h
  refine ⟨1 / r.gv, lorentz r, by positivity, lorentz_pos r, hz, ?_⟩
  simp only [C, hg, kinetic]
  ring

/-- A particle that moves along the electric force keeps moving along it. -/
theorem keeps_direction {traj : ℝ → Row} {a b B E : ℝ} {target : GasTarget} {n : Nucleus}
    (hm : 0 < n.mass) (hdedx : ∀ k, 0 ≤ target.get_dedx n k) (hrho : 0 ≤ target.density)
    (hsol : ExactSolution traj a b B E target n) {sgn : ℝ} (hs : 0 ≤ sgn * (n.Z * E))
    {t₀ t₁ : ℝ} (h0 : a ≤ t₀) (h01 : t₀ ≤ t₁) (h1 : t₁ ≤ b) (hg : 0 ≤ sgn * (traj t₀).gvz) :
    0 ≤ sgn * (traj t₁).gvz := by
  by_contra hneg
  push Not at hneg
  have hsub : Set.Icc t₀ t₁ ⊆ Set.Icc a b := Set.Icc_subset_Icc h0 h1
  obtain ⟨-, -, hc⟩ := solution_continuous hsol
  have hcont : ContinuousOn (fun t => sgn * (traj t).gvz) (Set.Icc t₀ t₁) :=
    (continuousOn_const.mul hc).mono hsub
  have hclosed : IsClosed (Set.Icc t₀ t₁ ∩ (fun t => sgn * (traj t).gvz) ⁻¹' Set.Ici 0) :=
    hcont.preimage_isClosed_of_isClosed isClosed_Icc isClosed_Ici
  have hcomp : IsCompact (Set.Icc t₀ t₁ ∩ (fun t => sgn * (traj t).gvz) ⁻¹' Set.Ici 0) :=
    isCompact_Icc.of_isClosed_subset hclosed Set.inter_subset_left
  obtain ⟨u, hu, hmax⟩ := hcomp.exists_isGreatest ⟨t₀, ⟨le_rfl, h01⟩, hg⟩
  have hu1 : u ≤ t₁ := hu.1.2
  have hmono : MonotoneOn (fun t => sgn * (traj t).gvz) (Set.Icc u t₁) := by
    apply monotoneOn_of_deriv_nonneg (convex_Icc u t₁)
    · exact hcont.mono (Set.Icc_subset_Icc hu.1.1 le_rfl)
    · intro t ht
      rw [interior_Icc] at ht
      obtain ⟨d, -, -, -, -, -, -, hz⟩ := hsol t (hsub ⟨hu.1.1.trans ht.1.le, ht.2.le⟩)
      exact (hz.const_mul sgn).differentiableAt.differentiableWithinAt
    · intro t ht
      rw [interior_Icc] at ht
      have htm : t ∈ Set.Icc t₀ t₁ := ⟨hu.1.1.trans ht.1.le, ht.2.le⟩
      obtain ⟨d, hd, -, -, -, -, -, hz⟩ := hsol t (hsub htm)
      rw [(hz.const_mul sgn).deriv]
      obtain ⟨k, γ, hk, -, -, hdz⟩ := eom_gvz hd
      have hlt : sgn * (traj t).gvz < 0 := by
        by_contra hge
        push Not at hge
        exact absurd (hmax ⟨htm, hge⟩) (not_le.2 ht.1)
      rw [hdz]
      have hkg : 0 < MEV_2_KG := by norm_num [MEV_2_KG]
      have hJ : 0 < MEV_2_JOULE := by norm_num [MEV_2_JOULE]
      have hec : 0 < E_CHARGE := by norm_num [E_CHARGE]
      have hdx := hdedx (kinetic n (traj t))
      have e : sgn * (((n.Z : ℝ) * E_CHARGE / (n.mass * MEV_2_KG) * E
          - target.get_dedx n (kinetic n (traj t)) * MEV_2_JOULE * target.density * 100
            / (n.mass * MEV_2_KG) * ((traj t).gvz * k)) / 299792458)
          = (E_CHARGE / (n.mass * MEV_2_KG) * (sgn * (n.Z * E))
            + target.get_dedx n (kinetic n (traj t)) * MEV_2_JOULE * target.density * 100
              / (n.mass * MEV_2_KG) * k * (-(sgn * (traj t).gvz))) / 299792458 := by ring
      rw [e]
      have : 0 < -(sgn * (traj t).gvz) := by linarith
      positivity
  have := hmono ⟨le_rfl, hu1⟩ ⟨hu1, le_rfl⟩ hu1
  have h0u : 0 ≤ sgn * (traj u).gvz := hu.2
  simp only at this
  linarith

/-- The height of a particle in the field has at most one turning point: up to some time it moves against
the electric force, afterwards along it. -/
theorem turning_point {traj : ℝ → Row} {a b B E : ℝ} {target : GasTarget} {n : Nucleus}
    (hm : 0 < n.mass) (hdedx : ∀ k, 0 ≤ target.get_dedx n k) (hrho : 0 ≤ target.density)
    (hab : a ≤ b) (hsol : ExactSolution traj a b B E target n) {sgn : ℝ} (hs : 0 ≤ sgn * (n.Z * E)) :
    ∃ τ ∈ Set.Icc a b, AntitoneOn (fun t => sgn * (traj t).z) (Set.Icc a τ) ∧
      MonotoneOn (fun t => sgn * (traj t).z) (Set.Icc τ b) := by
  obtain ⟨-, -, hc⟩ := solution_continuous hsol
  have hcont : ContinuousOn (fun t => sgn * (traj t).gvz) (Set.Icc a b) := continuousOn_const.mul hc
  have hzc : ContinuousOn (fun t => sgn * (traj t).z) (Set.Icc a b) := by
    intro t ht
    obtain ⟨d, -, -, -, hz, -⟩ := hsol t ht
    exact (hz.const_mul sgn).continuousAt.continuousWithinAt
  have hder : ∀ t ∈ Set.Icc a b, ∃ γ : ℝ, 0 < γ ∧
      HasDerivAt (fun t => sgn * (traj t).z) (sgn * (traj t).gvz * (299792458 / γ)) t := by
    intro t ht
    obtain ⟨d, hd, -, -, hz, -⟩ := hsol t ht
    obtain ⟨k, γ, -, hγ, hdz, -⟩ := eom_gvz hd
    refine ⟨γ, hγ, (hz.const_mul sgn).congr_deriv ?_⟩
    rw [hdz]
    ring
  have down : ∀ τ ∈ Set.Icc a b, (∀ t ∈ Set.Ico a τ, sgn * (traj t).gvz < 0) →
      AntitoneOn (fun t => sgn * (traj t).z) (Set.Icc a τ) := by
    intro τ hτ hneg
    have hsub : Set.Icc a τ ⊆ Set.Icc a b := Set.Icc_subset_Icc le_rfl hτ.2
    apply antitoneOn_of_deriv_nonpos (convex_Icc a τ) (hzc.mono hsub)
    · intro t ht
      obtain ⟨γ, -, hz⟩ := hder t (hsub (interior_subset ht))
      exact hz.differentiableAt.differentiableWithinAt
    · intro t ht
      obtain ⟨γ, hγ, hz⟩ := hder t (hsub (interior_subset ht))
      rw [hz.deriv]
      rw [interior_Icc] at ht
      exact mul_nonpos_of_nonpos_of_nonneg (hneg t ⟨ht.1.le, ht.2⟩).le (by positivity)
  have up : ∀ τ ∈ Set.Icc a b, (∀ t ∈ Set.Icc τ b, 0 ≤ sgn * (traj t).gvz) →
      MonotoneOn (fun t => sgn * (traj t).z) (Set.Icc τ b) := by
    intro τ hτ hpos
    have hsub : Set.Icc τ b ⊆ Set.Icc a b := Set.Icc_subset_Icc hτ.1 le_rfl
    apply monotoneOn_of_deriv_nonneg (convex_Icc τ b) (hzc.mono hsub)
    · intro t ht
      obtain ⟨γ, -, hz⟩ := hder t (hsub (interior_subset ht))
      exact hz.differentiableAt.differentiableWithinAt
    · intro t ht
      obtain ⟨γ, hγ, hz⟩ := hder t (hsub (interior_subset ht))
      rw [hz.deriv]
      exact mul_nonneg (hpos t (interior_subset ht)) (by positivity)
  by_cases hex : ∃ t ∈ Set.Icc a b, 0 ≤ sgn * (traj t).gvz
  · obtain ⟨t, ht, htg⟩ := hex
    have hclosed : IsClosed (Set.Icc a b ∩ (fun t => sgn * (traj t).gvz) ⁻¹' Set.Ici 0) :=
      hcont.preimage_isClosed_of_isClosed isClosed_Icc isClosed_Ici
    obtain ⟨τ, hτ, hmin⟩ := (isCompact_Icc.of_isClosed_subset hclosed
      Set.inter_subset_left).exists_isLeast ⟨t, ht, htg⟩
    refine ⟨τ, hτ.1, down τ hτ.1 ?_, up τ hτ.1 ?_⟩
    · intro u hu
      by_contra hge
      push Not at hge
      exact absurd (hmin ⟨⟨hu.1, hu.2.le.trans hτ.1.2⟩, hge⟩) (not_le.2 hu.2)
    · intro u hu
      exact keeps_direction hm hdedx hrho hsol hs hτ.1.1 hu.1 hu.2 hτ.2
  · push Not at hex
    refine ⟨b, ⟨hab, le_rfl⟩, down b ⟨hab, le_rfl⟩ fun t ht => hex t ⟨ht.1, ht.2.le⟩, ?_⟩
    intro x hx y hy _
    have : x = y := le_antisymm (hx.2.trans hy.1) (hy.2.trans hx.1)
    rw [this]

/-- The summed absolute changes of the kinetic energy along a list of track points, in MeV. -/
noncomputable def energyVariation (n : Nucleus) : List Row → ℝ
  | [] => 0
  | [_] => 0
  | r :: r' :: rest => |kinetic n r' - kinetic n r| + energyVariation n (r' :: rest)

/-- If the changes over all pieces of a trajectory are dominated by those of a function `Φ`, so is the
variation over any increasing list of times. -/
theorem variation_le {traj : ℝ → Row} {a b : ℝ} {n : Nucleus} {Φ : ℝ → ℝ}
    (h : ∀ s t, a ≤ s → s ≤ t → t ≤ b → |kinetic n (traj t) - kinetic n (traj s)| ≤ Φ t - Φ s) :
    ∀ (times : List ℝ), (∀ t ∈ times, t ∈ Set.Icc a b) → times.Pairwise (· ≤ ·) →
      ∀ t₀, times.head? = some t₀ → energyVariation n (times.map traj) ≤ Φ b - Φ t₀
  | [], _, _, _, h0 => by simp at h0
  | [t], hm, _, t₀, h0 => by
    simp only [List.head?_cons, Option.some.injEq] at h0
    subst h0
    have ht := hm t (by simp)
    have := h t b ht.1 ht.2 le_rfl
    simp only [List.map_cons, List.map_nil, energyVariation]
    exact (abs_nonneg _).trans this
  | t :: t' :: rest, hm, hp, t₀, h0 => by
    simp only [List.head?_cons, Option.some.injEq] at h0
    subst h0
    have ih := variation_le h (t' :: rest) (fun x hx => hm x (List.mem_cons_of_mem _ hx))
      (List.pairwise_cons.1 hp).2 t' rfl
    have ht := hm t (by simp)
    have ht' := hm t' (by simp)
    have := h t t' ht.1 ((List.pairwise_cons.1 hp).1 t' (by simp)) ht'.2
    simp only [List.map_cons, energyVariation] at ih ⊢
    linarith

/-- **C95.** Along every exact solution in a gas that only slows down, the kinetic energy changes in total
by at most the initial kinetic energy plus twice the energy that the electric field can supply over the
height `L` covered by the trajectory, `|Z E| L` in electron volts. -/
theorem C95_variation {traj : ℝ → Row} {a b B E : ℝ} {target : GasTarget} {n : Nucleus}
    (hm : 0 < n.mass) (hdedx : ∀ k, 0 ≤ target.get_dedx n k) (hrho : 0 ≤ target.density)
    (hab : a ≤ b) (hsol : ExactSolution traj a b B E target n) {L : ℝ}
    (hL : ∀ s ∈ Set.Icc a b, ∀ t ∈ Set.Icc a b, |(traj t).z - (traj s).z| ≤ L)
    {times : List ℝ} (hmem : ∀ t ∈ times, t ∈ Set.Icc a b) (hinc : times.Pairwise (· ≤ ·)) :
    energyVariation n (times.map traj)
      ≤ kinetic n (traj a) + 2 * (1 + 2e-9) * (|n.Z * E| * L / 1000000) := by
  have hE : ∀ s t, a ≤ s → s ≤ t → t ≤ b → MEV_2_KG * 299792458 ^ 2 * (kinetic n (traj t) - kinetic n (traj s))
      ≤ n.Z * E_CHARGE * E * ((traj t).z - (traj s).z) := by
    intro s t h1 h2 h3
    have := C64_energy hm hdedx hrho hsol ⟨h1, h2.trans h3⟩ ⟨h1.trans h2, h3⟩ h2
    simp only [totalEnergy] at this
    unfold kinetic
    linarith
  have hJ : 0 < MEV_2_JOULE := by norm_num [MEV_2_JOULE]
  obtain ⟨c, hc⟩ : ∃ c, c = MEV_2_KG * 299792458 ^ 2 / MEV_2_JOULE := ⟨_, rfl⟩
  have hc1 : 1 - 1e-9 ≤ c := by rw [hc]; norm_num [MEV_2_KG, MEV_2_JOULE]
  have hc0 : 0 < c := by linarith
  have hratio : E_CHARGE = MEV_2_JOULE / 1000000 := by norm_num [E_CHARGE, MEV_2_JOULE]
  obtain ⟨sgn, hs2, hsE⟩ : ∃ sgn : ℝ, (sgn = 1 ∨ sgn = -1) ∧ sgn * (n.Z * E) = |n.Z * E| := by
    rcases le_total 0 ((n.Z : ℝ) * E) with h | h
    · exact ⟨1, .inl rfl, by rw [one_mul, abs_of_nonneg h]⟩
    · exact ⟨-1, .inr rfl, by rw [neg_one_mul, abs_of_nonpos h]⟩
  have hss : sgn * sgn = 1 := by rcases hs2 with h | h <;> rw [h] <;> norm_num
  obtain ⟨A, hA⟩ : ∃ A, A = |n.Z * E| / 1000000 / c := ⟨_, rfl⟩
  have hA0 : 0 ≤ A := by rw [hA]; positivity
  have hA1 : A ≤ (1 + 2e-9) * (|n.Z * E| / 1000000) := by
    rw [hA, div_le_iff₀ hc0]
    have h0 : 0 ≤ |n.Z * E| / 1000000 := by positivity
    have h1 : (1 : ℝ) ≤ (1 + 2e-9) * c := by nlinarith
    nlinarith
  have hK : ∀ s t, a ≤ s → s ≤ t → t ≤ b → kinetic n (traj t) - kinetic n (traj s)
      ≤ A * (sgn * (traj t).z - sgn * (traj s).z) := by
    intro s t h1 h2 h3
    have h := hE s t h1 h2 h3
    have e1 : MEV_2_KG * 299792458 ^ 2 = c * MEV_2_JOULE := by rw [hc]; field_simp
    have e2 : n.Z * E_CHARGE * E * ((traj t).z - (traj s).z)
        = MEV_2_JOULE * (|n.Z * E| / 1000000 * (sgn * (traj t).z - sgn * (traj s).z)) := by
      rw [hratio, ← hsE]
      have : sgn * ((n.Z : ℝ) * E) / 1000000 * (sgn * (traj t).z - sgn * (traj s).z)
          = sgn * sgn * ((n.Z : ℝ) * E / 1000000 * ((traj t).z - (traj s).z)) := by ring
      rw [this, hss]
      ring
    rw [e1, e2] at h
    have h' : c * (kinetic n (traj t) - kinetic n (traj s))
        ≤ |n.Z * E| / 1000000 * (sgn * (traj t).z - sgn * (traj s).z) := by
      refine le_of_mul_le_mul_left ?_ hJ
      linarith
    rw [hA, div_mul_eq_mul_div, le_div_iff₀ hc0]
    linarith
  obtain ⟨τ, hτ, hdown, hup⟩ := turning_point hm hdedx hrho hab hsol (sgn := sgn)
    (by rw [hsE]; exact abs_nonneg _)
  obtain ⟨Φ, hΦ⟩ : ∃ Φ : ℝ → ℝ, ∀ t, Φ t = -kinetic n (traj t)
    + 2 * A * (sgn * (traj (max t τ)).z - sgn * (traj τ).z) := ⟨_, fun _ => rfl⟩
  have before : ∀ s t, a ≤ s → s ≤ t → t ≤ τ →
      |kinetic n (traj t) - kinetic n (traj s)| ≤ Φ t - Φ s := by
    intro s t h1 h2 h3
    have hz := hdown ⟨h1, h2.trans h3⟩ ⟨h1.trans h2, h3⟩ h2
    simp only at hz
    have hk := hK s t h1 h2 (h3.trans hτ.2)
    rw [hΦ, hΦ, max_eq_right h3, max_eq_right (h2.trans h3)]
    have : A * (sgn * (traj t).z - sgn * (traj s).z) ≤ 0 :=
      mul_nonpos_of_nonneg_of_nonpos hA0 (by linarith)
    rw [abs_of_nonpos (by linarith)]
    linarith
  have after : ∀ s t, τ ≤ s → s ≤ t → t ≤ b →
      |kinetic n (traj t) - kinetic n (traj s)| ≤ Φ t - Φ s := by
    intro s t h1 h2 h3
    have hz := hup ⟨h1, h2.trans h3⟩ ⟨h1.trans h2, h3⟩ h2
    simp only at hz
    have hk := hK s t (hτ.1.trans h1) h2 h3
    rw [hΦ, hΦ, max_eq_left (h1.trans h2), max_eq_left h1]
    have : 0 ≤ A * (sgn * (traj t).z - sgn * (traj s).z) := mul_nonneg hA0 (by linarith)
    rw [abs_le]
    constructor <;> linarith
  have key : ∀ s t, a ≤ s → s ≤ t → t ≤ b →
      |kinetic n (traj t) - kinetic n (traj s)| ≤ Φ t - Φ s := by
    intro s t h1 h2 h3
    rcases le_total t τ with ht | ht
    · exact before s t h1 h2 ht
    · rcases le_total τ s with hs | hs
      · exact after s t hs h2 h3
      · have i1 := before s τ h1 hs le_rfl
        have i2 := after τ t le_rfl ht h3
        have := abs_sub_le (kinetic n (traj t)) (kinetic n (traj τ)) (kinetic n (traj s))
        linarith
  have hk0 : ∀ t, 0 ≤ kinetic n (traj t) := fun t =>
    mul_nonneg hm.le (by linarith [lorentz_ge_one (traj t)])
  have hL0 : 0 ≤ L := (abs_nonneg _).trans (hL a ⟨le_rfl, hab⟩ a ⟨le_rfl, hab⟩)
  have hfin : Φ b - Φ a ≤ kinetic n (traj a) + 2 * (1 + 2e-9) * (|n.Z * E| * L / 1000000) := by
    rw [hΦ, hΦ, max_eq_left hτ.2, max_eq_right hτ.1]
    have h1 : sgn * (traj b).z - sgn * (traj τ).z ≤ L := by
      have := hL τ hτ b ⟨hab, le_rfl⟩
      have h2 := abs_le.1 this
      rcases hs2 with h | h <;> rw [h] <;> linarith
    have h2 := mul_le_mul_of_nonneg_left h1 hA0
    have h3 := mul_le_mul_of_nonneg_right hA1 hL0
    have h4 := hk0 b
    have e : (1 + 2e-9) * (|n.Z * E| / 1000000) * L = (1 + 2e-9) * (|n.Z * E| * L / 1000000) := by ring
    rw [e] at h3
    linarith
  cases times with
  | nil =>
    have h1 := hk0 a
    simp only [List.map_nil, energyVariation]
    positivity
  | cons t₀ rest =>
    have h1 := variation_le key (t₀ :: rest) hmem hinc t₀ rfl
    have ht := hmem t₀ (by simp)
    have h2 := (abs_nonneg _).trans (key a t₀ le_rfl ht.1 ht.2)
    linarith

/-- The sum of the numbers of electrons is limited by the variation of the kinetic energy. -/
theorem go_sum_variation {nucleus : Nucleus} {c : ℝ} (hc : 0 ≤ c) (a : Row) (rest : List Row) (xs : List ℝ)
    (hxs : (energy_lost.go (track_energy nucleus a) (rest.map (track_energy nucleus))).map
      (Option.map (· * c)) = xs.map some) :
    ((xs.map pyInt).sum : ℝ) ≤ energyVariation nucleus (a :: rest) * c := by
  induction rest generalizing a xs with
  | nil =>
    have : xs = [] := by simpa [energy_lost.go] using hxs
    subst this
    simp [energyVariation]
  | cons b rest ih =>
    simp only [List.map_cons, energy_lost.go] at hxs
    cases xs with
    | nil => simp at hxs
    | cons x xs =>
      simp only [List.map_cons, List.cons.injEq] at hxs
      obtain ⟨h1, h2⟩ := hxs
      have hih := ih b xs h2
      have hx : x = |kinetic nucleus b - kinetic nucleus a| * c := by
        rcases ha : track_energy nucleus a with _ | ka
        · rw [ha] at h1; simp at h1
        · rcases hb : track_energy nucleus b with _ | kb
          · rw [ha, hb] at h1; simp at h1
          · rw [ha, hb] at h1
            simp only [Option.bind_eq_bind, Option.bind_some, Option.pure_def, Option.map_some,
              Option.some.injEq] at h1
            rw [← h1, track_energy_some ha, track_energy_some hb]
      have hx0 : 0 ≤ x := by rw [hx]; exact mul_nonneg (abs_nonneg _) hc
      have hp := pyInt_le_of_nonneg hx0
      rw [List.map_cons, List.sum_cons, Int.cast_add, energyVariation, add_mul, ← hx]
      linarith

/-- **C95.** Without fluctuations the number of electrons along any track is at most the total change of
the kinetic energy, in eV, over W. -/
theorem C95_electrons {σ : Type} {rng : Gen σ} (hr : LawfulGen rng) {track : List Row} {nucleus : Nucleus}
    {params : DetectorParams} (hF : params.fano_factor = 0) (hW : 0 < params.w_value) {s s' : σ}
    {primary : List ℤ} (h : generate_electrons track nucleus params rng s = .ok (primary, s')) :
    (primary.sum : ℝ) ≤ energyVariation nucleus track * 1000000 / params.w_value := by
  unfold generate_electrons at h
  simp only at h
  rw [if_neg hW.ne', hF] at h
  obtain ⟨xs, hx1, hx2⟩ := fano_draws_zero hr h
  cases track with
  | nil =>
    have : xs = [] := by simpa [energy_lost] using hx1
    subst this
    simp [hx2, energyVariation]
  | cons first rest =>
    simp only [List.map_cons, energy_lost, Option.map_some, zero_mul] at hx1
    cases xs with
    | nil => simp at hx1
    | cons x xs =>
      simp only [List.map_cons, List.cons.injEq, Option.some.injEq] at hx1
      obtain ⟨hx0, hxs⟩ := hx1
      have hp0 : pyInt x = 0 := by rw [← hx0]; simp [pyInt]
      have := go_sum_variation (c := 1.0e6 / params.w_value) (by positivity) first rest xs hxs
      rw [hx2, List.map_cons, List.sum_cons, hp0, zero_add]
      refine this.trans (le_of_eq ?_)
      norm_num
      ring

/-- The heights of a solution that starts between the two ends of the detector stay between them. -/
theorem solves_height {vertex momentum : ℝ × ℝ × ℝ} {nucleus : Nucleus} {params : DetectorParams}
    {traj : ℝ → Row} {T : ℝ} (h : Solves (trajectory_problem vertex momentum nucleus params) traj T)
    (h0 : 0 ≤ vertex.2.2) (h1 : vertex.2.2 ≤ 1) {t : ℝ} (ht : t ∈ Set.Icc 0 T) :
    0 ≤ (traj t).z ∧ (traj t).z ≤ 1 := by
  have hr := h.events t ht
  constructor
  · have := (hr ⟨fun _ s => .ok (backward_z_bound_condition s), true, -1⟩ (by simp [trajectory_problem])
      rfl _ rfl _ (List.mem_singleton.2 rfl)).2 (by norm_num)
      (by simpa [backward_z_bound_condition, trajectory_problem] using h0)
    obtain ⟨v, hv, hv0⟩ := this
    have := Except.ok.inj hv
    simp only [backward_z_bound_condition] at this
    linarith
  · have := (hr ⟨fun _ s => .ok (forward_z_bound_condition s), true, 1⟩ (by simp [trajectory_problem])
      rfl _ rfl _ (List.mem_singleton.2 rfl)).1 (by norm_num)
      (by simpa [forward_z_bound_condition, trajectory_problem] using h1)
    obtain ⟨v, hv, hv0⟩ := this
    have := Except.ok.inj hv
    simp only [forward_z_bound_condition] at this
    linarith

/-- Twice the energy, in MeV, that the electric field can supply to nucleus `idx` of the event over one
metre, the length of the volume the trajectories are confined to; 0 for neutral nuclei. The factor
`1 + 2e-9` is the rounding of the constants of the program. -/
noncomputable def fieldSupply (env : SimEnv) (Zs As : List ℤ) (E : ℝ) (idx : ℤ) : ℝ :=
  match pyGet Zs idx, pyGet As idx with
  | .ok z, .ok a =>
    if z = 0 then 0
    else match env.get_data z a with
      | .ok n => 2 * (1 + 2e-9) * (|n.Z * E| / 1000000)
      | .error _ => 0
  | _, _ => 0

/-- Along the trajectory of an exact solver the kinetic energy changes in total by at most its initial value
plus twice the energy that the field can supply over one metre. -/
theorem exact_variation {ivp : IvpSolver} {vertex : ℝ × ℝ × ℝ} {px py pz : ℝ} {nucleus : Nucleus}
    {params : DetectorParams} {track : List Row} (hm0 : 0 < nucleus.mass)
    (hdedx : ∀ k, 0 ≤ params.gas_target.get_dedx nucleus k) (hrho : 0 ≤ params.gas_target.density)
    (hsol : SolvesExactly ivp) (hz0 : 0 ≤ vertex.2.2) (hz1 : vertex.2.2 ≤ 1)
    (ht : generate_trajectory ivp vertex (px, py, pz) nucleus params = .ok track) :
    energyVariation nucleus track ≤ Real.sqrt (px ^ 2 + py ^ 2 + pz ^ 2 + nucleus.mass ^ 2) - nucleus.mass
      + 2 * (1 + 2e-9) * (|nucleus.Z * params.efield| / 1000000) := by
  unfold generate_trajectory at ht
  split at ht
  · cases ht
  rename_i solution hs
  obtain rfl := Except.ok.inj ht
  obtain ⟨traj, T, times, hS, hmem, hinc, rfl⟩ := hsol _ _ hs
  have hmap : ((times.map fun t => (t, traj t)).map Prod.snd) = times.map traj := by
    rw [List.map_map]; rfl
  rw [hmap]
  have hex : ExactSolution traj 0 T (params.bfield * -1) (params.efield * -1)
      params.gas_target nucleus := hS.deriv
  have := C95_variation hm0 (hdedx) hrho hS.span hex (L := 1) (by
    intro s hs t ht
    have h1 := solves_height hS hz0 hz1 hs
    have h2 := solves_height hS hz0 hz1 ht
    rw [abs_le]
    constructor <;> linarith) hmem hinc
  have hst : traj 0 = _ := hS.start
  change _ ≤ kinetic nucleus (traj 0) + _ at this
  rw [hst, kinetic_initial hm0, mul_one] at this
  refine this.trans (le_of_eq ?_)
  rw [← mul_assoc, mul_neg_one, abs_neg]

/-- **C95.** With an exact solver, for any electric and magnetic field, and without fluctuations, the total
charge of an event is at most the gain times the kinetic energy of its charged nuclei plus twice the energy
that the field can supply to them over the length of the detector, in eV, over W. -/
theorem C95_charge {σ : Type} {env : SimEnv} {momenta : List Vec4} {vertex : ℝ × ℝ × ℝ}
    {Zs As : List ℤ} {config : Config} {grid : PadGrid} {g : GridEdges} (hb : 0 < g.bin)
    (hgrid : config.pad_grid = some (grid, g)) {rng : Gen σ} (hr : LawfulGen rng)
    (hgain : 0 ≤ config.det_params.mpgd_gain) (hF : config.det_params.fano_factor = 0)
    (hW : 0 < config.det_params.w_value) (hsol : SolvesExactly env.solve_ivp)
    (hz0 : 0 ≤ vertex.2.2) (hz1 : vertex.2.2 ≤ 1)
    (hmass : ∀ z a n, env.get_data z a = .ok n → 0 < n.mass)
    (hdedx : ∀ n k, 0 ≤ config.det_params.gas_target.get_dedx n k)
    (hrho : 0 ≤ config.det_params.gas_target.density)
    {indices : List ℤ} {s s' : σ} {cloud : List CloudPoint} {labels : List ℤ}
    (h : simulate env momenta vertex Zs As config rng indices s = .ok ((cloud, labels), s')) :
    (cloud.map (·.e)).sum ≤ config.det_params.mpgd_gain *
      (((indices.map (ionising env momenta Zs As)).sum
        + (indices.map (fieldSupply env Zs As config.det_params.efield)).sum) * 1000000
        / config.det_params.w_value) := by
  obtain ⟨n, s₁, h1, -, h2⟩ := C76_charge_bound hb hgrid hr hgain h
  refine h2.trans ?_
  have hg : (0 : ℝ) ≤ config.det_params.mpgd_gain := by exact_mod_cast hgain
  push_cast
  refine mul_le_mul_of_nonneg_left ?_ hg
  clear h h2
  induction h1 with
  | nil s => simp
  | neutral idx rest s s' n hz _ ih =>
    refine ih.trans (le_of_eq ?_)
    have h1 : ionising env momenta Zs As idx = 0 := by
      unfold ionising
      rw [hz]
      cases pyGet As idx <;> cases pyGet momenta idx <;> simp
    have h2 : fieldSupply env Zs As config.det_params.efield idx = 0 := by
      unfold fieldSupply
      rw [hz]
      cases pyGet As idx <;> simp
    rw [List.map_cons, List.sum_cons, List.map_cons, List.sum_cons, h1, h2, zero_add, zero_add]
  | charged idx z a nucleus momentum track primary rest s s₁ s' n hz hz' ha hn hm ht he _ ih =>
    have hm0 := hmass _ _ _ hn
    have hv := exact_variation hm0 (hdedx nucleus) hrho hsol hz0 hz1 ht
    have hion : ionising env momenta Zs As idx
        = Real.sqrt (momentum.px ^ 2 + momentum.py ^ 2 + momentum.pz ^ 2 + nucleus.mass ^ 2)
          - nucleus.mass := by
      unfold ionising
      rw [hz, ha, hm]
      simp only [if_neg hz', hn]
    have hfs : fieldSupply env Zs As config.det_params.efield idx
        = 2 * (1 + 2e-9) * (|nucleus.Z * config.det_params.efield| / 1000000) := by
      unfold fieldSupply
      rw [hz, ha]
      simp only [if_neg hz', hn]
    rw [← hion, ← hfs] at hv
    have hel := C95_electrons hr hF hW he
    rw [List.map_cons, List.sum_cons, List.map_cons, List.sum_cons, released_eq hr hF hW he, Int.cast_add]
    have hv' : energyVariation nucleus track * 1000000 / config.det_params.w_value
        ≤ (ionising env momenta Zs As idx + fieldSupply env Zs As config.det_params.efield idx)
          * 1000000 / config.det_params.w_value := by
      gcongr
    refine (add_le_add (hel.trans hv') ih).trans (le_of_eq ?_)
    ring

/-- The configuration of the example, with a gas that stops with 3 MeV/m and a field of 1 V/m. -/
noncomputable def exFieldConfig : Config :=
  { exConfig 100 0 with det_params := { exDet 100 0 with gas_target := exStopGas } }

/-- The deceleration of the example nucleus by the gas and the field. -/
noncomputable def exDecel : ℝ := (E_CHARGE + 3 * MEV_2_JOULE) / (6 * MEV_2_KG) / 299792458

open Classical in
/-- A solver that knows the motion of the example nucleus, from 1.5 MeV to 0.5 MeV, and fails for all other
problems. -/
noncomputable def exExactSolver : IvpSolver := fun P =>
  if P.t_span.1 = 0 ∧ Solves P (accelerated (-exDecel) (3 / 4) 0.5) (1 / (3 * exDecel)) then
    .ok ([0, 1 / (3 * exDecel)].map fun t => (t, accelerated (-exDecel) (3 / 4) 0.5 t))
  else .error .valueError

theorem exDecel_pos : 0 < exDecel := by
  unfold exDecel
  norm_num [E_CHARGE, MEV_2_JOULE, MEV_2_KG]

theorem exDecel_big : 299792458 / exDecel ≤ 2.1 := by
  unfold exDecel
  norm_num [E_CHARGE, MEV_2_JOULE, MEV_2_KG]

theorem exExactSolver_exact : SolvesExactly exExactSolver := by
  intro P sol h
  unfold exExactSolver at h
  split at h
  · rename_i hS
    obtain rfl := Except.ok.inj h
    have h0 : 0 ≤ 1 / (3 * exDecel) := by have := exDecel_pos; positivity
    refine ⟨_, _, _, hS.2, ?_, ?_, rfl⟩
    · rw [hS.1]
      intro t ht
      simp only [List.mem_cons, List.not_mem_nil, or_false] at ht
      rcases ht with rfl | rfl
      · exact ⟨le_rfl, h0⟩
      · exact ⟨h0, le_rfl⟩
    · simp only [List.pairwise_cons, List.mem_singleton, forall_eq, List.not_mem_nil, false_implies,
        implies_true, List.Pairwise.nil, and_true]
      exact h0
  · cases h

/-- `γβ` of the example nucleus falls from 3/4 to 5/12. -/
theorem exMotion_range {t : ℝ} (ht : t ∈ Set.Icc 0 (1 / (3 * exDecel))) :
    5 / 12 ≤ 3 / 4 + -exDecel * t ∧ 3 / 4 + -exDecel * t ≤ 3 / 4 := by
  have hd := exDecel_pos
  have h1 : exDecel * t ≤ exDecel * (1 / (3 * exDecel)) := mul_le_mul_of_nonneg_left ht.2 hd.le
  have e : exDecel * (1 / (3 * exDecel)) = 1 / 3 := by field_simp
  have h2 := mul_nonneg hd.le ht.1
  constructor <;> linarith

theorem exSolves : Solves (trajectory_problem (0, 0, 0.5) (0, 0, 4.5) exNucleus exFieldConfig.det_params)
    (accelerated (-exDecel) (3 / 4) 0.5) (1 / (3 * exDecel)) where
  start := by
    simp only [accelerated, trajectory_problem, exNucleus]
    norm_num
  span := by
    have := exDecel_pos
    change 0 ≤ _
    positivity
  deriv := by
    have hd := exDecel_pos
    refine accelerated_solution (s0 := 3) (T := 1 / (3 * exDecel)) (B := 1 * -1) (E := 1 * -1)
      (target := exStopGas) (n := exNucleus) (fun _ => rfl) (by linarith) ?_ ?_
    · simp only [exDecel, exStopGas, exNucleus]
      push_cast
      ring
    · intro t ht
      linarith [(exMotion_range ht).1]
  events := by
    intro t ht ev hev _ v₀ hv₀ ty hty
    obtain rfl := List.mem_singleton.1 hty
    have hd := exDecel_pos
    obtain ⟨h1, h2⟩ := exMotion_range (t := t) ht
    have hgv : (accelerated (-exDecel) (3 / 4) 0.5 t).gv = 3 / 4 + -exDecel * t :=
      sqrt_of_sq (by linarith) (by simp only [accelerated]; ring)
    have hlo : 13 / 12 ≤ Real.sqrt (1 + (3 / 4 + -exDecel * t) ^ 2) := by
      apply Real.le_sqrt_of_sq_le
      nlinarith
    have hhi : Real.sqrt (1 + (3 / 4 + -exDecel * t) ^ 2) ≤ 5 / 4 := by
      rw [Real.sqrt_le_iff]
      refine ⟨by norm_num, ?_⟩
      nlinarith
    have h54 : Real.sqrt (1 + (3 / 4) ^ 2) = 5 / 4 := sqrt_of_sq (by norm_num) (by norm_num)
    have hzv : (accelerated (-exDecel) (3 / 4) 0.5 t).z
        = 0.5 + 299792458 / exDecel * (5 / 4 - Real.sqrt (1 + (3 / 4 + -exDecel * t) ^ 2)) := by
      simp only [accelerated, h54]
      rw [div_neg]
      ring
    have hz : 0.5 ≤ (accelerated (-exDecel) (3 / 4) 0.5 t).z ∧
        (accelerated (-exDecel) (3 / 4) 0.5 t).z ≤ 0.9 := by
      rw [hzv]
      have hb := exDecel_big
      have hb0 : 0 ≤ 299792458 / exDecel := by positivity
      generalize Real.sqrt (1 + (3 / 4 + -exDecel * t) ^ 2) = γ at hlo hhi
      have h3 : 0 ≤ 299792458 / exDecel * (5 / 4 - γ) := mul_nonneg hb0 (by linarith)
      have h4 : 299792458 / exDecel * (5 / 4 - γ) ≤ 2.1 * (1 / 6) :=
        mul_le_mul hb (by linarith) (by linarith) (by norm_num)
      constructor
      · linarith
      · norm_num at h4 ⊢; linarith
    simp only [trajectory_problem, List.mem_cons, List.not_mem_nil, or_false] at hev
    rcases hev with rfl | rfl | rfl | rfl
    · refine ⟨fun h => by norm_num at h, fun _ _ => ?_⟩
      have hne : betaOf (accelerated (-exDecel) (3 / 4) 0.5 t).gv ≠ 0 := by
        rw [Ne, betaOf_eq_zero_iff, hgv]; linarith
      refine ⟨_, by simp only [stop_condition]; rw [if_neg hne], ?_⟩
      have hg0 : (accelerated (-exDecel) (3 / 4) 0.5 t).gv ≠ 0 := by rw [hgv]; linarith
      have hl : lorentz (accelerated (-exDecel) (3 / 4) 0.5 t)
          = Real.sqrt (1 + (3 / 4 + -exDecel * t) ^ 2) := by
        unfold lorentz gammaBetaSq accelerated
        simp only
        congr 1
        ring
      rw [betaOf_gv, div_div_cancel₀ hg0, hl]
      have : (0 : ℝ) ≤ 6 * (Real.sqrt (1 + (3 / 4 + -exDecel * t) ^ 2) - 1) - 1e-6 := by
        norm_num at hlo ⊢; linarith
      exact this
    · refine ⟨fun _ _ => ⟨_, rfl, ?_⟩, fun h => by norm_num at h⟩
      unfold forward_z_bound_condition
      norm_num at hz ⊢
      linarith [hz.2]
    · refine ⟨fun h => by norm_num at h, fun _ _ => ⟨_, rfl, ?_⟩⟩
      unfold backward_z_bound_condition
      norm_num at hz ⊢
      linarith [hz.1]
    · refine ⟨fun _ _ => ⟨_, rfl, ?_⟩, fun h => by norm_num at h⟩
      unfold rho_bound_condition accelerated
      norm_num

/-- The hypotheses of C95 are met by an example event: the nucleus is slowed down from 1.5 MeV to 0.5 MeV by
the gas and the field and makes 100 electrons out of at most 150.1. -/
example : SolvesExactly exExactSolver ∧
    ∃ cloud labels, simulate { exEnv with solve_ivp := exExactSolver } exMomenta (0, 0, 0.5) [1, 1, 1]
      [1, 1, 1] exFieldConfig exGen [2] () = .ok ((cloud, labels), ()) ∧
    (cloud.map (·.e)).sum ≤ 150.1 := by
  refine ⟨exExactSolver_exact, ?_⟩
  have hd := exDecel_pos
  have e : -exDecel * (1 / (3 * exDecel)) = -(1 / 3) := by field_simp
  have h54 : Real.sqrt (1 + (3 / 4 : ℝ) ^ 2) = 5 / 4 := sqrt_of_sq (by norm_num) (by norm_num)
  obtain ⟨z1, hz1⟩ : ∃ z1, (accelerated (-exDecel) (3 / 4) 0.5 (1 / (3 * exDecel))) = { exTrack1 with z := z1 } := by
    refine ⟨(accelerated (-exDecel) (3 / 4) 0.5 (1 / (3 * exDecel))).z, ?_⟩
    simp only [accelerated, exTrack1, e]
    norm_num
  have hz0 : (accelerated (-exDecel) (3 / 4) 0.5 0) = { exTrack0 with z := 0.5 } := by
    simp only [accelerated, exTrack0]
    norm_num
  have ht : generate_trajectory exExactSolver (0, 0, 0.5) (0, 0, 4.5) exNucleus exFieldConfig.det_params
      = .ok [{ exTrack0 with z := 0.5 }, { exTrack1 with z := z1 }] := by
    unfold generate_trajectory exExactSolver
    rw [if_pos ⟨rfl, exSolves⟩]
    simp only [List.map_cons, List.map_nil, hz0, hz1]
  have hn := generate_point_cloud_of (ivp := exExactSolver) (momentum := (0, 0, 4.5)) (vertex := (0, 0, 0.5))
    (nucleus := exNucleus) exEdges_bin (config := exFieldConfig) (grid := exGrid) rfl [] 2
    ht (exElectrons' exFieldConfig.det_params rfl rfl 0.5 z1) (by
      intro re _
      refine ⟨by norm_num [exFieldConfig, exDet], ?_⟩
      simp [exFieldConfig, exDet])
  have hs : simulate_nucleus { exEnv with solve_ivp := exExactSolver } exMomenta (0, 0, 0.5) [1, 1, 1]
      [1, 1, 1] exFieldConfig exGen ([], ()) 2 = .ok _ := hn
  have h : ∃ cloud labels, simulate { exEnv with solve_ivp := exExactSolver } exMomenta (0, 0, 0.5) [1, 1, 1]
      [1, 1, 1] exFieldConfig exGen [2] () = .ok ((cloud, labels), ()) := by
    unfold simulate
    simp only [List.foldlM_cons, List.foldlM_nil, hs, bind, Except.bind, pure, Except.pure]
    exact ⟨_, _, rfl⟩
  obtain ⟨cloud, labels, h⟩ := h
  refine ⟨cloud, labels, h, ?_⟩
  refine (C95_charge exEdges_bin rfl exGen_lawful (by norm_num [exFieldConfig, exDet]) rfl
    (by norm_num [exFieldConfig, exDet]) exExactSolver_exact (by norm_num) (by norm_num) (by
      intro z a n hn
      obtain rfl := Except.ok.inj hn
      norm_num [exNucleus]) (fun _ _ => by norm_num [exFieldConfig, exStopGas])
      (by norm_num [exFieldConfig, exStopGas]) h).trans ?_
  have hi : ionising { exEnv with solve_ivp := exExactSolver } exMomenta [1, 1, 1] [1, 1, 1] 2 = 1.5 := by
    change Real.sqrt (0 ^ 2 + 0 ^ 2 + 4.5 ^ 2 + 6 ^ 2) - 6 = 1.5
    rw [sqrt_of_sq (y := 7.5) (by norm_num) (by norm_num)]
    norm_num
  have hf : fieldSupply { exEnv with solve_ivp := exExactSolver } [1, 1, 1] [1, 1, 1] 1 2
      = 2 * (1 + 2e-9) * (|((1 : ℤ) : ℝ) * 1| / 1000000) := rfl
  simp only [List.map_cons, List.map_nil, List.sum_cons, List.sum_nil, hi, exFieldConfig, exConfig, exDet, hf]
  norm_num

end Verif.Detector
