import Verif.Props.FieldWork

/-! # C98: the energy a nucleus loses and the electrons released along its trajectory -/

namespace Verif.Detector

open Verif.Spec Verif.Kinematics

/-- The requested evaluation times up to the end `T` of the integration. -/
noncomputable def evaluated (P : IvpProblem) (T : ℝ) : List ℝ := P.t_eval.filter fun t => decide (t ≤ T)

theorem speed_le (r : Row) : speed r ≤ 299792458 := by
  unfold speed velocity
  rw [Real.sqrt_le_iff]
  refine ⟨by norm_num, ?_⟩
  have hl := lorentz_pos r
  have hsq : lorentz r ^ 2 = 1 + gammaBetaSq r := by
    unfold lorentz
    rw [Real.sq_sqrt]
    have := gammaBetaSq_nonneg r
    linarith
  have e : (r.gvx / lorentz r * 299792458) ^ 2 + (r.gvy / lorentz r * 299792458) ^ 2
      + (r.gvz / lorentz r * 299792458) ^ 2
      = gammaBetaSq r / lorentz r ^ 2 * 299792458 ^ 2 := by
    unfold gammaBetaSq
    ring
  simp only [e]
  have : gammaBetaSq r / lorentz r ^ 2 ≤ 1 := by
    rw [div_le_one (by positivity), hsq]
    linarith
  nlinarith

/-- Over a time `t - s` a gas that stops with at most `S` MeV/m takes at most `S c (t - s)` MeV. -/
theorem kinetic_drop_le {traj : ℝ → Row} {a b B : ℝ} {target : GasTarget} {n : Nucleus}
    (hm : 0 < n.mass) (hsol : ExactSolution traj a b B 0 target n) {S : ℝ} (hS0 : 0 ≤ S)
    (hS : ∀ τ ∈ Set.Icc a b, stopping target n (traj τ) ≤ S) {s t : ℝ} (has : a ≤ s) (hst : s ≤ t)
    (htb : t ≤ b) :
    kinetic n (traj s) - kinetic n (traj t) ≤ S * 299792458 * (t - s) * (1 + 1e-9) := by
  have hJ : 0 < MEV_2_JOULE := by norm_num [MEV_2_JOULE]
  have hsub : Set.Icc s t ⊆ Set.Icc a b := Set.Icc_subset_Icc has htb
  have hmono : MonotoneOn (fun τ => totalEnergy n 0 (traj τ) + MEV_2_JOULE * (S * 299792458) * τ)
      (Set.Icc s t) := by
    have hder : ∀ τ ∈ Set.Icc a b, HasDerivAt
        (fun τ => totalEnergy n 0 (traj τ) + MEV_2_JOULE * (S * 299792458) * τ)
        (-(MEV_2_JOULE * (stopping target n (traj τ) * speed (traj τ))) + MEV_2_JOULE * (S * 299792458)) τ := by
      intro τ hτ
      exact (totalEnergy_deriv_speed hm hsol τ hτ).add
        (by simpa using (hasDerivAt_id τ).const_mul (MEV_2_JOULE * (S * 299792458)))
    apply monotoneOn_of_deriv_nonneg (convex_Icc s t)
    · exact fun τ hτ => (hder τ (hsub hτ)).continuousAt.continuousWithinAt
    · exact fun τ hτ => (hder τ (hsub (interior_subset hτ))).differentiableAt.differentiableWithinAt
    · intro τ hτ
      have hτ' := hsub (interior_subset hτ)
      rw [(hder τ hτ').deriv]
      have h1 : stopping target n (traj τ) * speed (traj τ) ≤ S * 299792458 :=
        mul_le_mul (hS τ hτ') (speed_le _) (Real.sqrt_nonneg _) hS0
      have := mul_le_mul_of_nonneg_left h1 hJ.le
      linarith
  have h := hmono ⟨le_rfl, hst⟩ ⟨hst, le_rfl⟩ hst
  simp only [totalEnergy] at h
  unfold kinetic
  have hd : 0 ≤ S * 299792458 * (t - s) := mul_nonneg (by positivity) (sub_nonneg.2 hst)
  obtain ⟨c, hc⟩ : ∃ c, c = MEV_2_KG * 299792458 ^ 2 / MEV_2_JOULE := ⟨_, rfl⟩
  have hc1 : 1 - 9e-10 ≤ c := by rw [hc]; norm_num [MEV_2_KG, MEV_2_JOULE]
  have hcJ : MEV_2_KG * 299792458 ^ 2 = c * MEV_2_JOULE := by rw [hc]; field_simp
  obtain ⟨D, hD⟩ : ∃ D, D = n.mass * (lorentz (traj s) - 1) - n.mass * (lorentz (traj t) - 1) := ⟨_, rfl⟩
  rw [← hD]
  have h2 : MEV_2_KG * 299792458 ^ 2 * D ≤ MEV_2_JOULE * (S * 299792458 * (t - s)) := by
    rw [hD]; linarith
  rw [hcJ] at h2
  have h3 : c * D ≤ S * 299792458 * (t - s) := by
    refine le_of_mul_le_mul_left ?_ hJ
    linarith
  by_contra hcon
  push Not at hcon
  have h4 : 0 < D := lt_of_le_of_lt (by positivity) hcon
  have h5 : (1 - 9e-10) * D ≤ c * D := mul_le_mul_of_nonneg_right hc1 h4.le
  nlinarith

/-- Every number of electrons falls short of its mean by less than one. -/
theorem go_sum_lower {nucleus : Nucleus} {c : ℝ} (hc : 0 ≤ c) (a : Row) (rest : List Row) (xs : List ℝ)
    (hxs : (energy_lost.go (track_energy nucleus a) (rest.map (track_energy nucleus))).map
      (Option.map (· * c)) = xs.map some) :
    energyVariation nucleus (a :: rest) * c ≤ ((xs.map pyInt).sum : ℝ) + rest.length := by
  induction rest generalizing a xs with
  | nil =>
    have : xs = [] := by simpa [energy_lost.go] using hxs
    subst this
    simp [energyVariation]
  | cons b rest ih =>
    simp only [List.map_cons, energy_lost.go] at hxs
    cases xs with
    | nil => simp at hxs
    | cons x xs =>
      simp only [List.map_cons, List.cons.injEq] at hxs
      obtain ⟨h1, h2⟩ := hxs
      have hih := ih b xs h2
      have hx : x = |kinetic nucleus b - kinetic nucleus a| * c := by
        rcases ha : track_energy nucleus a with _ | ka
        · rw [ha] at h1; simp at h1
        · rcases hb : track_energy nucleus b with _ | kb
          · rw [ha, hb] at h1; simp at h1
          · rw [ha, hb] at h1
            simp only [Option.bind_eq_bind, Option.bind_some, Option.pure_def, Option.map_some,
              Option.some.injEq] at h1
            rw [← h1, track_energy_some ha, track_energy_some hb]
      have hx0 : 0 ≤ x := by rw [hx]; exact mul_nonneg (abs_nonneg _) hc
      have hp : x ≤ (pyInt x : ℝ) + 1 := by
        unfold pyInt
        rw [if_pos hx0]
        exact (Int.lt_floor_add_one x).le
      rw [List.map_cons, List.sum_cons, Int.cast_add, energyVariation, add_mul, ← hx, List.length_cons,
        Nat.cast_add_one]
      linarith

theorem electrons_lower {σ : Type} {rng : Gen σ} (hr : LawfulGen rng) {track : List Row} {nucleus : Nucleus}
    {params : DetectorParams} (hF : params.fano_factor = 0) (hW : 0 < params.w_value) {s s' : σ}
    {primary : List ℤ} (h : generate_electrons track nucleus params rng s = .ok (primary, s')) :
    energyVariation nucleus track * 1000000 / params.w_value
      ≤ (primary.sum : ℝ) + ((track.length - 1 : ℕ) : ℝ) := by
  unfold generate_electrons at h
  simp only at h
  rw [if_neg hW.ne', hF] at h
  obtain ⟨xs, hx1, hx2⟩ := fano_draws_zero hr h
  cases track with
  | nil =>
    have : xs = [] := by simpa [energy_lost] using hx1
    subst this
    simp [hx2, energyVariation]
  | cons first rest =>
    simp only [List.map_cons, energy_lost, Option.map_some, zero_mul] at hx1
    cases xs with
    | nil => simp at hx1
    | cons x xs =>
      simp only [List.map_cons, List.cons.injEq, Option.some.injEq] at hx1
      obtain ⟨hx0, hxs⟩ := hx1
      have hp0 : pyInt x = 0 := by rw [← hx0]; simp [pyInt]
      have := go_sum_lower (c := 1.0e6 / params.w_value) (by positivity) first rest xs hxs
      rw [hx2, List.map_cons, List.sum_cons, hp0, zero_add]
      simp only [List.length_cons, Nat.add_sub_cancel]
      refine le_trans (le_of_eq ?_) this
      norm_num
      ring

/-- If energy is only lost, the changes between the points add up to the change between the first and the
last. -/
theorem variation_eq {traj : ℝ → Row} {a b : ℝ} {n : Nucleus}
    (h : AntitoneOn (fun t => kinetic n (traj t)) (Set.Icc a b)) :
    ∀ (times : List ℝ), (∀ t ∈ times, t ∈ Set.Icc a b) → times.Pairwise (· ≤ ·) →
      ∀ t₀ t₁, times.head? = some t₀ → times.getLast? = some t₁ →
        energyVariation n (times.map traj) = kinetic n (traj t₀) - kinetic n (traj t₁)
  | [], _, _, _, _, h0, _ => by simp at h0
  | [t], _, _, t₀, t₁, h0, h1 => by
    simp only [List.head?_cons, Option.some.injEq] at h0
    simp only [List.getLast?_singleton, Option.some.injEq] at h1
    subst h0 h1
    simp [energyVariation]
  | t :: t' :: rest, hm, hp, t₀, t₁, h0, h1 => by
    simp only [List.head?_cons, Option.some.injEq] at h0
    subst h0
    have ih := variation_eq h (t' :: rest) (fun x hx => hm x (List.mem_cons_of_mem _ hx))
      (List.pairwise_cons.1 hp).2 t' t₁ rfl (by simpa using h1)
    have h2 := h (hm t (by simp)) (hm t' (by simp)) ((List.pairwise_cons.1 hp).1 t' (by simp))
    simp only [List.map_cons, energyVariation] at ih ⊢
    simp only at h2
    rw [ih, abs_sub_comm, abs_of_nonneg (by linarith)]
    ring

theorem linspace_filter {stop T : ℝ} {n : ℕ} (h0 : 0 ≤ T) (hst : stop / (n : ℝ) = 1e-10)
    (hle : ⌊T * 1e10⌋₊ ≤ n) :
    (linspace0 stop n).filter (fun t => decide (t ≤ T))
      = (List.range (⌊T * 1e10⌋₊ + 1)).map fun k : ℕ => (k : ℝ) * 1e-10 := by
  unfold linspace0
  rw [List.filter_map, hst]
  congr 1
  have hp : ∀ k : ℕ, ((fun t : ℝ => decide (t ≤ T)) ∘ fun k : ℕ => (k : ℝ) * 1e-10) k
      = decide (k < ⌊T * 1e10⌋₊ + 1) := by
    intro k
    simp only [Function.comp]
    congr 1
    rw [Nat.lt_succ_iff, Nat.le_floor_iff (by positivity), eq_iff_iff]
    constructor <;> intro h <;> linarith
  obtain ⟨j, rfl⟩ : ∃ j, n = ⌊T * 1e10⌋₊ + j := ⟨n - ⌊T * 1e10⌋₊, by omega⟩
  rw [List.filter_congr (fun k _ => hp k), Nat.add_right_comm, List.range_add, List.filter_append,
    List.filter_eq_self.2 (by simp), List.filter_eq_nil_iff.2 (by simp; omega), List.append_nil]

/-- The evaluation times of the program up to `T`. -/
theorem evaluated_eq {vertex momentum : ℝ × ℝ × ℝ} {nucleus : Nucleus} {params : DetectorParams}
    {T : ℝ} (h0 : 0 ≤ T) (h1 : T ≤ 1e-6) :
    evaluated (trajectory_problem vertex momentum nucleus params) T
      = (List.range (⌊T * 1e10⌋₊ + 1)).map fun k : ℕ => (k : ℝ) * 1e-10 := by
  have hle : ⌊T * 1e10⌋₊ ≤ 10000 := by
    have : T * 1e10 ≤ 10000 := by linarith
    exact Nat.floor_le_of_le (by exact_mod_cast this)
  unfold evaluated
  dsimp only [trajectory_problem]
  rw [TIME_STEPS]
  exact linspace_filter h0 (by norm_num) hle

/-- The evaluation times of the program up to `T`: every 0.1 ns from 0, the last less than 0.1 ns before
`T`. -/
theorem evaluated_times {vertex momentum : ℝ × ℝ × ℝ} {nucleus : Nucleus} {params : DetectorParams}
    {T : ℝ} (h0 : 0 ≤ T) (h1 : T ≤ 1e-6) :
    (∀ t ∈ evaluated (trajectory_problem vertex momentum nucleus params) T, t ∈ Set.Icc 0 T) ∧
    (evaluated (trajectory_problem vertex momentum nucleus params) T).Pairwise (· ≤ ·) ∧
    (evaluated (trajectory_problem vertex momentum nucleus params) T).head? = some 0 ∧
    ∃ t₁, (evaluated (trajectory_problem vertex momentum nucleus params) T).getLast? = some t₁ ∧
      T - t₁ ≤ 1e-10 ∧
      (((evaluated (trajectory_problem vertex momentum nucleus params) T).length - 1 : ℕ) : ℝ) ≤ T * 1e10 := by
  have hfl : (⌊T * 1e10⌋₊ : ℝ) ≤ T * 1e10 := Nat.floor_le (by positivity)
  rw [evaluated_eq h0 h1]
  refine ⟨?_, ?_, ?_, (⌊T * 1e10⌋₊ : ℝ) * 1e-10, ?_, ?_, ?_⟩
  · intro t ht
    rw [List.mem_map] at ht
    obtain ⟨k, hk, rfl⟩ := ht
    have : (k : ℝ) ≤ ⌊T * 1e10⌋₊ := by exact_mod_cast Nat.lt_succ_iff.1 (List.mem_range.1 hk)
    exact ⟨by positivity, by linarith⟩
  · rw [List.pairwise_map]
    refine List.pairwise_lt_range.imp ?_
    intro a b hab
    have : (a : ℝ) ≤ b := by exact_mod_cast hab.le
    linarith
  · rw [List.range_succ_eq_map]
    simp
  · rw [List.range_succ]
    simp
  · have := Nat.lt_floor_add_one (T * 1e10)
    linarith
  · simpa using hfl

/-- The electrons released along the track of an exact solution account for the energy lost until the last
evaluated time, up to one electron for every 0.1 ns of flight. -/
theorem deposit_core {σ : Type} {rng : Gen σ} (hr : LawfulGen rng) {vertex momentum : ℝ × ℝ × ℝ}
    {nucleus : Nucleus} {params : DetectorParams} {traj : ℝ → Row} {T : ℝ}
    (hsol : Solves (trajectory_problem vertex momentum nucleus params) traj T) (hT : T ≤ 1e-6)
    (hm : 0 < nucleus.mass) (hE : params.efield = 0) (hF : params.fano_factor = 0) (hW : 0 < params.w_value)
    (hdedx : ∀ k, 0 ≤ params.gas_target.get_dedx nucleus k) (hrho : 0 ≤ params.gas_target.density)
    {s s' : σ} {primary : List ℤ}
    (h : generate_electrons
      ((evaluated (trajectory_problem vertex momentum nucleus params) T).map traj) nucleus params rng s
        = .ok (primary, s')) :
    ∃ t₁ ∈ Set.Icc 0 T, T - t₁ ≤ 1e-10 ∧ kinetic nucleus (traj T) ≤ kinetic nucleus (traj t₁) ∧
      (primary.sum : ℝ) * params.w_value ≤ (kinetic nucleus (traj 0) - kinetic nucleus (traj t₁)) * 1000000 ∧
      (kinetic nucleus (traj 0) - kinetic nucleus (traj t₁)) * 1000000
        ≤ (primary.sum + T * 1e10) * params.w_value := by
  have h0T : 0 ≤ T := hsol.span
  have hex : ExactSolution traj 0 T (params.bfield * -1) 0 params.gas_target nucleus := by
    have : ExactSolution traj 0 T (params.bfield * -1) (params.efield * -1) params.gas_target nucleus :=
      hsol.deriv
    rwa [hE, zero_mul] at this
  have hanti := C22_energy_antitone hm hdedx hrho hex
  obtain ⟨hmem, hinc, hhead, t₁, hlast, htail, hcount⟩ :=
    evaluated_times (vertex := vertex) (momentum := momentum) (nucleus := nucleus) (params := params) h0T hT
  have ht₁ := hmem t₁ (List.mem_of_getLast? hlast)
  have hvar := variation_eq hanti _ hmem hinc 0 t₁ hhead hlast
  have hup := C95_electrons hr hF hW h
  have hlo := electrons_lower hr hF hW h
  rw [hvar] at hup hlo
  rw [List.length_map] at hlo
  rw [le_div_iff₀ hW] at hup
  rw [div_le_iff₀ hW] at hlo
  refine ⟨t₁, ht₁, htail, hanti ht₁ ⟨h0T, le_rfl⟩ ht₁.2, hup, ?_⟩
  have h2 : ((((evaluated (trajectory_problem vertex momentum nucleus params) T).length - 1 : ℕ) : ℝ))
      * params.w_value ≤ T * 1e10 * params.w_value := mul_le_mul_of_nonneg_right hcount hW.le
  nlinarith

/-- C98, the part that holds: without electric field and fluctuations, and for an exact solver, the
electrons released along the track account for the energy the nucleus loses until its trajectory ends at
`T`, up to one electron for every 0.1 ns of flight and the energy lost in the last 0.1 ns, where the gas
stops with at most `S` MeV/m.
Missing: the fractions of electrons that are cut off at every time step and the energy lost after the last
time step, for flights longer than 1 µs all that is lost after the first microsecond. -/
theorem C98_partial {σ : Type} {rng : Gen σ} (hr : LawfulGen rng) {vertex momentum : ℝ × ℝ × ℝ}
    {nucleus : Nucleus} {params : DetectorParams} {traj : ℝ → Row} {T : ℝ}
    (hsol : Solves (trajectory_problem vertex momentum nucleus params) traj T) (hT : T ≤ 1e-6)
    (hm : 0 < nucleus.mass) (hE : params.efield = 0) (hF : params.fano_factor = 0) (hW : 0 < params.w_value)
    (hdedx : ∀ k, 0 ≤ params.gas_target.get_dedx nucleus k) (hrho : 0 ≤ params.gas_target.density)
    {S : ℝ} (hS : ∀ t ∈ Set.Icc 0 T, stopping params.gas_target nucleus (traj t) ≤ S)
    {s s' : σ} {primary : List ℤ}
    (h : generate_electrons
      ((evaluated (trajectory_problem vertex momentum nucleus params) T).map traj) nucleus params rng s
        = .ok (primary, s')) :
    (primary.sum : ℝ) * params.w_value ≤ (kinetic nucleus (traj 0) - kinetic nucleus (traj T)) * 1000000 ∧
    (kinetic nucleus (traj 0) - kinetic nucleus (traj T)) * 1000000
      ≤ (primary.sum + T * 1e10) * params.w_value + S * 0.03 * 1000000 := by
  have h0T : 0 ≤ T := hsol.span
  have hex : ExactSolution traj 0 T (params.bfield * -1) 0 params.gas_target nucleus := by
    have : ExactSolution traj 0 T (params.bfield * -1) (params.efield * -1) params.gas_target nucleus :=
      hsol.deriv
    rwa [hE, zero_mul] at this
  have hS0 : 0 ≤ S := (mul_nonneg (mul_nonneg (hdedx _) hrho) (by norm_num)).trans (hS 0 ⟨le_rfl, h0T⟩)
  obtain ⟨t₁, ht₁, htail, hlast, hup, hlo⟩ := deposit_core hr hsol hT hm hE hF hW hdedx hrho h
  have hdrop := kinetic_drop_le hm hex hS0 hS ht₁.1 ht₁.2 le_rfl
  constructor
  · linarith
  · have h1 : S * 299792458 * (T - t₁) * (1 + 1e-9) ≤ S * 0.03 := by
      have : S * (T - t₁) ≤ S * 1e-10 := mul_le_mul_of_nonneg_left htail hS0
      nlinarith
    nlinarith

/-- The evaluation times end after a microsecond. -/
theorem evaluated_long {vertex momentum : ℝ × ℝ × ℝ} {nucleus : Nucleus} {params : DetectorParams}
    {T : ℝ} (h : 1e-6 ≤ T) : evaluated (trajectory_problem vertex momentum nucleus params) T
      = evaluated (trajectory_problem vertex momentum nucleus params) 1e-6 := by
  unfold evaluated
  refine List.filter_congr fun t ht => ?_
  have hle : t ≤ 1e-6 := by
    dsimp only [trajectory_problem] at ht
    rw [TIME_STEPS, linspace0] at ht
    obtain ⟨k, hk, rfl⟩ := List.mem_map.1 ht
    have hk' : k ≤ 10000 := Nat.lt_succ_iff.1 (List.mem_range.1 hk)
    have : (k : ℝ) ≤ 10000 := by exact_mod_cast hk'
    push_cast
    linarith
  simp [hle, hle.trans h]

/-- C98, the part that holds for flights of a microsecond and longer: the electrons account for the energy lost
in the first microsecond only. -/
theorem C98_long_partial {σ : Type} {rng : Gen σ} (hr : LawfulGen rng) {vertex momentum : ℝ × ℝ × ℝ}
    {nucleus : Nucleus} {params : DetectorParams} {traj : ℝ → Row} {T : ℝ}
    (hsol : Solves (trajectory_problem vertex momentum nucleus params) traj T) (hT : 1e-6 ≤ T)
    (hm : 0 < nucleus.mass) (hE : params.efield = 0) (hF : params.fano_factor = 0) (hW : 0 < params.w_value)
    (hdedx : ∀ k, 0 ≤ params.gas_target.get_dedx nucleus k) (hrho : 0 ≤ params.gas_target.density)
    {S : ℝ} (hS : ∀ t ∈ Set.Icc 0 1e-6, stopping params.gas_target nucleus (traj t) ≤ S)
    {s s' : σ} {primary : List ℤ}
    (h : generate_electrons
      ((evaluated (trajectory_problem vertex momentum nucleus params) T).map traj) nucleus params rng s
        = .ok (primary, s')) :
    (primary.sum : ℝ) * params.w_value
      ≤ (kinetic nucleus (traj 0) - kinetic nucleus (traj 1e-6)) * 1000000 ∧
    (kinetic nucleus (traj 0) - kinetic nucleus (traj 1e-6)) * 1000000
      ≤ (primary.sum + 10000) * params.w_value + S * 0.03 * 1000000 := by
  rw [evaluated_long hT] at h
  have hsol' : Solves (trajectory_problem vertex momentum nucleus params) traj 1e-6 := by
    refine ⟨hsol.start, ?_, fun t ht => hsol.deriv t ⟨ht.1, ht.2.trans hT⟩,
      fun t ht => hsol.events t ⟨ht.1, ht.2.trans hT⟩⟩
    simp only [trajectory_problem]
    norm_num
  have := C98_partial hr hsol' le_rfl hm hE hF hW hdedx hrho hS h
  refine ⟨this.1, this.2.trans (le_of_eq ?_)⟩
  norm_num

/-! ## The claim itself is false -/

/-- An alpha particle. -/
def slowNucleus : Nucleus := { Z := 2, A := 4, mass := 3728, isotopic_symbol := "4He" }

/-- A thin gas, which stops the alpha particle with about 12 keV/m. -/
noncomputable def thinGas : GasTarget :=
  { density := 3728 * MEV_2_KG * 299792458 * 1000 / (MEV_2_JOULE * 100)
    get_dedx := fun _ _ => 1
    get_energy_loss := fun _ _ _ => 0 }

/-- `γβ` of the alpha particle falls from 0.003 to 0.002 in a microsecond. -/
theorem slow_range {t : ℝ} (ht : t ∈ Set.Icc (0 : ℝ) 1e-6) :
    0.002 ≤ 0.003 + -1000 * t ∧ 0.003 + -1000 * t ≤ 0.003 := by
  obtain ⟨h1, h2⟩ := ht
  constructor <;> linarith

theorem slow_lorentz (t : ℝ) : lorentz (accelerated (-1000) 0.003 0 t)
    = Real.sqrt (1 + (0.003 + -1000 * t) ^ 2) := by
  unfold lorentz gammaBetaSq accelerated
  simp only
  congr 1
  ring

theorem slow_gv {t : ℝ} (ht : t ∈ Set.Icc (0 : ℝ) 1e-6) :
    (accelerated (-1000) 0.003 0 t).gv = 0.003 + -1000 * t :=
  sqrt_of_sq (by linarith [(slow_range ht).1]) (by simp only [accelerated]; ring)

theorem sqrt_low {g : ℝ} (hg : 0.002 ≤ g) : 1.00000199 ≤ Real.sqrt (1 + g ^ 2) := by
  apply Real.le_sqrt_of_sq_le
  nlinarith

theorem sqrt_high {g : ℝ} (h0 : 0 ≤ g) (hg : g ≤ 0.003) : Real.sqrt (1 + g ^ 2) ≤ 1.0000045 := by
  rw [Real.sqrt_le_iff]
  refine ⟨by norm_num, ?_⟩
  nlinarith

theorem sqrt_diff {a b : ℝ} (hb : 0 ≤ b) (hab : b ≤ a) :
    0 ≤ Real.sqrt (1 + a ^ 2) - Real.sqrt (1 + b ^ 2) ∧
      Real.sqrt (1 + a ^ 2) - Real.sqrt (1 + b ^ 2) ≤ (a ^ 2 - b ^ 2) / 2 := by
  have hle : b ^ 2 ≤ a ^ 2 := by nlinarith
  refine ⟨sub_nonneg.2 (Real.sqrt_le_sqrt (by linarith)), ?_⟩
  have h1 : (1 : ℝ) ≤ Real.sqrt (1 + b ^ 2) := by
    apply Real.le_sqrt_of_sq_le
    nlinarith
  have h2 : Real.sqrt (1 + a ^ 2) ≤ Real.sqrt (1 + b ^ 2) + (a ^ 2 - b ^ 2) / 2 := by
    rw [Real.sqrt_le_iff]
    refine ⟨by linarith, ?_⟩
    have h3 : Real.sqrt (1 + b ^ 2) ^ 2 = 1 + b ^ 2 := Real.sq_sqrt (by positivity)
    nlinarith
  linarith

/-- The motion of the alpha particle in the thin gas. -/
theorem slow_solves {params : DetectorParams} (hgas : params.gas_target = thinGas) (hE : params.efield = 0) :
    Solves (trajectory_problem (0, 0, 0) (0, 0, 3728 * 0.003) slowNucleus params)
      (accelerated (-1000) 0.003 0) 1e-6 where
  start := by
    simp only [accelerated, trajectory_problem, slowNucleus]
    norm_num
  span := by
    change (0 : ℝ) ≤ _
    norm_num
  deriv := by
    change ExactSolution _ 0 _ (params.bfield * -1) (params.efield * -1) params.gas_target slowNucleus
    rw [hE, hgas, zero_mul]
    refine accelerated_solution (s0 := 1) (fun _ => rfl) (by norm_num) ?_ ?_
    · have hJ : MEV_2_JOULE ≠ 0 := by norm_num [MEV_2_JOULE]
      have hkg : MEV_2_KG ≠ 0 := by norm_num [MEV_2_KG]
      simp only [thinGas, slowNucleus]
      field_simp
      ring
    · intro t ht
      linarith [(slow_range ht).1]
  events := by
    intro t ht ev hev _ v₀ hv₀ ty hty
    obtain rfl := List.mem_singleton.1 hty
    obtain ⟨h1, h2⟩ := slow_range (t := t) ht
    have hgv := slow_gv (t := t) ht
    have hlo := sqrt_low h1
    have hhi := sqrt_high (by linarith) h2
    have hhi0 := sqrt_high (g := 0.003) (by norm_num) le_rfl
    have hmon : Real.sqrt (1 + (0.003 + -1000 * t) ^ 2) ≤ Real.sqrt (1 + 0.003 ^ 2) := by
      apply Real.sqrt_le_sqrt
      nlinarith
    have hz : 0 ≤ (accelerated (-1000) 0.003 0 t).z ∧ (accelerated (-1000) 0.003 0 t).z ≤ 1 := by
      simp only [accelerated]
      generalize Real.sqrt (1 + (0.003 + -1000 * t) ^ 2) = γ at *
      generalize Real.sqrt (1 + 0.003 ^ 2) = γ₀ at *
      constructor <;> linarith
    simp only [trajectory_problem, List.mem_cons, List.not_mem_nil, or_false] at hev
    rcases hev with rfl | rfl | rfl | rfl
    · refine ⟨fun h => by norm_num at h, fun _ _ => ?_⟩
      have hg0 : (accelerated (-1000) 0.003 0 t).gv ≠ 0 := by
        rw [hgv]
        exact (lt_of_lt_of_le (by norm_num) h1).ne'
      have hne : betaOf (accelerated (-1000) 0.003 0 t).gv ≠ 0 := by
        rwa [Ne, betaOf_eq_zero_iff]
      refine ⟨_, by simp only [stop_condition]; rw [if_neg hne], ?_⟩
      rw [betaOf_gv, div_div_cancel₀ hg0, slow_lorentz]
      have : (0 : ℝ) ≤ 3728 * (Real.sqrt (1 + (0.003 + -1000 * t) ^ 2) - 1) - 1e-6 := by
        norm_num at hlo ⊢; linarith
      exact this
    · refine ⟨fun _ _ => ⟨_, rfl, ?_⟩, fun h => by norm_num at h⟩
      unfold forward_z_bound_condition
      linarith [hz.2]
    · refine ⟨fun h => by norm_num at h, fun _ _ => ⟨_, rfl, ?_⟩⟩
      exact hz.1
    · refine ⟨fun _ _ => ⟨_, rfl, ?_⟩, fun h => by norm_num at h⟩
      unfold rho_bound_condition accelerated
      norm_num

/-- C98 is false: the electrons of every time step are cut to an integer. An alpha particle of 17 keV that
loses more than 9 keV to a thin gas, about 1 eV in every step of 0.1 ns, releases no electron at all, for
any W of at least 2 eV. -/
theorem C98_refuted {σ : Type} {rng : Gen σ} (hr : LawfulGen rng) {params : DetectorParams}
    (hgas : params.gas_target = thinGas) (hE : params.efield = 0) (hF : params.fano_factor = 0)
    (hW : 2 ≤ params.w_value) (s : σ) :
    ∃ (vertex momentum : ℝ × ℝ × ℝ) (traj : ℝ → Row),
      Solves (trajectory_problem vertex momentum slowNucleus params) traj 1e-6 ∧
      9000 ≤ (kinetic slowNucleus (traj 0) - kinetic slowNucleus (traj 1e-6)) * 1000000 ∧
      ∃ primary s', generate_electrons
        ((evaluated (trajectory_problem vertex momentum slowNucleus params) 1e-6).map traj) slowNucleus params
          rng s = .ok (primary, s') ∧ ∀ v ∈ primary, v = 0 := by
  refine ⟨(0, 0, 0), (0, 0, 3728 * 0.003), accelerated (-1000) 0.003 0, slow_solves hgas hE, ?_, ?_⟩
  · unfold kinetic
    rw [slow_lorentz, slow_lorentz]
    have e1 : 1.00000449 ≤ Real.sqrt (1 + (0.003 + -1000 * 0) ^ 2) := by
      apply Real.le_sqrt_of_sq_le
      norm_num
    have e2 : Real.sqrt (1 + (0.003 + -1000 * 1e-6) ^ 2) ≤ 1.000002 := by
      rw [Real.sqrt_le_iff]
      norm_num
    simp only [slowNucleus]
    linarith
  have hT : (0 : ℝ) ≤ 1e-6 := by norm_num
  have hmem : ∀ t ∈ evaluated (trajectory_problem (0, 0, 0) (0, 0, 3728 * 0.003) slowNucleus params) 1e-6,
      t ∈ Set.Icc (0 : ℝ) 1e-6 := (evaluated_times hT le_rfl).1
  have hev := evaluated_eq (vertex := (0, 0, 0)) (momentum := (0, 0, 3728 * 0.003)) (nucleus := slowNucleus)
    (params := params) hT le_rfl
  generalize evaluated (trajectory_problem (0, 0, 0) (0, 0, 3728 * 0.003) slowNucleus params) 1e-6 = times
    at hmem hev
  have hW0 : 0 < params.w_value := by linarith
  obtain ⟨primary, s', hgen⟩ := generate_electrons_ok rng (track := times.map (accelerated (-1000) 0.003 0))
    slowNucleus (params := params) hF.ge hW0 (by
      intro r hr
      obtain ⟨t, ht, rfl⟩ := List.mem_map.1 hr
      change (accelerated (-1000) 0.003 0 t).gv ≠ 0
      rw [slow_gv (hmem t ht)]
      exact (lt_of_lt_of_le (by norm_num) (slow_range (hmem t ht)).1).ne') s
  refine ⟨primary, s', hgen, ?_⟩
  obtain ⟨hlen, states, -, -, hdraw⟩ := C70_draws hgen
  intro v hv
  obtain ⟨k, hk, rfl⟩ := List.getElem_of_mem hv
  obtain ⟨x, hx, hvx⟩ := hdraw k _ (List.getElem?_eq_getElem hk)
  rw [hF, zero_mul, Real.sqrt_zero] at hx
  have hxm := hr.normal_zero (meanAt slowNucleus params.w_value
    (times.map (accelerated (-1000) 0.003 0)) k) (states k)
  rw [hx] at hxm
  simp only at hxm
  have hx01 : 0 ≤ x ∧ x < 1 := by
    cases k with
    | zero => rw [hxm]; simp [meanAt]
    | succ k =>
      rw [hlen, List.length_map] at hk
      have hk' : k < times.length := by omega
      have ha : (times.map (accelerated (-1000) 0.003 0))[k]? = some (accelerated (-1000) 0.003 0 times[k]) := by
        simp [hk']
      have hb : (times.map (accelerated (-1000) 0.003 0))[k + 1]?
          = some (accelerated (-1000) 0.003 0 times[k + 1]) := by
        simp [hk]
      rw [hxm, meanAt_succ ha hb]
      have hr1 := slow_range (hmem times[k] (List.getElem_mem hk'))
      have hr2 := slow_range (hmem times[k + 1] (List.getElem_mem hk))
      have hstep : times[k + 1] = times[k] + 1e-10 := by
        subst hev
        simp only [List.getElem_map, List.getElem_range]
        rw [Nat.cast_add_one]
        ring
      unfold meanElectrons kinetic
      rw [slow_lorentz, slow_lorentz]
      rw [hstep] at hr2 ⊢
      have hb' : 0.003 + -1000 * (times[k] + 1e-10) = 0.003 + -1000 * times[k] - 1e-7 := by ring
      rw [hb'] at hr2 ⊢
      refine ⟨by positivity, ?_⟩
      have hd := sqrt_diff (b := 0.003 + -1000 * times[k] - 1e-7) (by linarith [hr2.1])
        (a := 0.003 + -1000 * times[k]) (by linarith)
      rw [div_lt_one hW0]
      obtain ⟨D, hD⟩ : ∃ D, D = Real.sqrt (1 + (0.003 + -1000 * times[k]) ^ 2)
        - Real.sqrt (1 + (0.003 + -1000 * times[k] - 1e-7) ^ 2) := ⟨_, rfl⟩
      have e : slowNucleus.mass * (Real.sqrt (1 + (0.003 + -1000 * times[k] - 1e-7) ^ 2) - 1)
          - slowNucleus.mass * (Real.sqrt (1 + (0.003 + -1000 * times[k]) ^ 2) - 1) = -(3728 * D) := by
        rw [hD]
        simp only [slowNucleus]
        ring
      rw [← hD] at hd
      rw [e, abs_neg, abs_of_nonneg (by linarith [hd.1])]
      have h3 : D ≤ 3e-10 := by
        refine hd.2.trans ?_
        nlinarith [hr1.2]
      linarith
  rw [hvx]
  unfold pyInt
  rw [if_pos hx01.1, Int.floor_eq_zero_iff]
  exact hx01

/-- The parameters of the refutation, and an example meeting the hypotheses of C98_partial: the alpha particle
in the thin gas, with W = 10 eV. -/
noncomputable def thinDet : DetectorParams :=
  { exDet 100 0 with efield := 0, w_value := 10, gas_target := thinGas }

example : ∃ (primary : List ℤ) (s' : Unit), generate_electrons
      ((evaluated (trajectory_problem (0, 0, 0) (0, 0, 3728 * 0.003) slowNucleus thinDet) 1e-6).map
        (accelerated (-1000) 0.003 0)) slowNucleus thinDet exGen () = .ok (primary, s') ∧
    (primary.sum : ℝ) * 10 ≤ (kinetic slowNucleus (accelerated (-1000) 0.003 0 0)
      - kinetic slowNucleus (accelerated (-1000) 0.003 0 1e-6)) * 1000000 := by
  have hsol := slow_solves (params := thinDet) rfl rfl
  have hmem : ∀ t ∈ evaluated (trajectory_problem (0, 0, 0) (0, 0, 3728 * 0.003) slowNucleus thinDet) 1e-6,
      t ∈ Set.Icc (0 : ℝ) 1e-6 := (evaluated_times (by norm_num) le_rfl).1
  obtain ⟨primary, s', hgen⟩ := generate_electrons_ok exGen
    (track := (evaluated (trajectory_problem (0, 0, 0) (0, 0, 3728 * 0.003) slowNucleus thinDet) 1e-6).map
      (accelerated (-1000) 0.003 0)) slowNucleus (params := thinDet) le_rfl (by norm_num [thinDet]) (by
      intro r hr
      obtain ⟨t, ht, rfl⟩ := List.mem_map.1 hr
      change (accelerated (-1000) 0.003 0 t).gv ≠ 0
      rw [slow_gv (hmem t ht)]
      exact (lt_of_lt_of_le (by norm_num) (slow_range (hmem t ht)).1).ne') ()
  refine ⟨primary, s', hgen, ?_⟩
  have hd : (0 : ℝ) ≤ thinGas.density := by
    norm_num [thinGas, MEV_2_KG, MEV_2_JOULE]
  exact (C98_partial exGen_lawful hsol le_rfl (by norm_num [slowNucleus]) rfl rfl (by norm_num [thinDet])
    (fun _ => zero_le_one) hd (S := thinGas.density * 100) (fun t _ => by
      simp only [stopping, thinDet, thinGas]
      linarith) hgen).1

end Verif.Detector
