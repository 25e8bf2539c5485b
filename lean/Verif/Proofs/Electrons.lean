import Verif.Spec.Motion
import Verif.Proofs.Simulate

/-! # Lemmas about velocities, energies and electrons -/

namespace Verif.Detector

open Verif.Spec

theorem gammaBetaSq_nonneg (r : Row) : 0 ≤ gammaBetaSq r := by
  unfold gammaBetaSq; positivity

theorem gv_sq (r : Row) : r.gv ^ 2 = gammaBetaSq r := by
  unfold Row.gv gammaBetaSq
  exact Real.sq_sqrt (by positivity)

theorem gv_nonneg (r : Row) : 0 ≤ r.gv := Real.sqrt_nonneg _

theorem gv_eq_zero_iff (r : Row) : r.gv = 0 ↔ r.gvx = 0 ∧ r.gvy = 0 ∧ r.gvz = 0 := by
  unfold Row.gv
  rw [Real.sqrt_eq_zero (by positivity)]
  constructor
  · intro h
    have h1 := sq_nonneg r.gvx
    have h2 := sq_nonneg r.gvy
    have h3 := sq_nonneg r.gvz
    refine ⟨?_, ?_, ?_⟩ <;> (apply pow_eq_zero_iff (two_ne_zero) |>.1; linarith)
  · rintro ⟨h1, h2, h3⟩
    rw [h1, h2, h3]
    norm_num

theorem lorentz_pos (r : Row) : 0 < lorentz r := by
  unfold lorentz
  have := gammaBetaSq_nonneg r
  positivity

theorem lorentz_ge_one (r : Row) : 1 ≤ lorentz r := by
  unfold lorentz
  rw [Real.one_le_sqrt]
  have := gammaBetaSq_nonneg r
  linarith

theorem betaOf_gv (r : Row) : betaOf r.gv = r.gv / lorentz r := by
  unfold betaOf lorentz
  rw [Real.sqrt_div (sq_nonneg _), Real.sqrt_sq (gv_nonneg r), gv_sq]

theorem betaOf_eq_zero_iff (r : Row) : betaOf r.gv = 0 ↔ r.gv = 0 := by
  rw [betaOf_gv, div_eq_zero_iff]
  have := (lorentz_pos r).ne'
  tauto

theorem gamma_eq (r : Row) (h : r.gv ≠ 0) : r.gv / betaOf r.gv = lorentz r := by
  rw [betaOf_gv]
  have := (lorentz_pos r).ne'
  field_simp

theorem track_energy_eq (nucleus : Nucleus) (r : Row) (h : r.gv ≠ 0) :
    track_energy nucleus r = some (kinetic nucleus r) := by
  unfold track_energy kinetic
  rw [if_neg h, gamma_eq r h]

theorem track_energy_some {nucleus : Nucleus} {r : Row} {x : ℝ}
    (h : track_energy nucleus r = some x) : x = kinetic nucleus r := by
  by_cases hg : r.gv = 0
  · unfold track_energy at h; rw [if_pos hg] at h; cases h
  · rw [track_energy_eq nucleus r hg] at h; exact (Option.some.inj h).symm

theorem fano_draws_length {σ : Type} {rng : Gen σ} {fano : ℝ} {ms : List (Option ℝ)} {s s' : σ}
    {vs : List ℤ} (h : fano_draws rng fano ms s = .ok (vs, s')) : vs.length = ms.length := by
  induction ms generalizing s s' vs with
  | nil =>
    have := Except.ok.inj h
    have : vs = [] := (congrArg Prod.fst this).symm
    simp [this]
  | cons m ms ih =>
    unfold fano_draws at h
    rw [except_bind_ok] at h
    obtain ⟨⟨v, s1⟩, -, h⟩ := h
    rw [except_bind_ok] at h
    obtain ⟨⟨vs', s2⟩, h2, h⟩ := h
    have h := Except.ok.inj h
    have e1 : v :: vs' = vs := congrArg Prod.fst h
    rw [← e1]
    simp [ih h2]

theorem energy_lost_go_length (a : Option ℝ) (l : List (Option ℝ)) :
    (energy_lost.go a l).length = l.length := by
  induction l generalizing a with
  | nil => rfl
  | cons b l ih => simp [energy_lost.go, ih]

theorem energy_lost_length (l : List (Option ℝ)) : (energy_lost l).length = l.length := by
  cases l with
  | nil => rfl
  | cons a l => simp [energy_lost, energy_lost_go_length]

/-- With Fano factor 0 the draws are the truncated means. -/
theorem fano_draws_zero {σ : Type} {rng : Gen σ} (hr : LawfulGen rng) {ms : List (Option ℝ)}
    {s s' : σ} {vs : List ℤ} (h : fano_draws rng 0 ms s = .ok (vs, s')) :
    ∃ xs : List ℝ, ms = xs.map some ∧ vs = xs.map pyInt := by
  induction ms generalizing s s' vs with
  | nil =>
    have := Except.ok.inj h
    have : vs = [] := (congrArg Prod.fst this).symm
    exact ⟨[], rfl, by simp [this]⟩
  | cons m ms ih =>
    unfold fano_draws at h
    rw [except_bind_ok] at h
    obtain ⟨⟨v, s1⟩, h1, h⟩ := h
    rw [except_bind_ok] at h
    obtain ⟨⟨vs', s2⟩, h2, h⟩ := h
    have h := Except.ok.inj h
    have e1 : v :: vs' = vs := congrArg Prod.fst h
    obtain ⟨xs, hx1, hx2⟩ := ih h2
    unfold fano_draw at h1
    rcases m with _ | m
    · cases h1
    · have h0 : npSqrt (0 * m) = some 0 := by simp [npSqrt]
      simp only [h0] at h1
      have h1 := Except.ok.inj h1
      have hv : pyInt (rng.normal m 0 s).1 = v := congrArg Prod.fst h1
      rw [hr.normal_zero] at hv
      exact ⟨m :: xs, by rw [hx1]; rfl, by rw [← e1, hx2, ← hv]; rfl⟩

theorem pyInt_le_of_nonneg {x : ℝ} (h : 0 ≤ x) : (pyInt x : ℝ) ≤ x := by
  unfold pyInt
  rw [if_pos h]
  exact Int.floor_le x

/-- Telescoping of the energy losses of a track along which the kinetic energy does not increase. -/
theorem go_sum_le {nucleus : Nucleus} {c : ℝ} (hc : 0 ≤ c) (a : Row) (rest : List Row)
    (hmono : ((a :: rest).map (kinetic nucleus)).Pairwise fun x y => y ≤ x) (xs : List ℝ)
    (hxs : (energy_lost.go (track_energy nucleus a) (rest.map (track_energy nucleus))).map
      (Option.map (· * c)) = xs.map some) :
    ((xs.map pyInt).sum : ℝ) ≤
      (kinetic nucleus a - kinetic nucleus ((a :: rest).getLast (by simp))) * c := by
  induction rest generalizing a xs with
  | nil =>
    have : xs = [] := by simpa [energy_lost.go] using hxs
    subst this
    simp
  | cons b rest ih =>
    simp only [List.map_cons, energy_lost.go] at hxs
    cases xs with
    | nil => simp at hxs
    | cons x xs =>
      simp only [List.map_cons, List.cons.injEq] at hxs
      obtain ⟨h1, h2⟩ := hxs
      have hmono' : ((b :: rest).map (kinetic nucleus)).Pairwise fun x y => y ≤ x := by
        rw [List.map_cons, List.pairwise_cons] at hmono
        exact hmono.2
      have hab : kinetic nucleus b ≤ kinetic nucleus a := by
        rw [List.map_cons, List.pairwise_cons] at hmono
        exact hmono.1 _ (by simp)
      have hih := ih b hmono' xs h2
      have hx : x = (kinetic nucleus a - kinetic nucleus b) * c := by
        rcases ha : track_energy nucleus a with _ | ka
        · rw [ha] at h1; simp at h1
        · rcases hb : track_energy nucleus b with _ | kb
          · rw [ha, hb] at h1; simp at h1
          · rw [ha, hb] at h1
            simp only [Option.bind_eq_bind, Option.bind_some, Option.pure_def, Option.map_some,
              Option.some.injEq] at h1
            rw [← h1, track_energy_some ha, track_energy_some hb, abs_sub_comm,
              abs_of_nonneg (by linarith)]
      have hx0 : 0 ≤ x := by rw [hx]; exact mul_nonneg (by linarith) hc
      have hp := pyInt_le_of_nonneg hx0
      rw [List.map_cons, List.sum_cons, Int.cast_add, List.getLast_cons (by simp)]
      have hp' : (pyInt x : ℝ) ≤ (kinetic nucleus a - kinetic nucleus b) * c := by
        rw [← hx]; exact hp
      linarith

end Verif.Detector
