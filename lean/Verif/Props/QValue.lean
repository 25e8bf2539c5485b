import Verif.Spec.QValue
import Verif.Props.Species
import Verif.Props.Complete
import Verif.Props.SolverError

/-! # C131: the charge of an event tells the excitation energy of the reaction -/

namespace Verif.Props

open Verif.Kinematics Verif.Spec Verif.Detector Set

/-! ## The rows of the final products -/

theorem finals_getElem {α : Type} : ∀ (n : ℕ) (l : List α), l.length = 2 + 2 * n →
    (finals l).map some = ((List.range (n + 1)).map fun k => l[2 * k]?) ++ [l[2 * n + 1]?]
  | 0, l, h => by
    match l, h with
    | [a, b], _ => simp [finals]
  | n + 1, l, h => by
    match l, h with
    | [_, _], h => simp at h
    | a :: b :: c :: rest, h =>
      have hl : (c :: rest).length = 2 + 2 * n := by simp at h ⊢; omega
      have ih := finals_getElem n (c :: rest) hl
      rw [finals, List.map_cons, ih, List.range_succ_eq_map (n := n + 1), List.map_cons, List.map_map]
      simp only [List.cons_append, Nat.mul_zero, List.getElem?_cons_zero]
      congr 1

theorem default_map {α β : Type} {n : ℕ} {l : List α} (hl : l.length = 4 + 2 * n) (f : α → β) (g : ℤ → β)
    (h : ∀ (k : ℕ) a, l[k]? = some a → g k = f a) :
    (default_indices (4 + 2 * n)).map g = (finals (l.drop 2)).map f := by
  have h1 := finals_getElem n (l.drop 2) (by rw [List.length_drop]; omega)
  have h2 : ((default_indices (4 + 2 * n)).map fun i => (some (g i))) = (finals (l.drop 2)).map fun a => some (f a) := by
    have h3 := congrArg (List.map (Option.map f)) h1
    rw [List.map_map, List.map_append, List.map_map, List.map_cons, List.map_nil] at h3
    have h4 : ((finals (l.drop 2)).map fun a => some (f a)) = (finals (l.drop 2)).map (Option.map f ∘ some) := rfl
    rw [h4, h3, default_indices_eq, List.map_append, List.map_map, List.map_cons, List.map_nil]
    have key : ∀ k : ℕ, k < 4 + 2 * n → some (g (k : ℤ)) = Option.map f l[k]? := by
      intro k hk
      rw [← hl] at hk
      rw [List.getElem?_eq_getElem hk, Option.map_some, h k _ (List.getElem?_eq_getElem hk)]
    congr 1
    · refine List.map_congr_left fun k hk => ?_
      simp only [Function.comp]
      rw [List.getElem?_drop, key _ (by have := List.mem_range.1 hk; omega)]
    · rw [List.getElem?_drop, key _ (by omega), show 2 + (2 * n + 1) = 3 + 2 * n by ring]
  have h5 := congrArg (List.filterMap id) h2
  simpa [List.filterMap_map, Function.comp_def] using h5

theorem finals_zip {α β : Type} : ∀ (l : List α) (m : List β), l.length = m.length →
    finals (l.zip m) = (finals l).zip (finals m)
  | [], [], _ => rfl
  | [_], [_], _ => rfl
  | [_, _], [_, _], _ => rfl
  | a :: b :: c :: l, a' :: b' :: c' :: m, h => by
    have ih := finals_zip (c :: l) (c' :: m) (by simpa using h)
    simp only [List.zip_cons_cons] at ih
    simp only [List.zip_cons_cons, finals, ih]
  | [], _ :: _, h => by simp at h
  | _ :: _, [], h => by simp at h
  | [_], _ :: _ :: _, h => by simp at h
  | _ :: _ :: _, [_], h => by simp at h
  | [_, _], _ :: _ :: _ :: _, h => by simp at h
  | _ :: _ :: _ :: _, [_, _], h => by simp at h

/-- A nucleus in its ground state with its four-momentum. -/
def OnShell (nq : Nucleus × Vec4) : Prop := nq.2.M = nq.1.mass ∧ 0 < nq.2.E

/-- The final products: all are in their ground states except the last one. -/
theorem finals_shape {r : Vec4} {ds : List Decay} {exs : List ℝ} {rows : List Vec4} (h : DecaysOk r ds exs rows) :
    ∀ (n1 n : Nucleus) (e : Vec4) (ex : ℝ), OnShell (n1, e) → r.M = n.mass + ex → 0 < r.E →
      ∃ (fs : List (Nucleus × Vec4)),
        finals (((n1 :: n :: ds.flatMap fun d => [d.residual_1, d.residual_2])).zip (e :: r :: rows))
          = fs ++ [(lastNucleus n ds, (r :: rows).getLast (by simp))] ∧
        (∀ nq ∈ fs, OnShell nq) ∧
        ((r :: rows).getLast (by simp)).M = (lastNucleus n ds).mass + lastExcitation ex ds exs ∧
        0 < ((r :: rows).getLast (by simp)).E := by
  induction h with
  | nil q exs =>
    intro n1 n e ex h1 h2 h3
    exact ⟨[(n1, e)], rfl, by simpa using h1, by simpa [lastNucleus, lastExcitation] using h2, by simpa using h3⟩
  | @cons q d ds ex' exs a b rows hab ha hb haE hbE _ ih =>
    intro n1 n e ex h1 h2 h3
    obtain ⟨fs, i1, i2, i3, i4⟩ := ih d.residual_1 d.residual_2 a ex' ⟨ha, haE⟩ hb hbE
    have hlast : (q :: a :: b :: rows).getLast (by simp) = (b :: rows).getLast (by simp) := by
      rw [List.getLast_cons (by simp), List.getLast_cons (by simp)]
    refine ⟨(n1, e) :: fs, ?_, ?_, ?_, ?_⟩
    · rw [hlast]
      simp only [List.flatMap_cons, List.cons_append, List.nil_append, List.zip_cons_cons, finals, lastNucleus] at i1 ⊢
      rw [i1]
    · intro nq hnq
      rcases List.mem_cons.1 hnq with rfl | hnq
      · exact h1
      · exact i2 nq hnq
    · rw [hlast]
      exact i3
    · rw [hlast]
      exact i4

/-! ## Energies -/

/-- The kinetic energy with which the simulation starts a nucleus of four-momentum `q`; see C72. -/
noncomputable def startKinetic (n : Nucleus) (q : Vec4) : ℝ :=
  if n.Z = 0 then 0 else Real.sqrt (q.px ^ 2 + q.py ^ 2 + q.pz ^ 2 + n.mass ^ 2) - n.mass

theorem momentum_sq {q : Vec4} {m : ℝ} (hm : 0 ≤ m) (h : q.M = m) :
    q.px ^ 2 + q.py ^ 2 + q.pz ^ 2 = q.E ^ 2 - m ^ 2 := by
  have := M2_of_M' hm h
  unfold Vec4.M2 at this
  linarith

theorem mass_le_energy {q : Vec4} {m : ℝ} (hm : 0 ≤ m) (h : q.M = m) (hE : 0 < q.E) : m ≤ q.E := by
  have := momentum_sq hm h
  refine le_of_sq_le_sq' ?_ hE.le
  nlinarith [sq_nonneg q.px, sq_nonneg q.py, sq_nonneg q.pz]

/-- An excited nucleus starts with an energy between the true one and the true one times the ratio of its mass with
and without the excitation. -/
theorem start_between {n : Nucleus} (hm : 0 < n.mass) {q : Vec4} {ex : ℝ} (hx : 0 ≤ n.mass + ex)
    (hM : q.M = n.mass + ex) (hE : 0 < q.E) :
    ∃ θ ∈ Icc (0 : ℝ) 1, Real.sqrt (q.px ^ 2 + q.py ^ 2 + q.pz ^ 2 + n.mass ^ 2) - n.mass
      = (q.E - q.M) + θ * (ex / n.mass * (q.E - q.M)) := by
  have hp := momentum_sq hx hM
  have hT := mass_le_energy hx hM hE
  rw [hp]
  set m := n.mass
  set M := m + ex with hMdef
  set T := q.E - M with hTdef
  have hTpos : 0 ≤ T := by linarith
  have hE' : q.E = T + M := by linarith
  rw [hM, ← hTdef]
  set K := Real.sqrt (q.E ^ 2 - M ^ 2 + m ^ 2) - m
  have hrad : 0 ≤ q.E ^ 2 - M ^ 2 + m ^ 2 := by nlinarith
  have hsq := Real.sq_sqrt hrad
  have hK : K ^ 2 + 2 * m * K = T ^ 2 + 2 * M * T := by
    have : Real.sqrt (q.E ^ 2 - M ^ 2 + m ^ 2) = K + m := by simp [K]
    rw [this, hE'] at hsq
    nlinarith
  have hK0 : 0 ≤ K := by
    have : m ≤ Real.sqrt (q.E ^ 2 - M ^ 2 + m ^ 2) := Real.le_sqrt_of_sq_le (by nlinarith)
    simp only [K]
    linarith
  have mono : ∀ a b : ℝ, 0 ≤ a → 0 ≤ b → a ^ 2 + 2 * m * a ≤ b ^ 2 + 2 * m * b → a ≤ b := by
    intro a b ha hb h
    by_contra hc
    push Not at hc
    nlinarith
  have hratio : T * (M / m) = T + ex / m * T := by rw [hMdef]; field_simp
  have hR : 0 ≤ M / m := div_nonneg hx hm.le
  have hRT : (T * (M / m)) ^ 2 + 2 * m * (T * (M / m)) = T ^ 2 * (M / m) ^ 2 + 2 * M * T := by
    field_simp
  rcases le_total 0 ex with h0 | h0
  · have h1 : 1 ≤ M / m := by rw [le_div_iff₀ hm]; linarith
    have hmul := mul_nonneg h0 hTpos
    have l1 : T ≤ K := mono _ _ hTpos hK0 (by rw [hK, hMdef]; linarith)
    have l2 : K ≤ T * (M / m) := mono _ _ hK0 (mul_nonneg hTpos hR) (by
      rw [hK, hRT]
      linarith [mul_le_mul_of_nonneg_left (one_le_pow₀ h1 : 1 ≤ (M / m) ^ 2) (sq_nonneg T)])
    rw [hratio] at l2
    rcases (show 0 ≤ ex / m * T by positivity).eq_or_lt with hz | hz
    · exact ⟨0, by simp, by linarith⟩
    · refine ⟨(K - T) / (ex / m * T), ⟨div_nonneg (by linarith) hz.le, by rw [div_le_one hz]; linarith⟩, ?_⟩
      rw [div_mul_cancel₀ _ hz.ne']
      ring
  · have h1 : M / m ≤ 1 := by rw [div_le_one hm]; linarith
    have hmul := mul_nonneg (neg_nonneg.2 h0) hTpos
    have l1 : K ≤ T := mono _ _ hK0 hTpos (by rw [hK, hMdef]; linarith)
    have hsq1 : (M / m) ^ 2 ≤ 1 := pow_le_one₀ hR h1
    have l2 : T * (M / m) ≤ K := mono _ _ (mul_nonneg hTpos hR) hK0 (by
      rw [hK, hRT]
      linarith [mul_le_mul_of_nonneg_left hsq1 (sq_nonneg T)])
    rw [hratio] at l2
    have hle : ex / m * T ≤ 0 := mul_nonpos_of_nonpos_of_nonneg (div_nonpos_of_nonpos_of_nonneg h0 hm.le) hTpos
    rcases hle.eq_or_lt with hz | hz
    · exact ⟨0, by simp, by linarith⟩
    · refine ⟨(K - T) / (ex / m * T), ⟨div_nonneg_of_nonpos (by linarith) hz.le, ?_⟩, ?_⟩
      · rw [div_le_one_of_neg hz]
        linarith
      · rw [div_mul_cancel₀ _ hz.ne]
        ring

theorem start_ground {nq : Nucleus × Vec4} (hm : 0 < nq.1.mass) (h : OnShell nq) :
    startKinetic nq.1 nq.2 = if nq.1.Z = 0 then 0 else nq.2.E - nq.2.M := by
  unfold startKinetic
  split_ifs with hz
  · rfl
  · rw [momentum_sq hm.le h.1, sub_add_cancel, Real.sqrt_sq h.2.le, h.1]

/-- Charged and neutral final products in their ground states. -/
theorem start_sum : ∀ (fs : List (Nucleus × Vec4)), (∀ nq ∈ fs, OnShell nq) → (∀ nq ∈ fs, 0 < nq.1.mass) →
    (fs.map fun nq => startKinetic nq.1 nq.2).sum + neutralEnergy fs = (fs.map fun nq => nq.2.E - nq.2.M).sum
  | [], _, _ => by simp [neutralEnergy]
  | nq :: fs, h, hm => by
    have ih := start_sum fs (fun x hx => h x (List.mem_cons_of_mem _ hx)) fun x hx => hm x (List.mem_cons_of_mem _ hx)
    have h1 := start_ground (hm nq (by simp)) (h nq (by simp))
    rw [List.map_cons, List.map_cons, List.sum_cons, List.sum_cons, h1, ← ih]
    unfold neutralEnergy
    by_cases hz : nq.1.Z = 0
    · rw [if_pos hz, List.filter_cons_of_pos (by simpa using hz), List.map_cons, List.sum_cons]
      ring
    · rw [if_neg hz, List.filter_cons_of_neg (by simpa using hz)]
      ring

theorem sumVec_E : ∀ l : List Vec4, (sumVec l).E = (l.map (·.E)).sum
  | [] => rfl
  | v :: vs => by
    rw [sumVec, List.map_cons, List.sum_cons, ← sumVec_E vs]
    rfl

theorem finals_map {α β : Type} (f : α → β) : ∀ l : List α, finals (l.map f) = (finals l).map f
  | [] => rfl
  | [_] => rfl
  | [_, _] => rfl
  | _ :: _ :: c :: l => by
    have ih := finals_map f (c :: l)
    simp only [List.map_cons] at ih
    simp only [List.map_cons, finals, ih]

theorem sum_map_sub' {α : Type} (f g : α → ℝ) : ∀ l : List α,
    (l.map fun a => f a - g a).sum = (l.map f).sum - (l.map g).sum
  | [] => by simp
  | a :: l => by
    rw [List.map_cons, List.sum_cons, sum_map_sub' f g l]
    simp only [List.map_cons, List.sum_cons]
    ring

theorem pyGet_of_getElem {α : Type} {l : List α} {k : ℕ} {a : α} (h : l[k]? = some a) :
    pyGet l (k : ℤ) = .ok a := by
  unfold pyGet
  have hk : ¬ ((k : ℤ) < 0) := by omega
  simp only [hk, if_false, Int.toNat_natCast, h]

section
variable {σ : Type} {p : Pipeline σ} {x : Sample} {t b e r : Vec4} {rows : List Vec4} {env : SimEnv}

/-- **C131.** The energy that the simulated nuclei of an event can lose is that of the beam at the vertex plus the Q
value of the chain, less the excitation energy of the last nucleus and the kinetic energy of the neutral products. An
excited charged last nucleus has more, by at most its kinetic energy times the ratio of excitation energy and mass. -/
theorem C131_energy (h : EventOk p x t b e r rows) (hmass : ∀ n ∈ finalNuclei p, 0 < n.mass)
    (hx : 0 ≤ (lastNucleus p.reaction.residual p.decays).mass
      + lastExcitation x.reaction_excitation p.decays x.decay_excitations)
    (hdata : ∀ n ∈ chainNuclei (.reaction p.reaction :: p.decays.map .decay), env.get_data n.Z n.A = .ok n) :
    ∃ θ ∈ Icc (0 : ℝ) 1, ((default_indices p.get_proton_numbers.length).map
        (ionising env (t :: b :: e :: r :: rows) p.get_proton_numbers p.get_mass_numbers)).sum
      = x.beam_energy + groundQ p - lastExcitation x.reaction_excitation p.decays x.decay_excitations
        - neutralEnergy ((finalNuclei p).zip (finals (e :: r :: rows)))
        + θ * (lastExcitation x.reaction_excitation p.decays x.decay_excitations
          / (lastNucleus p.reaction.residual p.decays).mass
          * (((r :: rows).getLast (by simp)).E - ((r :: rows).getLast (by simp)).M)) := by
  obtain ⟨fs, f1, f2, f3, f4⟩ := finals_shape h.decays p.reaction.ejectile p.reaction.residual e
    x.reaction_excitation ⟨h.ejectile_M, h.ejectile_E⟩ h.residual_M h.residual_E
  have hrl := DecaysOk_length h.decays
  have hfl : (p.decays.flatMap fun d => [d.residual_1, d.residual_2]).length = 2 * p.decays.length := by
    simp
    ring
  set D := p.decays.flatMap fun d => [d.residual_1, d.residual_2] with hD
  set N := p.reaction.target :: p.reaction.projectile :: p.reaction.ejectile :: p.reaction.residual :: D with hN
  have hZ : p.get_proton_numbers = N.map (·.Z) := by
    simp [Pipeline.get_proton_numbers, hN, hD, List.map_flatMap]
  have hA : p.get_mass_numbers = N.map (·.A) := by
    simp [Pipeline.get_mass_numbers, hN, hD, List.map_flatMap]
  set lastN := lastNucleus p.reaction.residual p.decays
  set lastX := lastExcitation x.reaction_excitation p.decays x.decay_excitations
  set q := (r :: rows).getLast (by simp) with hq
  set final := finals ((p.reaction.ejectile :: p.reaction.residual :: D).zip (e :: r :: rows)) with hfinal
  have hlen2 : (p.reaction.ejectile :: p.reaction.residual :: D).length = (e :: r :: rows).length := by
    simp only [List.length_cons]
    omega
  have hfn : finalNuclei p = final.map Prod.fst := by
    rw [hfinal, ← finals_map, List.map_fst_zip hlen2.le]
    rfl
  have hfr : finals (e :: r :: rows) = final.map Prod.snd := by
    rw [hfinal, ← finals_map, List.map_snd_zip hlen2.ge]
  have hzip : (finalNuclei p).zip (finals (e :: r :: rows)) = final := by
    rw [hfn, hfr, List.zip_map', List.map_id']
  have hsub : ∀ nq ∈ final, nq.1 ∈ finalNuclei p := fun nq hnq => by
    rw [hfn]
    exact List.mem_map_of_mem hnq
  -- the simulated energies
  have hsum : ((default_indices p.get_proton_numbers.length).map
      (ionising env (t :: b :: e :: r :: rows) p.get_proton_numbers p.get_mass_numbers))
      = final.map fun nq => startKinetic nq.1 nq.2 := by
    rw [chainNuclei_built rfl] at hdata
    rw [get_proton_numbers_length, hZ, hA]
    have hl : (N.zip (t :: b :: e :: r :: rows)).length = 4 + 2 * p.decays.length := by
      rw [List.length_zip, hN]
      simp only [List.length_cons]
      omega
    rw [default_map hl (fun nq => startKinetic nq.1 nq.2)]
    · rw [hfinal, hN]
      rfl
    · rintro k ⟨n, v⟩ hk
      obtain ⟨k1, k2⟩ := List.getElem?_zip_eq_some.1 hk
      have hn : env.get_data n.Z n.A = .ok n := hdata n (List.mem_of_getElem? k1)
      have g1 : pyGet (N.map (·.Z)) (k : ℤ) = .ok n.Z := pyGet_of_getElem (by rw [List.getElem?_map, k1]; rfl)
      have g2 : pyGet (N.map (·.A)) (k : ℤ) = .ok n.A := pyGet_of_getElem (by rw [List.getElem?_map, k1]; rfl)
      have g3 : pyGet (t :: b :: e :: r :: rows) (k : ℤ) = .ok v := pyGet_of_getElem k2
      unfold ionising startKinetic
      rw [g1, g2, g3]
      simp only [hn]
  rw [hsum, hzip]
  -- the true energies
  have htrue : (final.map fun nq => nq.2.E - nq.2.M).sum = x.beam_energy + groundQ p - lastX := by
    rw [sum_map_sub' (fun nq : Nucleus × Vec4 => nq.2.E) fun nq => nq.2.M]
    have hE : (final.map fun nq => nq.2.E).sum = p.reaction.target.mass + (x.beam_energy + p.reaction.projectile.mass) := by
      have h1 := congrArg Vec4.E (sum_finals h.decays e)
      rw [h.conserved, sumVec_E, hfr, List.map_map] at h1
      have h2 : (t + b).E = t.E + b.E := rfl
      rw [h2, h.beam_E, h.target] at h1
      exact h1
    have hM : (final.map fun nq => nq.2.M).sum = ((finalNuclei p).map (·.mass)).sum + lastX := by
      rw [hfn, List.map_map, f1, List.map_append, List.map_append, List.sum_append, List.sum_append]
      have : (fs.map fun nq => nq.2.M) = fs.map ((·.mass) ∘ Prod.fst) :=
        List.map_congr_left fun nq hnq => (f2 nq hnq).1
      rw [this]
      simp only [List.map_cons, List.map_nil, List.sum_cons, List.sum_nil, Function.comp, add_zero]
      rw [f3]
      ring
    rw [hE, hM]
    unfold groundQ
    ring
  have hm : ∀ nq ∈ fs ++ [(lastN, q)], 0 < nq.1.mass := fun nq hnq => hmass _ (hsub nq (by rw [f1]; exact hnq))
  have hms : ∀ nq ∈ fs, 0 < nq.1.mass := fun nq hnq => hm nq (List.mem_append_left _ hnq)
  have hml : 0 < lastN.mass := hm (lastN, q) (by simp)
  have hfs := start_sum fs f2 hms
  have hneut : neutralEnergy final = neutralEnergy fs + if lastN.Z = 0 then q.E - q.M else 0 := by
    rw [f1]
    unfold neutralEnergy
    rw [List.filter_append, List.map_append, List.sum_append]
    split_ifs with hz
    · rw [List.filter_cons_of_pos (by simpa using hz)]
      simp
    · rw [List.filter_cons_of_neg (by simpa using hz)]
      simp
  rw [← htrue, hneut, f1]
  simp only [List.map_append, List.map_cons, List.map_nil, List.sum_append, List.sum_cons, List.sum_nil, add_zero]
  rw [← hfs]
  by_cases hz : lastN.Z = 0
  · refine ⟨0, by simp, ?_⟩
    unfold startKinetic
    rw [if_pos hz, if_pos hz]
    ring
  · obtain ⟨θ, hθ, hK⟩ := start_between hml hx f3 f4
    refine ⟨θ, hθ, ?_⟩
    have : startKinetic lastN q = q.E - q.M + θ * (lastX / lastN.mass * (q.E - q.M)) := by
      unfold startKinetic
      rw [if_neg hz, hK]
    rw [this, if_neg hz]
    ring

/-- Neutral nuclei lose no energy. -/
theorem ionising_charged (env : SimEnv) (momenta : List Vec4) (Zs As : List ℤ) : ∀ indices : List ℤ,
    ((indices.filter (isCharged Zs)).map (ionising env momenta Zs As)).sum
      = (indices.map (ionising env momenta Zs As)).sum
  | [] => rfl
  | idx :: rest => by
    have ih := ionising_charged env momenta Zs As rest
    rw [List.map_cons, List.sum_cons, ← ih]
    cases hc : isCharged Zs idx with
    | true => rw [List.filter_cons_of_pos hc, List.map_cons, List.sum_cons]
    | false =>
      rw [List.filter_cons_of_neg (by simp [hc])]
      have : ionising env momenta Zs As idx = 0 := by
        unfold isCharged at hc
        unfold ionising
        cases hz : pyGet Zs idx with
        | error _ => rfl
        | ok z =>
          rw [hz] at hc
          simp only [decide_not, Bool.not_eq_eq_eq_not, Bool.not_false, decide_eq_true_eq] at hc
          cases pyGet As idx with
          | error _ => rfl
          | ok a =>
            cases pyGet momenta idx with
            | error _ => rfl
            | ok q => simp [hc]
      rw [this]
      ring

theorem sum_lower (a b c w : ℝ) (f l n : ℤ → ℝ) : ∀ is : List ℤ,
    (is.map fun i => a * (b * ((f i - l i) * 1000000 / w - n i)) - c * n i).sum
      = a * (b * (((is.map f).sum - (is.map l).sum) * 1000000 / w - (is.map n).sum)) - c * (is.map n).sum
  | [] => by simp
  | i :: is => by
    rw [List.map_cons, List.sum_cons, sum_lower a b c w f l n is]
    simp only [List.map_cons, List.sum_cons]
    ring

theorem sum_upper (b w : ℝ) (f u : ℤ → ℝ) : ∀ is : List ℤ,
    (is.map fun i => b * ((f i + u i) * 1000000 / w)).sum = b * (((is.map f).sum + (is.map u).sum) * 1000000 / w)
  | [] => by simp
  | i :: is => by
    rw [List.map_cons, List.sum_cons, sum_upper b w f u is]
    simp only [List.map_cons, List.sum_cons]
    ring

/-- The energy in MeV that the charge of a cloud stands for. -/
noncomputable def visibleEnergy (config : Config) (cloud : List CloudPoint) : ℝ :=
  (cloud.map (·.e)).sum * config.det_params.w_value / (config.det_params.mpgd_gain * 1000000)

/-- **C131.** The visible energy of an event of a run whose nuclei lose their energy over active pads, up to `loss`
and `surplus` MeV each: it tells the excitation energy in which the reaction left the last nucleus. -/
theorem C131_excitation (h : EventOk p x t b e r rows) (hmass : ∀ n ∈ finalNuclei p, 0 < n.mass)
    (hdata : ∀ n ∈ chainNuclei (.reaction p.reaction :: p.decays.map .decay), env.get_data n.Z n.A = .ok n)
    {ex m T : ℝ} (hex : ex = lastExcitation x.reaction_excitation p.decays x.decay_excitations) (hx : 0 ≤ ex)
    (hm : m = (lastNucleus p.reaction.residual p.decays).mass)
    (hT : T = ((r :: rows).getLast (by simp)).E - ((r :: rows).getLast (by simp)).M)
    {σ' : Type} {rng : Gen σ'} (hr : LawfulGen rng) {config : Config} {grid : PadGrid} {g : GridEdges}
    (hb : 0 < g.bin) (hgrid : config.pad_grid = some (grid, g)) (hgain : 0 < config.det_params.mpgd_gain)
    (hF : config.det_params.fano_factor = 0) (hW : 0 < config.det_params.w_value) {loss surplus len : ℤ → ℝ}
    (hmeas : Measured env (t :: b :: e :: r :: rows) x.vertex p.get_proton_numbers p.get_mass_numbers config grid g
      (default_indices p.get_proton_numbers.length)
      (fun idx => ionising env (t :: b :: e :: r :: rows) p.get_proton_numbers p.get_mass_numbers idx - loss idx)
      (fun idx => ionising env (t :: b :: e :: r :: rows) p.get_proton_numbers p.get_mass_numbers idx + surplus idx)
      len)
    {s s' : σ'} {cloud : List CloudPoint} {labels : List ℤ}
    (hsim : simulate env (t :: b :: e :: r :: rows) x.vertex p.get_proton_numbers p.get_mass_numbers config rng
      (default_indices p.get_proton_numbers.length) s = .ok ((cloud, labels), s'))
    {charged : List ℤ}
    (hch : charged = (default_indices p.get_proton_numbers.length).filter (isCharged p.get_proton_numbers)) :
    ex * (1 - T / m) ≤ x.beam_energy + groundQ p - neutralEnergy ((finalNuclei p).zip (finals (e :: r :: rows)))
      + (charged.map surplus).sum - visibleEnergy config cloud ∧
    x.beam_energy + groundQ p - neutralEnergy ((finalNuclei p).zip (finals (e :: r :: rows)))
      - (charged.map loss).sum - config.det_params.w_value / 1000000 * (charged.map len).sum
      - (visibleEnergy config cloud + cutLoss config * config.det_params.w_value
          / (config.det_params.mpgd_gain * 1000000) * (charged.map len).sum) / pixelShare config ≤ ex := by
  have hmpos : 0 < m := by
    obtain ⟨fs, f1, -⟩ := finals_shape h.decays p.reaction.ejectile p.reaction.residual e
      x.reaction_excitation ⟨h.ejectile_M, h.ejectile_E⟩ h.residual_M h.residual_E
    rw [hm]
    refine hmass _ ?_
    have hrl := DecaysOk_length h.decays
    have hlen2 : (p.reaction.ejectile :: p.reaction.residual
        :: p.decays.flatMap fun d => [d.residual_1, d.residual_2]).length = (e :: r :: rows).length := by
      have : (p.decays.flatMap fun d => [d.residual_1, d.residual_2]).length = 2 * p.decays.length := by
        simp
        ring
      simp only [List.length_cons]
      omega
    have hfn : finalNuclei p = (finals ((p.reaction.ejectile :: p.reaction.residual
        :: p.decays.flatMap fun d => [d.residual_1, d.residual_2]).zip (e :: r :: rows))).map Prod.fst := by
      rw [← finals_map, List.map_fst_zip hlen2.le]
      rfl
    rw [hfn, f1]
    simp
  obtain ⟨θ, hθ, hK⟩ := C131_energy h hmass (by rw [← hm, ← hex]; linarith) hdata
  rw [← hex, ← hm, ← hT] at hK
  have hT0 : 0 ≤ T := by
    obtain ⟨fs, -, -, f3, f4⟩ := finals_shape h.decays p.reaction.ejectile p.reaction.residual e
      x.reaction_excitation ⟨h.ejectile_M, h.ejectile_E⟩ h.residual_M h.residual_E
    rw [← hm, ← hex] at f3
    have := mass_le_energy (by linarith) f3 f4
    rw [hT, f3]
    linarith
  obtain ⟨c1, c2⟩ := C129_charge hb hgrid hr hgain.le hF hW hmeas hsim
  rw [← hch, sum_lower] at c1
  rw [← hch, sum_upper] at c2
  rw [hch, ionising_charged, hK, ← hch] at c1 c2
  have hG : (0 : ℝ) < config.det_params.mpgd_gain := by exact_mod_cast hgain
  have hshare : 0 < pixelShare config := by unfold pixelShare; split_ifs <;> norm_num
  have hdev : 0 ≤ θ * (ex / m * T) ∧ θ * (ex / m * T) ≤ ex / m * T := by
    have : 0 ≤ ex / m * T := by positivity
    exact ⟨mul_nonneg hθ.1 this, mul_le_of_le_one_left this hθ.2⟩
  generalize neutralEnergy ((finalNuclei p).zip (finals (e :: r :: rows))) = nE at *
  generalize θ * (ex / m * T) = dev at *
  generalize (charged.map loss).sum = Lo at *
  generalize (charged.map surplus).sum = Su at *
  generalize (charged.map len).sum = Le at *
  unfold visibleEnergy
  generalize (cloud.map (·.e)).sum = Q at *
  generalize config.det_params.w_value = w at *
  generalize (config.det_params.mpgd_gain : ℝ) = G at *
  generalize pixelShare config = a at *
  generalize cutLoss config = c at *
  constructor
  · have h1 : Q * w / (G * 1000000) ≤ x.beam_energy + groundQ p - ex - nE + dev + Su := by
      rw [div_le_iff₀ (by positivity)]
      have := mul_le_mul_of_nonneg_right c2 hW.le
      have e1 : G * ((x.beam_energy + groundQ p - ex - nE + dev + Su) * 1000000 / w) * w
          = (x.beam_energy + groundQ p - ex - nE + dev + Su) * (G * 1000000) := by
        field_simp
      linarith
    have e2 : ex * (1 - T / m) = ex - ex / m * T := by ring
    rw [e2]
    linarith [hdev.2]
  · have h1 : x.beam_energy + groundQ p - ex - nE + dev - Lo - w / 1000000 * Le
        ≤ (Q * w / (G * 1000000) + c * w / (G * 1000000) * Le) / a := by
      rw [le_div_iff₀ hshare]
      have e1 : Q * w / (G * 1000000) + c * w / (G * 1000000) * Le = (Q + c * Le) * w / (G * 1000000) := by ring
      rw [e1, le_div_iff₀ (by positivity)]
      have h2 : a * (G * ((x.beam_energy + groundQ p - ex - nE + dev - Lo) * 1000000 / w - Le)) ≤ Q + c * Le := by
        linarith
      have h3 := mul_le_mul_of_nonneg_right h2 hW.le
      have e2 : a * (G * ((x.beam_energy + groundQ p - ex - nE + dev - Lo) * 1000000 / w - Le)) * w
          = (x.beam_energy + groundQ p - ex - nE + dev - Lo - w / 1000000 * Le) * a * (G * 1000000) := by
        field_simp
      linarith
    linarith [hdev.1]

end

/-! ## An inelastic scattering -/

theorem cal_recorded_wide {x y z : ℝ}
    (h : Real.sqrt ((x - 0) ^ 2 + (y - 0) ^ 2 + (z - 1 / 2) ^ 2) ≤ 0.06) :
    Recorded calConfig wideGrid wideEdges x y z ∧ z ≤ 1 := by
  have hsq : (x - 0) ^ 2 + (y - 0) ^ 2 + (z - 1 / 2) ^ 2 ≤ 0.06 ^ 2 := by
    have := (Real.sqrt_le_left (by norm_num)).1 h
    linarith
  have hx : |x| ≤ 0.06 := abs_le_of_sq_le_sq (by nlinarith [sq_nonneg y, sq_nonneg (z - 1 / 2)]) (by norm_num)
  have hy : |y| ≤ 0.06 := abs_le_of_sq_le_sq (by nlinarith [sq_nonneg x, sq_nonneg (z - 1 / 2)]) (by norm_num)
  have hz : |z - 1 / 2| ≤ 0.06 := abs_le_of_sq_le_sq (by nlinarith [sq_nonneg x, sq_nonneg y]) (by norm_num)
  rw [abs_le] at hz
  have hs0 : 0 ≤ spreadAt calConfig z := Real.sqrt_nonneg _
  have hs : spreadAt calConfig z ≤ 0.1 := by
    unfold spreadAt
    rw [cal_arrival]
    simp only [calConfig, calDet, stopFieldDet]
    rw [Real.sqrt_le_iff]
    refine ⟨by norm_num, ?_⟩
    rw [div_le_iff₀ (by norm_num)]
    nlinarith [hz.1]
  refine ⟨⟨by rw [cal_arrival]; linarith [hz.2], by rw [cal_arrival]; linarith [hz.1], fun i j hi hj => ?_⟩,
    by linarith [hz.2]⟩
  have hoff : ∀ i : ℕ, i < 10 → |meshOffset i * spreadAt calConfig z| ≤ 0.3 := by
    intro i hi
    have h3 : |meshOffset i| ≤ 3 := by
      have h9 : (i : ℝ) ≤ 9 := by exact_mod_cast Nat.lt_succ_iff.1 hi
      have h0 : (0 : ℝ) ≤ i := Nat.cast_nonneg i
      unfold meshOffset
      rw [abs_le]
      constructor <;> linarith
    rw [abs_mul, abs_of_nonneg hs0]
    have := mul_le_mul h3 hs hs0 (by norm_num)
    linarith
  have h1 := (abs_add_le x (meshOffset i * spreadAt calConfig z)).trans (add_le_add hx (hoff i hi))
  have h2 := (abs_add_le y (meshOffset j * spreadAt calConfig z)).trans (add_le_add hy (hoff j hj))
  exact ⟨5, wide_active (h1.trans (by norm_num)) (h2.trans (by norm_num)), by norm_num⟩

/-- Nuclei of mass 3720 MeV with momenta between 0.1 and 194 MeV/c stop in the gas of `calConfig`. -/
theorem q_stops {v : Vec4} {P : ℝ} (hP : P = v.px ^ 2 + v.py ^ 2 + v.pz ^ 2) (h1 : 0.01 ≤ P) (h2 : P ≤ 37600) :
    StopsInGas (0, 0, 1 / 2) (v.px, v.py, v.pz) stopNucleus calConfig.det_params
      (Real.sqrt (v.px ^ 2 + v.py ^ 2 + v.pz ^ 2 + stopNucleus.mass ^ 2) - stopNucleus.mass)
      (Real.sqrt (v.px ^ 2 + v.py ^ 2 + v.pz ^ 2)) 98 100 ∧
    Real.sqrt (v.px ^ 2 + v.py ^ 2 + v.pz ^ 2 + stopNucleus.mass ^ 2) - stopNucleus.mass ≤ 5.1 ∧
    Real.sqrt (v.px ^ 2 + v.py ^ 2 + v.pz ^ 2) ≤ 194 := by
  obtain ⟨k1, k2, k3, k4, -, -, -, -, -, -, -, -, -, -⟩ := stopField_stops
  have hdens : calConfig.det_params.gas_target.density = 1 := rfl
  have hdedx : ∀ k, calConfig.det_params.gas_target.get_dedx stopNucleus k = 1 := fun _ => rfl
  have hF : fieldForce stopNucleus calConfig.det_params.efield = 2 := by
    unfold fieldForce
    simp only [stopNucleus, calConfig, calDet, stopFieldDet]
    norm_num
  have hmass : stopNucleus.mass = 3720 := rfl
  rw [← hP, hmass]
  have hK : Real.sqrt (P + 3720 ^ 2) - 3720 ≤ 5.1 := by
    have : Real.sqrt (P + 3720 ^ 2) ≤ 3725.1 := by
      rw [Real.sqrt_le_left (by norm_num)]
      linarith
    linarith
  have hp : Real.sqrt P ≤ 194 := by
    rw [Real.sqrt_le_left (by norm_num)]
    linarith
  have hR : rangeBound (Real.sqrt (P + 3720 ^ 2) - 3720) 98 < 0.06 := by
    unfold rangeBound
    linarith
  refine ⟨⟨k1, k2, k3, k4, by rw [hP], ?_, ?_, by norm_num, fun k _ => by rw [hdedx, hdens, hF]; norm_num,
    fun k _ => by rw [hdedx, hdens]; norm_num, by simp only; linarith, by simp only; linarith, ?_, ?_⟩, hK, hp⟩
  · rw [hmass, Real.sq_sqrt (by linarith)]
  · have : (3720 + 1e-6 : ℝ) ≤ Real.sqrt (P + 3720 ^ 2) := by
      apply Real.le_sqrt_of_sq_le
      norm_num
      linarith
    unfold KE_LIMIT
    linarith
  · simp only
    rw [show (0 : ℝ) ^ 2 + 0 ^ 2 = 0 by norm_num, Real.sqrt_zero]
    linarith
  · have h3 : Real.sqrt P / (98 * 299792458) ≤ 194 / (98 * 299792458) := by gcongr
    have h4 := mul_le_mul_of_nonneg_right h3 (show (0 : ℝ) ≤ 1 + 1e-9 by norm_num)
    refine h4.trans (by norm_num)

/-- Inelastic scattering of two such nuclei: a beam of 6 MeV leaves one of them with an excitation energy of 1 MeV,
in the middle of the detector. -/
noncomputable def qPipe : Pipeline Unit :=
  { reaction := ⟨stopNucleus, stopNucleus, stopNucleus, stopNucleus⟩, decays := [],
    excitations := [fun s => .ok (1, s)], polar_dists := [fun s => .ok (Real.pi / 2, s)], beam_energy := 6,
    target_material := some ⟨⟨1, fun _ _ => 1, fun _ _ _ => 0⟩, (1 / 2, 1 / 2), 0⟩, event_sample_limit := 1000,
    rng := exGen }

noncomputable def qSample : Sample := ⟨6, 1, Real.pi / 2, 0, (0, 0, 1 / 2), [], [], []⟩

theorem qPipe_sample (s : Unit) : qPipe.sample s = .ok (qSample, ()) := by
  unfold Pipeline.sample Pipeline.sample_vertex qPipe
  simp [exGen, sampleHead, sampleAll, Gen.uniformN, qSample, bind, Except.bind, pure, Except.pure]

theorem qPipe_chain : ChainOk qPipe :=
  ⟨by norm_num [qPipe, stopNucleus], by norm_num [qPipe, stopNucleus], by norm_num [qPipe, stopNucleus],
    by simp [qPipe]⟩

theorem qPipe_samples : SamplesOk qPipe := by
  intro s x s' h
  rw [qPipe_sample] at h
  obtain ⟨rfl, -⟩ := Prod.mk.inj (Except.ok.inj h)
  exact ⟨by norm_num [qPipe, stopNucleus, qSample], by norm_num [qPipe, stopNucleus, qSample], by simp [qPipe]⟩

theorem qPipe_run : ∃ st' t b e r, qPipe.run ⟨(), [none, none, none, none]⟩ = (.ok (0, 0, 1 / 2), st') ∧
    st'.result = [some t, some b, some e, some r] ∧ EventOk qPipe qSample t b e r [] := by
  have hE : EnergyAllowed qPipe qSample := by
    refine ⟨by norm_num [qSample], ?_, trivial⟩
    apply Real.lt_sqrt_of_sq_lt
    norm_num [qPipe, qSample, stopNucleus]
  obtain ⟨st', h1, -, -⟩ := C49_returns_partial (p := qPipe) (st := ⟨(), [none, none, none, none]⟩) ⟨rfl, rfl⟩
    exGen_lawful qPipe_chain qPipe_samples rfl (by
      intro s x s' hx ha
      rw [qPipe_sample] at hx
      obtain ⟨rfl, -⟩ := Prod.mk.inj (Except.ok.inj hx)
      obtain ⟨t, q, e, r, h⟩ := C43_partial (r := qPipe.reaction)
        ⟨by norm_num [qPipe, stopNucleus], by norm_num [qPipe, stopNucleus], by norm_num [qPipe, stopNucleus]⟩
        (by norm_num [qSample]) (by norm_num [qPipe, stopNucleus, qSample]) ha (by norm_num [qPipe, stopNucleus])
        (.inl (by norm_num [qPipe, stopNucleus])) qSample.reaction_theta qSample.reaction_phi
      exact ⟨_, h⟩) (k := 0) (by norm_num [qPipe]) (.zero ()) (qPipe_sample ()) hE
  obtain ⟨s, x, g1, -, t, b, e, r, rows, g2, g3, g4, -⟩ := C46_conservation qPipe_chain qPipe_samples rfl h1
  rw [qPipe_sample] at g1
  obtain ⟨rfl, -⟩ := Prod.mk.inj (Except.ok.inj g1)
  have hr : rows = [] := List.length_eq_zero_iff.1 (by rw [g3]; rfl)
  subst hr
  exact ⟨st', t, b, e, r, h1, g2, g4⟩

/-- Both products move. -/
theorem qPipe_moves {t b e r : Vec4} (h : EventOk qPipe qSample t b e r []) :
    (0.01 ≤ e.px ^ 2 + e.py ^ 2 + e.pz ^ 2 ∧ e.px ^ 2 + e.py ^ 2 + e.pz ^ 2 ≤ 37600) ∧
    0.01 ≤ r.px ^ 2 + r.py ^ 2 + r.pz ^ 2 ∧ r.px ^ 2 + r.py ^ 2 + r.pz ^ 2 ≤ 37600 ∧ r.E - r.M ≤ 5 := by
  have hb2 := momentum_sq (m := 3720) (by norm_num) (h.beam_M.trans rfl)
  have he2 := momentum_sq (m := 3720) (by norm_num) (h.ejectile_M.trans rfl)
  have hrM : r.M = 3721 := by rw [h.residual_M]; norm_num [qPipe, qSample, stopNucleus]
  have hr2 := momentum_sq (m := 3721) (by norm_num) hrM
  have hbE : b.E = 3726 := by rw [h.beam_E]; norm_num [qPipe, qSample, stopNucleus]
  have c2 := congrArg Vec4.pz h.conserved
  have c3 := congrArg Vec4.E h.conserved
  rw [h.target] at c2 c3
  change e.pz + r.pz = 0 + b.pz at c2
  change e.E + r.E = (3720 : ℝ) + b.E at c3
  have hee := mass_le_energy (m := 3720) (by norm_num) (h.ejectile_M.trans rfl) h.ejectile_E
  have hre := mass_le_energy (m := 3721) (by norm_num) hrM h.residual_E
  rw [hbE] at hb2 c3
  rw [h.beam_px, h.beam_py] at hb2
  have hbz : 211 ≤ b.pz := by
    refine le_of_sq_le_sq' ?_ h.beam_pz
    linarith
  have heE : e.E ≤ 3725 := by linarith
  have hrE : r.E ≤ 3726 := by linarith
  have heE2 : e.E ^ 2 ≤ 3725 ^ 2 := pow_le_pow_left₀ (by linarith) heE 2
  have hrE2 : r.E ^ 2 ≤ 3726 ^ 2 := pow_le_pow_left₀ (by linarith) hrE 2
  have small : ∀ u v w : ℝ, u ^ 2 + v ^ 2 + w ^ 2 < 0.01 → w ≤ 0.1 := fun u v w hw =>
    le_of_sq_le_sq' (by nlinarith [sq_nonneg u, sq_nonneg v]) (by norm_num)
  refine ⟨⟨?_, by linarith⟩, ?_, by linarith, by rw [hrM]; linarith⟩
  · by_contra hc
    push Not at hc
    have h1 := small _ _ _ hc
    have h2 : 210.9 ≤ r.pz := by linarith
    nlinarith [sq_nonneg r.px, sq_nonneg r.py]
  · by_contra hc
    push Not at hc
    have h1 := small _ _ _ hc
    have h2 : 210.9 ≤ e.pz := by linarith
    nlinarith [sq_nonneg e.px, sq_nonneg e.py]

/-- The cloud of such a nucleus can be generated. -/
theorem q_cloud {ivp : IvpSolver} (hend : SolvesToTheEnd ivp) (hresp : RespectsEvents ivp)
    (hok : ∀ (vertex momentum : ℝ × ℝ × ℝ) (n : Nucleus) (d : DetectorParams), 0 < n.mass →
      (∀ k, 0 ≤ d.gas_target.get_dedx n k) → 0 ≤ d.gas_target.density →
      LocallyLipschitzOn (Ioi 0) (d.gas_target.get_dedx n) →
      KE_LIMIT ≤ kinetic n (trajectory_problem vertex momentum n d).y0 →
      ∃ sol, ivp (trajectory_problem vertex momentum n d) = .ok sol)
    {v : Vec4} (h1 : 0.01 ≤ v.px ^ 2 + v.py ^ 2 + v.pz ^ 2) (h2 : v.px ^ 2 + v.py ^ 2 + v.pz ^ 2 ≤ 37600)
    (points : Points) (label : ℤ) :
    ∃ res, generate_point_cloud ivp (v.px, v.py, v.pz) (0, 0, 1 / 2) stopNucleus calConfig exGen points label ()
      = .ok res := by
  obtain ⟨hst, hK, -⟩ := q_stops rfl h1 h2
  have hKy : KE_LIMIT ≤ kinetic stopNucleus
      (trajectory_problem (0, 0, 1 / 2) (v.px, v.py, v.pz) stopNucleus calConfig.det_params).y0 := by
    rw [kinetic_initial hst.mass]
    exact hst.energy
  obtain ⟨sol, hsol⟩ := hok (0, 0, 1 / 2) (v.px, v.py, v.pz) stopNucleus calConfig.det_params hst.mass hst.dedx
    hst.density hst.smooth hKy
  have htrack : generate_trajectory ivp (0, 0, 1 / 2) (v.px, v.py, v.pz) stopNucleus calConfig.det_params
      = .ok (sol.map Prod.snd) := by
    unfold generate_trajectory
    rw [hsol]
  have hw : calConfig.det_params.w_value = 30 := rfl
  obtain ⟨primary, s', hgen⟩ := generate_electrons_ok exGen (track := sol.map Prod.snd) stopNucleus
    (params := calConfig.det_params) le_rfl (by rw [hw]; norm_num)
    (fun r hr => (trajectory_energy hresp hKy htrack r hr).1) ()
  obtain ⟨-, -, -, htr⟩ := C126_track hend hst htrack
  have hR : rangeBound (Real.sqrt (v.px ^ 2 + v.py ^ 2 + v.pz ^ 2 + stopNucleus.mass ^ 2) - stopNucleus.mass) 98
      ≤ 0.06 := by
    unfold rangeBound
    linarith
  exact ⟨_, generate_point_cloud_of (ivp := ivp) (g := wideEdges) (by norm_num [wideEdges]) (config := calConfig)
    (grid := wideGrid) rfl points label htrack hgen (by
      intro re hre
      have hz := (cal_recorded_wide ((htr re.1 (List.of_mem_zip (List.mem_filter.1 hre).1).1).trans hR)).2
      have ha : 0 ≤ arrival calConfig re.1.z := by
        rw [cal_arrival]
        linarith
      constructor
      · simp only [calConfig, calDet, stopFieldDet]
        norm_num
      · have hd : calConfig.det_params.diffusion = 1 := rfl
        have he : calConfig.det_params.efield = 1000000 := rfl
        have hv : (0 : ℝ) ≤ calConfig.drift_velocity := by norm_num [calConfig]
        rw [hd, he]
        positivity)⟩

/-- C131 applies: the inelastic scattering of `qPipe` is sampled and simulated, with diffusion, and the 6 MeV of the
beam and a visible energy between 4.97 and 5.01 MeV tell the excitation energy of 1 MeV. -/
example : ∃ st' t b e r env cloud labels,
    qPipe.run ⟨(), [none, none, none, none]⟩ = (.ok (0, 0, 1 / 2), st') ∧
    st'.result = [some t, some b, some e, some r] ∧
    simulate env [t, b, e, r] (0, 0, 1 / 2) qPipe.get_proton_numbers qPipe.get_mass_numbers calConfig exGen
      (default_indices qPipe.get_proton_numbers.length) () = .ok ((cloud, labels), ()) ∧
    4.97 ≤ visibleEnergy calConfig cloud ∧ visibleEnergy calConfig cloud ≤ 5.01 := by
  obtain ⟨st', t, b, e, r, hrun, hres, hev⟩ := qPipe_run
  obtain ⟨⟨he1, he2⟩, hr1, hr2, hT⟩ := qPipe_moves hev
  obtain ⟨ivp, hend, -, hresp, -, -, hok⟩ := C105_solver
  obtain ⟨env, henv⟩ : ∃ env : SimEnv, env = ⟨fun _ _ => .ok stopNucleus, ivp⟩ := ⟨_, rfl⟩
  have hget : ∀ z a, env.get_data z a = .ok stopNucleus := fun z a => by rw [henv]
  have hZ : qPipe.get_proton_numbers = [2, 2, 2, 2] := rfl
  have hA : qPipe.get_mass_numbers = [4, 4, 4, 4] := rfl
  have hdef : default_indices ([2, 2, 2, 2] : List ℤ).length = [2, 3] := rfl
  have hsim : ∃ cloud labels, simulate env [t, b, e, r] (0, 0, 1 / 2) qPipe.get_proton_numbers
      qPipe.get_mass_numbers calConfig exGen (default_indices qPipe.get_proton_numbers.length) ()
        = .ok ((cloud, labels), ()) := by
    obtain ⟨⟨p1, s1⟩, k1⟩ := q_cloud hend hresp hok he1 he2 [] 2
    obtain ⟨⟨p2, s2⟩, k2⟩ := q_cloud hend hresp hok hr1 hr2 p1 3
    have h1 : simulate_nucleus env [t, b, e, r] (0, 0, 1 / 2) [2, 2, 2, 2] [4, 4, 4, 4] calConfig exGen ([], ()) 2
        = .ok (p1, s1) := by
      rw [← k1, henv]
      rfl
    have h2 : simulate_nucleus env [t, b, e, r] (0, 0, 1 / 2) [2, 2, 2, 2] [4, 4, 4, 4] calConfig exGen (p1, s1) 3
        = .ok (p2, s2) := by
      rw [← k2, henv]
      rfl
    rw [hZ, hA, hdef]
    unfold simulate
    simp only [List.foldlM_cons, List.foldlM_nil, h1, h2, bind, Except.bind, pure, Except.pure]
    exact ⟨_, _, rfl⟩
  obtain ⟨cloud, labels, hsim⟩ := hsim
  refine ⟨st', t, b, e, r, env, cloud, labels, hrun, hres, hsim, ?_⟩
  have hrow : ∀ idx ∈ [(2 : ℤ), 3], ∀ q, pyGet [t, b, e, r] idx = .ok q →
      ionising env [t, b, e, r] [2, 2, 2, 2] [4, 4, 4, 4] idx
        = Real.sqrt (q.px ^ 2 + q.py ^ 2 + q.pz ^ 2 + stopNucleus.mass ^ 2) - stopNucleus.mass ∧
      0.01 ≤ q.px ^ 2 + q.py ^ 2 + q.pz ^ 2 ∧ q.px ^ 2 + q.py ^ 2 + q.pz ^ 2 ≤ 37600 := by
    intro idx hidx q hq
    simp only [List.mem_cons, List.not_mem_nil, or_false] at hidx
    rcases hidx with rfl | rfl
    · have e1 : pyGet [t, b, e, r] 2 = .ok e := rfl
      rw [e1] at hq
      obtain rfl := Except.ok.inj hq
      refine ⟨?_, he1, he2⟩
      unfold ionising
      rw [e1, show pyGet [(2 : ℤ), 2, 2, 2] 2 = .ok 2 from rfl, show pyGet [(4 : ℤ), 4, 4, 4] 2 = .ok 4 from rfl]
      simp [hget]
    · have e1 : pyGet [t, b, e, r] 3 = .ok r := rfl
      rw [e1] at hq
      obtain rfl := Except.ok.inj hq
      refine ⟨?_, hr1, hr2⟩
      unfold ionising
      rw [e1, show pyGet [(2 : ℤ), 2, 2, 2] 3 = .ok 2 from rfl, show pyGet [(4 : ℤ), 4, 4, 4] 3 = .ok 4 from rfl]
      simp [hget]
  have hm0 := C129_measured (env := env) (momenta := [t, b, e, r]) (vertex := (0, 0, 1 / 2)) (Zs := [2, 2, 2, 2])
    (As := [4, 4, 4, 4]) (config := calConfig) (grid := wideGrid) (g := wideEdges) (indices := [2, 3])
    (K := ionising env [t, b, e, r] [2, 2, 2, 2] [4, 4, 4, 4])
    (p := fun idx => match pyGet [t, b, e, r] idx with
      | .ok q => Real.sqrt (q.px ^ 2 + q.py ^ 2 + q.pz ^ 2)
      | .error _ => 0)
    (S := fun _ => 98) (S' := fun _ => 100) (mass := 3720) (late := 0.002) (δ := 0) (ε := 0) (η := 0) le_rfl (by
      intro idx hidx z a n q hz hz0 ha hn hq
      rw [hget] at hn
      obtain rfl := Except.ok.inj hn
      obtain ⟨i1, i2, i3⟩ := hrow idx hidx q hq
      obtain ⟨j1, j2, j3⟩ := q_stops rfl i2 i3
      rw [i1]
      simp only [hq]
      refine ⟨j1, by rw [add_zero]; exact j1.time, le_rfl, ?_, ?_, ?_⟩
      · rw [mul_zero, add_zero, mul_one]
        exact stopField_late
      · intro sol hsol
        rw [henv] at hsol
        exact (isTrackWithin_zero _ _).2 (hend _ _ hsol)
      · intro x y z hxyz
        refine (cal_recorded_wide (hxyz.trans ?_)).1
        unfold rangeBound
        linarith)
  have hlen : ∀ idx ∈ [(2 : ℤ), 3], ∀ q, pyGet [t, b, e, r] idx = .ok q →
      stepBound (Real.sqrt (q.px ^ 2 + q.py ^ 2 + q.pz ^ 2)) 98 ≤ 67 := by
    intro idx hidx q hq
    obtain ⟨-, i2, i3⟩ := hrow idx hidx q hq
    obtain ⟨-, -, j3⟩ := q_stops rfl i2 i3
    unfold stepBound
    have h3 : Real.sqrt (q.px ^ 2 + q.py ^ 2 + q.pz ^ 2) / (98 * 299792458) ≤ 194 / (98 * 299792458) := by gcongr
    have h4 := mul_le_mul_of_nonneg_right h3 (show (0 : ℝ) ≤ (1 + 1e-9) * 1e10 by norm_num)
    rw [mul_assoc]
    exact h4.trans (by norm_num)
  have hmeas : Measured env [t, b, e, r] qSample.vertex qPipe.get_proton_numbers qPipe.get_mass_numbers calConfig
      wideGrid wideEdges (default_indices qPipe.get_proton_numbers.length)
      (fun idx => ionising env [t, b, e, r] qPipe.get_proton_numbers qPipe.get_mass_numbers idx - 0.002)
      (fun idx => ionising env [t, b, e, r] qPipe.get_proton_numbers qPipe.get_mass_numbers idx + 0)
      (fun _ => 68) := by
    rw [hZ, hA, hdef]
    intro idx hidx n track ht
    obtain ⟨m1, m2, m3, m4⟩ := hm0 idx hidx n track ht
    obtain ⟨zn, a, q, -, -, -, -, hq, -⟩ := trackOf_some ht
    have := hlen idx hidx q hq
    simp only [hq] at m2 m3
    refine ⟨by linarith, ?_, by linarith, m4⟩
    have e0 : (2 * ((3720 : ℝ) * 0)) = 0 := by norm_num
    rw [e0, zero_mul] at m2
    linarith
  have hfin : finalNuclei qPipe = [stopNucleus, stopNucleus] := rfl
  have hQ : groundQ qPipe = 0 := by
    unfold groundQ
    rw [hfin]
    norm_num [qPipe, stopNucleus]
  have hn : neutralEnergy ((finalNuclei qPipe).zip (finals [e, r])) = 0 := by
    rw [hfin]
    have h2 : stopNucleus.Z = 2 := rfl
    simp [neutralEnergy, finals, h2]
  have hw : calConfig.det_params.w_value = 30 := rfl
  have hg : calConfig.det_params.mpgd_gain = 100 := rfl
  have hD : calConfig.det_params.diffusion = 1 := rfl
  obtain ⟨b1, b2⟩ := C131_excitation (env := env) hev (by rw [hfin]; simp [stopNucleus])
    (by
      intro n hn
      rw [hget]
      have : n = stopNucleus := by
        have h4 : chainNuclei (.reaction qPipe.reaction :: qPipe.decays.map .decay)
            = [stopNucleus, stopNucleus, stopNucleus, stopNucleus] := rfl
        rw [h4] at hn
        simpa using hn
      rw [this]) (ex := 1) rfl zero_le_one (m := 3720) rfl rfl exGen_lawful (by norm_num [wideEdges]) rfl
    (by rw [hg]; norm_num) rfl (by rw [hw]; norm_num) hmeas hsim (charged := [2, 3]) rfl
  have hc : cutLoss calConfig = 100 := by
    unfold cutLoss
    rw [hD]
    norm_num
  have hs : pixelShare calConfig = 0.998 := by
    unfold pixelShare
    rw [hD]
    norm_num
  rw [hQ, hn, hw, hg, hc, hs] at b2
  rw [hQ, hn] at b1
  have hlast : ((r :: ([] : List Vec4)).getLast (by simp)) = r := rfl
  rw [hlast] at b1
  have hb : qSample.beam_energy = 6 := rfl
  rw [hb] at b1 b2
  simp only [List.map_cons, List.map_nil, List.sum_cons, List.sum_nil, add_zero] at b1 b2
  push_cast at b1 b2
  constructor
  · rw [sub_le_iff_le_add, ← sub_le_iff_le_add', le_div_iff₀ (by norm_num)] at b2
    linarith
  · linarith

end Verif.Props
