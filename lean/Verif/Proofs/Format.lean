import Verif.Spec.Writing
import Verif.Proofs.Config
import Verif.Tactics

/-! # Formatting of one event -/

namespace Verif.Detector

open Verif.Spec

theorem mapM_forall₂ {α β : Type} (f : α → Except PyErr β) (l : List α) (r : List β)
    (h : l.mapM f = .ok r) : List.Forall₂ (fun a b => f a = .ok b) l r := by
  induction l generalizing r with
  | nil =>
    have h : ([] : List β) = r := Except.ok.inj h
    subst h
    exact .nil
  | cons a l ih =>
    obtain ⟨b, bs, h1, h2, rfl⟩ := (mapM_except_cons _ _ _ _).1 h
    exact .cons h1 (ih bs h2)

theorem forall₂_mapM {α β : Type} (f : α → Except PyErr β) (l : List α) (r : List β)
    (h : List.Forall₂ (fun a b => f a = .ok b) l r) : l.mapM f = .ok r := by
  induction h with
  | nil => rfl
  | cons h1 _ ih => exact (mapM_except_cons _ _ _ _).2 ⟨_, _, h1, ih, rfl⟩

theorem numbaGet_nat {α : Type} (l : List α) (n : ℕ) (a : α) :
    numbaGet l (n : ℤ) = .ok a ↔ l[n]? = some a := by
  unfold numbaGet pyGet
  have : ¬ ((n : ℤ) < 0) := by omega
  simp only [this, if_false, Int.toNat_natCast]
  cases l[n]? <;> simp

theorem pyInt_nat (n : ℕ) : pyInt (n : ℝ) = n := by
  unfold pyInt
  rw [if_pos (Nat.cast_nonneg n)]
  simp

/-- What one converted point is. -/
theorem convert_point_ok_iff (config : Config) (centers : List (ℝ × ℝ)) (response : List ℝ)
    (p : CloudPoint) (n : ℕ) (hn : p.pad = n) (r : SpyralRow) :
    convert_point config.elec_params.windows_edge config.elec_params.micromegas_edge
      config.det_params.length response centers config.pad_sizes p = .ok r ↔
    config.elec_params.windows_edge ≠ config.elec_params.micromegas_edge ∧
    RowOf config centers response p r := by
  unfold convert_point
  rw [except_bind_ok, hn, pyInt_nat]
  constructor
  · rintro ⟨c, hc, h⟩
    simp only at h
    split_ifs at h with h0
    rw [except_bind_ok] at h
    obtain ⟨sz, hsz, h⟩ := h
    have h := Except.ok.inj h
    subst h
    refine ⟨fun h => h0 (by rw [h]; ring), ⟨⟨n, hn, (numbaGet_nat _ _ _).1 hc,
      (numbaGet_nat _ _ _).1 hsz⟩, ?_, rfl, hn.symm, rfl⟩⟩
    simp only
    push_cast
    rfl
  · rintro ⟨hne, ⟨⟨m, hm, h1, h2⟩, hz, hs, hp, ht⟩⟩
    have hmn : n = m := by
      have : (n : ℝ) = m := hn.symm.trans hm
      exact_mod_cast this
    subst hmn
    refine ⟨(r.x, r.y), (numbaGet_nat _ _ _).2 h1, ?_⟩
    simp only
    rw [if_neg (fun h => hne (by omega)), except_bind_ok]
    refine ⟨r.scale, (numbaGet_nat _ _ _).2 h2, ?_⟩
    show Except.ok _ = Except.ok _
    congr 1
    have ha : (apply_response response p.e).1 = r.amp := by rw [← hs]
    have hi : (apply_response response p.e).2 = r.integral := by rw [← hs]
    rw [ha, hi, ← hn, ← hp, ← ht]
    rw [← ht] at hz
    cases r
    simp only at hz ⊢
    rw [hz]
    push_cast
    rfl

theorem takeIdx_range {α : Type} (l : List α) : takeIdx (List.range l.length) l = l := by
  unfold takeIdx
  apply List.ext_getElem?
  intro i
  induction l with
  | nil => simp
  | cons a l ih =>
    rw [List.length_cons, List.range_succ_eq_map, List.filterMap_cons]
    simp only [List.getElem?_cons_zero, List.filterMap_map]
    have : ((fun i => (a :: l)[i]?) ∘ Nat.succ) = fun i => l[i]? := by
      funext j; simp
    rw [this]
    have hl : List.filterMap (fun i => l[i]?) (List.range l.length) = l := by
      clear ih
      apply List.ext_getElem?
      intro j
      have hm : List.filterMap (fun i => l[i]?) (List.range l.length)
          = List.filterMap id ((List.range l.length).map fun i => l[i]?) := by
        rw [List.filterMap_map]; rfl
      have hmap : ((List.range l.length).map fun i => l[i]?) = l.map some := by
        apply List.ext_getElem
        · simp
        · intro k h1 h2
          simp at h1 h2 ⊢
      rw [hm, hmap, List.filterMap_map]
      simp
    rw [hl]

theorem takeIdx_perm {α : Type} (idx : List ℕ) (l : List α)
    (h : idx.Perm (List.range l.length)) : (takeIdx idx l).Perm l := by
  have := h.filterMap (fun i => l[i]?)
  rw [show List.filterMap (fun i => l[i]?) (List.range l.length) = l from takeIdx_range l] at this
  exact this

theorem takeIdx_map {α β : Type} (f : α → β) (idx : List ℕ) (l : List α) :
    takeIdx idx (l.map f) = (takeIdx idx l).map f := by
  unfold takeIdx
  induction idx with
  | nil => rfl
  | cons i idx ih =>
    simp only [List.filterMap_cons, List.getElem?_map] at ih ⊢
    cases l[i]? <;> simp [ih]

theorem takeIdx_zip {α β : Type} (idx : List ℕ) (a : List α) (b : List β)
    (h : a.length = b.length) : (takeIdx idx a).zip (takeIdx idx b) = takeIdx idx (a.zip b) := by
  have h1 : a = (a.zip b).map Prod.fst := by rw [List.map_fst_zip]; omega
  have h2 : b = (a.zip b).map Prod.snd := by rw [List.map_snd_zip]; omega
  generalize a.zip b = z at h1 h2
  subst h1 h2
  rw [takeIdx_map, takeIdx_map]
  generalize takeIdx idx z = y
  induction y with
  | nil => rfl
  | cons x y ih => simp [ih]

end Verif.Detector
