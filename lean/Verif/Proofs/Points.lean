import Verif.Spec.Deposits
import Verif.Props.Pairing
import Verif.Tactics

/-! # Lemmas on the point dictionary -/

namespace Verif.Detector

open Verif.Spec

namespace Points

/-- keys in insertion order -/
def keys (p : Points) : List ℤ := p.map (·.1)

/-- total charge -/
def total (p : Points) : ℤ := (p.map (·.2.1)).sum

theorem get_set_self (p : Points) (k : ℤ) (v d : ℤ × ℤ) : (p.set k v).get k d = v := by
  induction p with
  | nil => simp [set, get]
  | cons a p ih =>
    obtain ⟨k', w⟩ := a
    unfold set
    split_ifs with h
    · simp [get, h]
    · simp only [get, if_neg h]; exact ih

theorem get_set_of_ne (p : Points) (k k' : ℤ) (v d : ℤ × ℤ) (h : k' ≠ k) :
    (p.set k v).get k' d = p.get k' d := by
  induction p with
  | nil => simp [set, get, h.symm]
  | cons a p ih =>
    obtain ⟨k'', w⟩ := a
    unfold set
    split_ifs with hk
    · subst hk; simp [get, h.symm]
    · simp only [get]; rw [ih]

theorem mem_keys_set (p : Points) (k k' : ℤ) (v : ℤ × ℤ) :
    k' ∈ (p.set k v).keys ↔ k' = k ∨ k' ∈ p.keys := by
  induction p with
  | nil => simp [set, keys]
  | cons a p ih =>
    obtain ⟨k'', w⟩ := a
    unfold set
    split_ifs with hk
    · subst hk; simp [keys]
    · simp only [keys, List.map_cons, List.mem_cons] at ih ⊢
      rw [ih]; tauto

theorem nodup_set (p : Points) (k : ℤ) (v : ℤ × ℤ) (h : p.keys.Nodup) : (p.set k v).keys.Nodup := by
  induction p with
  | nil => simp [set, keys]
  | cons a p ih =>
    obtain ⟨k'', w⟩ := a
    unfold set
    simp only [keys, List.map_cons, List.nodup_cons] at h
    split_ifs with hk
    · subst hk; simpa [keys] using h
    · have := ih h.2
      simp only [keys, List.map_cons, List.nodup_cons]
      refine ⟨?_, this⟩
      intro hm
      have := (mem_keys_set p k k'' v).1 hm
      rcases this with h1 | h1
      · exact hk h1
      · exact h.1 h1

theorem get_of_mem (p : Points) (h : p.keys.Nodup) (k : ℤ) (v d : ℤ × ℤ) (hm : (k, v) ∈ p) :
    p.get k d = v := by
  induction p with
  | nil => simp at hm
  | cons a p ih =>
    obtain ⟨k'', w⟩ := a
    simp only [keys, List.map_cons, List.nodup_cons] at h
    simp only [List.mem_cons, Prod.mk.injEq] at hm
    rcases hm with ⟨rfl, rfl⟩ | hm
    · simp [get]
    · have : k'' ≠ k := by
        rintro rfl
        exact h.1 (List.mem_map.2 ⟨_, hm, rfl⟩)
      simp only [get, if_neg this]
      exact ih h.2 hm

theorem get_of_not_mem (p : Points) (k : ℤ) (d : ℤ × ℤ) (hm : k ∉ p.keys) : p.get k d = d := by
  induction p with
  | nil => simp [get]
  | cons a p ih =>
    obtain ⟨k'', w⟩ := a
    simp only [keys, List.map_cons, List.mem_cons, not_or] at hm
    simp only [get, if_neg (Ne.symm hm.1)]
    exact ih hm.2

theorem mem_of_mem_keys (p : Points) (k : ℤ) (d : ℤ × ℤ) (hm : k ∈ p.keys) : (k, p.get k d) ∈ p := by
  induction p with
  | nil => simp [keys] at hm
  | cons a p ih =>
    obtain ⟨k'', w⟩ := a
    simp only [keys, List.map_cons, List.mem_cons] at hm
    by_cases h : k'' = k
    · subst h; simp [get]
    · simp only [get, if_neg h]
      exact List.mem_cons_of_mem _ (ih (hm.resolve_left (Ne.symm h)))

theorem total_set (p : Points) (k e l : ℤ) :
    (p.set k ((p.get k (0, 0)).1 + e, l)).total = p.total + e := by
  induction p with
  | nil => simp [set, get, total]
  | cons a p ih =>
    obtain ⟨k'', w⟩ := a
    by_cases h : k'' = k
    · subst h; simp [get, set, total]; ring
    · simp only [get, if_neg h, set, total, List.map_cons, List.sum_cons] at ih ⊢
      rw [ih]; ring

end Points

/-- The dictionary key of a deposit. -/
def depKey (d : Deposit) : ℤ := pair d.tb d.pad

/-- Apply one deposit. -/
def applyDeposit (p : Points) (d : Deposit) : Points := addCharge p d.tb d.pad d.e d.label

/-- Apply a history of deposits. -/
def applyDeposits (p : Points) (h : List Deposit) : Points := h.foldl applyDeposit p

theorem applyDeposits_append (p : Points) (h h' : List Deposit) :
    applyDeposits p (h ++ h') = applyDeposits (applyDeposits p h) h' := by
  simp [applyDeposits]

theorem applyDeposits_concat (p : Points) (h : List Deposit) (d : Deposit) :
    applyDeposits p (h ++ [d]) = applyDeposit (applyDeposits p h) d := by
  simp [applyDeposits]

theorem applyDeposits_keys (p : Points) (h : List Deposit) (k : ℤ) :
    k ∈ (applyDeposits p h).keys ↔ k ∈ p.keys ∨ ∃ d ∈ h, depKey d = k := by
  induction h generalizing p with
  | nil => simp [applyDeposits]
  | cons d h ih =>
    have : applyDeposits p (d :: h) = applyDeposits (applyDeposit p d) h := rfl
    rw [this, ih]
    unfold applyDeposit addCharge
    rw [Points.mem_keys_set]
    simp only [List.mem_cons, exists_eq_or_imp, depKey]
    constructor
    · rintro ((h | h) | h)
      · exact .inr (.inl h.symm)
      · exact .inl h
      · exact .inr (.inr h)
    · rintro (h | h | h)
      · exact .inl (.inr h)
      · exact .inl (.inl h.symm)
      · exact .inr h

theorem applyDeposits_nodup (p : Points) (h : List Deposit) (hp : p.keys.Nodup) :
    (applyDeposits p h).keys.Nodup := by
  induction h generalizing p with
  | nil => simpa [applyDeposits]
  | cons d h ih => exact ih _ (Points.nodup_set _ _ _ hp)

theorem applyDeposits_total (p : Points) (h : List Deposit) :
    (applyDeposits p h).total = p.total + (h.map (·.e)).sum := by
  induction h generalizing p with
  | nil => simp [applyDeposits]
  | cons d h ih =>
    have : applyDeposits p (d :: h) = applyDeposits (applyDeposit p d) h := rfl
    rw [this, ih]
    unfold applyDeposit addCharge
    rw [Points.total_set]
    simp; ring

theorem applyDeposits_get_key (p : Points) (h : List Deposit) (k : ℤ) :
    ((applyDeposits p h).get k (0, 0)).1
      = (p.get k (0, 0)).1 + ((h.filter fun d => decide (depKey d = k)).map (·.e)).sum := by
  induction h generalizing p with
  | nil => simp [applyDeposits]
  | cons d h ih =>
    have : applyDeposits p (d :: h) = applyDeposits (applyDeposit p d) h := rfl
    rw [this, ih]
    unfold applyDeposit addCharge
    by_cases hk : depKey d = k
    · rw [List.filter_cons_of_pos (by simpa using hk)]
      have hk' : pair d.tb d.pad = k := hk
      simp only [hk', Points.get_set_self, List.map_cons, List.sum_cons]
      ring
    · rw [List.filter_cons_of_neg (by simpa using hk)]
      have hk' : k ≠ pair d.tb d.pad := fun hh => hk hh.symm
      simp only [Points.get_set_of_ne _ _ _ _ _ hk']

theorem applyDeposits_label_key (p : Points) (h : List Deposit) (k : ℤ) (d : ℤ × ℤ) :
    ((applyDeposits p h).get k d).2
      = (((h.filter fun d => decide (depKey d = k)).getLast?).map (·.label)).getD (p.get k d).2 := by
  induction h using List.reverseRecOn with
  | nil => simp [applyDeposits]
  | append_singleton h a ih =>
    rw [applyDeposits_concat]
    unfold applyDeposit addCharge
    by_cases hk : depKey a = k
    · have hk' : pair a.tb a.pad = k := hk
      simp only [hk', Points.get_set_self]
      rw [List.filter_append]
      simp [hk]
    · have hk' : k ≠ pair a.tb a.pad := fun hh => hk hh.symm
      simp only [Points.get_set_of_ne _ _ _ _ _ hk']
      rw [ih, List.filter_append]
      simp [hk]

/-- For a valid (tb, pad), a deposit has its key iff it is on that pad in that time bucket. -/
theorem depKey_eq_iff (d : Deposit) (tb pad : ℤ) (h1 : 0 ≤ tb) (h2 : 0 ≤ pad) :
    depKey d = pair tb pad ↔ d.at tb pad := by
  constructor
  · intro h
    have hk : 0 ≤ pair tb pad := (C01_pair_range tb pad).1 ⟨h1, h2⟩
    by_cases hd : d.tb < 0 ∨ d.pad < 0
    · have := (C01_pair_range d.tb d.pad).2 hd
      unfold depKey at h; omega
    · push Not at hd
      exact C01_pair_injective _ _ _ _ hd.1 hd.2 h1 h2 h
  · rintro ⟨rfl, rfl⟩; rfl

theorem filter_depKey (h : List Deposit) (tb pad : ℤ) (h1 : 0 ≤ tb) (h2 : 0 ≤ pad) :
    (h.filter fun d => decide (depKey d = pair tb pad)) = h.filter fun d => decide (d.at tb pad) := by
  congr 1
  funext d
  simp only [depKey_eq_iff d tb pad h1 h2]

end Verif.Detector
