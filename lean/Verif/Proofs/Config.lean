import Verif.Detector.Parameters
import Verif.Proofs.Simulate

/-! # Loading of per-pad data -/

namespace Verif.Detector

theorem mapM_except_cons {α β : Type} (f : α → Except PyErr β) (a : α) (l : List α)
    (r : List β) : (a :: l).mapM f = .ok r ↔ ∃ b bs, f a = .ok b ∧ l.mapM f = .ok bs ∧ r = b :: bs := by
  rw [List.mapM_cons]
  constructor
  · intro h
    rw [except_bind_ok] at h
    obtain ⟨b, hb, h⟩ := h
    rw [except_bind_ok] at h
    obtain ⟨bs, hbs, h⟩ := h
    exact ⟨b, bs, hb, hbs, (Except.ok.inj h).symm⟩
  · rintro ⟨b, bs, hb, hbs, rfl⟩
    rw [hb, hbs]
    rfl

/-- `loadLines` writes the parsed values at consecutive positions and succeeds exactly when all lines
parse and there are not more lines than positions. -/
theorem loadLines_ok_iff {α : Type} (parse : List ℝ → Except PyErr α) (k : ℕ)
    (lines : List (List ℝ)) (arr res : List α) (hk : k ≤ arr.length) :
    loadLines parse k lines arr = .ok res ↔
      ∃ vals, lines.mapM parse = .ok vals ∧ k + lines.length ≤ arr.length ∧
        res = arr.take k ++ vals ++ arr.drop (k + vals.length) := by
  induction lines generalizing k arr with
  | nil =>
    unfold loadLines
    constructor
    · intro h
      refine ⟨[], rfl, by simpa using hk, ?_⟩
      have := Except.ok.inj h
      simp [this]
    · rintro ⟨vals, hv, -, rfl⟩
      have : ([] : List α) = vals := Except.ok.inj hv
      subst this
      simp
  | cons line lines ih =>
    unfold loadLines
    rw [except_bind_ok]
    constructor
    · rintro ⟨v, hv, h⟩
      rw [except_bind_ok] at h
      obtain ⟨arr', ha, h⟩ := h
      unfold assignAt at ha
      split_ifs at ha with hlt
      have ha := Except.ok.inj ha
      subst ha
      obtain ⟨vals, h1, h2, h3⟩ := (ih (k + 1) (arr.set k v) (by simpa using hlt)).1 h
      refine ⟨v :: vals, (mapM_except_cons _ _ _ _).2 ⟨v, vals, hv, h1, rfl⟩, ?_, ?_⟩
      · simp at h2 ⊢; omega
      · rw [h3, List.take_set, List.take_add_one, List.drop_set_of_lt (by omega)]
        rw [List.getElem?_eq_getElem hlt]
        have e : k + 1 + vals.length = k + (v :: vals).length := by simp; omega
        rw [e]
        congr 1
        simp only [Option.toList_some]
        rw [List.set_append_right _ _ (by simp), List.length_take_of_le hk]
        simp
    · rintro ⟨vals, hm, hlen, rfl⟩
      obtain ⟨v, vs, hv, hvs, rfl⟩ := (mapM_except_cons _ _ _ _).1 hm
      refine ⟨v, hv, ?_⟩
      have hlt : k < arr.length := by simp at hlen; omega
      rw [except_bind_ok]
      refine ⟨arr.set k v, by unfold assignAt; rw [if_pos hlt], ?_⟩
      rw [ih (k + 1) _ (by simpa using hlt)]
      refine ⟨vs, hvs, by simp at hlen ⊢; omega, ?_⟩
      rw [List.take_set, List.take_add_one, List.drop_set_of_lt (by omega)]
      rw [List.getElem?_eq_getElem hlt]
      have e : k + 1 + vs.length = k + (v :: vs).length := by simp; omega
      rw [e]
      congr 1
      simp only [Option.toList_some]
      rw [List.set_append_right _ _ (by simp), List.length_take_of_le hk]
      simp

end Verif.Detector
