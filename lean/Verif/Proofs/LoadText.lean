import Verif.Detector.LoadText
import Verif.Proofs.Text
import Verif.Proofs.Config

/-! # Lemmas on loading pad files from text -/

namespace Verif.Detector

open Verif.Spec

theorem universal_of {t t' : Text} (h : LineEnds t t') : universal t = t' := by
  induction h with
  | nil => rfl
  | crlf h ih =>
    rw [universal.eq_def]
    simp only [if_true]
    rw [universal.eq_def]
    simp [ih]
  | @cr t t' ht h ih =>
    rw [universal.eq_def]
    simp only [if_true]
    rcases t with _ | ⟨d, t⟩
    · cases h; rfl
    · have hd : d ≠ 10 := fun h' => ht t (by rw [h'])
      simp [hd, ih]
  | other hc h ih =>
    rw [universal.eq_def]
    simp [hc, ih]

theorem lineEnds_exists (t : Text) : ∃ t', LineEnds t t' := by
  have : ∀ (n : ℕ) (t : Text), t.length ≤ n → ∃ t', LineEnds t t' := by
    intro n
    induction n with
    | zero =>
      intro t ht
      have : t = [] := List.length_eq_zero_iff.1 (by omega)
      subst this
      exact ⟨_, .nil⟩
    | succ n ih =>
      intro t ht
      rcases t with _ | ⟨c, t⟩
      · exact ⟨_, .nil⟩
      by_cases hc : c = 13
      · subst hc
        by_cases h10 : ∃ r, t = 10 :: r
        · obtain ⟨r, rfl⟩ := h10
          obtain ⟨t', h⟩ := ih r (by simp at ht; omega)
          exact ⟨_, .crlf h⟩
        · obtain ⟨t', h⟩ := ih t (by simp at ht; omega)
          exact ⟨_, .cr (fun r hr => h10 ⟨r, hr⟩) h⟩
      · obtain ⟨t', h⟩ := ih t (by simp at ht; omega)
        exact ⟨_, .other hc h⟩
  exact this t.length t le_rfl

theorem universal_iff (t t' : Text) : universal t = t' ↔ LineEnds t t' := by
  constructor
  · rintro rfl
    obtain ⟨t', h⟩ := lineEnds_exists t
    rw [universal_of h]; exact h
  · exact universal_of

theorem dataLines_of {t t' header : Text} {lines : List Text} (h1 : LineEnds t t')
    (h2 : Lines t' (header :: lines)) : dataLines t = lines := by
  rw [dataLines, universal_of h1, readlines_of h2]
  rfl

/-! ## The loops -/

theorem modify_pair {α β : Type} (arr : List (α × β)) (k : ℕ) (x : α) (y : β) :
    (arr.modify k fun c => (x, c.2)).modify k (fun c => (c.1, y)) = arr.set k (x, y) := by
  induction arr generalizing k with
  | nil => simp
  | cons a arr ih =>
    rcases k with _ | k
    · rfl
    · simpa using ih k

theorem modify_const {α : Type} (arr : List α) (k : ℕ) (x : α) :
    arr.modify k (fun _ => x) = arr.set k x := by
  induction arr generalizing k with
  | nil => simp
  | cons a arr ih =>
    rcases k with _ | k
    · rfl
    · simpa using ih k

/-- One line of the geometry file. -/
theorem loadCenters_cons (k : ℕ) (line : Text) (lines : List Text) (arr : List (FloatLit × FloatLit)) :
    loadCenters k (line :: lines) arr = (do
      let x ← floatEntry (splitComma line) 0
      if k < arr.length then do
        let y ← floatEntry (splitComma line) 1
        loadCenters (k + 1) lines (arr.set k (x, y))
      else .error .indexError) := by
  rw [loadCenters]
  rcases floatEntry (splitComma line) 0 with e | x
  · rfl
  · show (modifyAt arr k fun c => (x, c.2)) >>= _ = _
    unfold modifyAt
    by_cases hk : k < arr.length
    · simp only [hk, if_true]
      show (do
        let y ← floatEntry (splitComma line) 1
        let arr ← (if k < (arr.modify k fun c => (x, c.2)).length then
          Except.ok ((arr.modify k fun c => (x, c.2)).modify k fun c => (c.1, y))
          else .error .indexError)
        loadCenters (k + 1) lines arr) = (do
        let y ← floatEntry (splitComma line) 1
        loadCenters (k + 1) lines (arr.set k (x, y)))
      rw [List.length_modify]
      simp only [hk, if_true, modify_pair]
      rfl
    · simp only [hk, if_false]
      rfl

theorem loadSizes_cons (k : ℕ) (line : Text) (lines : List Text) (arr : List FloatLit) :
    loadSizes k (line :: lines) arr = (do
      let x ← floatEntry (splitComma line) 0
      if k < arr.length then loadSizes (k + 1) lines (arr.set k x)
      else .error .indexError) := by
  rw [loadSizes]
  rcases floatEntry (splitComma line) 0 with e | x
  · rfl
  · show (modifyAt arr k fun _ => x) >>= _ = _
    unfold modifyAt
    by_cases hk : k < arr.length
    · simp only [hk, if_true, modify_const]
      rfl
    · simp only [hk, if_false]
      rfl

/-- The two values of a line. -/
def LineValues (line : Text) (v : FloatLit × FloatLit) : Prop :=
  floatEntry (splitComma line) 0 = .ok v.1 ∧ floatEntry (splitComma line) 1 = .ok v.2

theorem set_split {α : Type} (arr : List α) (k n : ℕ) (hk : k < arr.length) (v : α) (vals : List α) :
    (arr.set k v).take (k + 1) ++ vals ++ (arr.set k v).drop (k + 1 + n)
      = arr.take k ++ (v :: vals) ++ arr.drop (k + (n + 1)) := by
  have h1 : (arr.set k v).take (k + 1) = arr.take k ++ [v] := by
    rw [List.take_succ, List.take_set_of_le le_rfl]
    simp [hk]
  have h2 : (arr.set k v).drop (k + 1 + n) = arr.drop (k + (n + 1)) := by
    rw [List.drop_set_of_lt (by omega)]
    congr 1; omega
  rw [h1, h2]
  simp

theorem loadCenters_ok (lines : List Text) : ∀ (k : ℕ) (arr res : List (FloatLit × FloatLit)),
    k ≤ arr.length → (loadCenters k lines arr = .ok res ↔ k + lines.length ≤ arr.length ∧
      ∃ vals, List.Forall₂ LineValues lines vals ∧
        res = arr.take k ++ vals ++ arr.drop (k + lines.length)) := by
  induction lines with
  | nil =>
    intro k arr res hk
    rw [loadCenters]
    constructor
    · intro h
      refine ⟨by simpa using hk, [], .nil, ?_⟩
      simp [Except.ok.inj h]
    · rintro ⟨-, vals, hv, rfl⟩
      cases hv
      simp
  | cons line lines ih =>
    intro k arr res hk
    rw [loadCenters_cons]
    constructor
    · intro h
      rcases hx : floatEntry (splitComma line) 0 with e | x
      · rw [hx] at h; exact absurd h (by simp [bind, Except.bind])
      rw [hx] at h
      replace h : (if k < arr.length then do
        let y ← floatEntry (splitComma line) 1
        loadCenters (k + 1) lines (arr.set k (x, y))
        else .error .indexError) = Except.ok res := h
      split_ifs at h with hk'
      rcases hy : floatEntry (splitComma line) 1 with e | y
      · rw [hy] at h; exact absurd h (by simp [bind, Except.bind])
      rw [hy] at h
      replace h : loadCenters (k + 1) lines (arr.set k (x, y)) = Except.ok res := h
      obtain ⟨h1, vals, hv, hres⟩ := (ih (k + 1) _ res (by rw [List.length_set]; omega)).1 h
      rw [List.length_set] at h1
      refine ⟨by simp; omega, (x, y) :: vals, .cons ⟨hx, hy⟩ hv, ?_⟩
      rw [hres, set_split _ _ _ hk']
      rfl
    · rintro ⟨h1, vals, hv, rfl⟩
      rw [List.length_cons] at h1
      obtain ⟨v, vals, hl, hv', rfl⟩ := List.forall₂_cons_left_iff.1 hv
      have hk' : k < arr.length := by omega
      rw [hl.1]
      show (if k < arr.length then do
        let y ← floatEntry (splitComma line) 1
        loadCenters (k + 1) lines (arr.set k (v.1, y))
        else .error .indexError) = _
      rw [if_pos hk', hl.2]
      show loadCenters (k + 1) lines (arr.set k v) = _
      rw [(ih (k + 1) _ _ (by rw [List.length_set]; omega))]
      refine ⟨by rw [List.length_set]; omega, vals, hv', ?_⟩
      rw [set_split _ _ _ hk']
      rfl

theorem loadSizes_ok (lines : List Text) : ∀ (k : ℕ) (arr res : List FloatLit),
    k ≤ arr.length → (loadSizes k lines arr = .ok res ↔ k + lines.length ≤ arr.length ∧
      ∃ vals, List.Forall₂ (fun line v => floatEntry (splitComma line) 0 = .ok v) lines vals ∧
        res = arr.take k ++ vals ++ arr.drop (k + lines.length)) := by
  induction lines with
  | nil =>
    intro k arr res hk
    rw [loadSizes]
    constructor
    · intro h
      refine ⟨by simpa using hk, [], .nil, ?_⟩
      simp [Except.ok.inj h]
    · rintro ⟨-, vals, hv, rfl⟩
      cases hv
      simp
  | cons line lines ih =>
    intro k arr res hk
    rw [loadSizes_cons]
    constructor
    · intro h
      rcases hx : floatEntry (splitComma line) 0 with e | x
      · rw [hx] at h; exact absurd h (by simp [bind, Except.bind])
      rw [hx] at h
      replace h : (if k < arr.length then loadSizes (k + 1) lines (arr.set k x)
        else .error .indexError) = Except.ok res := h
      split_ifs at h with hk'
      obtain ⟨h1, vals, hv, hres⟩ := (ih (k + 1) _ res (by rw [List.length_set]; omega)).1 h
      rw [List.length_set] at h1
      refine ⟨by simp; omega, x :: vals, .cons hx hv, ?_⟩
      rw [hres, set_split _ _ _ hk']
      rfl
    · rintro ⟨h1, vals, hv, rfl⟩
      rw [List.length_cons] at h1
      obtain ⟨v, vals, hl, hv', rfl⟩ := List.forall₂_cons_left_iff.1 hv
      have hk' : k < arr.length := by omega
      rw [hl]
      show (if k < arr.length then loadSizes (k + 1) lines (arr.set k v)
        else .error .indexError) = _
      rw [if_pos hk', (ih (k + 1) _ _ (by rw [List.length_set]; omega))]
      refine ⟨by rw [List.length_set]; omega, vals, hv', ?_⟩
      rw [set_split _ _ _ hk']
      rfl

/-! ## Tables of numbers -/

theorem floatEntry_writes {es : List Text} {row : List ℝ} (h : List.Forall₂ Writes es row) (i : ℕ) :
    match row[i]? with
    | some v => ∃ l, floatEntry es i = .ok l ∧ LitIs l v
    | none => floatEntry es i = .error .indexError := by
  induction h generalizing i with
  | nil => simp [floatEntry]
  | @cons e v es row he _ ih =>
    rcases i with _ | i
    · obtain ⟨neg, m, x, hl, rfl⟩ := he
      exact ⟨_, (pyFloat_num e neg m x).2 hl, _, _, _, rfl, rfl⟩
    · simpa [floatEntry] using ih i

theorem forall₂_set {α β : Type} {R : α → β → Prop} {l : List α} {l' : List β}
    (h : List.Forall₂ R l l') (k : ℕ) {a : α} {b : β} (hab : R a b) :
    List.Forall₂ R (l.set k a) (l'.set k b) := by
  induction h generalizing k with
  | nil => exact .nil
  | cons hr ht ih =>
    rcases k with _ | k
    · exact .cons hab ht
    · exact .cons hr (ih k)

theorem sameOutcome_centers {lines : List Text} {rows : List (List ℝ)}
    (h : List.Forall₂ RowOfNumbers lines rows) : ∀ (k : ℕ) (arr : List (FloatLit × FloatLit))
    (arr' : List (ℝ × ℝ)),
    List.Forall₂ (fun l v => LitIs l.1 v.1 ∧ LitIs l.2 v.2) arr arr' →
    SameOutcome (List.Forall₂ fun l v => LitIs l.1 v.1 ∧ LitIs l.2 v.2)
      (loadCenters k lines arr) (loadLines parseXY k rows arr') := by
  induction h with
  | nil => intro k arr arr' ha; exact .ok ha
  | @cons line row lines rows hrow _ ih =>
    intro k arr arr' ha
    obtain ⟨es, he, hw⟩ := hrow
    have hlen := ha.length_eq
    rw [loadCenters_cons, splitComma_of he]
    have h0 := floatEntry_writes hw 0
    have h1 := floatEntry_writes hw 1
    rcases row with _ | ⟨x, row⟩
    · cases hw
      cases he
    simp only [List.getElem?_cons_zero] at h0
    obtain ⟨lx, hx, hx'⟩ := h0
    rw [hx]
    show SameOutcome _ (if k < arr.length then do
        let y ← floatEntry es 1
        loadCenters (k + 1) lines (arr.set k (lx, y))
        else .error .indexError) _
    rcases row with _ | ⟨y, row⟩
    · simp only [List.getElem?_cons_succ, List.getElem?_nil] at h1
      rw [h1]
      split_ifs <;> exact .error _
    · simp only [List.getElem?_cons_succ, List.getElem?_cons_zero] at h1
      obtain ⟨ly, hy, hy'⟩ := h1
      rw [hy]
      show SameOutcome _ (if k < arr.length then loadCenters (k + 1) lines (arr.set k (lx, ly))
        else .error .indexError) (assignAt arr' k (x, y) >>= fun arr => loadLines parseXY (k + 1) rows arr)
      unfold assignAt
      rw [hlen]
      by_cases hk : k < arr'.length
      · rw [if_pos hk, if_pos hk]
        exact ih (k + 1) _ _ (forall₂_set ha k ⟨hx', hy'⟩)
      · rw [if_neg hk, if_neg hk]
        exact .error _

theorem sameOutcome_sizes {lines : List Text} {rows : List (List ℝ)}
    (h : List.Forall₂ RowOfNumbers lines rows) : ∀ (k : ℕ) (arr : List FloatLit) (arr' : List ℝ),
    List.Forall₂ LitIs arr arr' →
    SameOutcome (List.Forall₂ LitIs) (loadSizes k lines arr) (loadLines parseFirst k rows arr') := by
  induction h with
  | nil => intro k arr arr' ha; exact .ok ha
  | @cons line row lines rows hrow _ ih =>
    intro k arr arr' ha
    obtain ⟨es, he, hw⟩ := hrow
    have hlen := ha.length_eq
    rw [loadSizes_cons, splitComma_of he]
    have h0 := floatEntry_writes hw 0
    rcases row with _ | ⟨x, row⟩
    · cases hw
      cases he
    simp only [List.getElem?_cons_zero] at h0
    obtain ⟨lx, hx, hx'⟩ := h0
    rw [hx]
    show SameOutcome _ (if k < arr.length then loadSizes (k + 1) lines (arr.set k lx)
        else .error .indexError) (assignAt arr' k x >>= fun arr => loadLines parseFirst (k + 1) rows arr)
    unfold assignAt
    rw [hlen]
    by_cases hk : k < arr'.length
    · rw [if_pos hk, if_pos hk]
      exact ih (k + 1) _ _ (forall₂_set ha k hx')
    · rw [if_neg hk, if_neg hk]
      exact .error _

end Verif.Detector
