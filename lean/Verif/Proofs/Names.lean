import Verif.Detector.Writer

/-! # The names of files and datasets are different for different numbers -/

namespace Verif

theorem natRepr_inj {a b : ℕ} (h : toString a = toString b) : a = b := by
  rw [Nat.toString_eq_repr, Nat.toString_eq_repr] at h
  have h := congrArg String.toList h
  rw [Nat.toList_repr, Nat.toList_repr] at h
  have := congrArg (fun l => Nat.ofDigitChars 10 l 0) h
  simpa using this

theorem head_digit {n : ℕ} : ∀ c ∈ Nat.toDigits 10 n, c ≠ '-' := by
  intro c hc h
  subst h
  have := Nat.isDigit_of_mem_toDigits (by norm_num) (by norm_num) hc
  simp at this

theorem intRepr_inj {a b : ℤ} (h : toString a = toString b) : a = b := by
  rw [Int.toString_eq_repr, Int.toString_eq_repr, Int.repr_eq_if, Int.repr_eq_if] at h
  have h := congrArg String.toList h
  split_ifs at h with ha hb hb
  all_goals
    simp only [String.toList_append, Nat.toList_repr] at h
  · have := congrArg (fun l => Nat.ofDigitChars 10 l 0) h
    simp at this
    omega
  · exfalso
    have hm : '-' ∈ Nat.toDigits 10 a.toNat := by rw [h]; simp
    exact head_digit _ hm rfl
  · exfalso
    have hm : '-' ∈ Nat.toDigits 10 b.toNat := by rw [← h]; simp
    exact head_digit _ hm rfl
  · have h := List.append_cancel_left h
    have := congrArg (fun l => Nat.ofDigitChars 10 l 0) h
    simp at this
    omega

theorem append_left_inj' {p a b : String} (h : p ++ a = p ++ b) : a = b := by
  have h := congrArg String.toList h
  rw [String.toList_append, String.toList_append] at h
  exact String.toList_inj.1 (List.append_cancel_left h)

theorem append_right_inj' {p a b : String} (h : a ++ p = b ++ p) : a = b := by
  have h := congrArg String.toList h
  rw [String.toList_append, String.toList_append] at h
  exact String.toList_inj.1 (List.append_cancel_right h)

end Verif

namespace Verif.Detector

theorem fmt04_inj {a b : ℤ} (h : fmt04 a = fmt04 b) : a = b := by
  unfold fmt04 at h
  have hz : ∀ (k : ℕ) (c : Char), c ∈ List.replicate k '0' → c ≠ '-' := by
    intro k c hc
    rw [List.eq_of_mem_replicate hc]; decide
  split_ifs at h with ha hb hb
  all_goals
    simp only [String.ofList_inj] at h
  · have := congrArg (fun l => Nat.ofDigitChars 10 l 0) h
    simp [Nat.ofDigitChars_append] at this
    omega
  · exfalso
    have hm : '-' ∈ List.replicate (4 - (Nat.toDigits 10 a.toNat).length) '0'
        ++ Nat.toDigits 10 a.toNat := by rw [h]; simp
    rcases List.mem_append.1 hm with h' | h'
    · exact hz _ _ h' rfl
    · exact head_digit _ h' rfl
  · exfalso
    have hm : '-' ∈ List.replicate (4 - (Nat.toDigits 10 b.toNat).length) '0'
        ++ Nat.toDigits 10 b.toNat := by rw [← h]; simp
    rcases List.mem_append.1 hm with h' | h'
    · exact hz _ _ h' rfl
    · exact head_digit _ h' rfl
  · have h := (List.cons.inj h).2
    have := congrArg (fun l => Nat.ofDigitChars 10 l 0) h
    simp [Nat.ofDigitChars_append] at this
    omega

theorem run_name_inj {a b : ℤ} (h : run_name a = run_name b) : a = b :=
  fmt04_inj (append_left_inj' (append_right_inj' h))

theorem cloud_name_inj {a b : ℤ} (h : cloud_name a = cloud_name b) : a = b :=
  intRepr_inj (append_left_inj' h)

theorem labels_name_inj {a b : ℤ} (h : labels_name a = labels_name b) : a = b :=
  intRepr_inj (append_left_inj' h)

theorem cloud_ne_labels (a b : ℤ) : cloud_name a ≠ labels_name b := by
  intro h
  unfold cloud_name labels_name at h
  have h := congrArg String.toList h
  rw [String.toList_append, String.toList_append] at h
  simp at h

end Verif.Detector
