import Verif.Spec.Text
import Verif.Tactics

/-! # Lemmas on reading csv text -/

namespace Verif.Detector

open Verif.Spec

/-! ## Digits -/

theorem isDigit_iff (c : ℕ) : isDigit c = true ↔ ∃ d < 10, c = 48 + d := by
  unfold isDigit
  simp only [Bool.and_eq_true, decide_eq_true_eq]
  constructor
  · intro h; exact ⟨c - 48, by omega, by omega⟩
  · rintro ⟨d, h, rfl⟩; omega

theorem isDigit_add {d : ℕ} (h : d < 10) : isDigit (48 + d) = true := (isDigit_iff _).2 ⟨d, h, rfl⟩

theorem digitPart_ne_nil {t : Text} {ds : List ℕ} (h : DigitPart t ds) : ds ≠ [] := by
  cases h <;> simp

theorem digitPart_head {t : Text} {ds : List ℕ} (h : DigitPart t ds) :
    ∃ d t', d < 10 ∧ t = (48 + d) :: t' := by
  cases h with
  | single h => exact ⟨_, _, h, rfl⟩
  | cons h ht => exact ⟨_, _, h, rfl⟩
  | under h ht => exact ⟨_, _, h, rfl⟩

/-- A text at which reading digits stops. -/
def Stops (r : Text) : Prop :=
  r = [] ∨ ∃ c t, r = c :: t ∧ isDigit c = false ∧ c ≠ 95

theorem readDigits_stops {r : Text} (h : Stops r) (m n : ℕ) : readDigits m n r = (m, n, r) := by
  rcases h with rfl | ⟨c, t, rfl, h1, h2⟩
  · rfl
  · unfold readDigits
    simp [h1, h2]

theorem readDigits_digit {d : ℕ} (h : d < 10) (m n : ℕ) (t : Text) :
    readDigits m n ((48 + d) :: t) = readDigits (10 * m + d) (n + 1) t := by
  conv_lhs => unfold readDigits
  rw [if_pos (isDigit_add h)]
  congr 2
  omega

theorem readDigits_under {d : ℕ} (h : d < 10) (m n : ℕ) (t : Text) :
    readDigits m (n + 1) (95 :: (48 + d) :: t) = readDigits m (n + 1) ((48 + d) :: t) := by
  conv_lhs => unfold readDigits
  have h1 : isDigit 95 = false := by decide
  rw [if_neg (by simp [h1]), if_pos]
  simp [isDigit_add h]

/-- Reading the digits of a digit part. -/
theorem readDigits_part {t : Text} {ds : List ℕ} (h : DigitPart t ds) {r : Text} (hr : Stops r)
    (m n : ℕ) :
    readDigits m n (t ++ r) = (ds.foldl (fun m d => 10 * m + d) m, n + ds.length, r) := by
  induction h generalizing m n with
  | single h =>
    rw [List.cons_append, readDigits_digit h, List.nil_append, readDigits_stops hr]
    rfl
  | cons h ht ih =>
    rw [List.cons_append, readDigits_digit h, ih]
    simp only [List.foldl_cons, List.length_cons]
    congr 2; omega
  | under h ht ih =>
    obtain ⟨d', t', hd', rfl⟩ := digitPart_head ht
    rw [List.cons_append, readDigits_digit h, List.cons_append, List.cons_append,
      readDigits_under hd', ← List.cons_append, ih]
    simp only [List.foldl_cons, List.length_cons]
    congr 2; omega

theorem readDigits_length (t : Text) (m n : ℕ) : (readDigits m n t).2.2.length ≤ t.length := by
  induction t generalizing m n with
  | nil => simp [readDigits]
  | cons c t ih =>
    unfold readDigits
    split_ifs
    · exact (ih _ _).trans (by simp)
    · exact (ih _ _).trans (by simp)
    · simp

/-- What reading digits has read. -/
theorem readDigits_sound (t : Text) : ∀ (m n m' n' : ℕ) (r : Text), readDigits m n t = (m', n', r) →
    (t = r ∧ m' = m ∧ n' = n) ∨ ∃ c ds, DigitPart c ds ∧
      m' = ds.foldl (fun m d => 10 * m + d) m ∧ n' = n + ds.length ∧
      (t = c ++ r ∨ (n ≠ 0 ∧ t = 95 :: (c ++ r))) := by
  induction t with
  | nil =>
    intro m n m' n' r h
    simp only [readDigits, Prod.mk.injEq] at h
    obtain ⟨rfl, rfl, rfl⟩ := h
    exact .inl ⟨rfl, rfl, rfl⟩
  | cons c t ih =>
    intro m n m' n' r h
    unfold readDigits at h
    split_ifs at h with h1 h2
    · right
      obtain ⟨d, hd, rfl⟩ := (isDigit_iff c).1 h1
      rw [Nat.add_sub_cancel_left] at h
      rcases ih _ _ _ _ _ h with ⟨rfl, rfl, rfl⟩ | ⟨c', ds, hc, rfl, rfl, rfl | ⟨-, rfl⟩⟩
      · exact ⟨_, _, .single hd, rfl, rfl, .inl rfl⟩
      · exact ⟨_, _, .cons hd hc, rfl, by simp; omega, .inl rfl⟩
      · exact ⟨_, _, .under hd hc, rfl, by simp; omega, .inl rfl⟩
    · right
      simp only [Bool.and_eq_true, decide_eq_true_eq] at h2
      obtain ⟨⟨rfl, hn⟩, hnext⟩ := h2
      rcases t with _ | ⟨d, t⟩
      · simp at hnext
      simp only at hnext
      rcases ih _ _ _ _ _ h with ⟨h3, -, -⟩ | ⟨c', ds, hc, rfl, rfl, h3 | ⟨-, h3⟩⟩
      · exfalso
        obtain ⟨d', hd', rfl⟩ := (isDigit_iff d).1 hnext
        rw [readDigits_digit hd'] at h
        subst h3
        have hlen := readDigits_length t (10 * m + d') (n + 1)
        have := congrArg (fun x => x.2.2.length) h
        simp only [List.length_cons] at this
        omega
      · exact ⟨c', ds, hc, rfl, rfl, .inr ⟨hn, by rw [h3]⟩⟩
      · exfalso
        have : d = 95 := (List.cons.inj h3).1
        subst this
        exact absurd hnext (by decide)
    · simp only [Prod.mk.injEq] at h
      obtain ⟨rfl, rfl, rfl⟩ := h
      exact .inl ⟨rfl, rfl, rfl⟩

/-! ## Numbers -/

theorem stops_cons {c : ℕ} {t : Text} (h : c = 46 ∨ c = 101 ∨ c = 69) : Stops (c :: t) :=
  .inr ⟨c, t, rfl, by rcases h with rfl | rfl | rfl <;> decide, by omega⟩

theorem stops_exponent {t : Text} {x : ℤ} (h : Exponent t x) : Stops t := by
  cases h with
  | none => exact .inl rfl
  | some hc hs ht => exact stops_cons (.inr hc)

theorem readSign_of {s t : Text} {neg : Bool} (h : Sign s neg)
    (ht : ∀ c r, t = c :: r → c ≠ 45 ∧ c ≠ 43) : readSign (s ++ t) = (neg, t) := by
  cases h with
  | none =>
    rcases t with _ | ⟨c, r⟩
    · rfl
    · obtain ⟨h1, h2⟩ := ht c r rfl
      simp [readSign, h1, h2]
  | plus => rfl
  | minus => rfl

theorem readSign_sound {t r : Text} {neg : Bool} (h : readSign t = (neg, r)) :
    ∃ s, Sign s neg ∧ t = s ++ r := by
  rcases t with _ | ⟨c, t⟩
  · simp only [readSign, Prod.mk.injEq] at h
    obtain ⟨rfl, rfl⟩ := h
    exact ⟨[], .none, rfl⟩
  · unfold readSign at h
    simp only at h
    split_ifs at h with h1 h2
    · obtain ⟨rfl, rfl⟩ := Prod.mk.inj h
      subst h1
      exact ⟨[45], .minus, rfl⟩
    · obtain ⟨rfl, rfl⟩ := Prod.mk.inj h
      subst h2
      exact ⟨[43], .plus, rfl⟩
    · obtain ⟨rfl, rfl⟩ := Prod.mk.inj h
      exact ⟨[], .none, rfl⟩

theorem digitPart_noSign {t r : Text} {ds : List ℕ} (h : DigitPart t ds) :
    ∀ c r', t ++ r = c :: r' → c ≠ 45 ∧ c ≠ 43 := by
  intro c r' hc
  obtain ⟨d, t', hd, rfl⟩ := digitPart_head h
  rw [List.cons_append] at hc
  have := (List.cons.inj hc).1
  omega

theorem readExponent_of {t : Text} {x : ℤ} (h : Exponent t x) : readExponent t = some x := by
  cases h with
  | none => rfl
  | @some c s t neg ds hc hs ht =>
    unfold readExponent
    have h1 : readSign (s ++ t) = (neg, t) := by
      have := readSign_of hs (t := t) (fun c r h => digitPart_noSign (r := []) ht c r (by simpa using h))
      exact this
    have h2 := readDigits_part ht (r := []) (.inl rfl) 0 0
    rw [List.append_nil] at h2
    have h3 : ds.length ≠ 0 := by
      simpa using digitPart_ne_nil ht
    have h4 : (decide (c = 101) || decide (c = 69)) = true := by simpa using hc
    simp only [h1, h2, Nat.zero_add, h3, if_false, h4, if_true]
    rfl

theorem readExponent_sound {t : Text} {x : ℤ} (h : readExponent t = some x) : Exponent t x := by
  rcases t with _ | ⟨c, t⟩
  · simp only [readExponent, Option.some.injEq] at h
    subst h
    exact .none
  · unfold readExponent at h
    simp only at h
    by_cases hc : (decide (c = 101) || decide (c = 69)) = true
    swap
    · rw [if_neg hc] at h
      exact absurd h (by simp)
    rw [if_pos hc] at h
    rcases hs : readSign t with ⟨neg, t'⟩
    rcases hd : readDigits 0 0 t' with ⟨m, n, r⟩
    simp only [hs, hd] at h
    by_cases hn : n = 0
    · simp [hn] at h
    rw [if_neg hn] at h
    rcases r with _ | ⟨c', r⟩
    swap
    · simp at h
    simp only [Option.some.injEq] at h
    obtain ⟨s, hs', rfl⟩ := readSign_sound hs
    rcases readDigits_sound _ _ _ _ _ _ hd with ⟨-, -, h0⟩ | ⟨p, ds, hp, rfl, -, rfl | ⟨h0, -⟩⟩
    · exact absurd h0 hn
    · rw [List.append_nil, ← h]
      exact .some (by simpa using hc) hs' hp
    · exact absurd rfl h0

theorem foldl_digits (ds fs : List ℕ) :
    fs.foldl (fun m d => 10 * m + d) (ds.foldl (fun m d => 10 * m + d) 0) = digitsValue (ds ++ fs) := by
  rw [digitsValue, List.foldl_append]

theorem readNumber_of {t : Text} {m : ℕ} {e : ℤ} (h : Number t m e) : readNumber t = some (m, e) := by
  cases h with
  | @int t te ds x ht he =>
    have h1 := readDigits_part ht (stops_exponent he) 0 0
    have h2 := readExponent_of he
    have h3 : ds.length ≠ 0 := by simpa using digitPart_ne_nil ht
    have h4 : readMantissa (t ++ te) = (digitsValue ds, ds.length, 0, te) := by
      unfold readMantissa
      rw [h1]
      rcases te with _ | ⟨c, te⟩
      · simp [digitsValue]
      · have hc : c ≠ 46 := by
          cases he with
          | some hc hs ht => omega
        simp [hc, digitsValue]
    unfold readNumber
    simp [h4, h3, h2]
  | @point t te ds x ht he =>
    have h1 := readDigits_part ht (stops_cons (c := 46) (t := te) (.inl rfl)) 0 0
    have h2 := readExponent_of he
    have h3 : ds.length ≠ 0 := by simpa using digitPart_ne_nil ht
    have h4 : readMantissa (t ++ 46 :: te) = (digitsValue ds, ds.length, 0, te) := by
      unfold readMantissa
      rw [h1]
      simp only [if_true, readDigits_stops (stops_exponent he)]
      simp [digitsValue]
    unfold readNumber
    simp [h4, h3, h2]
  | @frac t tf te ds fs x ht hf he =>
    have h1 := readDigits_part ht (stops_cons (c := 46) (t := tf ++ te) (.inl rfl)) 0 0
    have h2 := readExponent_of he
    have h3 : ds.length ≠ 0 := by simpa using digitPart_ne_nil ht
    have h4 : readMantissa (t ++ 46 :: (tf ++ te))
        = (digitsValue (ds ++ fs), ds.length + fs.length, fs.length, te) := by
      unfold readMantissa
      rw [h1]
      simp only [if_true, readDigits_part hf (stops_exponent he), foldl_digits, Nat.zero_add]
    unfold readNumber
    simp [h4, h3, h2]
  | @lead tf te fs x hf he =>
    have h1 := readDigits_stops (stops_cons (c := 46) (t := tf ++ te) (.inl rfl)) 0 0
    have h2 := readExponent_of he
    have h3 : fs.length ≠ 0 := by simpa using digitPart_ne_nil hf
    have h4 : readMantissa (46 :: (tf ++ te)) = (digitsValue fs, fs.length, fs.length, te) := by
      unfold readMantissa
      rw [h1]
      simp only [if_true, readDigits_part hf (stops_exponent he), Nat.zero_add, digitsValue]
    unfold readNumber
    simp [h4, h3, h2]

theorem readNumber_sound {t : Text} {m : ℕ} {e : ℤ} (h : readNumber t = some (m, e)) :
    Number t m e := by
  unfold readNumber at h
  rcases hm : readMantissa t with ⟨m', n, k, rest⟩
  simp only [hm] at h
  split_ifs at h with hn
  rcases hx : readExponent rest with _ | x
  · simp [hx] at h
  simp only [hx, Option.some.injEq, Prod.mk.injEq] at h
  obtain ⟨rfl, rfl⟩ := h
  have he := readExponent_sound hx
  unfold readMantissa at hm
  rcases hd : readDigits 0 0 t with ⟨m0, n0, t'⟩
  simp only [hd] at hm
  have hs := readDigits_sound _ _ _ _ _ _ hd
  rcases t' with _ | ⟨c, t'⟩
  · simp only [Prod.mk.injEq] at hm
    obtain ⟨rfl, rfl, rfl, rfl⟩ := hm
    rcases hs with ⟨-, -, h0⟩ | ⟨p, ds, hp, rfl, -, rfl | ⟨h0, -⟩⟩
    · exact absurd h0 hn
    · simpa [digitsValue] using Number.int hp he
    · exact absurd rfl h0
  · simp only at hm
    split_ifs at hm with hc
    · subst hc
      rcases hf : readDigits m0 0 t' with ⟨m1, k1, rest1⟩
      simp only [hf, Prod.mk.injEq] at hm
      obtain ⟨rfl, rfl, rfl, rfl⟩ := hm
      have hs' := readDigits_sound _ _ _ _ _ _ hf
      rcases hs with ⟨rfl, rfl, rfl⟩ | ⟨p, ds, hp, rfl, rfl, rfl | ⟨h0, -⟩⟩
      · rcases hs' with ⟨-, -, h0⟩ | ⟨q, fs, hq, rfl, rfl, rfl | ⟨h0, -⟩⟩
        · exact absurd h0 (by omega)
        · simpa [digitsValue] using Number.lead hq he
        · exact absurd rfl h0
      · rcases hs' with ⟨rfl, rfl, rfl⟩ | ⟨q, fs, hq, rfl, rfl, rfl | ⟨h0, -⟩⟩
        · simpa [digitsValue] using Number.point hp he
        · rw [foldl_digits]
          simpa using Number.frac hp hq he
        · exact absurd rfl h0
      · exact absurd rfl h0
    · simp only [Prod.mk.injEq] at hm
      obtain ⟨rfl, rfl, rfl, rfl⟩ := hm
      rcases hs with ⟨-, -, h0⟩ | ⟨p, ds, hp, rfl, -, rfl | ⟨h0, -⟩⟩
      · exact absurd h0 hn
      · simpa [digitsValue] using Number.int hp he
      · exact absurd rfl h0

/-! ## White space -/

theorem takeWhile_isSpace (l : Text) : ∀ c ∈ l.takeWhile isSpace, isSpace c = true := by
  induction l with
  | nil => simp
  | cons a l ih =>
    intro c hc
    rw [List.takeWhile_cons] at hc
    split_ifs at hc with h
    · rcases List.mem_cons.1 hc with rfl | hc
      · exact h
      · exact ih c hc
    · simp at hc

theorem isSpace_iff (c : ℕ) : isSpace c = true ↔ c ∈ [9, 10, 11, 12, 13, 28, 29, 30, 31, 32] := by
  unfold isSpace
  simp only [Bool.or_eq_true, Bool.and_eq_true, decide_eq_true_eq, List.mem_cons, List.not_mem_nil,
    or_false]
  omega

/-- `strip`. -/
def strip (t : Text) : Text := ((t.dropWhile isSpace).reverse.dropWhile isSpace).reverse

theorem dropWhile_blank {a t : Text} (ha : Blank a) (ht : ∀ c r, t = c :: r → isSpace c = false) :
    (a ++ t).dropWhile isSpace = t := by
  induction a with
  | nil =>
    rcases t with _ | ⟨c, r⟩
    · rfl
    · simp [ht c r rfl]
  | cons c a ih =>
    have h1 : isSpace c = true := (isSpace_iff c).2 (ha c (by simp))
    rw [List.cons_append, List.dropWhile_cons_of_pos h1]
    exact ih fun c hc => ha c (List.mem_cons_of_mem _ hc)

theorem strip_of {a t z : Text} (ha : Blank a) (hz : Blank z)
    (h1 : ∃ c r, t = c :: r ∧ isSpace c = false) (h2 : ∃ c r, t = r ++ [c] ∧ isSpace c = false) :
    strip (a ++ t ++ z) = t := by
  obtain ⟨c, r, hc, hs⟩ := h1
  obtain ⟨c', r', hc', hs'⟩ := h2
  unfold strip
  rw [List.append_assoc, dropWhile_blank ha, List.reverse_append, dropWhile_blank, List.reverse_reverse]
  · intro c hcz
    exact hz c (List.mem_reverse.1 hcz)
  · intro c0 r0 h
    rw [hc', List.reverse_append] at h
    have := (List.cons.inj h).1
    rw [← this]; exact hs'
  · intro c0 r0 h
    rw [hc, List.cons_append] at h
    have := (List.cons.inj h).1
    rw [← this]; exact hs

theorem strip_sound (t : Text) : ∃ a z, t = a ++ strip t ++ z ∧ Blank a ∧ Blank z := by
  have hb : ∀ l : Text, Blank (l.takeWhile isSpace) := fun l c hc =>
    (isSpace_iff c).1 (takeWhile_isSpace l c hc)
  refine ⟨t.takeWhile isSpace, ((t.dropWhile isSpace).reverse.takeWhile isSpace).reverse, ?_, hb t, ?_⟩
  · unfold strip
    rw [List.append_assoc, ← List.reverse_append, List.takeWhile_append_dropWhile,
      List.reverse_reverse, List.takeWhile_append_dropWhile]
  · intro c hc
    exact hb _ c (List.mem_reverse.1 hc)

theorem digit_noSpace {d : ℕ} (h : d < 10) : isSpace (48 + d) = false := by
  rw [Bool.eq_false_iff]
  intro h'
  have := (isSpace_iff _).1 h'
  simp only [List.mem_cons, List.not_mem_nil, or_false] at this
  omega

/-- A text that neither begins nor ends with white space. -/
def Core (t : Text) : Prop :=
  (∃ c r, t = c :: r ∧ isSpace c = false) ∧ ∃ c r, t = r ++ [c] ∧ isSpace c = false

theorem digitPart_core {t : Text} {ds : List ℕ} (h : DigitPart t ds) : Core t := by
  constructor
  · obtain ⟨d, t', hd, rfl⟩ := digitPart_head h
    exact ⟨_, _, rfl, digit_noSpace hd⟩
  · induction h with
    | single h => exact ⟨_, [], rfl, digit_noSpace h⟩
    | cons h ht ih =>
      obtain ⟨c, r, rfl, hc⟩ := ih
      exact ⟨c, _ :: r, rfl, hc⟩
    | under h ht ih =>
      obtain ⟨c, r, rfl, hc⟩ := ih
      exact ⟨c, _ :: 95 :: r, rfl, hc⟩

theorem core_append_right {t s : Text} (h : Core s) (ht : t = [] ∨ ∃ c r, t = c :: r ∧ isSpace c = false) :
    Core (t ++ s) := by
  obtain ⟨⟨c, r, rfl, hc⟩, c', r', h', hc'⟩ := h
  refine ⟨?_, c', t ++ r', by rw [h']; simp, hc'⟩
  rcases ht with rfl | ⟨c0, r0, rfl, h0⟩
  · exact ⟨c, r, rfl, hc⟩
  · exact ⟨c0, _, rfl, h0⟩

theorem core_append {t s : Text} (ht : Core t) (h : Core s ∨ s = []) : Core (t ++ s) := by
  rcases h with h | rfl
  · exact core_append_right h (.inr ht.1)
  · simpa using ht

theorem exponent_core {t : Text} {x : ℤ} (h : Exponent t x) : Core t ∨ t = [] := by
  cases h with
  | none => exact .inr rfl
  | @some c s t neg ds hc hs ht =>
    left
    have : Core ([c] ++ (s ++ t)) := by
      apply core_append_right _ (.inr ⟨c, [], rfl, by rcases hc with rfl | rfl <;> decide⟩)
      apply core_append_right (digitPart_core ht)
      cases hs with
      | none => exact .inl rfl
      | plus => exact .inr ⟨_, _, rfl, by decide⟩
      | minus => exact .inr ⟨_, _, rfl, by decide⟩
    simpa using this

theorem point_core {s : Text} (h : Core s ∨ s = []) : Core (46 :: s) := by
  have : Core [46] := ⟨⟨46, [], rfl, by decide⟩, 46, [], rfl, by decide⟩
  exact core_append this h

theorem number_core {t : Text} {m : ℕ} {e : ℤ} (h : Number t m e) : Core t := by
  cases h with
  | int ht he => exact core_append (digitPart_core ht) (exponent_core he)
  | point ht he => exact core_append (digitPart_core ht) (.inl (point_core (exponent_core he)))
  | frac ht hf he =>
    exact core_append (digitPart_core ht)
      (.inl (point_core (.inl (core_append (digitPart_core hf) (exponent_core he)))))
  | lead hf he => exact point_core (.inl (core_append (digitPart_core hf) (exponent_core he)))

theorem number_noSign {t : Text} {m : ℕ} {e : ℤ} (h : Number t m e) :
    ∀ c r, t = c :: r → c ≠ 45 ∧ c ≠ 43 := by
  cases h with
  | int ht he => exact digitPart_noSign ht
  | point ht he => exact digitPart_noSign ht
  | frac ht hf he => exact digitPart_noSign ht
  | lead hf he =>
    intro c r h
    have := (List.cons.inj h).1
    omega

/-! ## `float` -/

theorem pyFloat_num (t : Text) (neg : Bool) (m : ℕ) (e : ℤ) :
    pyFloat t = .ok (.num neg m e) ↔ Literal t neg m e := by
  constructor
  · intro h
    obtain ⟨a, z, ht, ha, hz⟩ := strip_sound t
    unfold pyFloat at h
    rw [show ((t.dropWhile isSpace).reverse.dropWhile isSpace).reverse = strip t from rfl] at h
    rcases hs : readSign (strip t) with ⟨neg', r⟩
    simp only [hs] at h
    rcases hn : readNumber r with _ | ⟨m', e'⟩
    · simp only [hn] at h
      split_ifs at h <;> simp at h
    · simp only [hn, Except.ok.injEq, FloatLit.num.injEq] at h
      obtain ⟨rfl, rfl, rfl⟩ := h
      obtain ⟨s, hs', hr⟩ := readSign_sound hs
      refine ⟨a, s, r, z, ?_, ha, hz, hs', readNumber_sound hn⟩
      rw [hr] at ht
      simpa using ht
  · rintro ⟨a, s, n, z, rfl, ha, hz, hs, hn⟩
    have hc : Core (s ++ n) := by
      apply core_append_right (number_core hn)
      cases hs with
      | none => exact .inl rfl
      | plus => exact .inr ⟨_, _, rfl, by decide⟩
      | minus => exact .inr ⟨_, _, rfl, by decide⟩
    unfold pyFloat
    rw [show ∀ t : Text, ((t.dropWhile isSpace).reverse.dropWhile isSpace).reverse = strip t from
      fun _ => rfl]
    rw [show a ++ s ++ n ++ z = a ++ (s ++ n) ++ z by simp, strip_of ha hz hc.1 hc.2]
    simp only [readSign_of hs (number_noSign hn), readNumber_of hn]

theorem pyFloat_error {t : Text} {err : PyErr} (h : pyFloat t = .error err) : err = .valueError := by
  unfold pyFloat at h
  simp only at h
  split at h
  · simp at h
  · split_ifs at h
    · simpa using h.symm

theorem lower_iff {d : ℕ} (hd : 97 ≤ d ∧ d ≤ 122) (c : ℕ) : lower c = d ↔ c = d ∨ c + 32 = d := by
  unfold lower
  by_cases h : 65 ≤ c ∧ c ≤ 90
  · rw [if_pos (by simpa using h)]; omega
  · rw [if_neg (by simpa using h)]; omega

theorem letters_iff {l : Text} (hl : ∀ d ∈ l, 97 ≤ d ∧ d ≤ 122) (w : Text) :
    w.map lower = l ↔ Letters w l := by
  induction l generalizing w with
  | nil =>
    constructor
    · intro h
      rw [List.map_eq_nil_iff.1 h]; exact .nil
    · intro h; cases h; rfl
  | cons d l ih =>
    have hd := hl d (by simp)
    have ih := ih fun d hd => hl d (List.mem_cons_of_mem _ hd)
    constructor
    · intro h
      rcases w with _ | ⟨c, w⟩
      · simp at h
      · rw [List.map_cons, List.cons.injEq] at h
        exact .cons ((lower_iff hd c).1 h.1) ((ih w).1 h.2)
    · intro h
      cases h with
      | cons h1 h2 => rw [List.map_cons, (lower_iff hd _).2 h1, (ih _).2 h2]

theorem letter_facts {c d : ℕ} (h : c = d ∨ c + 32 = d) (hd : 97 ≤ d ∧ d ≤ 122) :
    isSpace c = false ∧ isDigit c = false ∧ c ≠ 95 ∧ c ≠ 46 ∧ c ≠ 45 ∧ c ≠ 43 := by
  refine ⟨?_, ?_, by omega, by omega, by omega, by omega⟩
  · rw [Bool.eq_false_iff]
    intro h'
    have := (isSpace_iff _).1 h'
    simp only [List.mem_cons, List.not_mem_nil, or_false] at this
    omega
  · rw [Bool.eq_false_iff]
    intro h'
    obtain ⟨x, hx, rfl⟩ := (isDigit_iff _).1 h'
    omega

theorem word_core {w l : Text} (h : Letters w l) (hl : ∀ d ∈ l, 97 ≤ d ∧ d ≤ 122) (hne : l ≠ []) :
    Core w ∧ readNumber w = none ∧ ∀ c r, w = c :: r → c ≠ 45 ∧ c ≠ 43 := by
  refine ⟨⟨?_, ?_⟩, ?_, ?_⟩
  · cases h with
    | nil => exact absurd rfl hne
    | cons h1 h2 => exact ⟨_, _, rfl, (letter_facts h1 (hl _ (by simp))).1⟩
  · have hw : w ≠ [] := by
      rintro rfl
      cases h
      exact hne rfl
    refine ⟨w.getLast hw, w.dropLast, (List.dropLast_append_getLast hw).symm, ?_⟩
    have : ∀ c ∈ w, isSpace c = false := by
      intro c hc
      obtain ⟨d, hd, hcd⟩ : ∃ d ∈ l, c = d ∨ c + 32 = d := by
        clear hne hw
        induction h with
        | nil => simp at hc
        | cons h1 h2 ih =>
          rcases List.mem_cons.1 hc with rfl | hc
          · exact ⟨_, by simp, h1⟩
          · obtain ⟨d, hd, h⟩ := ih (fun d hd => hl d (List.mem_cons_of_mem _ hd)) hc
            exact ⟨d, List.mem_cons_of_mem _ hd, h⟩
      exact (letter_facts hcd (hl d hd)).1
    exact this _ (List.getLast_mem hw)
  · cases h with
    | nil => exact absurd rfl hne
    | cons h1 h2 =>
      obtain ⟨-, f2, f3, f4, -, -⟩ := letter_facts h1 (hl _ (by simp))
      simp [readNumber, readMantissa, readDigits, f2, f3, f4]
  · intro c r hc
    subst hc
    cases h with
    | cons h1 h2 =>
      obtain ⟨-, -, -, -, f5, f6⟩ := letter_facts h1 (hl _ (by simp))
      exact ⟨f5, f6⟩

theorem pyFloat_word {a s w z l : Text} {neg : Bool} (ha : Blank a) (hz : Blank z) (hs : Sign s neg)
    (h : Letters w l) (hl : ∀ d ∈ l, 97 ≤ d ∧ d ≤ 122) (hne : l ≠ []) :
    pyFloat (a ++ s ++ w ++ z) =
      if l = [105, 110, 102] ∨ l = [105, 110, 102, 105, 110, 105, 116, 121] then .ok (.inf neg)
      else if l = [110, 97, 110] then .ok .nan else .error .valueError := by
  obtain ⟨hw, hn, hns⟩ := word_core h hl hne
  have hc : Core (s ++ w) := by
    apply core_append_right hw
    cases hs with
    | none => exact .inl rfl
    | plus => exact .inr ⟨_, _, rfl, by decide⟩
    | minus => exact .inr ⟨_, _, rfl, by decide⟩
  unfold pyFloat
  rw [show ∀ t : Text, ((t.dropWhile isSpace).reverse.dropWhile isSpace).reverse = strip t from
    fun _ => rfl]
  rw [show a ++ s ++ w ++ z = a ++ (s ++ w) ++ z by simp, strip_of ha hz hc.1 hc.2]
  simp only [readSign_of hs hns, hn, (letters_iff hl w).2 h]

theorem pyFloat_special {t : Text} {l : FloatLit} (h : pyFloat t = .ok l) :
    (∃ neg m e, l = .num neg m e) ∨ (∃ neg, l = .inf neg ∧ Infinity t neg) ∨ (l = .nan ∧ NotANumber t) := by
  obtain ⟨a, z, ht, ha, hz⟩ := strip_sound t
  unfold pyFloat at h
  rw [show ((t.dropWhile isSpace).reverse.dropWhile isSpace).reverse = strip t from rfl] at h
  rcases hs : readSign (strip t) with ⟨neg', r⟩
  obtain ⟨s, hs', hr⟩ := readSign_sound hs
  have ht' : t = a ++ s ++ r ++ z := by
    rw [hr] at ht
    simpa using ht
  simp only [hs] at h
  rcases hn : readNumber r with _ | ⟨m', e'⟩
  · simp only [hn] at h
    split_ifs at h with h1 h2
    · right; left
      refine ⟨neg', by simpa using h.symm, a, s, r, z, ht', ha, hz, hs', ?_⟩
      rcases h1 with h1 | h1
      · exact .inl ((letters_iff (by simp) r).1 h1)
      · exact .inr ((letters_iff (by simp) r).1 h1)
    · right; right
      exact ⟨by simpa using h.symm, a, s, r, z, neg', ht', ha, hz, hs', (letters_iff (by simp) r).1 h2⟩
  · simp only [hn, Except.ok.injEq] at h
    exact .inl ⟨_, _, _, h.symm⟩

theorem pyFloat_inf (t : Text) (neg : Bool) : pyFloat t = .ok (.inf neg) ↔ Infinity t neg := by
  constructor
  · intro h
    rcases pyFloat_special h with ⟨_, _, _, h'⟩ | ⟨neg', h', hi⟩ | ⟨h', -⟩
    · simp at h'
    · rw [FloatLit.inf.injEq] at h'
      rw [h']; exact hi
    · simp at h'
  · rintro ⟨a, s, w, z, rfl, ha, hz, hs, h | h⟩
    · rw [pyFloat_word ha hz hs h (by simp) (by simp)]; simp
    · rw [pyFloat_word ha hz hs h (by simp) (by simp)]; simp

theorem pyFloat_nan (t : Text) : pyFloat t = .ok .nan ↔ NotANumber t := by
  constructor
  · intro h
    rcases pyFloat_special h with ⟨_, _, _, h'⟩ | ⟨neg', h', hi⟩ | ⟨-, h'⟩
    · simp at h'
    · simp at h'
    · exact h'
  · rintro ⟨a, s, w, z, neg, rfl, ha, hz, hs, h⟩
    rw [pyFloat_word ha hz hs h (by simp) (by simp)]; simp

/-! ## Lines and entries -/

theorem readlines_line {l : Text} (h : 10 ∉ l) (t : Text) :
    readlines (l ++ 10 :: t) = (l ++ [10]) :: readlines t := by
  induction l with
  | nil => simp [readlines]
  | cons c l ih =>
    have hc : c ≠ 10 := fun h' => h (by simp [h'])
    rw [List.cons_append, readlines, if_neg hc, ih fun h' => h (List.mem_cons_of_mem _ h')]
    rfl

theorem readlines_last {l : Text} (h : 10 ∉ l) (hl : l ≠ []) : readlines l = [l] := by
  induction l with
  | nil => exact absurd rfl hl
  | cons c l ih =>
    have hc : c ≠ 10 := fun h' => h (by simp [h'])
    rw [readlines, if_neg hc]
    rcases l with _ | ⟨d, l⟩
    · rfl
    · rw [ih (fun h' => h (List.mem_cons_of_mem _ h')) (by simp)]

theorem readlines_of {t : Text} {ls : List Text} (h : Lines t ls) : readlines t = ls := by
  induction h with
  | nil => rfl
  | last h hl => exact readlines_last h hl
  | cons h ht ih => rw [readlines_line h, ih]

theorem lines_exists (t : Text) : ∃ ls, Lines t ls := by
  induction t with
  | nil => exact ⟨[], .nil⟩
  | cons c t ih =>
    obtain ⟨ls, h⟩ := ih
    by_cases hc : c = 10
    · subst hc
      exact ⟨_, Lines.cons (l := []) (by simp) h⟩
    · cases h with
      | nil => exact ⟨_, Lines.last (l := [c]) (by simpa using fun h => hc h.symm) (by simp)⟩
      | last h hl =>
        exact ⟨_, Lines.last (l := c :: t) (by
          simp only [List.mem_cons, not_or]; exact ⟨fun h => hc h.symm, h⟩) (by simp)⟩
      | @cons l t ls h ht =>
        exact ⟨_, Lines.cons (l := c :: l) (by
          simp only [List.mem_cons, not_or]; exact ⟨fun h => hc h.symm, h⟩) ht⟩

theorem readlines_iff (t : Text) (ls : List Text) : readlines t = ls ↔ Lines t ls := by
  constructor
  · rintro rfl
    obtain ⟨ls, h⟩ := lines_exists t
    rw [readlines_of h]; exact h
  · exact readlines_of

theorem splitComma_of {t : Text} {es : List Text} (h : Entries t es) : splitComma t = es := by
  have aux : ∀ e : Text, 44 ∉ e → splitComma e = [e] := by
    intro e h
    induction e with
    | nil => rfl
    | cons c e ih =>
      have hc : c ≠ 44 := fun h' => h (by simp [h'])
      rw [splitComma, if_neg hc, ih fun h' => h (List.mem_cons_of_mem _ h')]
  induction h with
  | last h => exact aux _ h
  | @cons e t es h ht ih =>
    clear aux
    induction e with
    | nil => simp [splitComma, ih]
    | cons c e ihe =>
      have hc : c ≠ 44 := fun h' => h (by simp [h'])
      rw [List.cons_append, splitComma, if_neg hc, ihe fun h' => h (List.mem_cons_of_mem _ h')]

theorem entries_exists (t : Text) : ∃ es, Entries t es := by
  induction t with
  | nil => exact ⟨_, .last (e := []) (by simp)⟩
  | cons c t ih =>
    obtain ⟨es, h⟩ := ih
    by_cases hc : c = 44
    · subst hc
      exact ⟨_, Entries.cons (e := []) (by simp) h⟩
    · cases h with
      | last h =>
        exact ⟨_, Entries.last (e := c :: t) (by
          simp only [List.mem_cons, not_or]; exact ⟨fun h => hc h.symm, h⟩)⟩
      | @cons e t es h ht =>
        exact ⟨_, Entries.cons (e := c :: e) (by
          simp only [List.mem_cons, not_or]; exact ⟨fun h => hc h.symm, h⟩) ht⟩

theorem splitComma_iff (t : Text) (es : List Text) : splitComma t = es ↔ Entries t es := by
  constructor
  · rintro rfl
    obtain ⟨es, h⟩ := entries_exists t
    rw [splitComma_of h]; exact h
  · exact splitComma_of

/-- Line feeds are not changed by `open(path, "r")`. -/
theorem universal_id {t : Text} (h : 13 ∉ t) : universal t = t := by
  induction t with
  | nil => rfl
  | cons c t ih =>
    have hc : c ≠ 13 := fun h' => h (by simp [h'])
    rw [universal.eq_def]
    simp only [if_neg hc]
    rw [ih fun h' => h (List.mem_cons_of_mem _ h')]

end Verif.Detector
