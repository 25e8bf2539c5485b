import Verif.Props.Loading
import Verif.Proofs.PadTable

/-! # C99: the pad files as text -/

namespace Verif.Detector

open Verif.Spec

/-- The text of the geometry file. -/
def geometryText (fs : TextFiles) (p : PadParams) : Option Text :=
  if p.geometry_path = "Default" then some fs.padxy else fs.csv p.geometry_path

/-- The text from which the pad sizes are read. -/
def sizesText (fs : TextFiles) (p : PadParams) : Option Text :=
  if p.pad_size_path = "Default" then some fs.pad_scale else fs.csv p.geometry_path

/-- The numbers in the text files are those of the file system: each csv file is a table of numbers. -/
structure TablesOf (fs : TextFiles) (fs' : FileSystem) : Prop where
  padxy : Table fs.padxy fs'.packaged_padxy
  scale : Table fs.pad_scale fs'.packaged_scale
  csv : ∀ path, (fs.csv path = none ∧ fs'.csv path = none) ∨
    ∃ t rows, fs.csv path = some t ∧ fs'.csv path = some rows ∧ Table t rows

theorem pyFloat_iff (t : Text) (l : FloatLit) : pyFloat t = .ok l ↔ Denotes t l := by
  rcases l with ⟨neg, m, e⟩ | neg | _
  · exact pyFloat_num t neg m e
  · exact pyFloat_inf t neg
  · exact pyFloat_nan t

theorem floatEntry_iff (line : Text) (i : ℕ) (l : FloatLit) :
    floatEntry (splitComma line) i = .ok l ↔ ∃ es e, Entries line es ∧ es[i]? = some e ∧ Denotes e l := by
  obtain ⟨es, hes⟩ := entries_exists line
  rw [splitComma_of hes]
  constructor
  · intro h
    unfold floatEntry at h
    rcases he : es[i]? with _ | e
    · rw [he] at h; simp at h
    · rw [he] at h
      exact ⟨es, e, hes, he, (pyFloat_iff e l).1 h⟩
  · rintro ⟨es', e, h1, h2, h3⟩
    have : es = es' := by rw [← splitComma_of hes, splitComma_of h1]
    subst this
    unfold floatEntry
    rw [h2]
    exact (pyFloat_iff e l).2 h3

/-- **C99.** `float` accepts exactly the decimal numbers of the Python grammar, infinities and `nan`
(ASCII), with the number written in the text as result; for any other text it raises ValueError. -/
theorem C99_float (t : Text) :
    (∀ l, pyFloat t = .ok l ↔ Denotes t l) ∧
    (pyFloat t = .error .valueError ↔ ∀ l, ¬ Denotes t l) := by
  refine ⟨pyFloat_iff t, ?_, ?_⟩
  · intro h l hl
    rw [(pyFloat_iff t l).2 hl] at h
    simp at h
  · intro h
    rcases hp : pyFloat t with e | l
    · rw [pyFloat_error hp]
    · exact absurd ((pyFloat_iff t l).1 hp) (h l)

/-- **C99.** The line ends `\r\n`, `\r` and `\n` are all recognised, `readlines` gives the lines and
`split(",")` the entries. -/
theorem C99_lines (t : Text) :
    (∀ t', universal t = t' ↔ LineEnds t t') ∧ (∀ ls, readlines t = ls ↔ Lines t ls) ∧
    ∀ es, splitComma t = es ↔ Entries t es :=
  ⟨universal_iff t, readlines_iff t, splitComma_iff t⟩

theorem lines_unique {t : Text} {ls ls' : List Text} (h : Lines t ls) (h' : Lines t ls') : ls = ls' := by
  rw [← readlines_of h, readlines_of h']

theorem lineEnds_unique {t a b : Text} (h : LineEnds t a) (h' : LineEnds t b) : a = b := by
  rw [← universal_of h, universal_of h']

theorem entries_unique {t : Text} {es es' : List Text} (h : Entries t es) (h' : Entries t es') :
    es = es' := by
  rw [← splitComma_of h, splitComma_of h']

theorem forall₂_getElem {α β : Type} {R : α → β → Prop} {l : List α} {l' : List β} :
    List.Forall₂ R l l' ↔ l.length = l'.length ∧
      ∀ (k : ℕ) (a : α), l[k]? = some a → ∃ b, l'[k]? = some b ∧ R a b := by
  constructor
  · intro h
    induction h with
    | nil => exact ⟨rfl, fun k a h => by simp at h⟩
    | cons h1 _ ih =>
      refine ⟨by simp [ih.1], fun k a h => ?_⟩
      rcases k with _ | k
      · simp at h
        subst h
        exact ⟨_, rfl, h1⟩
      · exact ih.2 k a h
  · rintro ⟨h1, h2⟩
    induction l generalizing l' with
    | nil => rw [List.length_eq_zero_iff.1 h1.symm]; exact .nil
    | cons a l ih =>
      rcases l' with _ | ⟨b, l'⟩
      · simp at h1
      obtain ⟨b', hb, hr⟩ := h2 0 a rfl
      simp at hb
      subst hb
      exact .cons hr (ih (by simpa using h1) fun k a h => h2 (k + 1) a h)

/-- The loaded array: one value for each line, then zeros. -/
theorem filled_iff {α : Type} {R : Text → α → Prop} (zero : α) (n : ℕ) (lines : List Text) (res : List α) :
    (lines.length ≤ n ∧ ∃ vals, List.Forall₂ R lines vals ∧
      res = vals ++ List.replicate (n - lines.length) zero) ↔
    lines.length ≤ n ∧ res.length = n ∧
      ∀ k : ℕ, k < n → (∀ line, lines[k]? = some line → ∃ v, res[k]? = some v ∧ R line v) ∧
        (lines.length ≤ k → res[k]? = some zero) := by
  constructor
  · rintro ⟨h1, vals, h2, rfl⟩
    have hlen := h2.length_eq
    refine ⟨h1, by simp; omega, fun k hk => ⟨fun line hline => ?_, fun hk' => ?_⟩⟩
    · obtain ⟨v, hv, hr⟩ := (forall₂_getElem.1 h2).2 k line hline
      exact ⟨v, by rw [List.getElem?_append_left (List.getElem?_eq_some_iff.1 hv).1, hv], hr⟩
    · rw [List.getElem?_append_right (by omega), List.getElem?_replicate, if_pos (by omega)]
  · rintro ⟨h1, h2, h3⟩
    refine ⟨h1, res.take lines.length, forall₂_getElem.2 ⟨by simp; omega, fun k line hline => ?_⟩, ?_⟩
    · have hk := (List.getElem?_eq_some_iff.1 hline).1
      obtain ⟨v, hv, hr⟩ := (h3 k (by omega)).1 line hline
      exact ⟨v, by rw [List.getElem?_take_of_lt hk, hv], hr⟩
    · apply List.ext_getElem?
      intro k
      by_cases hk : k < lines.length
      · rw [List.getElem?_append_left (by simp; omega), List.getElem?_take_of_lt hk]
      · rw [List.getElem?_append_right (by simp; omega), List.getElem?_replicate]
        by_cases hkn : k < n
        · rw [(h3 k hkn).2 (by omega), if_pos (by simp; omega)]
        · rw [List.getElem?_eq_none (by omega), if_neg (by simp; omega)]

/-- The values of a line of the geometry file. -/
def CenterLine (line : Text) (v : FloatLit × FloatLit) : Prop :=
  ∃ a b rest, Entries line (a :: b :: rest) ∧ Denotes a v.1 ∧ Denotes b v.2

/-- The value of a line of the pad size file. -/
def SizeLine (line : Text) (v : FloatLit) : Prop := ∃ a rest, Entries line (a :: rest) ∧ Denotes a v

theorem lineValues_iff (line : Text) (v : FloatLit × FloatLit) : LineValues line v ↔ CenterLine line v := by
  unfold LineValues CenterLine
  rw [floatEntry_iff, floatEntry_iff]
  constructor
  · rintro ⟨⟨es, a, h1, h2, h3⟩, es', b, h1', h2', h3'⟩
    have := entries_unique h1 h1'
    subst this
    rcases es with _ | ⟨a', _ | ⟨b', es⟩⟩
    · simp at h2
    · simp at h2'
    · simp at h2 h2'
      subst h2; subst h2'
      exact ⟨_, _, _, h1, h3, h3'⟩
  · rintro ⟨a, b, rest, h, ha, hb⟩
    exact ⟨⟨_, a, h, rfl, ha⟩, _, b, h, rfl, hb⟩

theorem sizeLine_iff (line : Text) (v : FloatLit) :
    floatEntry (splitComma line) 0 = .ok v ↔ SizeLine line v := by
  rw [floatEntry_iff]
  constructor
  · rintro ⟨es, a, h1, h2, h3⟩
    rcases es with _ | ⟨a', es⟩
    · simp at h2
    · simp at h2
      subst h2
      exact ⟨_, _, h1, h3⟩
  · rintro ⟨a, rest, h, ha⟩
    exact ⟨_, a, h, rfl, ha⟩

theorem loadCenters_zero (lines : List Text) (res : List (FloatLit × FloatLit)) (n : ℕ) :
    loadCenters 0 lines (List.replicate n (zeroLit, zeroLit)) = .ok res ↔
    lines.length ≤ n ∧ res.length = n ∧
      ∀ k : ℕ, k < n → (∀ line, lines[k]? = some line → ∃ v, res[k]? = some v ∧ CenterLine line v) ∧
        (lines.length ≤ k → res[k]? = some (zeroLit, zeroLit)) := by
  rw [loadCenters_ok _ _ _ _ (Nat.zero_le _), ← filled_iff]
  simp only [Nat.zero_add, List.length_replicate, List.take_zero, List.nil_append, List.drop_replicate,
    show LineValues = CenterLine from funext fun l => funext fun v => propext (lineValues_iff l v)]

theorem loadSizes_zero (lines : List Text) (res : List FloatLit) (n : ℕ) :
    loadSizes 0 lines (List.replicate n zeroLit) = .ok res ↔
    lines.length ≤ n ∧ res.length = n ∧
      ∀ k : ℕ, k < n → (∀ line, lines[k]? = some line → ∃ v, res[k]? = some v ∧ SizeLine line v) ∧
        (lines.length ≤ k → res[k]? = some zeroLit) := by
  rw [loadSizes_ok _ _ _ _ (Nat.zero_le _), ← filled_iff]
  simp only [Nat.zero_add, List.length_replicate, List.take_zero, List.nil_append, List.drop_replicate,
    show (fun line v => floatEntry (splitComma line) 0 = .ok v) = SizeLine from
      funext fun l => funext fun v => propext (sizeLine_iff l v)]

theorem load_centers_text_eq (fs : TextFiles) (p : PadParams) :
    load_pad_centers_text fs p = match geometryText fs p with
      | some t => loadCenters 0 (dataLines t) (List.replicate NUM_PADS (zeroLit, zeroLit))
      | none => .error .fileNotFound := by
  unfold load_pad_centers_text geometryText DEFAULT
  split_ifs
  · rfl
  · rcases fs.csv p.geometry_path <;> rfl

theorem load_sizes_text_eq (fs : TextFiles) (p : PadParams) :
    load_pad_sizes_text fs p = match sizesText fs p with
      | some t => loadSizes 0 (dataLines t) (List.replicate NUM_PADS zeroLit)
      | none => .error .fileNotFound := by
  unfold load_pad_sizes_text sizesText DEFAULT
  split_ifs
  · rfl
  · rcases fs.csv p.geometry_path <;> rfl

/-- **C99.** Loading the pad centres from text succeeds exactly when the file exists, has at most 10240
lines after the header (its first line) and each of them has at least two entries, of which the first
two are numbers; pad `k` then has the two numbers of line `k` after the header as its centre, and pads
without a line have the centre (0, 0). -/
theorem C99_centers (fs : TextFiles) (p : PadParams) (res : List (FloatLit × FloatLit)) :
    load_pad_centers_text fs p = .ok res ↔
    ∃ t t' lines, geometryText fs p = some t ∧ LineEnds t t' ∧ Lines t' lines ∧
      lines.length ≤ 10241 ∧ res.length = 10240 ∧
      ∀ k : ℕ, k < 10240 →
        (∀ line, lines[k + 1]? = some line → ∃ v, res[k]? = some v ∧ CenterLine line v) ∧
        (lines.length ≤ k + 1 → res[k]? = some (zeroLit, zeroLit)) := by
  rw [load_centers_text_eq]
  rcases hg : geometryText fs p with _ | t
  · simp
  obtain ⟨t', ht⟩ := lineEnds_exists t
  obtain ⟨lines, hl⟩ := lines_exists t'
  have hd : dataLines t = lines.tail := by rw [dataLines, universal_of ht, readlines_of hl]
  simp only [hd]
  rw [loadCenters_zero]
  simp only [NUM_PADS, List.length_tail, List.getElem?_tail, Nat.sub_le_iff_le_add]
  constructor
  · rintro ⟨h1, h2, h3⟩
    exact ⟨t, t', lines, rfl, ht, hl, h1, h2, h3⟩
  · rintro ⟨s, s', lines', hs, hs', hl', h1, h2, h3⟩
    obtain rfl := Option.some.inj hs
    obtain rfl := lineEnds_unique ht hs'
    obtain rfl := lines_unique hl hl'
    exact ⟨h1, h2, h3⟩

/-- **C99.** Likewise for the pad sizes, where one number is needed. -/
theorem C99_sizes (fs : TextFiles) (p : PadParams) (res : List FloatLit) :
    load_pad_sizes_text fs p = .ok res ↔
    ∃ t t' lines, sizesText fs p = some t ∧ LineEnds t t' ∧ Lines t' lines ∧
      lines.length ≤ 10241 ∧ res.length = 10240 ∧
      ∀ k : ℕ, k < 10240 →
        (∀ line, lines[k + 1]? = some line → ∃ v, res[k]? = some v ∧ SizeLine line v) ∧
        (lines.length ≤ k + 1 → res[k]? = some zeroLit) := by
  rw [load_sizes_text_eq]
  rcases hg : sizesText fs p with _ | t
  · simp
  obtain ⟨t', ht⟩ := lineEnds_exists t
  obtain ⟨lines, hl⟩ := lines_exists t'
  have hd : dataLines t = lines.tail := by rw [dataLines, universal_of ht, readlines_of hl]
  simp only [hd]
  rw [loadSizes_zero]
  simp only [NUM_PADS, List.length_tail, List.getElem?_tail, Nat.sub_le_iff_le_add]
  constructor
  · rintro ⟨h1, h2, h3⟩
    exact ⟨t, t', lines, rfl, ht, hl, h1, h2, h3⟩
  · rintro ⟨s, s', lines', hs, hs', hl', h1, h2, h3⟩
    obtain rfl := Option.some.inj hs
    obtain rfl := lineEnds_unique ht hs'
    obtain rfl := lines_unique hl hl'
    exact ⟨h1, h2, h3⟩

theorem litIs_zero : LitIs zeroLit 0 := ⟨_, _, _, rfl, by simp [litValue]⟩

/-- **C99.** For csv files that are tables of numbers, loading from the text does the same as loading
from the numbers, which is the model of the other properties: the same exception, or the same values. -/
theorem C99_numbers {fs : TextFiles} {fs' : FileSystem} (h : TablesOf fs fs') (p : PadParams) :
    SameOutcome (List.Forall₂ fun l v => LitIs l.1 v.1 ∧ LitIs l.2 v.2)
      (load_pad_centers_text fs p) (load_pad_centers fs' p) ∧
    SameOutcome (List.Forall₂ LitIs) (load_pad_sizes_text fs p) (load_pad_sizes fs' p) := by
  have hz2 : List.Forall₂ (fun (l : FloatLit × FloatLit) (v : ℝ × ℝ) => LitIs l.1 v.1 ∧ LitIs l.2 v.2)
      (List.replicate NUM_PADS (zeroLit, zeroLit)) (List.replicate NUM_PADS ((0 : ℝ), (0 : ℝ))) := by
    generalize NUM_PADS = n
    induction n with
    | zero => exact .nil
    | succ n ih => exact .cons ⟨litIs_zero, litIs_zero⟩ ih
  have hz1 : List.Forall₂ LitIs (List.replicate NUM_PADS zeroLit) (List.replicate NUM_PADS (0 : ℝ)) := by
    generalize NUM_PADS = n
    induction n with
    | zero => exact .nil
    | succ n ih => exact .cons litIs_zero ih
  unfold load_pad_centers_text load_pad_centers load_pad_sizes_text load_pad_sizes
  constructor
  · by_cases hp : p.geometry_path = DEFAULT
    · rw [if_pos hp, if_pos hp]
      obtain ⟨t', header, lines, h1, h2, h3⟩ := h.padxy
      rw [dataLines_of h1 h2]
      exact sameOutcome_centers h3 0 _ _ hz2
    · rw [if_neg hp, if_neg hp]
      unfold openCsv
      rcases h.csv p.geometry_path with ⟨e1, e2⟩ | ⟨t, rows, e1, e2, t', header, lines, h1, h2, h3⟩
      · rw [e1, e2]; exact .error _
      · rw [e1, e2]
        simp only [dataLines_of h1 h2]
        exact sameOutcome_centers h3 0 _ _ hz2
  · by_cases hp : p.pad_size_path = DEFAULT
    · rw [if_pos hp, if_pos hp]
      obtain ⟨t', header, lines, h1, h2, h3⟩ := h.scale
      rw [dataLines_of h1 h2]
      exact sameOutcome_sizes h3 0 _ _ hz1
    · rw [if_neg hp, if_neg hp]
      unfold openCsv
      rcases h.csv p.geometry_path with ⟨e1, e2⟩ | ⟨t, rows, e1, e2, t', header, lines, h1, h2, h3⟩
      · rw [e1, e2]; exact .error _
      · rw [e1, e2]
        simp only [dataLines_of h1 h2]
        exact sameOutcome_sizes h3 0 _ _ hz1

theorem sameOutcome_ok {α β : Type} {R : α → β → Prop} {x : Except PyErr α} {b : β}
    (h : SameOutcome R x (.ok b)) : ∃ a, x = .ok a ∧ R a b := by
  cases h with
  | ok h => exact ⟨_, rfl, h⟩

/-- **C99.** The text of the packaged csv files consists of tables of numbers: those used for the other
properties. Loading the defaults from it gives each of the 10240 pads its centre and size. -/
theorem C99_packaged (fs : TextFiles) (h1 : fs.padxy = padxyText) (h2 : fs.pad_scale = scaleText) :
    Table padxyText packagedPadXY ∧ Table scaleText packagedScale ∧
    (∃ res, load_pad_centers_text fs {} = .ok res ∧
      List.Forall₂ (fun l v => LitIs l.1 v.1 ∧ LitIs l.2 v.2) res ((List.range 10240).map padCenter)) ∧
    ∃ res, load_pad_sizes_text fs {} = .ok res ∧
      List.Forall₂ LitIs res ((List.range 10240).map fun (p : ℕ) => if padIsLarge p then 1 else 0.5) := by
  have ht : TablesOf { padxy := padxyText, pad_scale := scaleText, csv := fun _ => none } exPackaged := by
    constructor
    · simp only [exPackaged]; exact padxy_table
    · simp only [exPackaged]; exact scale_table
    · exact fun _ => .inl ⟨rfl, by simp only [exPackaged]⟩
  have hn := C99_numbers ht {}
  refine ⟨padxy_table, scale_table, ?_, ?_⟩
  · have := And.left hn
    have hc : load_pad_centers exPackaged {} = .ok ((List.range 10240).map padCenter) := by
      unfold load_pad_centers
      simp only [if_true]
      rw [exPackaged_ok.padxy]
      exact packaged_centers
    rw [hc] at this
    rw [show load_pad_centers_text fs {} = load_pad_centers_text
      { padxy := padxyText, pad_scale := scaleText, csv := fun _ => none } {} by
        rw [load_centers_text_eq, load_centers_text_eq]
        simp [geometryText, h1, DEFAULT]]
    exact sameOutcome_ok this
  · have := And.right hn
    have hs : load_pad_sizes exPackaged {} = .ok ((List.range 10240).map fun (p : ℕ) =>
        if padIsLarge p then 1 else 0.5) := by
      unfold load_pad_sizes
      simp only [if_true]
      rw [exPackaged_ok.scale]
      exact packaged_sizes
    rw [hs] at this
    rw [show load_pad_sizes_text fs {} = load_pad_sizes_text
      { padxy := padxyText, pad_scale := scaleText, csv := fun _ => none } {} by
        rw [load_sizes_text_eq, load_sizes_text_eq]
        simp [sizesText, h2, DEFAULT]]
    exact sameOutcome_ok this

/-- Example: `-2.50e1` with white space around is -250 · 10^-1, i.e. -25; `1.5.2` is no number. -/
example : Denotes [32, 45, 50, 46, 53, 48, 101, 49, 10] (.num true 250 (-1)) ∧
    litValue true 250 (-1) = -25 ∧ pyFloat [49, 46, 53, 46, 50] = .error .valueError := by
  refine ⟨(pyFloat_iff _ _).1 (by decide +kernel), by norm_num [litValue], by decide +kernel⟩

/-- Example: the text `x,y`, `1.5,-2` with the line ends of Windows is a table with one row. -/
example : Table [120, 44, 121, 13, 10, 49, 46, 53, 44, 45, 50, 13, 10] [[3 / 2, -2]] := by
  refine ⟨[120, 44, 121, 10, 49, 46, 53, 44, 45, 50, 10], [120, 44, 121, 10],
    [[49, 46, 53, 44, 45, 50, 10]], (universal_iff _ _).1 (by decide +kernel),
    (readlines_iff _ _).1 (by decide +kernel), .cons ⟨[[49, 46, 53], [45, 50, 10]],
      (splitComma_iff _ _).1 (by decide +kernel), .cons ?_ (.cons ?_ .nil)⟩ .nil⟩
  · exact ⟨false, 15, -1, (pyFloat_num _ _ _ _).1 (by decide +kernel), by norm_num [litValue]⟩
  · exact ⟨true, 2, 0, (pyFloat_num _ _ _ _).1 (by decide +kernel), by norm_num [litValue]⟩

/-- Example: text files with the packaged text and a geometry file as above. -/
example : TablesOf ⟨padxyText, scaleText, fun path => if path = "plane.csv" then
      some [120, 44, 121, 10, 49, 44, 50] else none⟩
    { exPackaged with csv := fun path => if path = "plane.csv" then some [[1, 2]] else none } := by
  constructor
  · simp only [exPackaged]; exact padxy_table
  · simp only [exPackaged]; exact scale_table
  · intro path
    by_cases h : path = "plane.csv"
    · right
      refine ⟨_, _, if_pos h, if_pos h, [120, 44, 121, 10, 49, 44, 50], [120, 44, 121, 10], [[49, 44, 50]],
        (universal_iff _ _).1 (by decide +kernel), (readlines_iff _ _).1 (by decide +kernel),
        .cons ⟨[[49], [50]], (splitComma_iff _ _).1 (by decide +kernel), .cons ?_ (.cons ?_ .nil)⟩ .nil⟩
      · exact ⟨false, 1, 0, (pyFloat_num _ _ _ _).1 (by decide +kernel), by norm_num [litValue]⟩
      · exact ⟨false, 2, 0, (pyFloat_num _ _ _ _).1 (by decide +kernel), by norm_num [litValue]⟩
    · left
      exact ⟨if_neg h, if_neg h⟩

end Verif.Detector
