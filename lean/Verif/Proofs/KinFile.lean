import Verif.Spec.KinEvents
import Verif.Detector.Simulator
import Verif.Proofs.Names
import Mathlib.Tactic.Ring
import Mathlib.Tactic.Linarith
import Mathlib.Data.List.Basic

/-! # Lemmas on the kinematics file -/

namespace Verif.Kinematics

open Verif.Spec Verif.Detector

variable {ρ π : Type}

theorem chunk_name_inj {a b : ℕ} (h : chunk_name a = chunk_name b) : a = b :=
  natRepr_inj (append_left_inj' h)

theorem event_name_inj {a b : ℕ} (h : event_name a = event_name b) : a = b :=
  natRepr_inj (append_left_inj' h)

theorem Produced_snoc {run : PipeRun ρ π} {p p' p'' : π} {evs : List (Event ρ)} {e : Event ρ}
    (h : Produced run p evs p') (h' : run p' = (.ok e, p'')) : Produced run p (evs ++ [e]) p'' := by
  induction h with
  | nil p => exact .cons h' (.nil _)
  | cons h1 _ ih => exact .cons h1 (ih h')

theorem Produced_unique {run : PipeRun ρ π} {p p₁ p₂ : π} {evs₁ evs₂ : List (Event ρ)}
    (h₁ : Produced run p evs₁ p₁) (h₂ : Produced run p evs₂ p₂)
    (hl : evs₁.length = evs₂.length) : evs₁ = evs₂ ∧ p₁ = p₂ := by
  induction h₁ generalizing evs₂ with
  | nil p =>
    cases h₂ with
    | nil => exact ⟨rfl, rfl⟩
    | cons => simp at hl
  | cons h1 _ ih =>
    cases h₂ with
    | nil => simp at hl
    | cons h2 h3 =>
      rw [h1] at h2
      simp only [Prod.mk.injEq, Except.ok.injEq] at h2
      obtain ⟨rfl, rfl⟩ := h2
      obtain ⟨rfl, rfl⟩ := ih h3 (by simpa using hl)
      exact ⟨rfl, rfl⟩

/-- The complete dataset of an event. -/
def dsetOf (e : Event ρ) : EventDset ρ := ⟨e.2, some e.1.1, some e.1.2.1, some e.1.2.2⟩

/-- The datasets of consecutive events from number `a` on. -/
def entries : ℕ → List (Event ρ) → List (String × EventDset ρ)
  | _, [] => []
  | a, e :: l => (event_name a, dsetOf e) :: entries (a + 1) l

theorem entries_append (a : ℕ) (l m : List (Event ρ)) :
    entries a (l ++ m) = entries a l ++ entries (a + l.length) m := by
  induction l generalizing a with
  | nil => simp [entries]
  | cons e l ih => simp [entries, ih]; congr 1; ring

theorem entries_names (a : ℕ) (l : List (Event ρ)) :
    (entries a l).map (·.1) = (List.range' a l.length).map event_name := by
  induction l generalizing a with
  | nil => rfl
  | cons e l ih => simp [entries, ih, List.range'_succ]

theorem entries_lookup (a : ℕ) (l : List (Event ρ)) (i : ℕ) (hi : i < l.length)
    (extra : List (String × EventDset ρ)) :
    (entries a l ++ extra).lookup (event_name (a + i)) = some (dsetOf l[i]) := by
  induction l generalizing a i with
  | nil => simp at hi
  | cons e l ih =>
    cases i with
    | zero => simp [entries, List.lookup]
    | succ i =>
      have hne : (event_name (a + (i + 1)) == event_name a) = false := by
        simp only [beq_eq_false_iff_ne, ne_eq]
        intro h
        have := event_name_inj h
        omega
      simp only [entries, List.cons_append, List.lookup, hne]
      rw [show a + (i + 1) = a + 1 + i by ring]
      exact ih (a + 1) i (by simpa using hi)

theorem entries_lookup_none (a : ℕ) (l : List (Event ρ)) (k : ℕ) (hk : a + l.length ≤ k) :
    (entries a l).lookup (event_name k) = none := by
  induction l generalizing a with
  | nil => rfl
  | cons e l ih =>
    simp only [List.length_cons] at hk
    have hne : (event_name k == event_name a) = false := by
      simp only [beq_eq_false_iff_ne, ne_eq]
      intro h
      have := event_name_inj h
      omega
    simp only [entries, List.lookup, hne]
    exact ih (a + 1) (by omega)

/-- The completed chunks from number `c` on. -/
def chunksFrom (cs : ℕ) : ℕ → List (List (Event ρ)) → List (String × ChunkGroup ρ)
  | _, [] => []
  | c, l :: ls => (chunk_name c,
      { events := entries (c * cs) l, min_event := some ((c * cs : ℕ) : ℤ),
        max_event := some (((c + 1) * cs : ℕ) - 1 : ℤ) }) :: chunksFrom cs (c + 1) ls

theorem chunksFrom_append (cs c : ℕ) (l m : List (List (Event ρ))) :
    chunksFrom cs c (l ++ m) = chunksFrom cs c l ++ chunksFrom cs (c + l.length) m := by
  induction l generalizing c with
  | nil => simp [chunksFrom]
  | cons e l ih => simp [chunksFrom, ih]; congr 1; ring

theorem chunksFrom_name (cs c : ℕ) (l : List (List (Event ρ))) {x : String × ChunkGroup ρ}
    (hx : x ∈ chunksFrom cs c l) : ∃ i, i < c + l.length ∧ x.1 = chunk_name i := by
  induction l generalizing c with
  | nil => simp [chunksFrom] at hx
  | cons e l ih =>
    simp only [chunksFrom, List.mem_cons] at hx
    rcases hx with rfl | hx
    · exact ⟨c, by simp, rfl⟩
    · obtain ⟨i, h1, h2⟩ := ih (c + 1) hx
      exact ⟨i, by simp; omega, h2⟩

theorem modifyName_last {α : Type} (l : List (String × α)) (name : String) (a : α) (f : α → α)
    (h : ∀ x ∈ l, x.1 ≠ name) : modifyName name f (l ++ [(name, a)]) = l ++ [(name, f a)] := by
  unfold modifyName
  rw [List.map_append]
  congr 1
  · conv_rhs => rw [← List.map_id l]
    apply List.map_congr_left
    intro x hx
    rw [if_neg (h x hx)]; rfl
  · simp

theorem lookup_last {α : Type} (l : List (String × α)) (name : String) (a : α)
    (h : ∀ x ∈ l, x.1 ≠ name) : (l ++ [(name, a)]).lookup name = some a := by
  induction l with
  | nil => simp [List.lookup]
  | cons x l ih =>
    have hne : (name == x.1) = false := by
      simp only [beq_eq_false_iff_ne, ne_eq]
      exact fun e => h x (by simp) e.symm
    obtain ⟨n, v⟩ := x
    simp only [List.cons_append, List.lookup, hne]
    exact ih fun y hy => h y (by simp [hy])

theorem lookup_absent {α : Type} (l : List (String × α)) (name : String)
    (h : ∀ x ∈ l, x.1 ≠ name) : l.lookup name = none := by
  induction l with
  | nil => rfl
  | cons x l ih =>
    have hne : (name == x.1) = false := by
      simp only [beq_eq_false_iff_ne, ne_eq]
      exact fun e => h x (by simp) e.symm
    obtain ⟨n, v⟩ := x
    simp only [List.lookup, hne]
    exact ih fun y hy => h y (by simp [hy])

/-! ## Reading -/

/-- Names and datasets of a file without the chunk attributes. -/
def skeleton (f : KinFile ρ) : List (String × List (String × EventDset ρ)) :=
  f.chunks.map fun ng => (ng.1, ng.2.events)

def skelFrom (cs : ℕ) : ℕ → List (List (Event ρ)) → List (String × List (String × EventDset ρ))
  | _, [] => []
  | c, l :: ls => (chunk_name c, entries (c * cs) l) :: skelFrom cs (c + 1) ls

theorem chunksFrom_skel (cs c : ℕ) (l : List (List (Event ρ))) :
    (chunksFrom cs c l).map (fun ng => (ng.1, ng.2.events)) = skelFrom cs c l := by
  induction l generalizing c with
  | nil => rfl
  | cons e l ih => simp [chunksFrom, skelFrom, ih]

theorem skelFrom_lookup (cs c : ℕ) (l : List (List (Event ρ))) (i : ℕ) (hi : i < l.length)
    (rest : List (String × List (String × EventDset ρ))) :
    (skelFrom cs c l ++ rest).lookup (chunk_name (c + i)) = some (entries ((c + i) * cs) l[i]) := by
  induction l generalizing c i with
  | nil => simp at hi
  | cons e l ih =>
    cases i with
    | zero => simp [skelFrom, List.lookup]
    | succ i =>
      have hne : (chunk_name (c + (i + 1)) == chunk_name c) = false := by
        simp only [beq_eq_false_iff_ne, ne_eq]
        intro h
        have := chunk_name_inj h
        omega
      simp only [skelFrom, List.cons_append, List.lookup, hne]
      rw [show c + (i + 1) = c + 1 + i by ring]
      exact ih (c + 1) i (by simpa using hi)

theorem skelFrom_lookup_last (cs c : ℕ) (l : List (List (Event ρ)))
    (x : List (String × EventDset ρ)) (rest : List (String × List (String × EventDset ρ))) :
    (skelFrom cs c l ++ (chunk_name (c + l.length), x) :: rest).lookup (chunk_name (c + l.length))
      = some x := by
  induction l generalizing c with
  | nil => simp [skelFrom, List.lookup]
  | cons e l ih =>
    have hne : (chunk_name (c + (e :: l).length) == chunk_name c) = false := by
      simp only [beq_eq_false_iff_ne, ne_eq]
      intro h
      have := chunk_name_inj h
      simp at this
    simp only [skelFrom, List.cons_append, List.lookup, hne]
    have : c + (e :: l).length = c + 1 + l.length := by simp; ring
    rw [this]
    exact ih (c + 1)

theorem lookup_skeleton (f : KinFile ρ) (name : String) :
    (skeleton f).lookup name = (f.chunks.lookup name).map (·.events) := by
  unfold skeleton
  induction f.chunks with
  | nil => rfl
  | cons x l ih =>
    obtain ⟨n, g⟩ := x
    by_cases h : name = n
    · subst h; simp [List.lookup]
    · have hne : (name == n) = false := by simpa using h
      simp only [List.map_cons, List.lookup, hne]
      exact ih

theorem flatten_getElem {α : Type} (cs : ℕ) (hcs : 1 ≤ cs) (l : List (List α)) (cur : List α)
    (hl : ∀ x ∈ l, x.length = cs) (hcur : cur.length ≤ cs) (k : ℕ)
    (hk : k < (l.flatten ++ cur).length) :
    (∃ (h : k / cs < l.length) (h' : k % cs < l[k / cs].length),
      (l.flatten ++ cur)[k] = l[k / cs][k % cs]) ∨
    (k / cs = l.length ∧ ∃ h' : k % cs < cur.length, (l.flatten ++ cur)[k] = cur[k % cs]) := by
  induction l generalizing k with
  | nil =>
    right
    simp only [List.flatten_nil, List.nil_append] at hk
    have : k < cs := by omega
    refine ⟨by simp [Nat.div_eq_of_lt this], by rwa [Nat.mod_eq_of_lt this], ?_⟩
    simp [Nat.mod_eq_of_lt this]
  | cons x l ih =>
    have hx : x.length = cs := hl x (by simp)
    by_cases hlt : k < cs
    · left
      have h0 : k / cs = 0 := Nat.div_eq_of_lt hlt
      have h1 : k % cs = k := Nat.mod_eq_of_lt hlt
      refine ⟨by simp [h0], by simp [h0, h1, hx, hlt], ?_⟩
      simp only [List.flatten_cons, List.append_assoc]
      rw [List.getElem_append_left (by rw [hx]; exact hlt)]
      simp [h0, h1]
    · have hge : cs ≤ k := by omega
      have hd : k / cs = (k - cs) / cs + 1 := by
        rw [Nat.div_eq_sub_div (by omega) hge]
      have hm : k % cs = (k - cs) % cs := Nat.mod_eq_sub_mod hge
      have hk' : k - cs < (l.flatten ++ cur).length := by
        simp only [List.flatten_cons, List.append_assoc, List.length_append] at hk ⊢
        rw [hx] at hk
        omega
      have hget : ((x :: l).flatten ++ cur)[k] = (l.flatten ++ cur)[k - cs] := by
        simp only [List.flatten_cons, List.append_assoc]
        rw [List.getElem_append_right (by omega)]
        simp [hx]
      rcases ih (fun y hy => hl y (by simp [hy])) (k - cs) hk' with ⟨h, h', e⟩ | ⟨h, h', e⟩
      · left
        refine ⟨by rw [hd]; simpa using h, ?_, ?_⟩
        · simp only [hd, hm, List.getElem_cons_succ]; exact h'
        · rw [hget, e]; simp only [hd, hm, List.getElem_cons_succ]
      · right
        refine ⟨by rw [hd, h]; simp, by rw [hm]; exact h', ?_⟩
        rw [hget, e]; simp only [hm]

/-- Reading an event from a file with the given datasets. -/
theorem read_of_skeleton {cs : ℕ} (hcs : 1 ≤ cs) {f : KinFile ρ} {done : List (List (Event ρ))}
    {cur : List (Event ρ)} {extra : List (String × EventDset ρ)}
    {rest : List (String × List (String × EventDset ρ))}
    (hf : skeleton f = skelFrom cs 0 done ++
      (chunk_name done.length, entries (done.length * cs) cur ++ extra) :: rest)
    (hd : ∀ x ∈ done, x.length = cs) (hcur : cur.length ≤ cs) (k : ℕ)
    (hk : k < (done.flatten ++ cur).length) :
    read_event f cs k = .ok ((done.flatten ++ cur)[k].2, (done.flatten ++ cur)[k].1) := by
  have key : ∃ g x, f.chunks.lookup (chunk_name (k / cs)) = some g ∧
      g.events.lookup (event_name k) = some (dsetOf x) ∧ (done.flatten ++ cur)[k] = x := by
    have hkeq : k / cs * cs + k % cs = k := by rw [mul_comm]; exact Nat.div_add_mod k cs
    rcases flatten_getElem cs hcs done cur hd hcur k hk with ⟨h, h', e⟩ | ⟨h, h', e⟩
    · have hlook : (skeleton f).lookup (chunk_name (k / cs))
          = some (entries (k / cs * cs) done[k / cs]) := by
        rw [hf]
        have := skelFrom_lookup cs 0 done (k / cs) h
          ((chunk_name done.length, entries (done.length * cs) cur ++ extra) :: rest)
        simpa only [Nat.zero_add] using this
      rw [lookup_skeleton, Option.map_eq_some_iff] at hlook
      obtain ⟨g, hg, hge⟩ := hlook
      refine ⟨g, _, hg, ?_, e⟩
      rw [hge]
      have := entries_lookup (k / cs * cs) done[k / cs] (k % cs) h' []
      rw [List.append_nil, hkeq] at this
      exact this
    · have hlook : (skeleton f).lookup (chunk_name (k / cs))
          = some (entries (k / cs * cs) cur ++ extra) := by
        rw [hf, h]
        have := skelFrom_lookup_last cs 0 done (entries (done.length * cs) cur ++ extra) rest
        simpa only [Nat.zero_add] using this
      rw [lookup_skeleton, Option.map_eq_some_iff] at hlook
      obtain ⟨g, hg, hge⟩ := hlook
      refine ⟨g, _, hg, ?_, e⟩
      rw [hge]
      have := entries_lookup (k / cs * cs) cur (k % cs) h' extra
      rw [hkeq] at this
      exact this
  obtain ⟨g, x, h1, h2, h3⟩ := key
  rw [h3]
  have e1 : lookupName f.chunks (chunk_name (k / cs)) = .ok g := by simp [lookupName, h1]
  have e2 : lookupName g.events (event_name k) = .ok (dsetOf x) := by simp [lookupName, h2]
  unfold read_event
  simp only [e1]
  show (lookupName g.events (event_name k) >>= _) = _
  rw [e2]
  rfl

theorem eventNames_skeleton (f : KinFile ρ) :
    eventNames f = (skeleton f).flatMap fun ne => ne.2.map (·.1) := by
  unfold eventNames skeleton
  rw [List.flatMap_map]

theorem skelFrom_names (cs c : ℕ) (l : List (List (Event ρ))) (hl : ∀ x ∈ l, x.length = cs) :
    (skelFrom cs c l).flatMap (fun ne => ne.2.map (·.1))
      = (List.range' (c * cs) (l.length * cs)).map event_name := by
  induction l generalizing c with
  | nil => simp [skelFrom]
  | cons x l ih =>
    simp only [skelFrom, List.flatMap_cons, entries_names, List.length_cons]
    rw [ih (c + 1) (fun y hy => hl y (by simp [hy])), ← List.map_append, hl x (by simp)]
    congr 1
    rw [show (c + 1) * cs = c * cs + cs by ring, List.range'_append_1]
    congr 1; ring


/-! ## Writing -/

/-- The file during a run: `done` are the completed chunks, `cur` the events of the current one. -/
def midFile (n : ℤ) (zs as : List ℤ) (cs : ℕ) (done : List (List (Event ρ)))
    (events : List (String × EventDset ρ)) (max : Option ℤ) : KinFile ρ :=
  { n_events := some n, proton_numbers := some zs, mass_numbers := some as, chunk_size := some cs,
    chunks := chunksFrom cs 0 done ++ [(chunk_name done.length,
      { events := events, min_event := some ((done.length * cs : ℕ) : ℤ), max_event := max })] }

theorem chunks_ne (cs : ℕ) (done : List (List (Event ρ))) :
    ∀ x ∈ chunksFrom cs 0 done, x.1 ≠ chunk_name done.length := by
  intro x hx h
  obtain ⟨i, h1, h2⟩ := chunksFrom_name cs 0 done hx
  rw [h2] at h
  have := chunk_name_inj h
  omega

theorem entries_ne (a : ℕ) (l : List (Event ρ)) :
    ∀ x ∈ entries a l, x.1 ≠ event_name (a + l.length) := by
  intro x hx h
  have : x.1 ∈ (entries a l).map (·.1) := List.mem_map_of_mem hx
  rw [entries_names, List.mem_map] at this
  obtain ⟨k, hk, e⟩ := this
  rw [← e] at h
  have := event_name_inj h
  simp [List.mem_range'_1] at hk
  omega

/-- What a file left behind by an interruption looks like. -/
structure Interrupted (run : PipeRun ρ π) (p0 : π) (n : ℤ) (zs as : List ℤ) (cs : ℕ) (f : KinFile ρ) :
    Prop where
  no_count : f.n_chunks = none
  n_events : f.n_events = none ∨ f.n_events = some n
  proton_numbers : f.proton_numbers = none ∨ f.proton_numbers = some zs
  mass_numbers : f.mass_numbers = none ∨ f.mass_numbers = some as
  chunk_size : f.chunk_size = none ∨ f.chunk_size = some cs
  events : ∃ evs p, Produced run p0 evs p ∧
    (∀ (k : ℕ) (hk : k < evs.length), read_event f cs k = .ok (evs[k].2, evs[k].1)) ∧
    (∀ k : ℕ, evs.length ≤ k → read_event f cs k = .error .keyError) ∧
    ∃ m, (m = evs.length ∨ m = evs.length + 1) ∧ eventNames f = (List.range m).map event_name

theorem skelFrom_lookup_none (cs c : ℕ) (l : List (List (Event ρ))) (k : ℕ) (hk : c + l.length ≤ k) :
    (skelFrom cs c l).lookup (chunk_name k) = none := by
  induction l generalizing c with
  | nil => rfl
  | cons e l ih =>
    simp only [List.length_cons] at hk
    have hne : (chunk_name k == chunk_name c) = false := by
      simp only [beq_eq_false_iff_ne, ne_eq]
      intro h
      have := chunk_name_inj h
      omega
    simp only [skelFrom, List.lookup, hne]
    exact ih (c + 1) (by omega)

/-- An event that is missing or whose vertex is incomplete cannot be read. -/
theorem read_missing {cs : ℕ} (_hcs : 1 ≤ cs) {f : KinFile ρ} {k : ℕ}
    (h : ∀ evs d, (skeleton f).lookup (chunk_name (k / cs)) = some evs →
      evs.lookup (event_name k) = some d →
      d.vertex_x = none ∨ d.vertex_y = none ∨ d.vertex_z = none) :
    read_event f cs k = .error .keyError := by
  rw [lookup_skeleton] at h
  unfold read_event
  simp only [bind, Except.bind, lookupName]
  cases hg : f.chunks.lookup (chunk_name (k / cs)) with
  | none => rfl
  | some g =>
    simp only
    cases hd : g.events.lookup (event_name k) with
    | none => rfl
    | some d =>
      simp only
      have := h g.events d (by rw [hg]; rfl) hd
      rcases this with h1 | h1 | h1 <;> rw [h1]
      · rfl
      · cases d.vertex_x <;> rfl
      · cases d.vertex_x <;> cases d.vertex_y <;> rfl

/-- Events beyond the complete ones. -/
theorem read_beyond {cs : ℕ} (hcs : 1 ≤ cs) {f : KinFile ρ} {done : List (List (Event ρ))}
    {cur : List (Event ρ)} {extra : List (String × EventDset ρ)}
    (hf : skeleton f = skelFrom cs 0 done ++
      [(chunk_name done.length, entries (done.length * cs) cur ++ extra)])
    (hex : ∀ x ∈ extra, x.2.vertex_x = none ∨ x.2.vertex_y = none ∨ x.2.vertex_z = none)
    (k : ℕ) (hk : done.length * cs + cur.length ≤ k) : read_event f cs k = .error .keyError := by
  have hq : done.length ≤ k / cs := by
    rw [Nat.le_div_iff_mul_le (by omega)]
    omega
  refine read_missing hcs fun evs d h1 h2 => ?_
  rw [hf, List.lookup_append, skelFrom_lookup_none cs 0 done _ (by omega)] at h1
  simp only [Option.none_or, List.lookup] at h1
  split at h1
  · simp only [Option.some.injEq] at h1
    subst h1
    rw [List.lookup_append, entries_lookup_none _ _ _ hk, Option.none_or] at h2
    have : ∃ x ∈ extra, x.2 = d := by
      clear hf hex
      induction extra with
      | nil => simp at h2
      | cons x l ih =>
        rw [List.lookup_cons] at h2
        split at h2
        · exact ⟨x, by simp, by simpa using h2⟩
        · obtain ⟨y, hy, e⟩ := ih h2
          exact ⟨y, by simp [hy], e⟩
    obtain ⟨x, hx, rfl⟩ := this
    exact hex x hx
  · simp at h1

theorem interrupted_mid {run : PipeRun ρ π} {p0 p : π} {n : ℤ} {zs as : List ℤ} {cs : ℕ} (hcs : 1 ≤ cs) {f : KinFile ρ}
    {done : List (List (Event ρ))} {cur : List (Event ρ)} {extra : List (String × EventDset ρ)}
    (hn : f.n_chunks = none) (h1 : f.n_events = some n) (h2 : f.proton_numbers = some zs)
    (h3 : f.mass_numbers = some as) (h4 : f.chunk_size = some cs)
    (hf : skeleton f = skelFrom cs 0 done ++
      [(chunk_name done.length, entries (done.length * cs) cur ++ extra)])
    (hd : ∀ x ∈ done, x.length = cs) (hcur : cur.length ≤ cs)
    (hp : Produced run p0 (done.flatten ++ cur) p)
    (hex : extra.map (·.1) = [] ∨ extra.map (·.1) = [event_name (done.length * cs + cur.length)])
    (hinc : ∀ x ∈ extra, x.2.vertex_x = none ∨ x.2.vertex_y = none ∨ x.2.vertex_z = none) :
    Interrupted run p0 n zs as cs f := by
  have hlen : done.flatten.length = done.length * cs := by
    rw [List.length_flatten]
    have : done.map List.length = List.replicate done.length cs := by
      rw [List.eq_replicate_iff]
      refine ⟨by simp, ?_⟩
      intro b hb
      obtain ⟨x, hx, rfl⟩ := List.mem_map.1 hb
      exact hd x hx
    rw [this]; simp
  refine ⟨hn, .inr h1, .inr h2, .inr h3, .inr h4, _, p, hp,
    fun k hk => read_of_skeleton hcs hf hd hcur k hk,
    fun k hk => read_beyond hcs hf hinc k (by rw [List.length_append, hlen] at hk; exact hk), ?_⟩
  have hnames : eventNames f = (List.range (done.flatten ++ cur).length).map event_name
      ++ extra.map (·.1) := by
    rw [eventNames_skeleton, hf, List.flatMap_append, skelFrom_names cs 0 done hd]
    simp only [List.flatMap_cons, List.flatMap_nil, List.append_nil, List.map_append, entries_names]
    rw [← List.append_assoc, ← List.map_append, List.length_append, hlen]
    congr 2
    rw [Nat.zero_mul]
    have := List.range'_append_1 (s := 0) (m := done.length * cs) (n := cur.length)
    rw [Nat.zero_add] at this
    rw [this, List.range_eq_range']
  rcases hex with h | h
  · exact ⟨_, .inl rfl, by rw [hnames, h, List.append_nil]⟩
  · refine ⟨_, .inr rfl, ?_⟩
    rw [hnames, h, List.range_succ, List.map_append, List.length_append, hlen]
    rfl

theorem midFile_skeleton (n : ℤ) (zs as : List ℤ) (cs : ℕ) (done : List (List (Event ρ)))
    (events : List (String × EventDset ρ)) (max : Option ℤ) :
    skeleton (midFile n zs as cs done events max)
      = skelFrom cs 0 done ++ [(chunk_name done.length, events)] := by
  unfold skeleton midFile
  simp [chunksFrom_skel]

/-- Starting the next chunk. -/
theorem nextChunk_run (run : PipeRun ρ π) (p0 : π) {cs : ℕ} (hcs : 1 ≤ cs) (n : ℤ) (zs as : List ℤ)
    (done : List (List (Event ρ))) (cur : List (Event ρ)) (st : KinRun ρ π)
    (hd : ∀ x ∈ done, x.length = cs) (hcur : cur.length = cs)
    (hf : st.file = midFile n zs as cs done (entries (done.length * cs) cur) none)
    (hp : Produced run p0 (done.flatten ++ cur) st.pipe)
    (ht : ∀ f ∈ st.trace, Interrupted run p0 n zs as cs f) :
    ∃ st', st.ops (nextChunkOps done.length (done.length * cs + cur.length)) = (.ok (), st') ∧
      st'.pipe = st.pipe ∧
      st'.file = midFile n zs as cs (done ++ [cur]) [] none ∧
      (∀ f ∈ st'.trace, Interrupted run p0 n zs as cs f) := by
  obtain ⟨pipe, file, trace⟩ := st
  simp only at hf hp ht
  subst hf
  have hne := chunks_ne cs done
  have hmax : ((done.length * cs + cur.length : ℕ) : ℤ) - 1 = (((done.length + 1) * cs : ℕ) : ℤ) - 1 := by
    rw [hcur]; congr 2; ring
  -- the three files
  let f1 : KinFile ρ := midFile n zs as cs done (entries (done.length * cs) cur)
    (some (((done.length + 1) * cs : ℕ) - 1 : ℤ))
  have hchunks : f1.chunks = chunksFrom cs 0 (done ++ [cur]) := by
    rw [chunksFrom_append]
    simp [f1, midFile, chunksFrom]
  have hlen1 : (done ++ [cur]).length = done.length + 1 := by simp
  have hne1 := chunks_ne cs (done ++ [cur])
  rw [hlen1] at hne1
  let f2 : KinFile ρ := { f1 with chunks := chunksFrom cs 0 (done ++ [cur]) ++
    [(chunk_name (done.length + 1), {})] }
  have hd1 : ∀ x ∈ done ++ [cur], x.length = cs := by
    intro x hx
    rcases List.mem_append.1 hx with hx | hx
    · exact hd x hx
    · rw [List.mem_singleton.1 hx]; exact hcur
  refine ⟨⟨pipe, midFile n zs as cs (done ++ [cur]) [] none,
    midFile n zs as cs (done ++ [cur]) [] none :: f2 :: f1 :: trace⟩, ?_, rfl, rfl, ?_⟩
  · have a1 : FileOp.apply (midFile n zs as cs done (entries (done.length * cs) cur) none)
        (.setMax (chunk_name done.length) (((done.length * cs + cur.length : ℕ) : ℤ) - 1)) = .ok f1 := by
      simp only [FileOp.apply, midFile, f1]
      rw [modifyName_last _ _ _ _ hne, hmax]
    have a2 : FileOp.apply f1 (.createChunk (chunk_name (done.length + 1))) = .ok f2 := by
      simp only [FileOp.apply]
      rw [hchunks, lookup_absent _ _ hne1]
      simp [f2]
    have a3 : FileOp.apply f2 (.setMin (chunk_name (done.length + 1))
        ((done.length * cs + cur.length : ℕ) : ℤ)) = .ok (midFile n zs as cs (done ++ [cur]) [] none) := by
      simp only [FileOp.apply]
      have : f2.chunks = chunksFrom cs 0 (done ++ [cur]) ++ [(chunk_name (done.length + 1), ({} : ChunkGroup ρ))] := rfl
      rw [this, modifyName_last _ _ _ _ hne1]
      simp only [f2, f1, midFile, hlen1]
      have : done.length * cs + cur.length = (done.length + 1) * cs := by rw [hcur]; ring
      rw [this]
    simp only [nextChunkOps, KinRun.ops, KinRun.op, a1, a2, a3]
  · intro f hf
    simp only [List.mem_cons] at hf
    have s1 : skeleton f1 = skelFrom cs 0 done ++
        [(chunk_name done.length, entries (done.length * cs) cur)] := midFile_skeleton ..
    have hpn : Produced run p0 ((done ++ [cur]).flatten ++ []) pipe := by simpa using hp
    rcases hf with rfl | rfl | rfl | hf
    · refine interrupted_mid (done := done ++ [cur]) (cur := []) (extra := []) hcs rfl rfl rfl rfl rfl ?_
        hd1 (by simp) hpn (.inl rfl) (by simp)
      rw [midFile_skeleton]; simp [entries]
    · refine interrupted_mid (done := done ++ [cur]) (cur := []) (extra := []) hcs rfl rfl rfl rfl rfl ?_
        hd1 (by simp) hpn (.inl rfl) (by simp)
      simp only [skeleton, f2, List.map_append, chunksFrom_skel]
      simp [entries]
    · exact interrupted_mid (extra := []) hcs rfl rfl rfl rfl rfl (by rw [s1]; simp) hd (by omega) hp
        (.inl rfl) (by simp)
    · exact ht f hf

/-- Writing one event. -/
theorem event_run (run : PipeRun ρ π) (p0 p' : π) {cs : ℕ} (hcs : 1 ≤ cs) (n : ℤ) (zs as : List ℤ)
    (done : List (List (Event ρ))) (cur : List (Event ρ)) (e : Event ρ) (st : KinRun ρ π)
    (hd : ∀ x ∈ done, x.length = cs) (hcur : cur.length < cs)
    (hf : st.file = midFile n zs as cs done (entries (done.length * cs) cur) none)
    {p : π} (hp : Produced run p0 (done.flatten ++ cur) p) (hrun : run p = (.ok e, p'))
    (hpipe : st.pipe = p')
    (ht : ∀ f ∈ st.trace, Interrupted run p0 n zs as cs f) :
    ∃ st', st.ops (eventOps done.length (done.length * cs + cur.length) e.1 e.2) = (.ok (), st') ∧
      st'.pipe = p' ∧
      st'.file = midFile n zs as cs done (entries (done.length * cs) (cur ++ [e])) none ∧
      (∀ f ∈ st'.trace, Interrupted run p0 n zs as cs f) := by
  obtain ⟨pipe, file, trace⟩ := st
  simp only at hf hpipe ht
  subst hf hpipe
  have hne := chunks_ne cs done
  have hen := entries_ne (done.length * cs) cur
  let en := event_name (done.length * cs + cur.length)
  let g : EventDset ρ → KinFile ρ := fun d => midFile n zs as cs done
    (entries (done.length * cs) cur ++ [(en, d)]) none
  have hlast : g (dsetOf e) = midFile n zs as cs done (entries (done.length * cs) (cur ++ [e])) none := by
    simp [g, en, entries_append, entries]
  refine ⟨⟨pipe, g (dsetOf e), g (dsetOf e) :: g { dsetOf e with vertex_z := none } ::
    g { dsetOf e with vertex_z := none, vertex_y := none } :: g { data := e.2 } :: trace⟩,
    ?_, rfl, hlast, ?_⟩
  · have a1 : FileOp.apply (midFile n zs as cs done (entries (done.length * cs) cur) none)
        (.createEvent (chunk_name done.length) en e.2) = .ok (g { data := e.2 }) := by
      simp only [FileOp.apply, midFile, g]
      rw [lookup_last _ _ _ hne]
      simp only [lookup_absent _ _ hen, en]
      rw [modifyName_last _ _ _ _ hne]
      rfl
    have am : ∀ (d : EventDset ρ) (upd : EventDset ρ → EventDset ρ),
        modifyName (chunk_name done.length) (fun gr : ChunkGroup ρ =>
          { gr with events := modifyName en upd gr.events }) (g d).chunks = (g (upd d)).chunks := by
      intro d upd
      simp only [g, midFile]
      rw [modifyName_last _ _ _ _ hne]
      simp only
      rw [modifyName_last _ _ _ _ hen]
    have gm : ∀ d c, c = (g d).chunks → { g d with chunks := c } = g d := by
      rintro d c rfl; rfl
    have a2 : FileOp.apply (g { data := e.2 }) (.setVx (chunk_name done.length) en e.1.1)
        = .ok (g { dsetOf e with vertex_z := none, vertex_y := none }) := by
      simp only [FileOp.apply]
      rw [am { data := e.2 } (fun d => { d with vertex_x := some e.1.1 })]
      rfl
    have a3 : FileOp.apply (g { dsetOf e with vertex_z := none, vertex_y := none })
        (.setVy (chunk_name done.length) en e.1.2.1) = .ok (g { dsetOf e with vertex_z := none }) := by
      simp only [FileOp.apply]
      rw [am { dsetOf e with vertex_z := none, vertex_y := none }
        (fun d => { d with vertex_y := some e.1.2.1 })]
      rfl
    have a4 : FileOp.apply (g { dsetOf e with vertex_z := none })
        (.setVz (chunk_name done.length) en e.1.2.2) = .ok (g (dsetOf e)) := by
      simp only [FileOp.apply]
      rw [am { dsetOf e with vertex_z := none } (fun d => { d with vertex_z := some e.1.2.2 })]
      rfl
    simp only [eventOps, KinRun.ops, KinRun.op]
    rw [show event_name (done.length * cs + cur.length) = en from rfl, a1]
    simp only [a2, a3, a4]
  · have hg : ∀ d : EventDset ρ, d.vertex_x = none ∨ d.vertex_y = none ∨ d.vertex_z = none →
        Interrupted run p0 n zs as cs (g d) := by
      intro d hinc
      exact interrupted_mid (extra := [(en, d)]) hcs rfl rfl rfl rfl rfl (midFile_skeleton ..) hd hcur.le
        hp (.inr rfl) (by simpa using hinc)
    intro f hf
    simp only [List.mem_cons] at hf
    rcases hf with rfl | rfl | rfl | rfl | hf
    · rw [hlast]
      refine interrupted_mid (cur := cur ++ [e]) (extra := []) hcs rfl rfl rfl rfl rfl
        (by rw [midFile_skeleton, List.append_nil]) hd (by simp; omega)
        (by rw [← List.append_assoc]; exact Produced_snoc hp hrun) (.inl rfl) (by simp)
    · exact hg _ (.inr (.inr rfl))
    · exact hg _ (.inr (.inl rfl))
    · exact hg _ (.inl rfl)
    · exact ht f hf

theorem flatten_length_of {α : Type} {cs : ℕ} {done : List (List α)}
    (hd : ∀ x ∈ done, x.length = cs) : done.flatten.length = done.length * cs := by
  rw [List.length_flatten]
  have : done.map List.length = List.replicate done.length cs := by
    rw [List.eq_replicate_iff]
    refine ⟨by simp, ?_⟩
    intro b hb
    obtain ⟨x, hx, rfl⟩ := List.mem_map.1 hb
    exact hd x hx
  rw [this]; simp

/-- The event loop. -/
theorem kinLoop_run (run : PipeRun ρ π) (p0 : π) {cs : ℕ} (hcs : 1 ≤ cs) (n : ℤ) (zs as : List ℤ)
    (m : ℕ) : ∀ (done : List (List (Event ρ))) (cur : List (Event ρ)) (st : KinRun ρ π),
    (∀ x ∈ done, x.length = cs) → cur.length ≤ cs → (done = [] ∨ cur ≠ []) →
    st.file = midFile n zs as cs done (entries (done.length * cs) cur) none →
    Produced run p0 (done.flatten ++ cur) st.pipe →
    (∀ f ∈ st.trace, Interrupted run p0 n zs as cs f) →
    (∀ f ∈ (kinLoop run cs m (done.length * cs + cur.length) done.length cur.length st).2.trace,
      Interrupted run p0 n zs as cs f) ∧
    ((∃ done' cur', (kinLoop run cs m (done.length * cs + cur.length) done.length cur.length st).1
        = .ok done'.length ∧ (∀ x ∈ done', x.length = cs) ∧ cur'.length ≤ cs ∧
        (done' = [] ∨ cur' ≠ []) ∧
        (kinLoop run cs m (done.length * cs + cur.length) done.length cur.length st).2.file
          = midFile n zs as cs done' (entries (done'.length * cs) cur') none ∧
        Produced run p0 (done'.flatten ++ cur')
          (kinLoop run cs m (done.length * cs + cur.length) done.length cur.length st).2.pipe ∧
        (done'.flatten ++ cur').length = (done.flatten ++ cur).length + m) ∨
     (∃ e evs p p', (kinLoop run cs m (done.length * cs + cur.length) done.length cur.length st).1
        = .error e ∧ Produced run p0 evs p ∧ run p = (.error e, p') ∧
        evs.length < (done.flatten ++ cur).length + m ∧
        (kinLoop run cs m (done.length * cs + cur.length) done.length cur.length st).2.pipe = p')) := by
  induction m with
  | zero =>
    intro done cur st hd hcur hdc hf hp ht
    exact ⟨ht, .inl ⟨done, cur, rfl, hd, hcur, hdc, hf, hp, rfl⟩⟩
  | succ m ih =>
    -- one event, in a chunk that is not full
    have step : ∀ (done : List (List (Event ρ))) (cur : List (Event ρ)) (st : KinRun ρ π),
        (∀ x ∈ done, x.length = cs) → cur.length < cs →
        st.file = midFile n zs as cs done (entries (done.length * cs) cur) none →
        Produced run p0 (done.flatten ++ cur) st.pipe →
        (∀ f ∈ st.trace, Interrupted run p0 n zs as cs f) →
        let r := (match run st.pipe with
          | (.error e, p) => (.error e, { st with pipe := p })
          | (.ok (vertex, result), p) =>
            match ({ st with pipe := p } : KinRun ρ π).ops
                (eventOps done.length (done.length * cs + cur.length) vertex result) with
            | (.error e, st) => (.error e, st)
            | (.ok _, st) => kinLoop run cs m (done.length * cs + cur.length + 1) done.length
                (cur.length + 1) st : Except PyErr ℕ × KinRun ρ π)
        (∀ f ∈ r.2.trace, Interrupted run p0 n zs as cs f) ∧
        ((∃ done' cur', r.1 = .ok done'.length ∧ (∀ x ∈ done', x.length = cs) ∧ cur'.length ≤ cs ∧
            (done' = [] ∨ cur' ≠ []) ∧
            r.2.file = midFile n zs as cs done' (entries (done'.length * cs) cur') none ∧
            Produced run p0 (done'.flatten ++ cur') r.2.pipe ∧
            (done'.flatten ++ cur').length = (done.flatten ++ cur).length + (m + 1)) ∨
         (∃ e evs p p', r.1 = .error e ∧ Produced run p0 evs p ∧ run p = (.error e, p') ∧
            evs.length < (done.flatten ++ cur).length + (m + 1) ∧ r.2.pipe = p')) := by
      intro done cur st hd hcur hf hp ht
      rcases hr : run st.pipe with ⟨e | ⟨v, res⟩, p⟩
      · exact ⟨ht, .inr ⟨e, _, _, p, rfl, hp, hr, by omega, rfl⟩⟩
      · obtain ⟨st', h1, h2, h3, h4⟩ := event_run run p0 p hcs n zs as done cur (v, res)
          { st with pipe := p } hd hcur hf hp hr rfl ht
        simp only at h1
        simp only [h1]
        have hl : cur.length + 1 = (cur ++ [(v, res)]).length := by simp
        have hl2 : done.length * cs + cur.length + 1
            = done.length * cs + (cur ++ [(v, res)]).length := by simp; ring
        rw [hl2, hl]
        have hp' : Produced run p0 (done.flatten ++ (cur ++ [(v, res)])) st'.pipe := by
          rw [h2, ← List.append_assoc]; exact Produced_snoc hp hr
        obtain ⟨k1, k2⟩ := ih done (cur ++ [(v, res)]) st' hd (by simp; omega) (.inr (by simp)) h3 hp' h4
        refine ⟨k1, ?_⟩
        rcases k2 with ⟨done', cur', q1, q2, q3, q4, q5, q6, q7⟩ | ⟨e, evs, p1, p2, q1, q2, q3, q4, q5⟩
        · refine .inl ⟨done', cur', q1, q2, q3, q4, q5, q6, ?_⟩
          rw [q7]; simp; ring
        · refine .inr ⟨e, evs, p1, p2, q1, q2, q3, ?_, q5⟩
          simp at q4 ⊢; omega
    intro done cur st hd hcur hdc hf hp ht
    by_cases hroll : cur.length = cs
    · obtain ⟨st', h1, h2, h3, h4⟩ := nextChunk_run run p0 hcs n zs as done cur st hd hroll hf hp ht
      have hb : (cur.length == cs) = true := by simp [hroll]
      have hd1 : ∀ x ∈ done ++ [cur], x.length = cs := by
        intro x hx
        rcases List.mem_append.1 hx with hx | hx
        · exact hd x hx
        · rw [List.mem_singleton.1 hx]; exact hroll
      have e1 : done.length * cs + cur.length = (done ++ [cur]).length * cs + ([] : List (Event ρ)).length := by
        simp [hroll]; ring
      have e2 : done.length + 1 = (done ++ [cur]).length := by simp
      have := step (done ++ [cur]) [] st' hd1 (by simp; omega) (by rw [h3]; simp [entries])
        (by rw [h2]; simpa using hp) h4
      have hflat : ((done ++ [cur]).flatten ++ ([] : List (Event ρ))).length = (done.flatten ++ cur).length := by
        simp
      rw [hflat] at this
      rw [kinLoop]
      simp only [hb, if_true, h1]
      rw [e1, e2]
      exact this
    · have hb : (cur.length == cs) = false := by simp [hroll]
      have := step done cur st hd (by omega) hf hp ht
      rw [kinLoop]
      simp only [hb, Bool.false_eq_true, if_false]
      exact this

end Verif.Kinematics
