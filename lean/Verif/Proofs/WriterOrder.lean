import Verif.Proofs.WriterRuns

/-! # Event ranges of the files -/

namespace Verif.Detector

open Verif.Spec

/-- Order facts about a state all of whose events are below `B`. -/
structure AOrd (B : ℤ) (a : AState) : Prop where
  start_le : a.start ≤ B
  cur_range : ∀ e ∈ a.cur, a.start ≤ e.event ∧ e.event < B
  cur_sorted : a.cur.Pairwise fun x y => x.event < y.event
  last_eq : ∀ h : a.cur ≠ [], a.last = (a.cur.getLast h).event
  done_range : ∀ f ∈ a.done, (∀ e ∈ f.events, f.min ≤ e.event ∧ e.event ≤ f.max) ∧
    f.max < a.start ∧ ∀ h : f.events ≠ [], f.max = (f.events.getLast h).event
  done_sorted : a.done.Pairwise fun f g => f.max < g.min

theorem getLast_max (l : List Stored) (hs : l.Pairwise fun x y => x.event < y.event) (h : l ≠ []) :
    ∀ e ∈ l, e.event ≤ (l.getLast h).event := by
  induction l with
  | nil => exact absurd rfl h
  | cons x l ih =>
    intro e he
    obtain ⟨h1, h2⟩ := List.pairwise_cons.1 hs
    by_cases hl : l = []
    · subst hl
      simp at he
      subst he
      simp
    · rw [List.getLast_cons hl]
      rcases List.mem_cons.1 he with rfl | he
      · exact (h1 _ (List.getLast_mem hl)).le
      · exact ih h2 hl e he

theorem AOrd.roll {m B n : ℤ} (hm : 1 ≤ m) {a : AState} (h : AOrd B a) (hn : B ≤ n) :
    AOrd n (a.roll m n) := by
  unfold AState.roll
  split_ifs with hf
  · have hne : a.cur ≠ [] := by
      intro h0; rw [h0] at hf; simp at hf; omega
    have hlast := h.last_eq hne
    have hB := (h.cur_range _ (List.getLast_mem hne)).2
    have hS := (h.cur_range _ (List.getLast_mem hne)).1
    constructor
    · exact le_rfl
    · simp
    · simp
    · intro h0; exact absurd rfl h0
    · intro f hfm
      rcases List.mem_append.1 hfm with hfm | hfm
      · obtain ⟨h1, h2, h3⟩ := h.done_range f hfm
        exact ⟨h1, by simp only; omega, h3⟩
      · rw [List.mem_singleton.1 hfm]
        refine ⟨?_, by simp only; omega, fun h0 => hlast⟩
        intro e he
        refine ⟨(h.cur_range e he).1, ?_⟩
        simp only
        rw [hlast]
        exact getLast_max _ h.cur_sorted hne e he
    · rw [List.pairwise_append]
      refine ⟨h.done_sorted, by simp, ?_⟩
      intro f hfm g hg
      rw [List.mem_singleton.1 hg]
      exact (h.done_range f hfm).2.1
  · exact ⟨h.start_le.trans hn, fun e he => ⟨(h.cur_range e he).1, (h.cur_range e he).2.trans_le hn⟩,
      h.cur_sorted, h.last_eq, h.done_range, h.done_sorted⟩

theorem AOrd.mono {B B' : ℤ} {a : AState} (h : AOrd B a) (hB : B ≤ B') : AOrd B' a :=
  ⟨h.start_le.trans hB, fun e he => ⟨(h.cur_range e he).1, (h.cur_range e he).2.trans_le hB⟩,
      h.cur_sorted, h.last_eq, h.done_range, h.done_sorted⟩

theorem AOrd.step {m B n : ℤ} (hm : 1 ≤ m) {a : AState} (h : AOrd B a) (hn : B ≤ n)
    (e? : Option Stored) (he : ∀ e, e? = some e → e.event = n) :
    AOrd (n + 1) (a.step m n e?).2 := by
  have h1 := h.roll hm hn
  unfold AState.step
  cases e? with
  | none => exact h1.mono (by omega)
  | some e =>
    have hen := he e rfl
    simp only
    split_ifs with hmem
    · exact h1.mono (by omega)
    · constructor
      · have := h1.start_le; simp only; omega
      · intro x hx
        rcases List.mem_append.1 hx with hx | hx
        · have := h1.cur_range x hx
          exact ⟨this.1, by omega⟩
        · rw [List.mem_singleton.1 hx, hen]
          exact ⟨h1.start_le, by omega⟩
      · rw [List.pairwise_append]
        refine ⟨h1.cur_sorted, by simp, ?_⟩
        intro x hx y hy
        rw [List.mem_singleton.1 hy, hen]
        exact (h1.cur_range x hx).2
      · intro _
        simp [hen]
      · exact h1.done_range
      · exact h1.done_sorted

theorem asteps_ord {m : ℤ} (hm : 1 ≤ m) (argsort : Argsort) (response : List ℝ)
    (reqs : List WriteReq) {B : ℤ} {a : AState} (h : AOrd B a)
    (hlow : ∀ r ∈ reqs, B ≤ r.event) (hinc : (reqs.map (·.event)).Pairwise (· < ·)) :
    ∃ B', AOrd B' (asteps argsort response m reqs a).2 := by
  induction reqs generalizing a B with
  | nil => exact ⟨B, h⟩
  | cons r rs ih =>
    rw [List.map_cons, List.pairwise_cons] at hinc
    unfold asteps
    refine ih (h.step hm (hlow r (by simp)) _ (fun e he => stored_event _ _ _ _ he)) ?_ hinc.2
    intro r' hr'
    have := hinc.1 r'.event (List.mem_map.2 ⟨r', hr', rfl⟩)
    omega

/-- Range facts when no call failed. -/
structure AExact (a : AState) : Prop where
  cur : (∃ h : a.cur ≠ [], (a.done ≠ [] → a.start = (a.cur.head h).event) ∧
      (a.done = [] → a.start = 0) ∧ a.last = (a.cur.getLast h).event) ∨
    (a.cur = [] ∧ a.done = [] ∧ a.start = 0 ∧ a.last = 0)
  done : ∀ (i : ℕ) (hi : i < a.done.length), ∃ h : a.done[i].events ≠ [],
    (1 ≤ i → a.done[i].min = (a.done[i].events.head h).event) ∧ (i = 0 → a.done[i].min = 0) ∧
    a.done[i].max = (a.done[i].events.getLast h).event

theorem AExact.step {m n : ℤ} (hm : 1 ≤ m) {a : AState} (h : AExact a)
    (e? : Option Stored) (he : ∀ e, e? = some e → e.event = n)
    (hok : (a.step m n e?).1 = true) : AExact (a.step m n e?).2 := by
  obtain ⟨e, rfl⟩ := step_ok_some _ _ _ _ hok
  have hen := he e rfl
  unfold AState.step at hok ⊢
  simp only at hok ⊢
  split_ifs at hok ⊢ with hmem
  unfold AState.roll
  split_ifs with hf
  · have hne : a.cur ≠ [] := by
      intro h0; rw [h0] at hf; simp at hf; omega
    rcases h.cur with ⟨_, c1, c2, c3⟩ | ⟨h0, -⟩
    swap
    · exact absurd h0 hne
    refine ⟨Or.inl ⟨by simp, by simp [hen], by simp, by simp [hen]⟩, ?_⟩
    intro i hi
    simp only at hi ⊢
    by_cases hlt : i < a.done.length
    · rw [List.getElem_append_left hlt]
      exact h.done i hlt
    · have : i = a.done.length := by simp at hi; omega
      subst this
      simp only [List.getElem_concat_length]
      refine ⟨hne, fun h1 => c1 ?_, fun h1 => c2 ?_, c3⟩
      · intro h0; rw [h0] at h1; simp at h1
      · exact List.length_eq_zero_iff.1 h1
  · refine ⟨Or.inl ⟨by simp, ?_, ?_, by simp [hen]⟩, h.done⟩
    · rcases h.cur with ⟨hne, c1, c2, c3⟩ | ⟨h0, hd, -⟩
      · intro hd
        simp only
        rw [List.head_append_of_ne_nil hne]
        exact c1 hd
      · intro hd'; exact absurd hd hd'
    · rcases h.cur with ⟨hne, c1, c2, c3⟩ | ⟨h0, hd, hs, -⟩
      · exact c2
      · exact fun _ => hs

theorem asteps_exact {m : ℤ} (hm : 1 ≤ m) (argsort : Argsort) (response : List ℝ)
    (reqs : List WriteReq) {a : AState} (h : AExact a)
    (hok : ∀ b ∈ (asteps argsort response m reqs a).1, b = true) :
    AExact (asteps argsort response m reqs a).2 := by
  induction reqs generalizing a with
  | nil => exact h
  | cons r rs ih =>
    unfold asteps at hok ⊢
    simp only [List.mem_cons, forall_eq_or_imp] at hok ⊢
    exact ih (h.step hm _ (fun e he => stored_event _ _ _ _ he) hok.1) hok.2

end Verif.Detector
