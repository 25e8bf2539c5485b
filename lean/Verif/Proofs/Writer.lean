import Verif.Spec.Writing
import Verif.Proofs.Names
import Verif.Proofs.Simulate
import Verif.Tactics

/-! # The writer refines a simple list of files -/

namespace Verif.Detector

open Verif.Spec

/-! ## Operations on one open file -/

/-- The file an operation acts on. -/
def DiskOp.target : DiskOp → String
  | .createFile f => f
  | .createGroup f => f
  | .setMin f _ => f
  | .setMax f _ => f
  | .close f => f
  | .createDset f _ _ => f
  | .setAttr f _ _ _ => f

/-- The effect of an operation on the contents of an open file. -/
def DiskOp.onFile (h : H5File) : DiskOp → Except PyErr H5File
  | .createFile _ => .ok {}
  | .createGroup _ => .ok { h with has_group := true }
  | .setMin _ v => .ok { h with min_event := some v }
  | .setMax _ v => .ok { h with max_event := some v }
  | .close _ => .ok { h with closed := true }
  | .createDset _ name ds =>
      if (h.dsets.lookup name).isSome then .error .nameExists
      else .ok { h with dsets := h.dsets ++ [(name, ds)] }
  | .setAttr _ name key v => .ok { h with dsets := h.dsets.map fun nd =>
        if nd.1 = name then (nd.1, nd.2.setAttr key v) else nd }

theorem op_onFile (w : Writer) (o : DiskOp) (h h' : H5File)
    (hd : w.disk o.target = some h) (hc : h.closed = false) (ho : o.onFile h = .ok h') :
    w.op o = (.ok (), { w with
      disk := Function.update w.disk o.target (some h')
      trace := Function.update w.disk o.target (some h') :: w.trace }) := by
  have : DiskOp.apply w.disk o = .ok (Function.update w.disk o.target (some h')) := by
    cases o <;> simp only [DiskOp.target] at hd <;>
      simp only [DiskOp.apply, DiskOp.target, Disk.onOpen, hd, hc, DiskOp.onFile] at ho ⊢
    all_goals first
      | (have ho := Except.ok.inj ho; subst ho; simp)
      | (split_ifs at ho with h1
         have ho := Except.ok.inj ho; subst ho; simp [h1])
  unfold Writer.op
  rw [this]

theorem op_onFile_error (w : Writer) (o : DiskOp) (h : H5File) (e : PyErr)
    (hd : w.disk o.target = some h) (hc : h.closed = false) (ho : o.onFile h = .error e) :
    w.op o = (.error e, w) := by
  have : DiskOp.apply w.disk o = .error e := by
    cases o <;> simp only [DiskOp.target] at hd <;>
      simp only [DiskOp.apply, Disk.onOpen, hd, hc, DiskOp.onFile] at ho ⊢
    all_goals first
      | (exact absurd ho (by simp))
      | (split_ifs at ho with h1
         have ho := Except.error.inj ho; subst ho; simp [h1])
  unfold Writer.op
  rw [this]

/-- Run through a list of operations on one open file: the successive contents. -/
inductive FileRun : List DiskOp → H5File → List H5File → H5File → Prop
  | nil (h : H5File) : FileRun [] h [] h
  | cons (o : DiskOp) (os : List DiskOp) (h h₁ h' : H5File) (hs : List H5File)
      (hc : h.closed = false) (ho : o.onFile h = .ok h₁) (hr : FileRun os h₁ hs h') :
      FileRun (o :: os) h (h₁ :: hs) h'

theorem ops_onFile (file : String) (os : List DiskOp) (h h' : H5File) (hs : List H5File)
    (hr : FileRun os h hs h') (w : Writer) (hd : w.disk file = some h)
    (ht : ∀ o ∈ os, o.target = file) :
    w.ops os = (.ok (), { w with
      disk := Function.update w.disk file (some h')
      trace := (hs.map fun x => Function.update w.disk file (some x)).reverse ++ w.trace }) := by
  induction hr generalizing w with
  | nil h =>
    simp only [Writer.ops, List.map_nil, List.reverse_nil, List.nil_append]
    rw [← hd, Function.update_eq_self]
  | cons o os h h₁ h' hs hc ho hr ih =>
    have hto := ht o (by simp)
    unfold Writer.ops
    rw [op_onFile w o h h₁ (by rw [hto]; exact hd) hc ho]
    simp only
    rw [ih _ (by simp only [hto]; exact Function.update_self ..)
      (fun o ho => ht o (by simp [ho]))]
    simp only [hto, Function.update_idem, List.map_cons, List.reverse_cons, List.append_assoc,
      List.singleton_append]

theorem lookup_isNone {α : Type} (l : List (String × α)) (n : String) :
    l.lookup n = none ↔ ∀ p ∈ l, p.1 ≠ n := by
  rw [List.lookup_eq_none_iff]
  constructor
  · intro h p hp he
    have := h p hp
    rw [he] at this
    simp at this
  · intro h p hp
    have := h p hp
    simp only [beq_iff_eq, bne_iff_ne, ne_eq] at *
    exact fun he => this he.symm

theorem map_setAttr (l : List (String × Dset)) (n k : String) (v : ℝ) (rows : List SpyralRow)
    (attrs : List (String × ℝ)) (hn : ∀ p ∈ l, p.1 ≠ n) :
    ((l ++ [(n, Dset.cloud rows attrs)]).map fun nd =>
        if nd.1 = n then (nd.1, nd.2.setAttr k v) else nd)
      = l ++ [(n, Dset.cloud rows (attrs ++ [(k, v)]))] := by
  rw [List.map_append]
  congr 1
  · conv_rhs => rw [← List.map_id l]
    apply List.map_congr_left
    intro p hp
    rw [if_neg (hn p hp)]
    rfl
  · simp [Dset.setAttr]

/-- Writing one event into an open file that does not yet have it. -/
theorem event_ops_run (file : String) (run : ℤ) (e : Stored) (h : H5File) (hc : h.closed = false)
    (h1 : ∀ p ∈ h.dsets, p.1 ≠ cloud_name e.event) (h2 : ∀ p ∈ h.dsets, p.1 ≠ labels_name e.event) :
    ∃ hs, FileRun (event_ops file run e.event e.rows e.labels) h hs
      { h with dsets := h.dsets ++ e.dsets run } ∧
      ∀ x ∈ hs, h.dsets <+: x.dsets ∧ x.min_event = h.min_event ∧ x.max_event = h.max_event := by
  have hl1 := (lookup_isNone h.dsets (cloud_name e.event)).2 h1
  have key : ∀ attrs,
      ((h.dsets ++ [(cloud_name e.event, Dset.cloud e.rows attrs)]).lookup (labels_name e.event))
        = none := by
    intro attrs
    rw [lookup_isNone]
    intro p hp
    rcases List.mem_append.1 hp with hp | hp
    · exact h2 p hp
    · rw [List.mem_singleton.1 hp]
      exact cloud_ne_labels _ _
  let f : List (String × ℝ) → H5File := fun attrs =>
    { h with dsets := h.dsets ++ [(cloud_name e.event, .cloud e.rows attrs)] }
  have step : ∀ attrs k v, (DiskOp.setAttr file (cloud_name e.event) k v).onFile (f attrs)
      = .ok (f (attrs ++ [(k, v)])) := by
    intro attrs k v
    simp only [DiskOp.onFile, f]
    rw [map_setAttr _ _ _ _ _ _ h1]
  let a1 : List (String × ℝ) := [] ++ [("orig_run", (run : ℝ))]
  let a2 := a1 ++ [("orig_event", (e.event : ℝ))]
  let a3 := a2 ++ [("ic_amplitude", (-1 : ℝ))]
  let a4 := a3 ++ [("ic_multiplicity", (-1 : ℝ))]
  let a5 := a4 ++ [("ic_integral", (-1 : ℝ))]
  let a6 := a5 ++ [("ic_centroid", (-1 : ℝ))]
  refine ⟨[f [], f a1, f a2, f a3, f a4, f a5, f a6, { h with dsets := h.dsets ++ e.dsets run }],
    ?_, ?_⟩
  · refine .cons _ _ _ _ _ _ hc (by simp [DiskOp.onFile, hl1, f]) ?_
    refine .cons _ _ _ _ _ _ hc (step _ _ _) ?_
    refine .cons _ _ _ _ _ _ hc (step _ _ _) ?_
    refine .cons _ _ _ _ _ _ hc (step _ _ _) ?_
    refine .cons _ _ _ _ _ _ hc (step _ _ _) ?_
    refine .cons _ _ _ _ _ _ hc (step _ _ _) ?_
    refine .cons _ _ _ _ _ _ hc (step _ _ _) ?_
    refine .cons _ _ _ _ _ _ hc ?_ (.nil _)
    simp only [DiskOp.onFile, f, key]
    simp [Stored.dsets, a6, a5, a4, a3, a2, a1]
  · intro x hx
    simp only [List.mem_cons, List.not_mem_nil, or_false] at hx
    rcases hx with rfl | rfl | rfl | rfl | rfl | rfl | rfl | rfl <;>
      exact ⟨List.prefix_append _ _, rfl, rfl⟩

end Verif.Detector
