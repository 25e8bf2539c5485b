import Verif.Proofs.Transport
import Verif.Spec.Tracks

/-! # Track-level lemmas -/

namespace Verif.Detector

open Verif.Spec

theorem npSqrt_some {x y : ℝ} (h : npSqrt x = some y) : 0 ≤ x ∧ y = Real.sqrt x := by
  unfold npSqrt at h
  split_ifs at h with hc
  exact ⟨not_lt.1 hc, (Option.some.inj h).symm⟩

theorem npSqrt_of_nonneg {x : ℝ} (h : 0 ≤ x) : npSqrt x = some (Real.sqrt x) := by
  unfold npSqrt; rw [if_neg (not_lt.2 h)]

/-- A step succeeds exactly when the field is non-zero and the radicand is non-negative. -/
theorem transport_step_ok_iff (grid : PadGrid) (g : GridEdges) (hb : 0 < g.bin)
    (D E v : ℝ) (label : ℤ) (p p' : Points) (re : Row × ℤ) :
    transport_step grid g D E v label p re = .ok p' ↔
      E ≠ 0 ∧ 0 ≤ 2 * D * v * re.1.z / E ∧
      p' = applyDeposits p (pointDeposits grid g re.1.z (re.1.x, re.1.y) re.2
        (Real.sqrt (2 * D * v * re.1.z / E)) label) := by
  unfold transport_step
  simp only
  by_cases hE : E = 0
  · rw [if_pos hE]; simp [hE]
  · rw [if_neg hE]
    by_cases hr : 0 ≤ 2 * D * v * re.1.z / E
    · rw [npSqrt_of_nonneg hr]
      simp only
      by_cases hs : Real.sqrt (2 * D * v * re.1.z / E) = 0
      · rw [if_pos hs, point_transport_eq grid g hb, hs]
        simp only [Except.ok.injEq]
        constructor
        · rintro rfl; exact ⟨hE, hr, rfl⟩
        · rintro ⟨_, _, rfl⟩; rfl
      · rw [if_neg hs, transverse_transport_eq grid g hb _ _ _ _ hs]
        simp only [Except.ok.injEq]
        constructor
        · rintro rfl; exact ⟨hE, hr, rfl⟩
        · rintro ⟨_, _, rfl⟩; rfl
    · have : npSqrt (2 * D * v * re.1.z / E) = none := by
        unfold npSqrt; rw [if_pos (not_le.1 hr)]
      rw [this]
      simp [hr]

theorem transport_fold_ok_iff (grid : PadGrid) (g : GridEdges) (hb : 0 < g.bin)
    (D E v : ℝ) (label : ℤ) (l : List (Row × ℤ)) (p p' : Points) :
    l.foldlM (transport_step grid g D E v label) p = .ok p' ↔
      (∀ re ∈ l, E ≠ 0 ∧ 0 ≤ 2 * D * v * re.1.z / E) ∧
      p' = applyDeposits p (trackDeposits grid g D E v l label) := by
  induction l generalizing p with
  | nil =>
    simp only [List.foldlM_nil, trackDeposits, List.flatMap_nil, applyDeposits, List.foldl_nil,
      List.not_mem_nil, false_implies, implies_true, true_and]
    constructor
    · intro h; exact (Except.ok.inj h).symm
    · rintro rfl; rfl
  | cons a l ih =>
    rw [List.foldlM_cons]
    rcases hs : transport_step grid g D E v label p a with err | q
    · simp only [bind, Except.bind]
      constructor
      · intro h; cases h
      · rintro ⟨h, -⟩
        have := (transport_step_ok_iff grid g hb D E v label p _ a).2
          ⟨(h a List.mem_cons_self).1, (h a List.mem_cons_self).2, rfl⟩
        rw [hs] at this; cases this
    · have h := (transport_step_ok_iff grid g hb D E v label p q a).1 hs
      simp only [bind, Except.bind]
      rw [ih]
      have e : trackDeposits grid g D E v (a :: l) label
          = pointDeposits grid g a.1.z (a.1.x, a.1.y) a.2 (Real.sqrt (2 * D * v * a.1.z / E)) label
            ++ trackDeposits grid g D E v l label := by
        simp [trackDeposits]
      rw [e, applyDeposits_append, ← h.2.2]
      simp only [List.forall_mem_cons]
      constructor
      · rintro ⟨h1, h2⟩; exact ⟨⟨⟨h.1, h.2.1⟩, h1⟩, h2⟩
      · rintro ⟨⟨_, h1⟩, h2⟩; exact ⟨h1, h2⟩

/-- `transport_track` succeeds exactly when no field or radicand is bad, and then performs exactly
the deposits of the track. -/
theorem transport_track_ok_iff (grid : PadGrid) (g : GridEdges) (hb : 0 < g.bin)
    (D E v : ℝ) (track : List Row) (el : List ℤ) (p p' : Points) (label : ℤ) :
    transport_track grid g D E v track el p label = .ok p' ↔
      (∀ re ∈ track.zip el, E ≠ 0 ∧ 0 ≤ 2 * D * v * re.1.z / E) ∧
      p' = applyDeposits p (trackDeposits grid g D E v (track.zip el) label) :=
  transport_fold_ok_iff grid g hb D E v label _ p p'

/-- Run one job. -/
noncomputable def runJob (grid : PadGrid) (g : GridEdges) (p : Points) (j : Job) :
    Except PyErr Points :=
  transport_track grid g j.diffusion j.efield j.dv j.track j.electrons p j.label

/-- No point of the job makes the transport fail. -/
def JobOk (j : Job) : Prop :=
  ∀ re ∈ j.track.zip j.electrons, j.efield ≠ 0 ∧ 0 ≤ 2 * j.diffusion * j.dv * re.1.z / j.efield

theorem runJobs_ok_iff (grid : PadGrid) (g : GridEdges) (hb : 0 < g.bin) (jobs : List Job)
    (p p' : Points) :
    jobs.foldlM (runJob grid g) p = .ok p' ↔
      (∀ j ∈ jobs, JobOk j) ∧ p' = applyDeposits p (jobs.flatMap (Job.deposits grid g)) := by
  induction jobs generalizing p with
  | nil =>
    simp only [List.foldlM_nil, List.flatMap_nil, applyDeposits, List.foldl_nil,
      List.not_mem_nil, false_implies, implies_true, true_and]
    constructor
    · intro h; exact (Except.ok.inj h).symm
    · rintro rfl; rfl
  | cons a l ih =>
    rw [List.foldlM_cons]
    rcases hs : runJob grid g p a with err | q
    · simp only [bind, Except.bind]
      constructor
      · intro h; cases h
      · rintro ⟨h, -⟩
        have := (transport_track_ok_iff grid g hb _ _ _ _ _ p _ a.label).2
          ⟨h a List.mem_cons_self, rfl⟩
        unfold runJob at hs
        rw [hs] at this; cases this
    · have h := (transport_track_ok_iff grid g hb _ _ _ _ _ p q _).1 hs
      simp only [bind, Except.bind]
      rw [ih]
      simp only [List.forall_mem_cons, List.flatMap_cons]
      rw [applyDeposits_append]
      have hq : q = applyDeposits p (a.deposits grid g) := h.2
      rw [← hq]
      constructor
      · rintro ⟨h1, h2⟩; exact ⟨⟨h.1, h1⟩, h2⟩
      · rintro ⟨⟨_, h1⟩, h2⟩; exact ⟨h1, h2⟩

end Verif.Detector
