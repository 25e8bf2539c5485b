import Verif.Machine.Kinematics
import Verif.Kinematics.KinFile

/-! # The sampling loop of the reaction pipeline in machine arithmetic -/

namespace Verif.Machine

open Verif.Kinematics

/-- The sampling loop of `run`, kinematics/pipeline.py:312-388, in float64, with `n` samples left before the limit.
`draw` is `self.sample()`: `sample64`, or `p.sample` to compare with exact arithmetic on the same samples.
Simplification: the rows of an event are returned as a list, without the reused buffer. -/
noncomputable def runLoop64 {σ : Type} (k : Kin64) (p : Pipeline σ) (draw : σ → Except PyErr (Sample × σ)) :
    ℕ → σ → Except PyErr ((ℝ × ℝ × ℝ) × List ResultRow) × σ
  | 0, s => (.error .pipelineError, s)
  | n + 1, s =>
    match draw s with
    | .error e => (.error e, s)
    | .ok (sample, s) =>
      match attempt64 k p sample with
      | .error e => (.error e, s)
      | .ok (some rows) => (.ok (sample.vertex, rows.map some), s)
      | .ok none => runLoop64 k p draw n s

/-- `KinematicsPipeline.run`, kinematics/pipeline.py:285-388, in float64, as it is called by `run_kinematics_pipeline`,
which copies the returned array into the file (line 485-486). -/
noncomputable def run64 {σ : Type} (k : Kin64) (p : Pipeline σ) (draw : σ → Except PyErr (Sample × σ)) :
    PipeRun (List ResultRow) σ := fun s =>
  runLoop64 k p draw p.event_sample_limit.toNat s

end Verif.Machine
