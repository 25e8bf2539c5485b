import Verif.Kinematics.KinFile

/-! # Specification of the events produced by repeated runs of a pipeline -/

namespace Verif.Spec

open Verif.Kinematics

/-- An event: vertex and result array. -/
abbrev Event (ρ : Type) := (ℝ × ℝ × ℝ) × ρ

/-- `evs` are the results of successive successful runs of the pipeline, starting in state `p` and
ending in state `p'`. -/
inductive Produced {ρ π : Type} (run : PipeRun ρ π) : π → List (Event ρ) → π → Prop where
  | nil (p) : Produced run p [] p
  | cons {p e p' evs p''} : run p = (.ok e, p') → Produced run p' evs p'' →
      Produced run p (e :: evs) p''

/-- The names of all event datasets of a file, chunk by chunk. -/
def eventNames {ρ : Type} (f : KinFile ρ) : List String :=
  f.chunks.flatMap fun ng => ng.2.events.map (·.1)

end Verif.Spec
