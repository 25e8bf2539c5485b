import Verif.Spec.Deposits

/-! # Specification of charge collection for whole tracks -/

namespace Verif.Spec

open Verif.Detector (PadGrid GridEdges Row)

/-- The deposits of a track: each point (position, exact time bucket as third coordinate, electrons)
spreads with the transverse diffusion `sigma = sqrt(2 D v t / E)`. -/
noncomputable def trackDeposits (grid : PadGrid) (g : GridEdges) (diffusion efield dv : ℝ)
    (track : List (Row × ℤ)) (label : ℤ) : List Deposit :=
  track.flatMap fun re =>
    pointDeposits grid g re.1.z (re.1.x, re.1.y) re.2
      (Real.sqrt (2 * diffusion * dv * re.1.z / efield)) label

/-- One transport job: all arguments of a call of `transport_track` except the grid and the
dictionary. -/
structure Job where
  diffusion : ℝ
  efield : ℝ
  dv : ℝ
  track : List Row
  electrons : List ℤ
  label : ℤ

/-- The deposits of a job. -/
noncomputable def Job.deposits (grid : PadGrid) (g : GridEdges) (j : Job) : List Deposit :=
  trackDeposits grid g j.diffusion j.efield j.dv (j.track.zip j.electrons) j.label

end Verif.Spec
