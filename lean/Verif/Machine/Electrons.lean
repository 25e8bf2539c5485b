import Verif.Machine.Float
import Verif.Detector.Solver

/-! # Float arithmetic of the kinetic energies and of the primary electrons -/

namespace Verif.Machine

open Verif.Detector

/-- `gv`, detector/solver.py:52, 116, 332, in float64. The squares are correctly rounded products and are
added from left to right, both in `math.sqrt(a ** 2.0 + b ** 2.0 + c ** 2.0)` and in `np.linalg.norm`. -/
noncomputable def gv64 (rn : ℝ → ℝ) (s : Row) : ℝ :=
  rn (Real.sqrt (rn (rn (rn (s.gvx ^ 2) + rn (s.gvy ^ 2)) + rn (s.gvz ^ 2))))

/-- `beta`, detector/solver.py:53, 117, 333, in float64. -/
noncomputable def beta64 (rn : ℝ → ℝ) (gv : ℝ) : ℝ :=
  rn (Real.sqrt (rn (rn (gv ^ 2) / rn (1 + rn (gv ^ 2)))))

/-- `gamma = gv / beta`, detector/solver.py:54, 118, 334, in float64. -/
noncomputable def gamma64 (rn : ℝ → ℝ) (gv : ℝ) : ℝ := rn (gv / beta64 rn gv)

/-- `mass * (gamma - 1.0)`, detector/solver.py:58, 119, 335, in float64. -/
noncomputable def kinetic64 (rn : ℝ → ℝ) (mass gv : ℝ) : ℝ := rn (mass * rn (gamma64 rn gv - 1))

/-- Kinetic energy at one track point, detector/solver.py:332-335, in float64. Without a momentum the result is NaN;
an underflow of `beta` (infinite `gamma`) is treated in the same way. -/
noncomputable def track_energy64 (rn : ℝ → ℝ) (nucleus : Nucleus) (s : Row) : Option ℝ :=
  let gv := gv64 rn s
  if beta64 rn gv = 0 then none else some (kinetic64 rn nucleus.mass gv)

/-- `stop_condition(...)`, detector/solver.py:80-121, in float64. -/
noncomputable def stop_condition64 (rn : ℝ → ℝ) (state : Row) (ejectile : Nucleus) : Except PyErr ℝ :=
  let gv := gv64 rn state
  if beta64 rn gv = 0 then .error .zeroDivision
  else .ok (rn (kinetic64 rn ejectile.mass gv - rn 1e-6))

/-- `abs(np.diff(energy))`, preceded by 0 for the first point, detector/solver.py:338-339, in float64. NaN
propagates; the absolute value is exact. -/
noncomputable def energy_lost64 (rn : ℝ → ℝ) : List (Option ℝ) → List (Option ℝ)
  | [] => []
  | e :: es => some 0 :: go e es
where
  /-- successive differences -/
  go : Option ℝ → List (Option ℝ) → List (Option ℝ)
    | _, [] => []
    | a, b :: rest => (do let x ← a; let y ← b; pure |rn (y - x)|) :: go b rest

/-- One element of the Fano adjustment, detector/solver.py:343-346, in float64: numpy returns `loc + scale * g` for a
standard normal number `g`, here drawn by `std`. -/
noncomputable def fano_draw64 {σ : Type} (rn : ℝ → ℝ) (std : σ → ℝ × σ) (fano : ℝ) (point : Option ℝ) (s : σ) :
    Except PyErr (ℤ × σ) :=
  match point with
  | none => .error .valueError
  | some m =>
    match npSqrt (rn (fano * m)) with
    | none => .error .valueError
    | some root =>
      let (g, s) := std s
      .ok (pyInt (rn (m + rn (rn root * g))), s)

/-- The list comprehension at detector/solver.py:343-346, in float64. -/
noncomputable def fano_draws64 {σ : Type} (rn : ℝ → ℝ) (std : σ → ℝ × σ) (fano : ℝ) :
    List (Option ℝ) → σ → Except PyErr (List ℤ × σ)
  | [], s => .ok ([], s)
  | m :: ms, s => do
    let (v, s) ← fano_draw64 rn std fano m s
    let (vs, s) ← fano_draws64 rn std fano ms s
    return (v :: vs, s)

/-- `generate_electrons(track, nucleus, params, rng)`, detector/solver.py:308-347, in float64. -/
noncomputable def generate_electrons64 {σ : Type} (rn : ℝ → ℝ) (std : σ → ℝ × σ) (track : List Row)
    (nucleus : Nucleus) (params : DetectorParams) (s : σ) : Except PyErr (List ℤ × σ) :=
  let energy := track.map (track_energy64 rn nucleus)
  if params.w_value = 0 then .error .zeroDivision
  else
    let electrons := (energy_lost64 rn energy).map (Option.map fun x => rn (x * rn (1.0e6 / params.w_value)))
    fano_draws64 rn std params.fano_factor electrons s

end Verif.Machine
