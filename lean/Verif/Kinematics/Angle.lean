import Verif.Py
import Mathlib.Analysis.SpecialFunctions.Trigonometric.Inverse

/-! # Model of `src/attpc_engine/kinematics/angle.py` -/

namespace Verif.Kinematics

/-- A sampling method `sample(rng)`: advances the generator state, may raise. -/
abbrev Sampler (σ : Type) := σ → Except PyErr (ℝ × σ)

/-- `PolarUniform`, kinematics/angle.py:35-65. -/
structure PolarUniform where
  cos_angle_min : ℝ
  cos_angle_max : ℝ

/-- `PolarUniform.__init__`, kinematics/angle.py:62-65. -/
noncomputable def mkPolarUniform (angle_min angle_max : ℝ) : PolarUniform :=
  { cos_angle_min := Real.cos angle_max, cos_angle_max := Real.cos angle_min }

/-- `PolarUniform.sample`, kinematics/angle.py:67-80. numpy raises ValueError for bounds in the wrong
order. -/
noncomputable def PolarUniform.sample {σ : Type} (d : PolarUniform) (rng : Gen σ) : Sampler σ :=
  fun s =>
    if d.cos_angle_max < d.cos_angle_min then .error .valueError
    else
      let (u, s) := rng.uniform d.cos_angle_min d.cos_angle_max s
      .ok (Real.arccos u, s)

/-- `PolarArbitrary`, kinematics/angle.py:83-134. -/
structure PolarArbitrary where
  angle_width : ℝ
  probs : List ℝ
  angles : List ℝ

/-- `PolarArbitrary.__init__`, kinematics/angle.py:122-134. -/
noncomputable def mkPolarArbitrary (angles probabilities : List ℝ) (angle_bin_width : ℝ) :
    Except PyErr PolarArbitrary :=
  if probabilities.sum > 1 then .error .valueError
  else .ok { angle_width := angle_bin_width, probs := probabilities, angles := angles }

/-- `np.cumsum`, continued from a running total `acc`. -/
noncomputable def cumsum (acc : ℝ) : List ℝ → List ℝ
  | [] => []
  | p :: ps => (acc + p) :: cumsum (acc + p) ps

/-- `a.searchsorted(v, side="right")` on an ascending array: the number of entries `≤ v` at the
front. -/
noncomputable def searchsortedRight (v : ℝ) : List ℝ → ℕ
  | [] => 0
  | a :: as => if a ≤ v then searchsortedRight v as + 1 else 0

/-- `rng.choice(a, p=p)` for one draw, as numpy implements it: checks, normalised cumulative sums,
one `random()` draw (modelled as `uniform(0, 1)`), binary search to the right.  The tolerance of
the sum check is `sqrt(eps) = 2^-26`. -/
noncomputable def choice {σ : Type} (rng : Gen σ) (a p : List ℝ) : Sampler σ := fun s =>
  if a.length = 0 then .error .valueError
  else if p.length ≠ a.length then .error .valueError
  else if p.any (fun x => decide (x < 0)) then .error .valueError
  else if |p.sum - 1| > 2 ^ (-26 : ℤ) then .error .valueError
  else
    let cdf := (cumsum 0 p).map (· / p.sum)
    let (u, s) := rng.uniform 0 1 s
    match a[searchsortedRight u cdf]? with
    | some x => .ok (x, s)
    | none => .error .indexError

/-- `PolarArbitrary.sample`, kinematics/angle.py:136-152. -/
noncomputable def PolarArbitrary.sample {σ : Type} (d : PolarArbitrary) (rng : Gen σ) : Sampler σ :=
  fun s => do
    let (a, s) ← choice rng d.angles d.probs s
    let (u, s) := rng.uniform 0 1 s
    return (a + u * d.angle_width, s)

end Verif.Kinematics
