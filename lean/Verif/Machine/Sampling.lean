import Verif.Machine.Float
import Verif.Kinematics.Angle
import Verif.Kinematics.Excitation

/-! # Float arithmetic of the sampled distributions

The generator is a function `next` that returns a number (in numpy a multiple of `2^-53` from 0 to `1 - 2^-53`) and
the next state, as `Generator.random()`. -/

namespace Verif.Machine

open Verif.Kinematics

/-- `rng.uniform(low, high)` as numpy computes it in float64: `low + (high - low) * random()`. Used in
kinematics/angle.py:80, 151, excitation.py:128, pipeline.py:249-254, 272, 282 and detector/simulator.py:108. -/
noncomputable def uniform64 {σ : Type} (rn : ℝ → ℝ) (next : σ → ℝ × σ) (low high : ℝ) (s : σ) : ℝ × σ :=
  let (u, s) := next s
  (rn (low + rn (rn (high - low) * u)), s)

/-- `np.sum(a)`, kinematics/angle.py:128, in float64. Fewer than 8 entries are added one after the other. For longer
arrays numpy adds partial sums, in an order that depends on the length; this is the parameter `long`. -/
noncomputable def npSum64 (rn : ℝ → ℝ) (long : List ℝ → ℝ) (a : List ℝ) : ℝ :=
  if a.length < 8 then a.foldl (fun acc x => rn (acc + x)) 0 else long a

/-- `PolarArbitrary.__init__`, kinematics/angle.py:122-134, in float64. -/
noncomputable def mkPolarArbitrary64 (rn : ℝ → ℝ) (long : List ℝ → ℝ) (angles probabilities : List ℝ)
    (angle_bin_width : ℝ) : Except PyErr PolarArbitrary :=
  if npSum64 rn long probabilities > 1 then .error .valueError
  else .ok { angle_width := angle_bin_width, probs := probabilities, angles := angles }

/-- The loop of `kahan_sum` in numpy, which `rng.choice` uses to check the sum of the probabilities
(kinematics/angle.py:150): running sum and compensation. -/
noncomputable def kahanLoop (rn : ℝ → ℝ) : List ℝ → ℝ → ℝ → ℝ
  | [], sum, _ => sum
  | x :: xs, sum, c =>
    let y := rn (x - c)
    let t := rn (sum + y)
    kahanLoop rn xs t (rn (rn (t - sum) - y))

/-- `kahan_sum` in numpy. -/
noncomputable def kahan64 (rn : ℝ → ℝ) : List ℝ → ℝ
  | [] => 0
  | x :: xs => kahanLoop rn xs x 0

/-- `np.cumsum` in float64, continued from a running total. -/
noncomputable def cumsum64 (rn : ℝ → ℝ) (acc : ℝ) : List ℝ → List ℝ
  | [] => []
  | p :: ps => rn (acc + p) :: cumsum64 rn (rn (acc + p)) ps

/-- `cdf = p.cumsum(); cdf /= cdf[-1]` in `rng.choice`, in float64. -/
noncomputable def cdf64 (rn : ℝ → ℝ) (p : List ℝ) : List ℝ :=
  let cdf := cumsum64 rn 0 p
  cdf.map fun c => rn (c / cdf.getLastD 0)

/-- `rng.choice(a, p=p)` for one draw as numpy computes it in float64, kinematics/angle.py:150. -/
noncomputable def choice64 {σ : Type} (rn : ℝ → ℝ) (next : σ → ℝ × σ) (a p : List ℝ) : Sampler σ := fun s =>
  if a.length = 0 then .error .valueError
  else if p.length ≠ a.length then .error .valueError
  else if p.any (fun x => decide (x < 0)) then .error .valueError
  else if |rn (kahan64 rn p - 1)| > 2 ^ (-26 : ℤ) then .error .valueError
  else
    let (u, s) := next s
    match a[searchsortedRight u (cdf64 rn p)]? with
    | some x => .ok (x, s)
    | none => .error .indexError

/-- `PolarArbitrary.sample`, kinematics/angle.py:136-152, in float64. -/
noncomputable def polar_arbitrary_sample64 {σ : Type} (rn : ℝ → ℝ) (next : σ → ℝ × σ) (d : PolarArbitrary) :
    Sampler σ := fun s => do
  let (a, s) ← choice64 rn next d.angles d.probs s
  let (u, s) := uniform64 rn next 0 1 s
  return (rn (a + rn (u * d.angle_width)), s)

/-- `PolarUniform.__init__`, kinematics/angle.py:62-65, in float64; `cos` is `np.cos`. -/
noncomputable def mkPolarUniform64 (cos : ℝ → ℝ) (angle_min angle_max : ℝ) : PolarUniform :=
  { cos_angle_min := cos angle_max, cos_angle_max := cos angle_min }

/-- `PolarUniform.sample`, kinematics/angle.py:67-80, in float64; `arccos` is `np.arccos`. numpy raises ValueError for
bounds in the wrong order. -/
noncomputable def polar_uniform_sample64 {σ : Type} (rn arccos : ℝ → ℝ) (next : σ → ℝ × σ) (d : PolarUniform) :
    Sampler σ := fun s =>
  if d.cos_angle_max < d.cos_angle_min then .error .valueError
  else
    let (u, s) := uniform64 rn next d.cos_angle_min d.cos_angle_max s
    .ok (arccos u, s)

/-- `ExcitationUniform.sample`, kinematics/excitation.py:114-128, in float64. -/
noncomputable def excitation_uniform_sample64 {σ : Type} (rn : ℝ → ℝ) (next : σ → ℝ × σ) (min_value max_value : ℝ) :
    Sampler σ := fun s =>
  if max_value < min_value then .error .valueError
  else .ok (uniform64 rn next min_value max_value s)

end Verif.Machine
