import Verif.Spec.Deposits
import Verif.Detector.Simulator

/-! # Specification of what a simulated event records -/

namespace Verif.Spec

open Verif.Detector Verif.Kinematics

/-- Exact time bucket at which electrons released at height `z` arrive. -/
noncomputable def arrival (config : Config) (z : ℝ) : ℝ :=
  (config.det_params.length - z) / config.drift_velocity
    + (config.elec_params.micromegas_edge : ℝ)

/-- The deposits of one nucleus: every track point with at least one primary electron drifts to the
pad plane and is multiplied by the gain. -/
noncomputable def nucleusDeposits (config : Config) (grid : PadGrid) (g : GridEdges)
    (track : List Row) (primary : List ℤ) (label : ℤ) : List Deposit :=
  ((track.zip primary).filter fun re => decide (1 ≤ re.2)).flatMap fun re =>
    pointDeposits grid g (arrival config re.1.z) (re.1.x, re.1.y)
      (re.2 * config.det_params.mpgd_gain)
      (Real.sqrt (2 * config.det_params.diffusion * config.drift_velocity * arrival config re.1.z
        / config.det_params.efield)) label

/-- `EventTrace env ... indices s trace s'`: starting with generator state `s`, simulating the nuclei
`indices` in order releases, for each of them, the listed deposits, and leaves the generator in
state `s'`. Nuclei without charge release nothing and consume no random numbers. -/
inductive EventTrace {σ : Type} (env : SimEnv) (momenta : List Vec4) (vertex : ℝ × ℝ × ℝ)
    (Zs As : List ℤ) (config : Config) (grid : PadGrid) (g : GridEdges) (rng : Gen σ) :
    List ℤ → σ → List (ℤ × List Deposit) → σ → Prop
  | nil (s : σ) : EventTrace env momenta vertex Zs As config grid g rng [] s [] s
  | neutral (idx : ℤ) (rest : List ℤ) (s s' : σ) (tr : List (ℤ × List Deposit))
      (hz : pyGet Zs idx = .ok 0)
      (h : EventTrace env momenta vertex Zs As config grid g rng rest s tr s') :
      EventTrace env momenta vertex Zs As config grid g rng (idx :: rest) s ((idx, []) :: tr) s'
  | charged (idx z a : ℤ) (nucleus : Nucleus) (momentum : Vec4) (track : List Row)
      (primary : List ℤ) (rest : List ℤ) (s s₁ s' : σ) (tr : List (ℤ × List Deposit))
      (hz : pyGet Zs idx = .ok z) (hz0 : z ≠ 0) (ha : pyGet As idx = .ok a)
      (hn : env.get_data z a = .ok nucleus) (hm : pyGet momenta idx = .ok momentum)
      (ht : generate_trajectory env.solve_ivp vertex (momentum.px, momentum.py, momentum.pz)
        nucleus config.det_params = .ok track)
      (he : generate_electrons track nucleus config.det_params rng s = .ok (primary, s₁))
      (h : EventTrace env momenta vertex Zs As config grid g rng rest s₁ tr s') :
      EventTrace env momenta vertex Zs As config grid g rng (idx :: rest) s
        ((idx, nucleusDeposits config grid g track primary idx) :: tr) s'

/-- All deposits of an event in the order in which they are made. -/
def history (tr : List (ℤ × List Deposit)) : List Deposit := tr.flatMap (·.2)

/-- A cloud row and label describe the cell `(tb, pad)` of a deposit history: pad id, a time inside
the time bucket, the full charge, and the label of the last deposit. -/
def Describes (h : List Deposit) (cell : ℤ × ℤ) (rl : CloudPoint × ℤ) : Prop :=
  rl.1.pad = (cell.2 : ℝ) ∧ (cell.1 : ℝ) ≤ rl.1.tb ∧ rl.1.tb < (cell.1 : ℝ) + 1 ∧
  rl.1.e = (chargeAt h cell.1 cell.2 : ℝ) ∧ lastLabel h cell.1 cell.2 = some rl.2

end Verif.Spec
