import Verif.Spec.Simulation
import Verif.Spec.Motion

/-! # Specification of the charge balance of an event -/

namespace Verif.Spec

open Verif.Detector Verif.Kinematics

/-- A deposit inside the recorded window of 512 time buckets. -/
def InWindow (d : Deposit) : Prop := 0 ≤ d.tb ∧ d.tb < 512 ∧ 0 ≤ d.pad

instance (d : Deposit) : Decidable (InWindow d) := inferInstanceAs (Decidable (_ ∧ _))

/-- The number of electrons released by the track points that have any. -/
def released (_track : List Row) (primary : List ℤ) : ℤ := (primary.filter fun e => decide (1 ≤ e)).sum

/-- The track point is collected: it has electrons, lies above an active pad, and its electrons arrive
in the recorded window. -/
def Collected (config : Config) (grid : PadGrid) (g : GridEdges) (re : Row × ℤ) : Prop :=
  1 ≤ re.2 ∧ (∃ pad, activePad grid g (re.1.x, re.1.y) = some pad ∧ 0 ≤ pad) ∧
  -1 < arrival config re.1.z ∧ arrival config re.1.z < 512

open Classical in
/-- The number of electrons released by the collected track points. -/
noncomputable def collected (config : Config) (grid : PadGrid) (g : GridEdges) (track : List Row)
    (primary : List ℤ) : ℤ :=
  (((track.zip primary).filter fun re => decide (Collected config grid g re)).map (·.2)).sum

/-- `EventTotal f … indices s n s'`: simulating the charged nuclei of `indices` in order, starting with
generator state `s`, the values of `f` on their tracks and electron numbers add up to `n`. -/
inductive EventTotal {σ : Type} (f : List Row → List ℤ → ℤ) (env : SimEnv) (momenta : List Vec4)
    (vertex : ℝ × ℝ × ℝ) (Zs As : List ℤ) (config : Config) (rng : Gen σ) :
    List ℤ → σ → ℤ → σ → Prop
  | nil (s : σ) : EventTotal f env momenta vertex Zs As config rng [] s 0 s
  | neutral (idx : ℤ) (rest : List ℤ) (s s' : σ) (n : ℤ) (hz : pyGet Zs idx = .ok 0)
      (h : EventTotal f env momenta vertex Zs As config rng rest s n s') :
      EventTotal f env momenta vertex Zs As config rng (idx :: rest) s n s'
  | charged (idx z a : ℤ) (nucleus : Nucleus) (momentum : Vec4) (track : List Row)
      (primary : List ℤ) (rest : List ℤ) (s s₁ s' : σ) (n : ℤ)
      (hz : pyGet Zs idx = .ok z) (hz0 : z ≠ 0) (ha : pyGet As idx = .ok a)
      (hn : env.get_data z a = .ok nucleus) (hm : pyGet momenta idx = .ok momentum)
      (ht : generate_trajectory env.solve_ivp vertex (momentum.px, momentum.py, momentum.pz)
        nucleus config.det_params = .ok track)
      (he : generate_electrons track nucleus config.det_params rng s = .ok (primary, s₁))
      (h : EventTotal f env momenta vertex Zs As config rng rest s₁ n s') :
      EventTotal f env momenta vertex Zs As config rng (idx :: rest) s (f track primary + n) s'

/-- The kinetic energy that nucleus `idx` of the event can lose: that of its momentum, 0 for neutral
nuclei. -/
noncomputable def ionising (env : SimEnv) (momenta : List Vec4) (Zs As : List ℤ) (idx : ℤ) : ℝ :=
  match pyGet Zs idx, pyGet As idx, pyGet momenta idx with
  | .ok z, .ok a, .ok q =>
    if z = 0 then 0
    else match env.get_data z a with
      | .ok n => Real.sqrt (q.px ^ 2 + q.py ^ 2 + q.pz ^ 2 + n.mass ^ 2) - n.mass
      | .error _ => 0
  | _, _, _ => 0

end Verif.Spec
