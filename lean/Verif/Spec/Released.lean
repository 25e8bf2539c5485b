import Verif.Spec.Simulation

/-! # Specification of the track points of an event -/

namespace Verif.Spec

open Verif.Detector Verif.Kinematics

/-- `Released env ... indices s label r n`: simulating the nuclei `indices` in order from generator
state `s`, the track of nucleus `label` has the point `r`, where `n` primary electrons are released. -/
inductive Released {σ : Type} (env : SimEnv) (momenta : List Vec4) (vertex : ℝ × ℝ × ℝ)
    (Zs As : List ℤ) (config : Config) (rng : Gen σ) : List ℤ → σ → ℤ → Row → ℤ → Prop
  | here (idx z a : ℤ) (nucleus : Nucleus) (momentum : Vec4) (track : List Row)
      (primary : List ℤ) (rest : List ℤ) (s s₁ : σ) (r : Row) (n : ℤ)
      (hz : pyGet Zs idx = .ok z) (hz0 : z ≠ 0) (ha : pyGet As idx = .ok a)
      (hn : env.get_data z a = .ok nucleus) (hm : pyGet momenta idx = .ok momentum)
      (ht : generate_trajectory env.solve_ivp vertex (momentum.px, momentum.py, momentum.pz)
        nucleus config.det_params = .ok track)
      (he : generate_electrons track nucleus config.det_params rng s = .ok (primary, s₁))
      (hrn : (r, n) ∈ track.zip primary) :
      Released env momenta vertex Zs As config rng (idx :: rest) s idx r n
  | neutral (idx : ℤ) (rest : List ℤ) (s : σ) (label : ℤ) (r : Row) (n : ℤ)
      (hz : pyGet Zs idx = .ok 0)
      (h : Released env momenta vertex Zs As config rng rest s label r n) :
      Released env momenta vertex Zs As config rng (idx :: rest) s label r n
  | later (idx z a : ℤ) (nucleus : Nucleus) (momentum : Vec4) (track : List Row)
      (primary : List ℤ) (rest : List ℤ) (s s₁ : σ) (label : ℤ) (r : Row) (n : ℤ)
      (hz : pyGet Zs idx = .ok z) (hz0 : z ≠ 0) (ha : pyGet As idx = .ok a)
      (hn : env.get_data z a = .ok nucleus) (hm : pyGet momenta idx = .ok momentum)
      (ht : generate_trajectory env.solve_ivp vertex (momentum.px, momentum.py, momentum.pz)
        nucleus config.det_params = .ok track)
      (he : generate_electrons track nucleus config.det_params rng s = .ok (primary, s₁))
      (h : Released env momenta vertex Zs As config rng rest s₁ label r n) :
      Released env momenta vertex Zs As config rng (idx :: rest) s label r n

/-- The spread of the electrons of a track point when they reach the pads. -/
noncomputable def spread (config : Config) (z : ℝ) : ℝ :=
  Real.sqrt (2 * config.det_params.diffusion * config.drift_velocity * arrival config z
    / config.det_params.efield)

/-- The deposits made by `n` primary electrons released at `r` by nucleus `label`. -/
noncomputable def releasedDeposits (config : Config) (grid : PadGrid) (g : GridEdges) (label : ℤ)
    (r : Row) (n : ℤ) : List Deposit :=
  pointDeposits grid g (arrival config r.z) (r.x, r.y) (n * config.det_params.mpgd_gain)
    (spread config r.z) label

/-- Point `pos` of the plane is at most three spreads away from the point `(x, y)`, along each axis. -/
def WithinSpread (sigma : ℝ) (r : Row) (pos : ℝ × ℝ) : Prop :=
  |pos.1 - r.x| ≤ 3 * sigma ∧ |pos.2 - r.y| ≤ 3 * sigma

end Verif.Spec
