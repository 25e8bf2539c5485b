import Verif.Machine.Kinematics
import Verif.Machine.Sampling

/-! # The samples of the reaction pipeline in machine arithmetic -/

namespace Verif.Machine

open Verif.Kinematics

/-- The raw numbers of `numpy.random.Generator`: `random()` and `standard_normal()`. -/
structure Raw (σ : Type) where
  next : σ → ℝ × σ
  gauss : σ → ℝ × σ

/-- `rng.normal(loc, scale)` as numpy computes it in float64: `loc + scale * standard_normal()`. -/
noncomputable def normal64 {σ : Type} (rn : ℝ → ℝ) (gauss : σ → ℝ × σ) (loc scale : ℝ) (s : σ) : ℝ × σ :=
  let (g, s) := gauss s
  (rn (loc + rn (scale * g)), s)

/-- `ExcitationGaussian.__init__`, kinematics/excitation.py:58-65, in float64. -/
noncomputable def mkExcitationGaussian64 (rn : ℝ → ℝ) (centroid width : ℝ) : ExcitationGaussian :=
  { centroid := centroid, width := width, sigma := rn (width / rn 2.355) }

/-- `ExcitationGaussian.sample`, kinematics/excitation.py:67-80, in float64. -/
noncomputable def excitation_gaussian_sample64 {σ : Type} (rn : ℝ → ℝ) (gauss : σ → ℝ × σ) (d : ExcitationGaussian) :
    Sampler σ := fun s =>
  if d.sigma < 0 then .error .valueError else .ok (normal64 rn gauss d.centroid d.sigma s)

/-- `[self.rng.uniform(0.0, pi2) for _ in self.decays]`, kinematics/pipeline.py:282, in float64. -/
noncomputable def uniformN64 {σ : Type} (rn : ℝ → ℝ) (next : σ → ℝ × σ) (low high : ℝ) : ℕ → σ → List ℝ × σ
  | 0, s => ([], s)
  | n + 1, s =>
    let (x, s) := uniform64 rn next low high s
    let (xs, s) := uniformN64 rn next low high n s
    (x :: xs, s)

/-- The beam energy and vertex part of `sample`, kinematics/pipeline.py:241-264, in float64; `np.pi` is the rounded
number, and the energy loss is that of the external package. -/
noncomputable def sample_vertex64 {σ : Type} (k : Kin64) (raw : Raw σ) (p : Pipeline σ) (s : σ) :
    Except PyErr ((ℝ × (ℝ × ℝ × ℝ)) × σ) :=
  let rn := k.rn
  match p.target_material with
  | none => .ok ((p.beam_energy, (0, 0, 0)), s)
  | some t =>
    if t.rho_sigma < 0 then .error .valueError
    else
      let (n, s) := normal64 rn raw.gauss 0 t.rho_sigma s
      let rho := |n|
      let (theta, s) := uniform64 rn raw.next 0 (rn (2 * rn Real.pi)) s
      if t.z_range.2 < t.z_range.1 then .error .valueError
      else
        let (z, s) := uniform64 rn raw.next t.z_range.1 t.z_range.2 s
        let projectile_energy := rn (p.beam_energy
          - t.material.get_energy_loss p.reaction.projectile p.beam_energy z)
        .ok ((projectile_energy, (rn (rho * k.cos theta), rn (rho * k.sin theta), z)), s)

/-- `KinematicsPipeline.sample`, kinematics/pipeline.py:232-283, in float64. The distributions `p.excitations` and
`p.polar_dists` round by themselves, as `excitation_gaussian_sample64` and the samplers of Machine/Sampling.lean do. -/
noncomputable def sample64 {σ : Type} (k : Kin64) (raw : Raw σ) (p : Pipeline σ) (s : σ) :
    Except PyErr (Sample × σ) := do
  let pi2 := k.rn (k.rn Real.pi * 2)
  let ((beam_energy, vertex), s) ← sample_vertex64 k raw p s
  let (reaction_excitation, s) ← sampleHead p.excitations s
  let (reaction_theta, s) ← sampleHead p.polar_dists s
  let (reaction_phi, s) := uniform64 k.rn raw.next 0 pi2 s
  let (decay_excitations, s) ← sampleAll p.excitations.tail s
  let (decay_thetas, s) ← sampleAll p.polar_dists.tail s
  let (decay_phis, s) := uniformN64 k.rn raw.next 0 pi2 p.decays.length s
  return ({ beam_energy, reaction_excitation, reaction_theta, reaction_phi, vertex,
            decay_excitations, decay_thetas, decay_phis }, s)

end Verif.Machine
