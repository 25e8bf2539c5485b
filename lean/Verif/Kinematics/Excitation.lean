import Verif.Kinematics.Angle

/-! # Model of `src/attpc_engine/kinematics/excitation.py` -/

namespace Verif.Kinematics

/-- `ExcitationGaussian`, kinematics/excitation.py:32-65. -/
structure ExcitationGaussian where
  centroid : ℝ
  width : ℝ
  sigma : ℝ

/-- `ExcitationGaussian.__init__`, kinematics/excitation.py:58-65. -/
noncomputable def mkExcitationGaussian (centroid width : ℝ) : ExcitationGaussian :=
  { centroid := centroid, width := width, sigma := width / 2.355 }

/-- `ExcitationGaussian.sample`, kinematics/excitation.py:67-80. numpy raises ValueError for a
negative scale. -/
noncomputable def ExcitationGaussian.sample {σ : Type} (d : ExcitationGaussian) (rng : Gen σ) :
    Sampler σ :=
  fun s => if d.sigma < 0 then .error .valueError else .ok (rng.normal d.centroid d.sigma s)

/-- `ExcitationUniform`, kinematics/excitation.py:83-113. -/
structure ExcitationUniform where
  min_value : ℝ
  max_value : ℝ

/-- `ExcitationUniform.sample`, kinematics/excitation.py:115-128. numpy raises ValueError for bounds
in the wrong order. -/
noncomputable def ExcitationUniform.sample {σ : Type} (d : ExcitationUniform) (rng : Gen σ) :
    Sampler σ :=
  fun s => if d.max_value < d.min_value then .error .valueError
    else .ok (rng.uniform d.min_value d.max_value s)

/-- `ExcitationBreitWigner`, kinematics/excitation.py:131-170. -/
structure ExcitationBreitWigner where
  rest_mass : ℝ
  centroid : ℝ
  width : ℝ

/-- `scipy.stats.rel_breitwigner.rvs(rho, scale=.., random_state=rng)` (external). -/
abbrev BreitWignerRvs (σ : Type) := ℝ → ℝ → σ → ℝ × σ

/-- `ExcitationBreitWigner.sample`, kinematics/excitation.py:172-188. scipy raises ValueError for
a shape parameter that is not positive or a negative scale. -/
noncomputable def ExcitationBreitWigner.sample {σ : Type} (d : ExcitationBreitWigner)
    (rvs : BreitWignerRvs σ) : Sampler σ :=
  fun s =>
    if d.width = 0 then .error .zeroDivision
    else
      let rho := (d.rest_mass + d.centroid) / d.width
      if rho ≤ 0 ∨ d.width < 0 then .error .valueError
      else
        let (total_energy, s) := rvs rho d.width s
        .ok (total_energy - d.rest_mass, s)

end Verif.Kinematics
