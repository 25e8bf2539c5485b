import Verif.Machine.Float
import Verif.Kinematics.Pipeline

/-! # Float arithmetic of the reaction kinematics

Every basic operation and `np.sqrt` are rounded; `np.sin`, `np.cos` and the operations `boost`,
`boostCM_of` and `M` of the external `vector` package are arbitrary. NaN is `none`. -/

namespace Verif.Machine

open Verif.Kinematics

/-- The float64 operations used by the kinematics. -/
structure Kin64 where
  rn : ℝ → ℝ
  sin : ℝ → ℝ
  cos : ℝ → ℝ
  boost : Vec4 → Vec4 → Option Vec4
  boostCM_of : Vec4 → Vec4 → Option Vec4
  M : Vec4 → ℝ

/-- `a + b` of `vector` objects in float64 (kinematics/reaction.py:155). -/
noncomputable def add64 (rn : ℝ → ℝ) (a b : Vec4) : Vec4 :=
  ⟨rn (a.px + b.px), rn (a.py + b.py), rn (a.pz + b.pz), rn (a.E + b.E)⟩

/-- `a - b` of `vector` objects in float64 (kinematics/reaction.py:176, 302). -/
noncomputable def sub64 (rn : ℝ → ℝ) (a b : Vec4) : Vec4 :=
  ⟨rn (a.px - b.px), rn (a.py - b.py), rn (a.pz - b.pz), rn (a.E - b.E)⟩

/-- `np.sqrt` in float64. -/
noncomputable def npSqrt64 (rn : ℝ → ℝ) (x : ℝ) : Option ℝ :=
  if x < 0 then none else some (rn (Real.sqrt x))

/-- The centre-of-mass vector of the first product, kinematics/reaction.py:159-171 and 287-299. A division by
zero gives infinities or NaN, here `none`. -/
noncomputable def cmVector64 (k : Kin64) (m1 m2 e_cm polar azimuthal : ℝ) : Option Vec4 :=
  let rn := k.rn
  if rn (2 * e_cm) = 0 then none
  else
  let e1 := rn (rn (rn (rn (m1 ^ 2) - rn (m2 ^ 2)) + rn (e_cm ^ 2)) / rn (2 * e_cm))
  match npSqrt64 rn (rn (rn (e1 ^ 2) - rn (m1 ^ 2))) with
  | none => none
  | some p => some
      { px := rn (rn (p * k.sin polar) * k.cos azimuthal)
        py := rn (rn (p * k.sin polar) * k.sin azimuthal)
        pz := rn (p * k.cos polar)
        E := e1 }

/-- `Reaction.is_excitation_allowed`, kinematics/reaction.py:70-101, in float64. -/
noncomputable def reaction_allowed64 (k : Kin64) (r : Reaction)
    (projectile_energy residual_excitation : ℝ) : Bool :=
  let rn := k.rn
  match npSqrt64 rn (rn (projectile_energy * rn (projectile_energy + rn (2 * r.projectile.mass)))) with
  | none => false
  | some pz =>
    match npSqrt64 rn (rn (rn (rn (rn (r.target.mass + projectile_energy) + r.projectile.mass) ^ 2)
        - rn (pz ^ 2))) with
    | none => false
    | some e_cm =>
      let outgoing_mass := rn (rn (r.ejectile.mass + r.residual.mass) + residual_excitation)
      decide (outgoing_mass < e_cm)

/-- `Reaction.calculate`, kinematics/reaction.py:103-178, in float64. -/
noncomputable def reaction_calculate64 (k : Kin64) (r : Reaction)
    (projectile_energy ejectile_polar ejectile_azimuthal residual_excitation : ℝ) :
    Except PyErr (Vec4 × Option Vec4 × Option Vec4 × Option Vec4) :=
  let rn := k.rn
  let q_value := rn (rn (r.target.mass + r.projectile.mass)
    - rn (rn (r.ejectile.mass + r.residual.mass) + residual_excitation))
  if rn (rn (r.ejectile.mass + r.residual.mass) - r.projectile.mass) = 0 then .error .zeroDivision
  else
    let e_threshold := rn (rn (-q_value * rn (r.ejectile.mass + r.residual.mass))
      / rn (rn (r.ejectile.mass + r.residual.mass) - r.projectile.mass))
    if projectile_energy < e_threshold then .error .valueError
    else
      let target_vec : Vec4 := { px := 0, py := 0, pz := 0, E := r.target.mass }
      match npSqrt64 rn (rn (projectile_energy
          * rn (projectile_energy + rn (2 * r.projectile.mass)))) with
      | none => .ok (target_vec, none, none, none)
      | some pz =>
        let proj_vec : Vec4 :=
          { px := 0, py := 0, pz := pz, E := rn (projectile_energy + r.projectile.mass) }
        let parent := add64 rn target_vec proj_vec
        match k.boostCM_of parent parent with
        | none => .ok (target_vec, some proj_vec, none, none)
        | some parent_cm =>
          match cmVector64 k r.ejectile.mass (rn (r.residual.mass + residual_excitation)) parent_cm.E
              ejectile_polar ejectile_azimuthal with
          | none => .ok (target_vec, some proj_vec, none, none)
          | some eject_vec_cm =>
            match k.boost eject_vec_cm parent with
            | none => .ok (target_vec, some proj_vec, none, none)
            | some eject_vec =>
              .ok (target_vec, some proj_vec, some eject_vec, some (sub64 rn parent eject_vec))

/-- `Decay.is_excitation_allowed`, kinematics/reaction.py:230-250, in float64. -/
noncomputable def decay_allowed64 (k : Kin64) (d : Decay) (parent_vector : Vec4)
    (residual_2_excitation : ℝ) : Bool :=
  let rn := k.rn
  decide (rn (k.M parent_vector
    - rn (rn (d.residual_1.mass + d.residual_2.mass) + residual_2_excitation)) > 0)

/-- `Decay.calculate`, kinematics/reaction.py:252-303, in float64: the two products. -/
noncomputable def decay_calculate64 (k : Kin64) (d : Decay) (parent_vector : Vec4)
    (residual_1_polar residual_1_azimuthal residual_2_excitation : ℝ) :
    Except PyErr (Option Vec4 × Option Vec4) :=
  let rn := k.rn
  let q_value := rn (k.M parent_vector
    - rn (rn (d.residual_1.mass + d.residual_2.mass) + residual_2_excitation))
  if q_value < 0 then .error .valueError
  else
    match k.boostCM_of parent_vector parent_vector with
    | none => .ok (none, none)
    | some parent_vec_cm =>
      match cmVector64 k d.residual_1.mass (rn (d.residual_2.mass + residual_2_excitation))
          parent_vec_cm.E residual_1_polar residual_1_azimuthal with
      | none => .ok (none, none)
      | some resid_1_vec_cm =>
        match k.boost resid_1_vec_cm parent_vector with
        | none => .ok (none, none)
        | some resid_1_vec => .ok (some resid_1_vec, some (sub64 rn parent_vector resid_1_vec))

/-- The decay loop, kinematics/pipeline.py:350-382, in float64, from decay number `idx` with parent
`prev_resid` on: the rows written for these decays, or `none` if a decay is not allowed. Simplification:
the rows are returned as a list, without the reused buffer, and a decay whose products contain NaN is
reported like one that is not allowed. -/
noncomputable def decayLoop64 (k : Kin64) (sample : Sample) :
    ℕ → List Decay → Vec4 → Except PyErr (Option (List Vec4))
  | _, [], _ => .ok (some [])
  | idx, decay :: rest, prev_resid => do
    let ex ← listGet sample.decay_excitations idx
    if !decay_allowed64 k decay prev_resid ex then return none
    else
      let theta ← listGet sample.decay_thetas idx
      let phi ← listGet sample.decay_phis idx
      match ← decay_calculate64 k decay prev_resid theta phi ex with
      | (some r1, some r2) =>
        match ← decayLoop64 k sample (idx + 1) rest r2 with
        | some rows => return some (r1 :: r2 :: rows)
        | none => return none
      | _ => return none

/-- The body of the sampling loop, kinematics/pipeline.py:322-386, in float64: the rows of the event, or
`none` if the sample is not accepted (or contains NaN, see `decayLoop64`). -/
noncomputable def attempt64 {σ : Type} (k : Kin64) (p : Pipeline σ) (sample : Sample) :
    Except PyErr (Option (List Vec4)) :=
  if !reaction_allowed64 k p.reaction sample.beam_energy sample.reaction_excitation then .ok none
  else do
    match ← reaction_calculate64 k p.reaction sample.beam_energy sample.reaction_theta sample.reaction_phi
        sample.reaction_excitation with
    | (target_vec, some proj_vec, some eject_vec, some resid_vec) =>
      match ← decayLoop64 k sample 0 p.decays resid_vec with
      | some rows => return some (target_vec :: proj_vec :: eject_vec :: resid_vec :: rows)
      | none => return none
    | _ => return none

end Verif.Machine
