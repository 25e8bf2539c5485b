import Verif.Py
import Verif.Nuclear
import Verif.Kinematics.Vec4
import Mathlib.Analysis.SpecialFunctions.Trigonometric.Basic

/-! # Model of `src/attpc_engine/kinematics/reaction.py`

Four-vectors with a NaN component are `none`: a NaN momentum magnitude contaminates, through the
boost, every component of the vectors computed from it. -/

namespace Verif.Kinematics

/-- `nuclear_map.get_data(Z, A)` (external, `src/attpc_engine/__init__.py`). -/
abbrev NuclearMap := ℤ → ℤ → Except PyErr Nucleus

/-- `Reaction` objects, kinematics/reaction.py:41-54. -/
structure Reaction where
  target : Nucleus
  projectile : Nucleus
  ejectile : Nucleus
  residual : Nucleus

/-- `Reaction.__init__`, kinematics/reaction.py:35-58 (without the display string). -/
def mkReaction (get_data : NuclearMap) (target projectile ejectile : Nucleus) :
    Except PyErr Reaction :=
  let resid_z := projectile.Z + target.Z - ejectile.Z
  let resid_a := projectile.A + target.A - ejectile.A
  if resid_z < 0 then .error .valueError
  else if resid_a < 0 then .error .valueError
  else match get_data resid_z resid_a with
    | .error e => .error e
    | .ok residual => .ok { target, projectile, ejectile, residual }

/-- `Decay` objects, kinematics/reaction.py:204-217. -/
structure Decay where
  parent : Nucleus
  residual_1 : Nucleus
  residual_2 : Nucleus

/-- `Decay.__init__`, kinematics/reaction.py:203-218 (without the display string). -/
def mkDecay (get_data : NuclearMap) (parent residual_1 : Nucleus) : Except PyErr Decay :=
  let resid_2_z := parent.Z - residual_1.Z
  let resid_2_a := parent.A - residual_1.A
  if resid_2_z < 0 then .error .valueError
  else if resid_2_a < 0 then .error .valueError
  else match get_data resid_2_z resid_2_a with
    | .error e => .error e
    | .ok residual_2 => .ok { parent, residual_1, residual_2 }

/-- `Reaction.is_excitation_allowed`, kinematics/reaction.py:70-101. A comparison with NaN is
False. -/
noncomputable def Reaction.is_excitation_allowed (r : Reaction)
    (projectile_energy residual_excitation : ℝ) : Bool :=
  match npSqrt (projectile_energy * (projectile_energy + 2 * r.projectile.mass)) with
  | none => false
  | some pz =>
    match npSqrt ((r.target.mass + projectile_energy + r.projectile.mass) ^ 2 - pz ^ 2) with
    | none => false
    | some e_cm =>
      let outgoing_mass := r.ejectile.mass + r.residual.mass + residual_excitation
      decide (outgoing_mass < e_cm)

/-- The centre-of-mass four-vector of the product of mass `m1` recoiling against mass `m2` with
total energy `e_cm`: kinematics/reaction.py:159-171 (`m1` = ejectile, `m2` = residual + excitation)
and 287-299 (`m1` = residual_1, `m2` = residual_2 + excitation), the same expressions.
`none` when the momentum is NaN. -/
noncomputable def cmVector (m1 m2 e_cm polar azimuthal : ℝ) : Option Vec4 :=
  let e1 := (m1 ^ 2 - m2 ^ 2 + e_cm ^ 2) / (2 * e_cm)
  match npSqrt (e1 ^ 2 - m1 ^ 2) with
  | none => none
  | some p => some
      { px := p * Real.sin polar * Real.cos azimuthal
        py := p * Real.sin polar * Real.sin azimuthal
        pz := p * Real.cos polar
        E := e1 }

/-- Whether the boosts by the velocity of `q` are defined in floating point: `q.E ≠ 0` and
`|q.p| < |q.E|`; otherwise they give NaN or infinities. -/
def Vec4.Boostable (q : Vec4) : Prop := q.px ^ 2 + q.py ^ 2 + q.pz ^ 2 < q.E ^ 2

/-- `Reaction.calculate`, kinematics/reaction.py:103-178, with the result list as a 4-tuple. -/
noncomputable def Reaction.calculate (r : Reaction)
    (projectile_energy ejectile_polar ejectile_azimuthal residual_excitation : ℝ) :
    Except PyErr (Vec4 × Option Vec4 × Option Vec4 × Option Vec4) :=
  let q_value := r.target.mass + r.projectile.mass
    - (r.ejectile.mass + r.residual.mass + residual_excitation)
  if r.ejectile.mass + r.residual.mass - r.projectile.mass = 0 then .error .zeroDivision
  else
    let e_threshold := -q_value * (r.ejectile.mass + r.residual.mass)
      / (r.ejectile.mass + r.residual.mass - r.projectile.mass)
    if projectile_energy < e_threshold then .error .valueError
    else
      let target_vec : Vec4 := { px := 0, py := 0, pz := 0, E := r.target.mass }
      match npSqrt (projectile_energy * (projectile_energy + 2 * r.projectile.mass)) with
      | none => .ok (target_vec, none, none, none)
      | some pz =>
        let proj_vec : Vec4 :=
          { px := 0, py := 0, pz := pz, E := projectile_energy + r.projectile.mass }
        let parent := target_vec + proj_vec
        open Classical in
        if parent.Boostable then
          let parent_cm := parent.boostCM_of parent
          match cmVector r.ejectile.mass (r.residual.mass + residual_excitation) parent_cm.E
              ejectile_polar ejectile_azimuthal with
          | none => .ok (target_vec, some proj_vec, none, none)
          | some eject_vec_cm =>
            let eject_vec := eject_vec_cm.boost parent
            let resid_vec := parent - eject_vec
            .ok (target_vec, some proj_vec, some eject_vec, some resid_vec)
        else .ok (target_vec, some proj_vec, none, none)

/-- `Decay.is_excitation_allowed`, kinematics/reaction.py:230-250. -/
noncomputable def Decay.is_excitation_allowed (d : Decay) (parent_vector : Vec4)
    (residual_2_excitation : ℝ) : Bool :=
  let q_value := parent_vector.M
    - (d.residual_1.mass + d.residual_2.mass + residual_2_excitation)
  decide (q_value > 0)

/-- `Decay.calculate`, kinematics/reaction.py:252-303, with the result list as a triple. -/
noncomputable def Decay.calculate (d : Decay) (parent_vector : Vec4)
    (residual_1_polar residual_1_azimuthal residual_2_excitation : ℝ) :
    Except PyErr (Vec4 × Option Vec4 × Option Vec4) :=
  let q_value := parent_vector.M
    - (d.residual_1.mass + d.residual_2.mass + residual_2_excitation)
  if q_value < 0 then .error .valueError
  else
    open Classical in
    if parent_vector.Boostable then
      let parent_vec_cm := parent_vector.boostCM_of parent_vector
      match cmVector d.residual_1.mass (d.residual_2.mass + residual_2_excitation) parent_vec_cm.E
          residual_1_polar residual_1_azimuthal with
      | none => .ok (parent_vector, none, none)
      | some resid_1_vec_cm =>
        let resid_1_vec := resid_1_vec_cm.boost parent_vector
        let resid_2_vec := parent_vector - resid_1_vec
        .ok (parent_vector, some resid_1_vec, some resid_2_vec)
    else .ok (parent_vector, none, none)

end Verif.Kinematics
