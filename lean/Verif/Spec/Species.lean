import Verif.Kinematics.Pipeline

/-! # Specification of the nuclei of a reaction chain -/

namespace Verif.Spec

open Verif.Kinematics

/-- The nuclei that a step adds to the event, in the order of the result rows. -/
def stepNuclei : Step → List Nucleus
  | .reaction r => [r.target, r.projectile, r.ejectile, r.residual]
  | .decay d => [d.residual_1, d.residual_2]

/-- The nuclei of a chain of steps. -/
def chainNuclei (steps : List Step) : List Nucleus := steps.flatMap stepNuclei

/-- The excitation energies of the nuclei of a chain: only the residual of the reaction and the second
product of every decay are excited. -/
def chainExcitations (x : Sample) : List ℝ :=
  [0, 0, 0, x.reaction_excitation] ++ x.decay_excitations.flatMap fun ex => [0, ex]

/-- The file with the same groups, names and attributes, and each array replaced by `f` of it. -/
def mapData {ρ ρ' : Type} (f : ρ → ρ') (file : KinFile ρ) : KinFile ρ' :=
  { n_events := file.n_events, proton_numbers := file.proton_numbers,
    mass_numbers := file.mass_numbers, chunk_size := file.chunk_size, n_chunks := file.n_chunks,
    closed := file.closed,
    chunks := file.chunks.map fun ng => (ng.1,
      { min_event := ng.2.min_event, max_event := ng.2.max_event,
        events := ng.2.events.map fun ne => (ne.1,
          { data := f ne.2.data, vertex_x := ne.2.vertex_x, vertex_y := ne.2.vertex_y,
            vertex_z := ne.2.vertex_z }) }) }

/-- The numbers of a result array as the reader gets them. Arrays of returned events have no NaN
(C46), so nothing is made up here; see `C75_conservation`. -/
def plainRows (rows : List ResultRow) : List Vec4 := rows.filterMap id

end Verif.Spec
