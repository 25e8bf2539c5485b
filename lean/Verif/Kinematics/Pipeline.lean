import Verif.Kinematics.KinFile
import Verif.Kinematics.Reaction
import Verif.Kinematics.Excitation

/-! # Model of `KinematicsPipeline` (`src/attpc_engine/kinematics/pipeline.py:16-426`) -/

namespace Verif.Kinematics

/-- `KinematicsTargetMaterial`, kinematics/pipeline.py:16-36. -/
structure TargetMaterial where
  material : GasTarget
  z_range : ℝ × ℝ
  rho_sigma : ℝ

/-- `Sample`, kinematics/pipeline.py:39-70. -/
structure Sample where
  beam_energy : ℝ
  reaction_excitation : ℝ
  reaction_theta : ℝ
  reaction_phi : ℝ
  vertex : ℝ × ℝ × ℝ
  decay_excitations : List ℝ
  decay_thetas : List ℝ
  decay_phis : List ℝ

/-- A pipeline step, `Reaction | Decay`. -/
inductive Step where
  | reaction (r : Reaction)
  | decay (d : Decay)

/-- The immutable part of a `KinematicsPipeline` object, kinematics/pipeline.py:148-185. -/
structure Pipeline (σ : Type) where
  reaction : Reaction
  decays : List Decay
  excitations : List (Sampler σ)
  polar_dists : List (Sampler σ)
  beam_energy : ℝ
  target_material : Option TargetMaterial
  event_sample_limit : ℤ
  rng : Gen σ

/-- A result row `[px, py, pz, E]`; `none` is a row with NaN or uninitialised entries. -/
abbrev ResultRow := Option Vec4

/-- The mutable part of a `KinematicsPipeline` object: the generator state and the buffer
`self.result`. -/
structure PipeState (σ : Type) where
  gen : σ
  result : List ResultRow

/-- The chain check, kinematics/pipeline.py:156-179: `prev` is the previous step. -/
def check_chain : Step → List Step → Except PyErr (List Decay)
  | _, [] => .ok []
  | prev, cur :: rest =>
    match cur with
    | .reaction _ => .error .pipelineError
    | .decay d =>
      let prev_symbol := match prev with
        | .reaction r => r.residual.isotopic_symbol
        | .decay d => d.residual_2.isotopic_symbol
      if prev_symbol ≠ d.parent.isotopic_symbol then .error .pipelineError
      else match check_chain cur rest with
        | .error e => .error e
        | .ok ds => .ok (d :: ds)

/-- `KinematicsPipeline.__init__`, kinematics/pipeline.py:125-185. The generator `default_rng()` and
its state, and the contents of `np.empty`, are passed in. -/
def mkPipeline {σ : Type} (rng : Gen σ) (gen : σ) (uninit : ℕ → ResultRow) (steps : List Step)
    (excitations polar_dists : List (Sampler σ)) (beam_energy : ℝ)
    (target_material : Option TargetMaterial) (event_sample_limit : ℤ := 1000) :
    Except PyErr (Pipeline σ × PipeState σ) :=
  match steps with
  | [] => .error .pipelineError
  | first :: rest =>
    if steps.length ≠ excitations.length then .error .pipelineError
    else if steps.length ≠ polar_dists.length then .error .pipelineError
    else match first with
      | .decay _ => .error .pipelineError
      | .reaction reaction =>
        match check_chain first rest with
        | .error e => .error e
        | .ok decays =>
          let returned_nuclei := 4 + (steps.length - 1) * 2
          .ok ({ reaction, decays, excitations, polar_dists, beam_energy, target_material,
                 event_sample_limit, rng },
               { gen, result := (List.range returned_nuclei).map uninit })

/-- `check_excitations_allowed`, kinematics/pipeline.py:200-230. -/
noncomputable def Pipeline.check_excitations_allowed {σ : Type} (p : Pipeline σ)
    (projectile_energy : ℝ) (excitations : List ℝ) : Except PyErr Bool :=
  match excitations with
  | [] => .error .indexError
  | ex0 :: exs =>
    let q_value := (p.reaction.projectile.mass + projectile_energy) + p.reaction.target.mass
      - (p.reaction.ejectile.mass + p.reaction.residual.mass + ex0)
    if exs.length < p.decays.length then .error .indexError
    else
      let q_value := (p.decays.zip exs).foldl (fun q de =>
        q + -1 * (de.1.residual_1.mass + de.1.residual_2.mass + de.2)) q_value
      .ok (decide (q_value ≥ 0))

/-- `[d.sample(self.rng) for d in dists]`, kinematics/pipeline.py:274-281. -/
def sampleAll {σ : Type} : List (Sampler σ) → σ → Except PyErr (List ℝ × σ)
  | [], s => .ok ([], s)
  | d :: ds, s => do
    let (x, s) ← d s
    let (xs, s) ← sampleAll ds s
    return (x :: xs, s)

/-- The beam energy and vertex part of `sample`, kinematics/pipeline.py:241-264. numpy raises
ValueError for a negative normal scale and for a z range in the wrong order; the numbers drawn before
that are lost with the exception. -/
noncomputable def Pipeline.sample_vertex {σ : Type} (p : Pipeline σ) (s : σ) :
    Except PyErr ((ℝ × (ℝ × ℝ × ℝ)) × σ) :=
  match p.target_material with
  | none => .ok ((p.beam_energy, (0, 0, 0)), s)
  | some t =>
    if t.rho_sigma < 0 then .error .valueError
    else
      let (n, s) := p.rng.normal 0 t.rho_sigma s
      let rho := |n|
      let (theta, s) := p.rng.uniform 0 (2 * Real.pi) s
      if t.z_range.2 < t.z_range.1 then .error .valueError
      else
        let (z, s) := p.rng.uniform t.z_range.1 t.z_range.2 s
        let projectile_energy := p.beam_energy
          - t.material.get_energy_loss p.reaction.projectile p.beam_energy z
        .ok ((projectile_energy, (rho * Real.cos theta, rho * Real.sin theta, z)), s)

/-- `self.excitations[0].sample(rng)`. -/
def sampleHead {σ : Type} (l : List (Sampler σ)) : Sampler σ := fun s =>
  match l with
  | [] => .error .indexError
  | d :: _ => d s

/-- `KinematicsPipeline.sample`, kinematics/pipeline.py:232-283. Keyword arguments are evaluated in
the order in which they are written. Both list comprehensions range over
`range(1, len(self.excitations))`; the constructor has made the lists equally long. -/
noncomputable def Pipeline.sample {σ : Type} (p : Pipeline σ) (s : σ) :
    Except PyErr (Sample × σ) := do
  let ((beam_energy, vertex), s) ← p.sample_vertex s
  let (reaction_excitation, s) ← sampleHead p.excitations s
  let (reaction_theta, s) ← sampleHead p.polar_dists s
  let (reaction_phi, s) := p.rng.uniform 0 (Real.pi * 2) s
  let (decay_excitations, s) ← sampleAll p.excitations.tail s
  let (decay_thetas, s) ← sampleAll p.polar_dists.tail s
  let (decay_phis, s) := p.rng.uniformN 0 (Real.pi * 2) p.decays.length s
  return ({ beam_energy, reaction_excitation, reaction_theta, reaction_phi, vertex,
            decay_excitations, decay_thetas, decay_phis }, s)

/-- `l[idx]` on a Python list, `idx ≥ 0`. -/
def listGet {α : Type} (l : List α) (idx : ℕ) : Except PyErr α :=
  match l[idx]? with
  | some a => .ok a
  | none => .error .indexError

/-- The decay loop, kinematics/pipeline.py:350-382, starting at decay number `idx` with parent
`prev_resid`. Returns whether all decays were allowed; the buffer is updated in place (also when
the loop is left early or an exception is raised). A parent with NaN entries is not allowed. -/
noncomputable def decayLoop (sample : Sample) :
    ℕ → List Decay → ResultRow → List ResultRow → Except PyErr Bool × List ResultRow
  | _, [], _, buf => (.ok true, buf)
  | idx, decay :: rest, prev_resid, buf =>
    match listGet sample.decay_excitations idx with
    | .error e => (.error e, buf)
    | .ok ex =>
      match prev_resid with
      | none => (.ok false, buf)
      | some parent =>
        if !decay.is_excitation_allowed parent ex then (.ok false, buf)
        else
          match (do
              let theta ← listGet sample.decay_thetas idx
              let phi ← listGet sample.decay_phis idx
              decay.calculate parent theta phi ex) with
          | .error e => (.error e, buf)
          | .ok (_, r1, r2) =>
            let result_pos := idx * 2 + 4
            decayLoop sample (idx + 1) rest r2 ((buf.set result_pos r1).set (result_pos + 1) r2)

/-- The body of the `while True` loop after sampling, kinematics/pipeline.py:322-386: returns whether
the sample was accepted. -/
noncomputable def Pipeline.attempt {σ : Type} (p : Pipeline σ) (sample : Sample)
    (buf : List ResultRow) : Except PyErr Bool × List ResultRow :=
  if !p.reaction.is_excitation_allowed sample.beam_energy sample.reaction_excitation then
    (.ok false, buf)
  else
    match p.reaction.calculate sample.beam_energy sample.reaction_theta sample.reaction_phi
        sample.reaction_excitation with
    | .error e => (.error e, buf)
    | .ok (target_vec, proj_vec, eject_vec, resid_vec) =>
      let buf := (((buf.set 0 (some target_vec)).set 1 proj_vec).set 2 eject_vec).set 3 resid_vec
      decayLoop sample 0 p.decays resid_vec buf

/-- The sampling loop of `run`, kinematics/pipeline.py:312-388, with `n` samples left before the
limit. -/
noncomputable def Pipeline.runLoop {σ : Type} (p : Pipeline σ) :
    ℕ → PipeState σ → Except PyErr (ℝ × ℝ × ℝ) × PipeState σ
  | 0, st => (.error .pipelineError, st)
  | n + 1, st =>
    match p.sample st.gen with
    | .error e => (.error e, st)
    | .ok (sample, s) =>
      match p.attempt sample st.result with
      | (.error e, buf) => (.error e, { gen := s, result := buf })
      | (.ok true, buf) => (.ok sample.vertex, { gen := s, result := buf })
      | (.ok false, buf) => p.runLoop n { gen := s, result := buf }

/-- `KinematicsPipeline.run`, kinematics/pipeline.py:285-388. The returned array is the object
`self.result` itself (line 388): its contents are `st.result` of the returned state, and of every
later state. -/
noncomputable def Pipeline.run {σ : Type} (p : Pipeline σ) (st : PipeState σ) :
    Except PyErr (ℝ × ℝ × ℝ) × PipeState σ :=
  p.runLoop p.event_sample_limit.toNat st

/-- What a caller sees in the array returned by an earlier call of `run` when the pipeline object is in
state `st`: `run` returns a reference to `self.result`, not a copy (kinematics/pipeline.py:388), and
`self.result` is never rebound after `__init__` (line 183). -/
def PipeState.returned_array {σ : Type} (st : PipeState σ) : List ResultRow := st.result

/-- `pipeline.run()` followed by `create_dataset(.., data=result)`, which copies the array,
kinematics/pipeline.py:485-486. -/
noncomputable def Pipeline.runCopy {σ : Type} (p : Pipeline σ) :
    PipeRun (List ResultRow) (PipeState σ) := fun st =>
  match p.run st with
  | (.ok vertex, st) => (.ok (vertex, st.result), st)
  | (.error e, st) => (.error e, st)

/-- `get_proton_numbers`, kinematics/pipeline.py:390-407. -/
def Pipeline.get_proton_numbers {σ : Type} (p : Pipeline σ) : List ℤ :=
  [p.reaction.target.Z, p.reaction.projectile.Z, p.reaction.ejectile.Z, p.reaction.residual.Z]
    ++ p.decays.flatMap fun d => [d.residual_1.Z, d.residual_2.Z]

/-- `get_mass_numbers`, kinematics/pipeline.py:409-426. -/
def Pipeline.get_mass_numbers {σ : Type} (p : Pipeline σ) : List ℤ :=
  [p.reaction.target.A, p.reaction.projectile.A, p.reaction.ejectile.A, p.reaction.residual.A]
    ++ p.decays.flatMap fun d => [d.residual_1.A, d.residual_2.A]

end Verif.Kinematics
