# Formal model of attpc_engine in Lean 4

The Python package in `/repo/src/attpc_engine` is modelled by hand, function by function, in Lean 4.
The properties of `properties.jsonl` are proved about that model for all inputs.
This document says what is modelled, what is trusted, and where the code and the properties disagree.

## Layout

| path | contents |
|---|---|
| `lean/Verif/Py.lean`, `Nuclear.lean` | Python/numpy prelude: exceptions as values, truncation, indexing, the random generator interface, nuclear data |
| `lean/Verif/Detector/*.lean` | model of `detector/*.py`, one file per source file |
| `lean/Verif/Data/*.lean` | the packaged pad data as Lean literals, written by `tools/extract_pad_data.py` |
| `lean/Verif/Kinematics/*.lean` | model of `kinematics/*.py`, one file per source file, plus `KinFile.lean` for the HDF5 file written by `run_kinematics_pipeline` and `Vec4.lean` for `vector` four-vectors |
| `lean/Verif/Machine/*.lean` | detector functions and reaction kinematics with int64 wrap-around and binary64 rounding |
| `lean/Verif/Spec/*.lean` | specifications that do not mention the helpers of the model |
| `lean/Verif/Proofs/*.lean` | lemmas |
| `lean/Verif/Props/*.lean` | the property theorems (`Cnn_...`), each followed by a concrete example that meets its hypotheses |
| `MANIFEST.json` | which theorems belong to which property |
| `seeded/LOG.jsonl` | log of the mutation tests |

Every model definition has a comment with the file and the lines it was read from.
`lake build` in `lean/` checks everything.

## Trusted base

* The Lean 4 kernel, and the Lean elaborator for turning the source text into the statements one reads.
* The axioms `propext`, `Classical.choice` and `Quot.sound`, which are Mathlib's standard ones. `#print axioms` on every theorem in
  `MANIFEST.json` shows a subset of these three. There are no other axioms, no `sorry`, no `native_decide`, no `bv_decide`.
* The model: that the definitions in `Verif/Detector`, `Verif/Kinematics` and `Verif/Machine` say what the Python code does. This is
  not machine-checked. The sections below list the simplifications.
* The pad data: that `Verif/Data/*.lean` and the decoding in `Detector/PadData.lean` agree with the files in `detector/data`. The literals
  were written by `tools/extract_pad_data.py`, which reads the csv text and the arrays of the npz archive. The csv text itself is included too (`Data/PadText.lean`) and read by the model (C99). All 10240 lines of both csv
  files are included, and of the 5600 × 5600 grid the 559 × 559 cells that the code can select (C15).
* The statements: that the theorems and the definitions in `Verif/Spec` say what `properties.jsonl` says in English.

## What is modelled

All functions and classes of the package, with these files:

| source | model |
|---|---|
| `detector/pairing.py` | `Detector/Pairing.lean`, `Machine/Pairing.lean`, `Machine/Int64.lean` |
| `detector/beam_pads.py` | `Detector/BeamPads.lean` (the full list) |
| `detector/transporter.py`, `typed_dict.py` | `Detector/Transporter.lean`, `Machine/Grid.lean`, `Machine/Int64.lean`, `Machine/Transport.lean`, `Machine/Drift.lean` |
| `detector/parameters.py` | `Detector/Parameters.lean`, `Detector/Text.lean`, `Detector/LoadText.lean` |
| `detector/data/*` | `Detector/PadData.lean`, `Detector/PadFiles.lean`, `Detector/PadText.lean`, `Data/*.lean` |
| `detector/constants.py`, `response.py` | `Detector/Response.lean`, `Detector/ResponseRaw.lean`, `Machine/Response.lean`, `Machine/Template.lean` |
| `detector/solver.py` | `Detector/Solver.lean`, `Machine/Drift.lean`, `Machine/Electrons.lean`, `Machine/Motion.lean` |
| `detector/simulator.py` | `Detector/Simulator.lean`, `Machine/Event.lean`, `Machine/Simulation.lean` |
| `detector/writer.py` | `Detector/Writer.lean`, `Detector/ResponseRaw.lean`, `Machine/Response.lean`, `Machine/Event.lean`, `Machine/Simulation.lean` |
| `kinematics/reaction.py` | `Kinematics/Reaction.lean`, `Kinematics/Vec4.lean`, `Machine/Kinematics.lean` |
| `kinematics/angle.py`, `excitation.py` | `Kinematics/Angle.lean`, `Kinematics/Excitation.lean`; in float64 `Machine/Sampling.lean` (sum check of the constructor, numpy's `uniform` and `choice`), `Machine/Sample.lean` (numpy's `normal`) |
| `kinematics/pipeline.py` | `Kinematics/Pipeline.lean`, `Kinematics/KinFile.lean`, `Machine/Kinematics.lean`, `Machine/Run.lean`, `Machine/Sample.lean` |
| `kinematics/convert_kinematics.py` | `Kinematics/Convert.lean` |

## Modelling decisions

* **Numbers.** Python `float` and numpy `float64` are real numbers `ℝ`, and Python or numpy integers are `ℤ`. A square root of a negative
  number is NaN, represented as `none`, and NaN is followed to the place where it has an effect. Signed zeros and infinities
  are not modelled. `Machine/*` redoes `pair`, `unpair`, the counter update, `position_to_index`, the drift time, the transport of a track with diffusion, the time wiggle, the kinetic energies and primary electrons, the equation of motion, the rows of the writer, the simulation of a whole event, the response template, the sampled distributions and the reaction kinematics in machine arithmetic:
  every int64 operation wraps, every float operation is followed by an arbitrary rounding to a nearest binary64 value (ties are left
  open, which includes ties-to-even). Overflow of floats is not modelled there; C111 shows that it does not occur. `np.exp` is
  arbitrary with a relative error of at most `2^-50` on `[-100, 0]`, `np.pi` is any number within `2^-50` of π (C87). The
  boosts and the invariant mass of the `vector` package, `np.sin` and `np.cos` are arbitrary (C88); C136 states how accurate they have
  to be. The response template assumes an accuracy of `2^-50` of `np.exp`, `np.sin` and the third power (C132), `PolarUniform` assumes
  `2^-52` for `np.cos` and `2^-50` for `np.arccos` (C135). `uniform` and `choice` follow numpy's algorithms (C134, C135), and
  `normal` computes `loc + scale * gauss` from a standard normal number of at most 40 (C144).
* **Exceptions** are values: `Except PyErr`. Where state is changed before an exception is raised and that state can be observed later
  (writer, kinematics file, result buffer), the model returns the state together with the outcome.
* **Reads outside an array** in compiled code are not checked by numba; the model makes them the error `undefinedRead`, or leaves the value
  arbitrary (pad grid), and C14/C16 show that they do not occur.
* **Random numbers.** `numpy.random.Generator` is an arbitrary state machine `Gen σ`. `LawfulGen` assumes `uniform(a, b) ∈ [a, b)` and
  `normal(m, 0) = m`. Bounds of `uniform` in the wrong order and negative widths of `normal` raise `ValueError`, as in numpy (C52, C54, C56).
  After an exception inside `sample` the state of the generator is not modelled. The distribution theorems C54 and C55 use `RandomGen`: `uniform` is the affine image of a seed that is uniformly
  distributed. C73 uses `IidGen` (independent uniform numbers), C74 uses `NormalGen` (`normal` follows a normal distribution). C82, C97, C102
  to C104, C122 and C150 to C155 use `FreshGen` (`Spec/Sampling.lean`: each draw is uniform and independent of the state after it, which is distributed like
  the initial state). C100, C101, C128 and C129 use `IdealGen` (`Props/Counts.lean`: the same for normal numbers), C112 `IdealGen` with the uniform law for `uniform`. Each comes with a generator that
  satisfies it. C107 assumes that `rel_breitwigner.rvs` follows the density in scipy's documentation, and proves that its integral is one.
* **`solve_ivp`** is an arbitrary function from the posed problem (`IvpProblem`: right-hand side, time span, initial state, events, times of
  evaluation) to a list of times and states or an exception, so the theorems hold for every trajectory it could return. Where a theorem
  needs more (C18, C23), the contract is a hypothesis from `Spec/Ivp.lean`: the first state is the initial state, the solution stops at
  terminal events, the right-hand side is evaluated at the initial state. C64, C91, C92 and C108 are about exact solutions of the differential equation,
  not about the solver; C95, C98, C101, C106, C126, C127 and `C128_energy` assume a solver that returns values of an exact solution (`Spec/ExactIvp.lean`); C129, C130 and C131 allow errors of given sizes (`Spec/ApproxIvp.lean`). C105 shows that these
  solutions exist and are unique, and that one solver meets all these contracts.
* **`np.argsort`** is an arbitrary function; C27 assumes only that it returns a sorting permutation, so ties may be broken in any way.
* **HDF5** files are lists of names with datasets and attributes. Creating a name that exists raises, a missing name raises `KeyError`.
  Every change of a file is one operation, and the sequence of operations is recorded, so that crash theorems (C34, C39) speak about all
  prefixes. A crash inside one HDF5 operation, and buffering by the operating system, are not modelled.
* **`vector`** four-vectors: addition, `boost`, `boostCM_of` and `.M` are given by the standard Lorentz formulas.
* **`spyral_utils`**: `NuclearDataMap` is an arbitrary function from (Z, A) to a nucleus or an exception. `GasTarget` provides
  arbitrary functions for stopping power and energy loss.
* **Left out**: progress bars and printing, docstrings, the `__init__` re-exports, parsing of `.npz`, and the time a call takes.
* **Text**: csv files are read from a list of code points (`Detector/Text.lean`, `Detector/LoadText.lean`; C99). The decoding of
  bytes, digits and white space outside ASCII, and the rounding of a written number to a double are left out. The other properties take
  the numbers of each line; `C99_numbers` shows that both agree, including the exceptions.

## Where the code does not do what a property says

For these the negation is proved with a concrete witness (`Cnn_refuted`), and the part that holds is proved as `Cnn_..._partial`.

| id | what the code does |
|---|---|
| C11 | With diffusion each of the 100 pixels is recorded even if its share truncates to 0 electrons. A nucleus can become the label of a point to which it contributed nothing. This is possible exactly for gains up to 114554: from 114555 on even the corner pixels of a single electron get one electron. |
| C15 | `position_to_index` floors to whole millimetres before dividing by the 0.1 mm step. Only every tenth row and column of the packaged grid is ever used (`C15_packaged_rows`). |
| C18 | The forward bound of the trajectory is 1 m whatever the detector length. In a shorter detector points beyond the window get negative times, and the diffusion width becomes NaN. |
| C19 | In binary64 the sum of a time bucket and an offset close to 1 can round up to the next integer. 511 becomes 512.0, and the point is then removed by the mask. `C19_float_exact_partial` says for which offsets. |
| C23 | A charged nucleus at rest (the target, index 0) makes `equation_of_motion` divide by zero. |
| C31 | The first file always records `min_event = 0`, even if event 0 had no points. |
| C33 | If the current file is full, writing an event number that it already holds succeeds, and the event is then stored twice. For events that can be formatted this is the exact condition. |
| C43 | `Reaction.calculate` compares the beam energy with a threshold formula that is too high for exothermic reactions to excited states. An allowed reaction raises `ValueError`. `C43_exact` says for which masses this happens. |
| C44 | For endothermic reactions the same formula is slightly too low. From it up to the exact threshold `calculate` returns NaN without raising (`C44_nan_range`, `C44_finite_range`). |
| C49 | Because of C43 `run` can end with `ValueError` although the first sample is allowed. |
| C51 | `run` returns its internal buffer by reference; the next call overwrites the caller's array. The events in the file are copies and are not affected. |
| C53 | `check_excitations_allowed` never adds back the mass of the decaying nucleus, so it rejects excitations that `run` accepts. With a decay it is False at all beam energies below the rest masses of the decay products (`C53_decays_refuted`). |
| C58 | `load_pad_sizes` opens `geometry_path` when a pad size file is configured. |
| C61 | `np.linspace(0, 512, 512)` spaces the samples by 512/511 time buckets. On the rising edge every sample is larger than the response at its time bucket (`C61_ordinary_refuted`). |
| C68 | Because of C15 the centres of 428 pads are assigned to a neighbouring pad or to none, and all electrons arriving with 0 ≤ y < 1 mm are lost, although the gap in the plane is 0.3 mm wide. |
| C72 | The trajectory divides the momentum by the mass of the ground state. An excited residual therefore starts with too much kinetic energy; the excess is smaller than the excitation energy. |
| C78 | `transport_track` computes the spread from the arrival time bucket, which includes `micromegas_edge`. Electrons spread as if they had drifted a further `micromegas_edge` time buckets (`C78_effective_length_partial`); without that offset the widths of a whole nucleus are right (`C78_cloud_partial`). |
| C87 | A spread that is lost when added to the position (for example `2^-60` m at 12.5 cm) puts all 100 pixels on the centre of the distribution, and the charge is multiplied by about seven. Real spreads are far larger. |
| C92 | `generate_electrons` takes the change of the kinetic energy, without sign, as the energy given to the gas. The work of the electric field (up to `Z` times 60 keV over a metre) is counted as ionisation (`C92_refuted`). |
| C93 | `run_simulation` skips events without points, but the writer removes the points below the threshold afterwards, and stores a dataset without rows if none is left. |
| C98 | The number of electrons is cut to an integer in every step of 0.1 ns, so that a nucleus losing less than W per step releases no electrons at all, however much it loses on the way (witness: an alpha particle losing 9 keV in a thin gas). The energy lost after the last time step is not counted either. |
| C100 | The normal number is cut towards zero, so that with fluctuations the expected number of electrons is below energy/W at every point at which energy is lost. The difference is less than one electron per point, and the standard deviation is right up to one electron. |
| C115 | Time buckets from 512 on are not recorded, but nothing keeps the window edge below 512. With the documented edges 10 and 560 and a chamber of one metre, everything released in the last 48/550 m (8.7 cm) of the chamber is dropped silently, and tracks that stay there leave an empty cloud. The whole chamber is recorded exactly if the micromegas edge is not negative and the window edge is at most 511. |
| C133 | The constructor compares the rounded sum with 1 without a tolerance. The table 0.6, 0.05, 0.05, 0.05, 0.05, 0.2 sums to exactly 1 in float64, but the running sum is rounded up to 1 + 2^-52, and the constructor raises ValueError. numpy's `choice` accepts the table (its tolerance is 1.5e-8). |
| C149 | The label arrays are named `labels_#`; the user guide (docs/user_guide/detector/index.md:194-196) says `label_#`. No file of any run has a dataset with a documented label name, so a reader that follows the guide gets KeyError. |

Further observations, which are hypotheses or side results of proved theorems:

* C18, C23: the parts that hold assume a vertex inside the volume in which no event function has fired yet, and for C23 a kinetic
  energy of at least 1 eV. `C18_exact_partial` and `C23_exact_partial` give exact conditions.
* C28 needs `max_events_per_file ≥ 1`; with 0 or less every write opens a new file.
* C39: `n_chunks` is written only at the end, which is why an unfinished file is rejected with `KeyError`.
* C46, C49: need a residual with positive mass plus excitation, and a beam energy above minus twice the projectile mass.
* C47: needs a nuclear data map that returns the nucleus asked for.
* C76: the energy bound assumes that no trajectory gains kinetic energy (`LosesEnergy`). The electric field can accelerate a particle, so
  this is an assumption about field and gas. C95 bounds the charge without it.
* C55: the constructor of `PolarArbitrary` only rejects probabilities that add up to more than 1; a smaller sum raises at the first sample
  (`C55_small_sum`).

## Agreement with the project's tests

`Props/Validation.lean` evaluates the model on the inputs of `/repo/tests`. The proton energy of ¹²C(d,p) at 20° comes out as the
18.391 MeV that `test_reaction` takes from LISE, with masses from the atomic mass evaluation. The pairs, proton numbers, mass numbers,
row counts and exceptions of the other tests agree too. `test_pipeline_sample_limit` does not reach the sampling limit: it passes two
angular distributions for one step, so the constructor raises.

## Properties

| id | modelled | proof |
|----|----------|-------|
| C01 | `pair`, `unpair` over `ℤ` with `Nat.sqrt` | arithmetic on `Nat.sqrt` bounds |
| C02 | int64 wrap, binary64 rounding | rounding is monotone and exact on doubles; a double separates `sqrt(id)` from the next integer |
| C03 | dictionary as association list, deposits as fold | refinement to a sum over the deposit history |
| C04 | `transport_track` with zero diffusion | induction on the track |
| C05, C06 | mesh of 10x10 pixels, real Gaussian | factorised sum, bounds on `exp` and `π` |
| C07–C13 | `simulate` for arbitrary solver and generator | invariants over the fold over nuclei, tracks, pixels |
| C14–C16 | `position_to_index` | floor arithmetic; C16: `k / 0.1` rounds to `10 k` because `10 k` is never a power of two |
| C17–C19 | z/time conversions | field arithmetic, floors, rounding |
| C20, C21 | `generate_electrons`, masks | list induction, telescoping |
| C22 | `equation_of_motion` over `ℝ` | algebra; monotonicity from the sign of the derivative |
| C23 | target row at rest | evaluation of the right-hand side |
| C24–C26, C61 | response over `ℝ` | list lemmas |
| C27 | `SpyralWriter.write` with arbitrary `argsort` | permutations |
| C28–C34 | writer state machine over files | invariants by induction over operations |
| C35 | default index list | arithmetic on lists |
| C36 | `run_simulation` loop with an arbitrary writer | induction over events |
| C37–C39 | `run_kinematics_pipeline` as an operation log on a file | induction; all prefixes for crashes |
| C40–C45 | two-body kinematics over `ℝ`, Lorentz boosts | algebra (Minkowski form preserved) |
| C46–C48 | pipeline constructors and chain | induction on the chain |
| C49–C51 | `run` as a loop over a sample stream with a shared buffer | induction on the limit |
| C52, C54–C56 | sampling functions | trigonometry, measure of an interval |
| C53 | `check_excitations_allowed` | evaluation, algebra |
| C57 | converter | list lemmas |
| C58, C60 | `Config` | case analysis |
| C59 | int64 wrap-around counters | refinement to C03 |
| C62 | `run_simulation` with `SpyralWriter` | the loop is a sequence of calls of `write` that stops at the first failure; then C10, C07, C27, C28, C30, C34 |
| C63 | `trajectory_problem` | unfolding, case analysis of the event functions |
| C64 | `equation_of_motion` over `ℝ` | derivatives of the conserved quantities vanish |
| C65, C66, C68 | packaged pad data | evaluation by the kernel (`decide +kernel`) of checks over runs of equal cells, and lemmas that say what the checks mean |
| C67, C69 | `Config`, `format_event`, `run_simulation` | induction over the lines and over the events |
| C70 | `generate_electrons` | list induction over the draws |
| C71, C75 | constructor, `run`, kinematics file, reader | C46, C48, C37 combined |
| C72 | `trajectory_problem` | algebra |
| C73 | `sample` with a random generator state | product of independent draws; measure of a rectangle |
| C74 | `ExcitationGaussian` | density of the normal distribution, bounds on log 2 |
| C76 | `simulate` | sum over the cells of the point dictionary; sums of deposits bounded nucleus by nucleus; C21 |
| C77 | `transverse_transport` | symmetry of the mesh; separation of the double sum; bounds on the sums of exponentials |
| C78 | `transport_track` with the times of `generate_point_cloud` | `transport_step` for a single point; refuted for a micromegas edge of 10 |
| C79 | `simulate`, `format_event` with the packaged data | `Released` (the track points of an event) and its deposits; C66; C17; C27 |
| C80 | `apply_response`, `format_event` | maximum of a clipped multiple; `x³ exp(-3x) ≤ exp(-3)` |
| C81 | `Reaction.calculate` | `TwoBody`: Källén momentum, Lorentz factors; boost along z |
| C82 | `run`, `sample`, `run_kinematics_pipeline` | `Fresh`: a draw independent of the state it leaves; rejection sampling as a geometric sum; the allowed samples form a measurable set; streams of independent numbers as an instance |
| C83 | `run_kinematics_pipeline`, converter, `run_simulation` | two runs from one state produce events of which one list is a prefix of the other; reading is independent of the chunking |
| C84 | converter on files cut short | reading an event beyond the complete ones raises KeyError (also an event without its three attributes); the attributes are absent or right |
| C85 | pipeline, kinematics file, `run_simulation`, `SpyralWriter` together | composition of C35, C62, C71, C75 and C79; a run of three stored events in `Props/ProgramRuns` |
| C86 | `run_simulation` on a finished file | C67: a run fails only if reading or simulating an event fails; C75 excludes the former, C23 the latter |
| C87 | `transverse_transport` in machine arithmetic | forward error analysis: mesh lines to `2^-45`, exponent to `2e-4`, each pixel to `3e-4`; the weights add up to less than 0.9995 |
| C88 | `Reaction.calculate`, `Decay.calculate` and the decay loop in machine arithmetic | the second product is the rounded difference of parent and first product; induction over the chain |
| C89 | drift velocity and time conversion in machine arithmetic | error propagation through two divisions and a sum; monotony of rounding for the lower bound and the order |
| C90 | masking, gain, time conversion and `transport_track` in machine arithmetic | margins of the width; C87 for every point, induction over the track with an invariant on charges and keys |
| C91 | `equation_of_motion` over `ℝ`, exact solutions | derivative of the Lorentz factor along a solution, fundamental theorem of calculus |
| C92 | `equation_of_motion`, `generate_electrons` | C91 with C70; with an explicit solution of constant force for the refutation |
| C93 | `format_event`, `SpyralWriter.write` | C80 and C29 |
| C94 | sequences of `SpyralWriter` runs on one directory | simulation relation of C28, induction over the runs |
| C95 | electron numbers and event charge with an electric field, for an ODE solver without discretisation error (`Spec/ExactIvp.lean`) | a particle moving along the electric force never turns again, so there is at most one turning point; telescoping on both sides |
| C96 | reaction, decays, attempt, equation of motion, events of the solver, electron numbers; rotations in `Spec/Rotation.lean`. The pad plane itself is not symmetric and is left out | every quantity computed from the transverse components is their length or turns with them, branch by branch |
| C97 | accepted events of the pipeline for fresh generators | turning all azimuths, that of the vertex included, modulo 2π preserves the law of a sample (`Proofs/Turning.lean`); whether a sample is accepted does not depend on them; C82 |
| C98 | electrons along an exact trajectory evaluated at the requested times (every 0.1 ns) | kinetic energy only decreases, so the changes telescope; mean value theorem for the part after the last time; integer parts |
| C99 | csv text: line ends, lines, entries, `float`; the text of the two packaged files | reader against a grammar given as relations; the packaged text is compared with the rendered pad data by kernel evaluation |
| C100 | `generate_electrons` with a generator whose uniform and normal draws are ideal (independent, with the stated laws) | the draws are iterates of a fresh draw and so independent; symmetry of the normal density for the bias of the cut; variance of a sum of independent numbers |
| C101 | `simulate` with an ideal generator; solver arbitrary, or exact and evaluating at the requested times | only positive draws are kept; mean of the positive part of a normal number; the generator state after a nucleus is distributed like the initial one; charge balance of C76, energy bound of C95 |
| C102 | `Pipeline.sample` and `run`; distributions arbitrary but fresh; spectrum for `PolarUniform` | the parts of a sample are drawn one after the other and are independent; whether a sample is allowed does not depend on angles; C82, C81 |
| C103 | `PolarArbitrary.sample`, `run` | the first number selects the bin, the second the place in it; induction on the table; C102 |
| C104 | `Decay.calculate`, `PolarUniform.sample`, `sample`, `run` | Archimedes' theorem on the projection of the sphere (spherical coordinates and reflections of the ball); closed form of the rows; independence of the angles of a decay from its parent, Fubini |
| C105 | `equation_of_motion`, the terminal events and the problem posed by `generate_trajectory`, `generate_point_cloud` | outside the momenta that can occur, the field is replaced by a bounded Lipschitz one; Picard–Lindelöf and Grönwall (Mathlib); the electric field bounds the growth of the momentum; the solution is cut at the last time at which no event is passed |
| C106 | `equation_of_motion`, the posed problem, `generate_trajectory`, `generate_electrons`; an exact solver | the complete solution of C105; momentum and displacement are compared with linear functions of time and energy; the electrons are those of C98 |
| C107 | `ExcitationBreitWigner.sample`; a generator with scipy's documented density | scipy's density with `rho = M/width`, `scale = width` is the resonance density; translation by the rest mass; an antiderivative (logarithms and arctangents) shows that scipy's constant normalises it |
| C108 | `equation_of_motion`, the posed problem, the terminal events | substitution of the kinetic energy for the time in the integrals (Mathlib); strict monotonicity of the slowing-down time; displacement is at most path length; the complete solution of C105 |
| C109 | `convert_to_spyral`, `apply_response` in binary64 (`Machine/Response.lean`) | the largest sample commutes with monotone rounding; induction over the samples for the rounded sum; error bounds of C87 |
| C110 | `gv`, `beta`, `gamma`, kinetic energy, `stop_condition`, `generate_electrons` in binary64 (`Machine/Electrons.lean`) | relative errors as numbers of factors `1 - 2^-53`, closed under products, quotients and roots; the rounded root of a rounded square is the number itself, so gamma is at least 1; absolute error of the draws, truncation changes by at most one |
| C111 | all of `Machine/*` except the int64 counters | magnitudes as powers of two, closed under the operations, square roots and rounding; the result is shown not to depend on the rounding of larger numbers |
| C112 | `Pipeline.sample_vertex`, `sample`, `run` with an ideal generator (normal and uniform numbers, all independent) and a gas whose energy losses derive from a stopping power | the vertex is a function of three independent numbers; change of variables z → E (`lintegral_image_eq_lintegral_abs_deriv_mul`); rejection via C82 |
| C113 | `equation_of_motion`, `trajectory_problem`, `generate_trajectory` with an exact solver; no electric field for the closed forms | integrating factors: rotated and rescaled components of the momentum have zero derivative; substitution of the energy for the time (C108) |
| C114 | `get_response`, `apply_response`, `convert_to_spyral`, `SpyralWriter.__init__`, `write` with ZeroDivisionError and NaN (`Detector/ResponseRaw.lean`) | NaN spreads through every sample and fails the comparison with the threshold; equality with `write` at threshold 4096; invariant of the directory over all sequences of calls |
| C115 | `Config.calculate_drift_velocity`, drift time in `generate_point_cloud`, time cut of `simulate` | refuted for the documented settings; the time bucket is linear in the height, the recorded heights are those above `length·(windows_edge − 512)/(windows_edge − micromegas_edge)`; exact condition on the edges; traces of the event and C76 for empty clouds and for the full charge |
| C116 | `generate_point_cloud`, transport, `simulate` at two gains | relational proof: dictionaries with the same keys and labels and related charges, for any relation of charges that survives adding; proportionality, order and multiples as instances |
| C117 | `run_simulation`, `SpyralWriter`, `format_event` with two electronics settings | the directory with the contents of datasets erased evolves independently of the settings (erasure commutes with every operation); uniqueness of the simulated events and C62 for the threshold |
| C118 | `generate_point_cloud`, transport, `simulate`, `format_event` | length of the trace: one mesh (1 or 100 points) per solver state and one solver state per requested time; points are distinct cells, cells are pads outside the beam list times 512 buckets |
| C119 | `simulate` on two lists of nuclei | the trace of the event is the concatenation of the traces; the fold over nuclei restarts with any dictionary; charges and labels of a cell read off the trace |
| C120 | `run_simulation` with two solvers | solutions of the equation of motion up to the stopping event are unique (C105), so `generate_trajectory` and everything after it are equal; congruence of the event loop for any writer |
| C121 | `KinematicsPipeline.run`, `Reaction.calculate`, `Decay.calculate` | induction over the decay loop with C41; uniqueness of a two-body break-up with given masses and direction (the boost is invertible); conversely missing masses and injectivity of (θ, φ) on (0, π) × [0, 2π) |
| C122 | `simulate` and runs of it; ideal generator (`FreshGen`), with uniform law for the times | procedures with countably many results (electron counts, point dictionary) compose to fresh ones even if they may raise; the uniform draws are one per dictionary entry |
| C123 | `Reaction.calculate` | from the closed form of C81: a completed square gives the bound and where it is attained; all angles by the intermediate value theorem |
| C124 | `simulate`, `dict_to_points` and the formatting of `write` in machine arithmetic (`Machine/Event.lean`) | induction over the nuclei of the event with C110 and C90; induction over the dictionary entries with C02, C59, C19; C109 for the stored rows |
| C125 | `Reaction.calculate`, `Decay.calculate`, `Pipeline.attempt` over all angles | inverse Lorentz boost and spherical coordinates give the angles of any final state; induction over the decays; the momentum along a direction solves a quadratic equation |
| C126 | as C106, with any electric field | the rate of change of the momentum per mass is the net force against the motion; a comparison at the initial value shows that the energy never exceeds it, then as C106 |
| C127 | `simulate` with everything below it; an exact solver | the charge balance of C76 and the mesh loss of C06 over the deposits of every nucleus, with the electrons of C126 |
| C128 | `simulate` with everything below it, an ideal generator, any diffusion and geometry; `C128_energy`: an exact solver | the charge is a sum of what independent normal numbers leave, each within the cutting loss of the gain times the recorded share times the kept integer part (`recording_sum`); positive and negative parts of a normal number bounded by its second and fourth moments; standard deviations as a norm; Chebyshev |
| C129 | `generate_trajectory`, `generate_electrons`, `simulate` with a solver whose states are within given distances of the true trajectory (`Spec/ApproxIvp.lean`) | uniqueness (C105) and stopping (C126) of the true trajectory; the kinetic energy changes by at most the mass times the change of the momentum per mass; the variation along the track grows by at most twice that per step; C128 with bounds of the energies in place of the energies |
| C130 | `simulate` in machine arithmetic with a solver with errors (`Machine/Event.lean`) | lower bound of the rounded pixels from the mesh weights of C87; the pixels stay within 3.01 widths of the centre, so recording pads around the point keep all of them; induction over track and nuclei; time buckets up to 510 cannot round out of the window; C129 for the energies |
| C131 | `Reaction.calculate`, `Decay.calculate`, `run`, `simulate` with the default list of nuclei | the final rows are the default indices; conservation (C46) and mass shells give the energies, an excited nucleus starts between its true energy and that times the mass ratio (C72); C129 for the charge |
| C132 | `get_response` and `apply_response` in float64 (`Machine/Template.lean`, `Machine/Response.lean`), with arbitrary `np.exp`, `np.sin` and third power of accuracy 2^-50 | relative errors of each factor; `exp(-3x) x^3` and `exp(-3x) x^4` are bounded, which makes up for the growing error of the exponent and of the argument of the sine; maximum, clipping and sum are 1-Lipschitz; C109 for the rest |
| C133 | `PolarArbitrary.__init__` in float64 (`Machine/Sampling.lean`); numpy's sum of 8 or more entries is a parameter with one rounding error per entry | refuted by a table whose running sums are computed digit by digit (a number closer than half a unit to a double is rounded to it); partial: the rounded sum is within one rounding per entry of the exact one |
| C134 | `PolarArbitrary.sample`, numpy's `choice` with `kahan_sum`, `cumsum`, `searchsorted`, in float64 | rounding is monotone, so the cumulative shares are ordered, end in 1 and repeat for zero weights; error bounds of the shares; counting the multiples of 2^-53 in an interval |
| C135 | `rng.uniform` as numpy computes it, `PolarUniform`, `ExcitationUniform` in float64 | a double times a number below 1 is rounded below the double; the rounded width is nearest, so smaller doubles do not exceed the exact width; the cosine drops by at least 2 sin²(δ/2) over δ |
| C136 | `is_excitation_allowed` and `calculate` of `Reaction` and `Decay` in float64 (`Machine/Kinematics.lean`); sine, cosine, `boost`, `boostCM_of` and `M` are parameters: at most 1, the invariant mass to 9e-14 for parents with γ up to √5, and numbers for moderate vectors (contract `Kin64.BoostOk`) | relative errors through sums, squares and square roots; W² ≤ 4 e² bounds the cancellation in W² − p²; the margin above threshold exceeds the error under the last square root |
| C137 | as C136, with accuracy of sine, cosine and boost (`Kin64.Accurate`) | the computed momentum is the root of the computed energy, so the vector in the centre-of-mass frame is on the shell up to rounding; exact boosts keep masses, close components have close masses; the mass of the rest is M² − 2ME + m² |
| C138 | as C137, with the exact model of both functions | the boost is linear in the vector and Lipschitz in the four-velocity of the parent; the errors of the vectors in the centre-of-mass frame come from C136 |
| C139 | `equation_of_motion`, event functions, `TIME_STEPS` and the problem of `generate_trajectory` in float64 (`Machine/Motion.lean`); the value of `get_dedx` is not rounded | errors relative to the size of the vector, passed through each product; different doubles are at least 2^-1074 apart, so a rounded difference keeps its sign |
| C140 | `sample`, `run`, the reaction; in float64 `attempt64` | the invariant mass grows with the beam energy and exceeds the rest masses; in float64 both sums of masses round alike, so the Q value is 0, and the margin of C136 follows from the energy |
| C141 | `attempt64`, `decayLoop64` against `attempt` | the mass, the four-velocity and the momentum of the products are Lipschitz in the parent, so errors pass from decay to decay with an explicit factor; induction over the chain on top of C136 and C138 |
| C142 | `runLoop64`, `run64` (Machine/Run.lean) against `Pipeline.run`, and both under `run_kinematics_pipeline` | sample by sample from C136 and C141, then induction over the samples of a run and over the events; C37 for the file. The arithmetic inside the samplers is not rounded here (C144 does that) |
| C143 | `init64`, `write64`, `run_event64`, `run_events64`, `run_simulation64` (Machine/Simulation.lean) | C124 for each event, C132 for the template of the writer, and the relation between writer and list of stored events behind C29 and C30 (Proofs/Store.lean); induction over the events. The solver of `solve_ivp` and `spyral_utils` stay arbitrary; the rows `EventReady` asks for must lie inside the detector for all draws |
| C144 | `normal64`, `excitation_gaussian_sample64`, `sample_vertex64`, `sample64` (Machine/Sample.lean), and `run64` with these samples | one rounding after the other; `2π` is computed exactly as a binary64 number below 2π (bounds on π from Mathlib), so that C135 applies; C142 for the event and C37 for the file. The energy loss of the gas is exact but for one subtraction; its Lipschitz constant is a hypothesis. `ExcitationBreitWigner` is covered by `SameDraw` as a hypothesis only |
| C145 | `simulate64` beside `simulate`, with `GridSame` for the grid edges (proved for the packaged ones) and `ClearEvent` for the tracks | the two dictionaries are kept in step (`sameCells`): same keys, labels and order, with the charge differences added up; a number whose distance to the whole numbers exceeds its rounding error has the same floor; C89, C87 and C110 for the rounding of the drift time, the mesh and the electrons. The tracks are given by the same solver in both. 3e-4 comes from the smallest width allowed, 2^-30 m, where the rounding of the mesh positions counts most |
| C146 | `format_event64` with `get_response64` beside `format_event` with `get_response`, for clouds with the same pads | heights: four roundings, each relative to the length of a bucket; signals: C132 at the float64 charge and a Lipschitz bound of the clipped signal in the charge; the mask of the cut is the same because amplitudes differ by less than their distance to the threshold; the order is the same because the exact heights are more than twice the error apart (`sort_same`, for any argsort). `C146_event` puts C145 and C146 together |
| C147 | `run_simulation64` with `init64` and `write64` beside `run_simulation` with `Writer.init` and `Writer.write`, on the same kinematics file and directory | lock step: `SameWriter` (equal counters and names, `SameDisk` now and after every operation so far) is kept by every disk operation, the rollover, a call of `write` and the event loop; C145 and C146 for one event. The run in exact arithmetic is assumed to complete (C86 says when); the writer is made with the same settings as the run |
| C148 | the last stage of `simulate` (`uniformN`, `maskSel`), `format_event`, `Writer.write`, `run_simulation`; the generator is an ideal one (`FreshGen`, uniform in [0, 1)) | the rows in the window have the times bucket + draw of different numbers; two draws are independent (product measure), so a strip of width 2ε has probability at most 2ε; union bound over pairs; the dictionary is independent of the later draws (C122). Runs: null sets are pulled back along the generator states of the events. Real numbers for times: in float64 ties have small positive probability, which the bound for ε = 2e-12 covers together with C146 |
| C149 | `event_ops`, `Writer.write`; the documented name is a constant of the statement | refuted for every run: the datasets of all files are those of C28, whose names start with `cloud_` or `labels_`, and `label_n` is none of them; partial: C29 with the names written out |
| C150 | `Pipeline.run`, `run_kinematics_pipeline`; samples from an ideal generator (`Fresh`, C82); `draws` counts the samples of a sequence and is tied to the run by the state of the generator afterwards | outcomes from the specification of the loop (C49) and of the file (C37); completion from the independence of the accepted samples (C82) and a geometric sum; the mean number of samples by one step of the loop at a time |
| C151 | `run64`, `run_kinematics_pipeline`, `Pipeline.run` on the same samples (`Fresh`); `Decisive` (C142) only for the samples that are drawn (`draws`, C150) | the loop of C142 along one path; the probability of meeting a set of samples by the recursion that gives the mean number of samples in C150. The example has a bound of 2e-10 per event |
| C152 | `run_simulation` with any writer that does not raise, as in C122; `passed` counts what the writer was given | the sets of runs with a given pattern of successes are those of C122 (`run_set`, `together_prob`); independent indicator variables, Chebyshev and Hoeffding. The example file has two events and exactly one early first point with probability 1/2 |
| C153 | `run_kinematics_pipeline` and then `run_simulation` on its file (`mapData plainRows`), with independent generators; the detector's response is assumed to be measurable on the allowed samples (`SampledMeasurable`) since `solve_ivp` is arbitrary | for a fixed state of the first generator C122 and C152; then the product over the accepted samples is integrated sample by sample (`picked`, `weight`), as in C150. In the example an event is found with probability 7/8 and meets the criterion with probability 1/2 |
| C154 | `Pipeline.run` and `run_kinematics_pipeline` as in C150; the counts of rejected samples are not returned by the code, they are defined from the sequence of samples (`AcceptedAfter`, `CountedSamples`) and tied to the final state of the generator | the set of states with given counts is a disjoint union over the counts, each of which is an intersection of independent events (`within_prob`); the total by the sum of binomial coefficients along a diagonal |
| C155 | as C153 | C153 gives the binomial law given that both programs complete; the bounds on its tails (`Proofs/Binomial.lean`) from the variance of the Bernstein polynomials and from Hoeffding's lemma for one trial |
| C156 | the code of C105, C120 and C126 | the moved trajectory solves the moved problem and, by the uniqueness of C105, cannot be continued; tracks follow; the dictionaries of the two events correspond entry by entry (`Delayed`), which every deposit preserves because `pair` is injective (C01); all rows pass the mask. Diffusion is 0 in the theorems about clouds: with diffusion the spread grows with the drift time; whole runs in `TranslationRun.lean`, for a sorting function that only compares (`ComparesOnly`) |
| C157 | as C96 and C105 | solutions of the two problems correspond in both directions, hence complete solutions and tracks (`track_image`); uniqueness from C105 |
| C158 | `mkConfig`, `generate_point_cloud`, `simulate`, `convert_point`, `format_event` | fold over nuclei with the relation `Delayed` of C156; the writer's mask and sort see only unchanged columns; for whole runs (`TriggerRun.lean`) every operation on the files commutes with a change of the stored rows. Diffusion is excluded because the width is computed from the time including the edge (C78) |
| C159 | `Reaction.is_excitation_allowed`, `Pipeline.sample`, `Pipeline.run`; the energy loss is any function of the depth that grows continuously | infimum of a closed set for the depth; the law of accepted samples of C82 and the law of vertices of C112 |
| C160 | `fano_draws`, `generate_point_cloud`, `simulate`, `format_event`, two generators with different state types | a normal draw of width 0 is its mean (contract of the generator); the dictionaries are equal, and the wiggle keeps the bucket; permutation from C27 |
| C161 | as C159, with any excitation distribution | vertex and excitation are independent, so the joint law is a product (Tonelli); the depth is a monotone, hence measurable, function of the excitation; C82 for the accepted events |
| C162 | `mkConfig`, `simulate`, `convert_point`, `format_event`, the writer and the run | the cloud does not read the tables; a lookup fails for both tables or for none because their lengths agree; mask and sort see only unchanged columns; file operations commute with a change of the rows (`TriggerRun.lean`) |
| C163 | `get_response`, `apply_response`, `simulate`, `format_event`, the writer and the run | C116 relates the clouds, C117 removes the electronics from the simulation; each product of response and charge is unchanged, so clipping, mask and sort see the same numbers. Real arithmetic. With diffusion the cut to whole electrons breaks the proportionality (C116) |
| C164 | `Reaction`, `Decay`, `sample`, `run`, `run_kinematics_pipeline` | Homogeneity: square roots, boosts and invariant masses are homogeneous of degree one or zero, and induction over decays and attempts. Real arithmetic; the target is rescaled as a function (it is asked and answers in the new unit), its tables are not modelled |
