{"id": "C01", "title": "pair/unpair are mutually inverse", "statement": "For every time bucket tb >= 0 and pad >= 0, unpair(pair(tb, pad)) returns (tb, pad) in that order; for every id >= 0, pair(*unpair(id)) returns id. A negative tb or pad gives id -1, and a negative id unpairs to (-1, -1). Hence two different (tb, pad) pairs never share an id.", "quantifier": "all integers tb, pad, id", "why_tests_cant": "the id space is infinite; the two existing tests check one pair on each side of the diagonal", "anchors": ["src/attpc_engine/detector/pairing.py:pair", "src/attpc_engine/detector/pairing.py:unpair"]}
{"id": "C02", "title": "pair/unpair stay exact in machine arithmetic", "statement": "As compiled (int64 products, float64 sqrt/floor/multiply/subtract, round-to-nearest-even) unpair(pair(tb, pad)) is still exactly (tb, pad) for all tb, pad < 2^26, with no overflow and no rounding error.", "quantifier": "all pairs with ids below 2^52, under IEEE-754 binary64 rounding", "why_tests_cant": "4.5e15 ids; a rounding failure of floor(sqrt(id)) would occur only next to perfect squares", "anchors": ["src/attpc_engine/detector/pairing.py:pair", "src/attpc_engine/detector/pairing.py:unpair"]}
{"id": "C03", "title": "The point dictionary is a per-(pad, time bucket) charge counter", "statement": "After any sequence of deposits, from any tracks, nuclei and diffusion settings, the charge stored for (tb, pad) equals the sum of precisely the electrons deposited on that pad in that time bucket: no charge leaks between pads or time buckets.", "quantifier": "all finite histories of deposits into an initially empty point dictionary", "why_tests_cant": "histories are unbounded and collisions depend on the pairing of all ids", "anchors": ["src/attpc_engine/detector/transporter.py:point_transport", "src/attpc_engine/detector/transporter.py:transverse_transport", "src/attpc_engine/detector/pairing.py:pair"]}
{"id": "C04", "title": "Charge conservation without diffusion", "statement": "With zero diffusion, transporting a track increases the total charge in the point dictionary by exactly the sum of the electrons of those track points whose grid cell is a pad that is neither -1 nor a beam pad; all other track points change nothing.", "quantifier": "all tracks, electron counts, pad grids, labels and initial dictionaries", "why_tests_cant": "needs every track and every grid", "anchors": ["src/attpc_engine/detector/transporter.py:point_transport", "src/attpc_engine/detector/transporter.py:transport_track"]}
{"id": "C05", "title": "Diffusion never creates charge", "statement": "With diffusion, the total charge added for one track point with e >= 0 electrons is between 0 and e, whatever the position, the spread sigma and the pad grid, and each of the mesh pixels adds a non-negative amount.", "quantifier": "all positions, sigma > 0, electron counts, grids", "why_tests_cant": "the bound is an inequality between an exponential sum and 1 that must hold for every sigma and every truncation pattern", "anchors": ["src/attpc_engine/detector/transporter.py:transverse_transport", "src/attpc_engine/detector/transporter.py:bivariate_normal_pdf", "src/attpc_engine/detector/transporter.py:meshgrid"]}
{"id": "C06", "title": "Diffusion loses only the tails and the truncation", "statement": "If every mesh pixel lands on an active pad, at least 99.8 percent of the electrons minus one electron per pixel (100) are deposited.", "quantifier": "all positions, sigma > 0, electron counts, grids with all pixels active", "why_tests_cant": "same as C05: an analytic bound over all sigma", "anchors": ["src/attpc_engine/detector/transporter.py:transverse_transport", "src/attpc_engine/detector/transporter.py:bivariate_normal_pdf"]}
{"id": "C07", "title": "No point on a beam pad or off the pad plane", "statement": "Every row of the cloud returned by simulate has a pad id that occurs in the pad grid, is non-negative, is not -1 and is not one of BEAM_PADS.", "quantifier": "all kinematics events, configurations, trajectories, random draws and index lists", "why_tests_cant": "depends on every trajectory and every random draw", "anchors": ["src/attpc_engine/detector/simulator.py:simulate", "src/attpc_engine/detector/transporter.py:point_transport", "src/attpc_engine/detector/transporter.py:transverse_transport", "src/attpc_engine/detector/beam_pads.py:BEAM_PADS"]}
{"id": "C08", "title": "Only recordable time buckets are returned", "statement": "Every row of the cloud returned by simulate has 0 <= time bucket < 512; nothing recorded at a time earlier than or equal to -1 or later than or equal to 512 survives, and every dictionary point whose integer time bucket lies in [0, 511] does survive.", "quantifier": "all events, trajectories, random draws", "why_tests_cant": "depends on every trajectory and every random draw", "anchors": ["src/attpc_engine/detector/simulator.py:simulate", "src/attpc_engine/detector/simulator.py:dict_to_points"]}
{"id": "C09", "title": "At most one row per pad and time bucket", "statement": "Two different rows of the cloud returned by simulate never have the same pad id and the same integer time bucket, and the row's charge is the full charge of that pad and time bucket.", "quantifier": "all events, trajectories, random draws", "why_tests_cant": "depends on every history of deposits", "anchors": ["src/attpc_engine/detector/simulator.py:simulate", "src/attpc_engine/detector/simulator.py:dict_to_points"]}
{"id": "C10", "title": "Labels are aligned and name the last depositing nucleus", "statement": "simulate returns as many labels as rows; each label is an element of the requested index list whose proton number is non-zero and which deposited on that row's pad and time bucket, namely the last such one in list order.", "quantifier": "all events, index lists, trajectories, random draws", "why_tests_cant": "overlaps between nuclei on the same pad/time bucket occur only for particular trajectories", "anchors": ["src/attpc_engine/detector/simulator.py:simulate", "src/attpc_engine/detector/solver.py:generate_point_cloud", "src/attpc_engine/detector/transporter.py:transport_track"]}
{"id": "C11", "title": "The labelled nucleus produced charge in the point", "statement": "The nucleus named by a row's label contributed at least one electron to that row.", "quantifier": "all events, index lists, trajectories, random draws", "why_tests_cant": "a counterexample needs two overlapping tracks with a zero-electron pixel; a proof needs all tracks", "anchors": ["src/attpc_engine/detector/transporter.py:transverse_transport", "src/attpc_engine/detector/simulator.py:simulate"]}
{"id": "C12", "title": "Neutral nuclei leave no trace", "statement": "A nucleus with proton number 0 in the index list changes neither the point cloud, nor the labels, nor the random stream: removing it from the list gives the same result.", "quantifier": "all events and index lists", "why_tests_cant": "must hold for every position in every list", "anchors": ["src/attpc_engine/detector/simulator.py:simulate"]}
{"id": "C13", "title": "Charges do not depend on the order of the nuclei", "statement": "For fixed per-nucleus tracks and electron counts, processing the nuclei in any order yields the same charge for every pad and time bucket and the same set of occupied (pad, time bucket) pairs.", "quantifier": "all permutations of all lists of nuclei", "why_tests_cant": "number of permutations and of overlap patterns is unbounded", "anchors": ["src/attpc_engine/detector/simulator.py:simulate", "src/attpc_engine/detector/transporter.py:transport_track"]}
{"id": "C14", "title": "Grid indexing stays in bounds", "statement": "For every finite (x, y), position_to_index returns either (-1, -1) or two indices in [0, N) for an NxN grid with N * step >= high - low; it returns (-1, -1) exactly when x or y lies outside [ceil(low), ceil(high)) millimetres. For the packaged grid (5600x5600, edges -280, 279, step 0.1) indexing never leaves the array.", "quantifier": "all finite positions, all grid edges with positive step", "why_tests_cant": "numba does not bounds-check, so a single out-of-range position reads foreign memory", "anchors": ["src/attpc_engine/detector/transporter.py:position_to_index", "src/attpc_engine/detector/parameters.py:Config.load_pad_grid"]}
{"id": "C15", "title": "The cell used is the grid cell containing the position", "statement": "position_to_index returns the index of the spatial bin [low + i*step, low + (i+1)*step) that contains the position, as the pad grid documentation defines it.", "quantifier": "all positions inside the grid, all steps", "why_tests_cant": "continuous domain", "anchors": ["src/attpc_engine/detector/transporter.py:position_to_index", "src/attpc_engine/detector/parameters.py:Config.load_pad_grid"]}
{"id": "C16", "title": "Grid index arithmetic is exact in floating point", "statement": "For the packaged grid the float64 expression int((floor(x) - low) / step) with step the double nearest 0.1 equals 10 * (floor(x) + 280) for every admissible position: rounding never moves a hit to a neighbouring row.", "quantifier": "all admissible positions under IEEE-754 binary64 rounding", "why_tests_cant": "division by a rounded 0.1 could round below the integer for some row only", "anchors": ["src/attpc_engine/detector/transporter.py:position_to_index"]}
{"id": "C17", "title": "Drift time conversion and its inverse agree", "statement": "The z written to disk equals the z of the track point exactly when the exact time bucket is used, and differs from it by less than the length of one time bucket after truncation and the uniform wiggle.", "quantifier": "all detector lengths, edges and z", "why_tests_cant": "continuous domain, composes three modules", "anchors": ["src/attpc_engine/detector/solver.py:generate_point_cloud", "src/attpc_engine/detector/writer.py:convert_to_spyral", "src/attpc_engine/detector/parameters.py:Config.calculate_drift_velocity", "src/attpc_engine/detector/simulator.py:simulate"]}
{"id": "C18", "title": "Drift times lie between the micromegas and window edges", "statement": "A track point inside the active volume gets a time bucket in [micromegas_edge, windows_edge]; since a trajectory ends when it leaves the detector, all transported points are of this kind and transport never sees a negative time.", "quantifier": "all lengths, edges, and z allowed by the trajectory end conditions", "why_tests_cant": "continuous domain and depends on hard-coded bounds in another function", "anchors": ["src/attpc_engine/detector/solver.py:generate_point_cloud", "src/attpc_engine/detector/solver.py:forward_z_bound_condition", "src/attpc_engine/detector/solver.py:backward_z_bound_condition"]}
{"id": "C19", "title": "The time wiggle keeps the integer time bucket", "statement": "The random offset added to the time bucket never changes its integer part, so rows keep the time bucket in which the charge was recorded.", "quantifier": "all time buckets and all offsets in [0,1)", "why_tests_cant": "the failing offsets have probability about 2^-44 per draw", "anchors": ["src/attpc_engine/detector/simulator.py:simulate"]}
{"id": "C20", "title": "Every transported track point carries at least one electron times the gain", "statement": "generate_point_cloud only transports track points with at least one primary electron, with charge (primary electrons) x gain; the first track point never produces electrons.", "quantifier": "all tracks, random draws, gains, Fano factors", "why_tests_cant": "all random draws", "anchors": ["src/attpc_engine/detector/solver.py:generate_electrons", "src/attpc_engine/detector/solver.py:generate_point_cloud"]}
{"id": "C21", "title": "Ionisation never exceeds the energy lost", "statement": "With Fano factor 0, the total number of primary electrons of a track along which the kinetic energy does not increase is at most (first minus last kinetic energy) * 1e6 / W, hence at most the initial kinetic energy over W.", "quantifier": "all tracks with non-increasing energy", "why_tests_cant": "unbounded track length, truncation at each point", "anchors": ["src/attpc_engine/detector/solver.py:generate_electrons"]}
{"id": "C22", "title": "The equation of motion is the relativistic Lorentz force with drag", "statement": "The returned velocity is parallel to gamma*beta and has magnitude below c; the magnetic term does no work; the rate of change of kinetic energy is the electric power minus dE/dx times speed. Hence along every exact solution with zero electric field and non-negative stopping power the kinetic energy never increases.", "quantifier": "all states with non-zero momentum, all fields, all stopping-power functions, all exact solutions", "why_tests_cant": "continuous state space and all trajectories", "anchors": ["src/attpc_engine/detector/solver.py:equation_of_motion"]}
{"id": "C23", "title": "Any nucleus index of the event can be simulated", "statement": "run_simulation accepts any documented nucleus index (0 = target, 1 = projectile, ...) in indices and produces a point cloud for it.", "quantifier": "all events and all indices", "why_tests_cant": "needs reasoning about the target row of every kinematics event", "anchors": ["src/attpc_engine/detector/simulator.py:run_simulation", "src/attpc_engine/detector/solver.py:equation_of_motion", "src/attpc_engine/kinematics/reaction.py:Reaction.calculate"]}
{"id": "C24", "title": "ADC amplitude and integral are bounded", "statement": "For every configuration with positive gain, shaping time and clock frequency and every non-negative charge, 0 <= amplitude <= 4095, amplitude <= integral <= 512 * 4095.", "quantifier": "all electronics settings and charges", "why_tests_cant": "continuous domain", "anchors": ["src/attpc_engine/detector/response.py:apply_response", "src/attpc_engine/detector/response.py:get_response"]}
{"id": "C25", "title": "ADC signals grow with charge and are linear until saturation", "statement": "More charge never gives a smaller amplitude or integral; while no sample saturates, amplitude and integral are proportional to the charge.", "quantifier": "all electronics settings, all pairs of charges", "why_tests_cant": "continuous domain", "anchors": ["src/attpc_engine/detector/response.py:apply_response"]}
{"id": "C26", "title": "The response template is non-negative with 512 samples and zero at time zero", "statement": "get_response returns 512 samples, each >= 0, the first one 0, and each equal to the analytic response when that is non-negative.", "quantifier": "all electronics settings with positive gain, shaping time and clock frequency", "why_tests_cant": "continuous domain", "anchors": ["src/attpc_engine/detector/response.py:get_response"]}
{"id": "C27", "title": "The writer stores exactly the above-threshold points, sorted by z, with their labels", "statement": "For every event, the multiset of (row, label) pairs stored is exactly the multiset of converted rows whose amplitude exceeds the ADC threshold paired with their own labels, and the stored rows are sorted by ascending z, whichever order argsort gives to ties.", "quantifier": "all clouds, labels, configurations, and all admissible argsort results", "why_tests_cant": "argsort is not stable and inputs are unbounded", "anchors": ["src/attpc_engine/detector/writer.py:SpyralWriter.write", "src/attpc_engine/detector/writer.py:convert_to_spyral"]}
{"id": "C28", "title": "File splitting", "statement": "For max_events_per_file >= 1 no file ever holds more than that many events, every file but the last holds exactly that many, and the files are numbered consecutively from first_run_number.", "quantifier": "all sequences of writes, all limits >= 1", "why_tests_cant": "unbounded histories; the default limit of 5000 is beyond unit tests", "anchors": ["src/attpc_engine/detector/writer.py:SpyralWriter.write", "src/attpc_engine/detector/writer.py:SpyralWriter.create_next_file"]}
{"id": "C29", "title": "Every written event is stored once, intact, and can be read back", "statement": "After any sequence of writes with distinct event numbers, each event's cloud and labels are found under cloud_<n> and labels_<n> in exactly one file, unchanged by all later writes, and orig_run/orig_event give that file's run number and n; concatenating the files in run order gives the events in write order.", "quantifier": "all histories of writes with pairwise distinct event numbers", "why_tests_cant": "unbounded histories, all rollover points", "anchors": ["src/attpc_engine/detector/writer.py:SpyralWriter.write", "src/attpc_engine/detector/writer.py:SpyralWriter.create_next_file"]}
{"id": "C30", "title": "Event range metadata brackets the file contents", "statement": "After close, for increasing event numbers, every file's min_event <= every event in it <= max_event, max_event is the last event in it if it has any, and the ranges of different files do not overlap.", "quantifier": "all histories of writes with increasing non-negative event numbers", "why_tests_cant": "unbounded histories", "anchors": ["src/attpc_engine/detector/writer.py:SpyralWriter.set_number_of_events", "src/attpc_engine/detector/writer.py:SpyralWriter.write", "src/attpc_engine/detector/writer.py:SpyralWriter.close"]}
{"id": "C31", "title": "min_event and max_event are the first and last stored events", "statement": "In every closed file min_event and max_event are the event numbers of the first and last event stored in that file.", "quantifier": "all histories of writes with increasing event numbers", "why_tests_cant": "depends on which events have empty clouds", "anchors": ["src/attpc_engine/detector/writer.py:SpyralWriter.__init__", "src/attpc_engine/detector/writer.py:SpyralWriter.set_number_of_events"]}
{"id": "C32", "title": "Distinct run numbers give distinct file names", "statement": "run_<n> file names of one writer are pairwise different for all run numbers (also beyond 9999), so that a writer never truncates a file it wrote before.", "quantifier": "all pairs of run numbers", "why_tests_cant": "infinite domain, width-4 formatting overflows at 10000", "anchors": ["src/attpc_engine/detector/writer.py:SpyralWriter.create_next_file"]}
{"id": "C33", "title": "A failing write does not damage stored events", "statement": "Writing an event number that the current file already holds, or writing after close, raises an error and leaves every stored event and all metadata of every file unchanged.", "quantifier": "all reachable writer states", "why_tests_cant": "all reachable states", "anchors": ["src/attpc_engine/detector/writer.py:SpyralWriter.write", "src/attpc_engine/detector/writer.py:SpyralWriter.close"]}
{"id": "C34", "title": "Files are complete at every crash point", "statement": "At every point of a run, every file except the one being written has its event range metadata and exactly max_events_per_file events.", "quantifier": "all prefixes of all write histories", "why_tests_cant": "crash points are unbounded", "anchors": ["src/attpc_engine/detector/writer.py:SpyralWriter.write", "src/attpc_engine/detector/writer.py:SpyralWriter.close"]}
{"id": "C35", "title": "By default exactly the final products are simulated", "statement": "With indices=None the nuclei simulated are precisely, each once, the nuclei of the chain that are neither beam nor target nor decay further.", "quantifier": "all reaction chains of any length", "why_tests_cant": "chains have unbounded length", "anchors": ["src/attpc_engine/detector/simulator.py:run_simulation", "src/attpc_engine/kinematics/pipeline.py:KinematicsPipeline.get_proton_numbers"]}
{"id": "C36", "title": "Every event is simulated once, in order, and empty clouds are skipped", "statement": "run_simulation simulates events 0..n-1 in order, calls the writer exactly once for each event whose cloud is non-empty, under its own event number, and finally closes the writer exactly once.", "quantifier": "all kinematics files, all writers, all random draws", "why_tests_cant": "unbounded event counts", "anchors": ["src/attpc_engine/detector/simulator.py:run_simulation"]}
{"id": "C37", "title": "Kinematics file round trip", "statement": "For every event count and chunk size, the reader finds event k in group chunk_(k // chunk_size) and obtains the momenta and vertex that run_kinematics_pipeline produced for event k.", "quantifier": "all event counts, chunk sizes >= 1, all event contents, all k", "why_tests_cant": "chunks have a million events", "anchors": ["src/attpc_engine/kinematics/pipeline.py:run_kinematics_pipeline", "src/attpc_engine/detector/simulator.py:run_simulation", "src/attpc_engine/kinematics/convert_kinematics.py:convert_kinematics_hdf5_to_polars"]}
{"id": "C38", "title": "Chunk metadata partitions the events", "statement": "n_chunks is the number of chunk groups; chunk c records min_event = c * chunk_size and max_event = min((c+1) * chunk_size, n) - 1, and holds precisely those events.", "quantifier": "all event counts >= 1 and chunk sizes >= 1", "why_tests_cant": "chunks have a million events", "anchors": ["src/attpc_engine/kinematics/pipeline.py:run_kinematics_pipeline"]}
{"id": "C39", "title": "An interrupted kinematics run is never mistaken for a complete one", "statement": "If sampling stops early at any point (exception or kill), the file left behind holds a prefix of the events unchanged, and run_simulation on it raises before simulating anything.", "quantifier": "all crash points of all runs", "why_tests_cant": "crash points are unbounded", "anchors": ["src/attpc_engine/kinematics/pipeline.py:run_kinematics_pipeline", "src/attpc_engine/detector/simulator.py:run_simulation"]}
{"id": "C40", "title": "Two-body reactions conserve four-momentum and put the products on their mass shells", "statement": "Whenever the reaction is energetically allowed, calculate returns four vectors with target + projectile = ejectile + residual, ejectile invariant mass equal to its mass and residual invariant mass equal to its mass plus the excitation, positive energies.", "quantifier": "all masses, energies, angles, excitations that are allowed", "why_tests_cant": "continuous six-parameter domain; the only test checks one value", "anchors": ["src/attpc_engine/kinematics/reaction.py:Reaction.calculate"]}
{"id": "C41", "title": "The sampled angles are the centre-of-mass angles", "statement": "Boosted to the centre-of-mass frame, the ejectile of Reaction.calculate (residual_1 of Decay.calculate) has exactly the requested polar and azimuthal direction, and the other product is back to back.", "quantifier": "all masses, energies, angles, excitations that are allowed", "why_tests_cant": "continuous domain", "anchors": ["src/attpc_engine/kinematics/reaction.py:Reaction.calculate", "src/attpc_engine/kinematics/reaction.py:Decay.calculate"]}
{"id": "C42", "title": "is_excitation_allowed is exactly the energetic condition", "statement": "Reaction.is_excitation_allowed is true iff the invariant mass of projectile plus target exceeds the sum of the outgoing masses plus excitation; in that case no square root of a negative number occurs in calculate. Same for Decay.", "quantifier": "all masses, energies, excitations", "why_tests_cant": "continuous domain", "anchors": ["src/attpc_engine/kinematics/reaction.py:Reaction.is_excitation_allowed", "src/attpc_engine/kinematics/reaction.py:Decay.is_excitation_allowed"]}
{"id": "C43", "title": "An allowed excitation is never rejected by calculate", "statement": "If is_excitation_allowed returns True then calculate does not raise, so that a pipeline resamples instead of crashing.", "quantifier": "all masses, energies, excitations", "why_tests_cant": "the violating window is a fraction of a percent of the threshold energy", "anchors": ["src/attpc_engine/kinematics/reaction.py:Reaction.calculate", "src/attpc_engine/kinematics/reaction.py:Decay.calculate", "src/attpc_engine/kinematics/pipeline.py:KinematicsPipeline.run"]}
{"id": "C44", "title": "calculate raises below threshold instead of returning NaN", "statement": "For every energy, Reaction.calculate either raises or returns finite four-vectors.", "quantifier": "all masses, energies, excitations", "why_tests_cant": "the violating window is narrow", "anchors": ["src/attpc_engine/kinematics/reaction.py:Reaction.calculate"]}
{"id": "C45", "title": "Decays conserve four-momentum and put the products on their mass shells", "statement": "Whenever the decay is allowed, calculate returns the parent unchanged and two products whose sum is the parent, with invariant masses residual_1 and residual_2 + excitation.", "quantifier": "all parents with positive mass, angles, excitations that are allowed", "why_tests_cant": "continuous domain", "anchors": ["src/attpc_engine/kinematics/reaction.py:Decay.calculate"]}
{"id": "C46", "title": "The whole chain conserves energy and momentum", "statement": "For every event that run returns, the four-momenta of the final products of the chain add up to beam plus target, every nucleus has the invariant mass of its species plus its sampled excitation, and no entry is NaN.", "quantifier": "all chains of any length and all accepted samples", "why_tests_cant": "chains have unbounded length", "anchors": ["src/attpc_engine/kinematics/pipeline.py:KinematicsPipeline.run"]}
{"id": "C47", "title": "Proton and mass numbers are conserved along the chain", "statement": "For every pipeline accepted by the constructor, the proton numbers (mass numbers) of the final products add up to those of beam plus target, all are non-negative, and Reaction/Decay constructors raise instead of producing negative ones.", "quantifier": "all chains of any length", "why_tests_cant": "chains have unbounded length", "anchors": ["src/attpc_engine/kinematics/reaction.py:Reaction.__init__", "src/attpc_engine/kinematics/reaction.py:Decay.__init__", "src/attpc_engine/kinematics/pipeline.py:KinematicsPipeline.get_proton_numbers", "src/attpc_engine/kinematics/pipeline.py:KinematicsPipeline.get_mass_numbers"]}
{"id": "C48", "title": "Pipeline validation", "statement": "The constructor succeeds exactly when there is at least one step, there are as many excitations and as many polar distributions as steps, the first step is a Reaction, all others are Decays, and each decay's parent is the previous step's residual.", "quantifier": "all step, excitation and distribution lists", "why_tests_cant": "lists are unbounded", "anchors": ["src/attpc_engine/kinematics/pipeline.py:KinematicsPipeline.__init__"]}
{"id": "C49", "title": "Resampling returns the first allowed sample within the limit", "statement": "run returns the event of the first energetically allowed sample of the random stream, draws at most event_sample_limit samples, and raises PipelineError exactly when the first event_sample_limit samples are all forbidden.", "quantifier": "all random streams, limits and chains", "why_tests_cant": "random streams are infinite", "anchors": ["src/attpc_engine/kinematics/pipeline.py:KinematicsPipeline.run"]}
{"id": "C50", "title": "No data of rejected samples or earlier events survives", "statement": "The array returned by run depends only on the accepted sample: whatever the buffer held before and however many samples were rejected, every row is that of the accepted sample.", "quantifier": "all buffer contents, all rejected prefixes", "why_tests_cant": "all histories", "anchors": ["src/attpc_engine/kinematics/pipeline.py:KinematicsPipeline.run"]}
{"id": "C51", "title": "A returned event stays valid after the next run", "statement": "The array returned by one call of run keeps its contents when run is called again; the events written by run_kinematics_pipeline are independent of later events.", "quantifier": "all sequences of run calls", "why_tests_cant": "histories", "anchors": ["src/attpc_engine/kinematics/pipeline.py:KinematicsPipeline.run", "src/attpc_engine/kinematics/pipeline.py:run_kinematics_pipeline"]}
{"id": "C52", "title": "Sampled parameters respect the configured ranges", "statement": "sample returns a vertex with z inside z_range and x^2+y^2 = rho^2, azimuths in [0, 2 pi), one excitation, polar angle and azimuth per step; without a target the vertex is the origin and the beam energy is unchanged.", "quantifier": "all pipelines and random streams", "why_tests_cant": "random streams are infinite", "anchors": ["src/attpc_engine/kinematics/pipeline.py:KinematicsPipeline.sample"]}
{"id": "C53", "title": "check_excitations_allowed agrees with what run accepts", "statement": "check_excitations_allowed(energy, excitations) is True for every set of excitations with which run can produce an event.", "quantifier": "all chains, energies, excitations", "why_tests_cant": "continuous domain, unbounded chains", "anchors": ["src/attpc_engine/kinematics/pipeline.py:KinematicsPipeline.check_excitations_allowed"]}
{"id": "C54", "title": "PolarUniform covers exactly the requested range uniformly in solid angle", "statement": "For 0 <= min <= max <= pi every sample lies in [min, max], and the probability of a polar angle at most t is (cos min - cos t)/(cos min - cos max); angles in the wrong order raise ValueError.", "quantifier": "all ranges and random draws", "why_tests_cant": "a distribution statement over the continuum", "anchors": ["src/attpc_engine/kinematics/angle.py:PolarUniform"]}
{"id": "C55", "title": "PolarArbitrary samples only bins with positive probability", "statement": "Every sample lies in [angle_i, angle_i + width) for a bin i of positive probability, and bin i is chosen with probability proportional to its weight.", "quantifier": "all bin tables and random draws", "why_tests_cant": "continuum of draws and all tables", "anchors": ["src/attpc_engine/kinematics/angle.py:PolarArbitrary"]}
{"id": "C56", "title": "Excitation samples respect their distribution parameters", "statement": "ExcitationUniform samples lie in [min, max), and bounds in the wrong order raise ValueError; ExcitationGaussian with width 0 always returns the centroid; ExcitationBreitWigner never returns a value at or below minus the rest mass.", "quantifier": "all parameters and random draws", "why_tests_cant": "random streams are infinite", "anchors": ["src/attpc_engine/kinematics/excitation.py:ExcitationUniform", "src/attpc_engine/kinematics/excitation.py:ExcitationGaussian", "src/attpc_engine/kinematics/excitation.py:ExcitationBreitWigner"]}
{"id": "C57", "title": "The dataframe is the flattened kinematics file", "statement": "convert_kinematics writes n_events * n_nuclei rows; row k holds event k // n_nuclei and nucleus k % n_nuclei with that nucleus' Z, A, symbol, momentum, energy and the event's vertex; all columns have the same length.", "quantifier": "all kinematics files", "why_tests_cant": "unbounded sizes", "anchors": ["src/attpc_engine/kinematics/convert_kinematics.py:convert_kinematics_hdf5_to_polars"]}
{"id": "C58", "title": "Pad sizes come from the configured pad size file", "statement": "Config loads pad sizes from pad_size_path when one is given, and from the packaged file otherwise, independently of the geometry path.", "quantifier": "all combinations of configured paths and file contents", "why_tests_cant": "all path combinations and contents", "anchors": ["src/attpc_engine/detector/parameters.py:Config.load_pad_sizes", "src/attpc_engine/detector/parameters.py:Config.load_pad_centers"]}
{"id": "C59", "title": "Charge counters do not overflow", "statement": "As long as the total deposited charge is below 2^63, the int64 counters of the point dictionary hold the exact integer sums.", "quantifier": "all histories of deposits with bounded total", "why_tests_cant": "histories are unbounded", "anchors": ["src/attpc_engine/detector/transporter.py:point_transport", "src/attpc_engine/detector/transporter.py:transverse_transport", "src/attpc_engine/detector/solver.py:generate_point_cloud"]}
{"id": "C60", "title": "Drift velocity is defined exactly for distinct edges", "statement": "Config construction raises exactly when windows_edge equals micromegas_edge (given readable pad files); otherwise drift_velocity * (windows_edge - micromegas_edge) = length.", "quantifier": "all detector and electronics parameters", "why_tests_cant": "continuous domain", "anchors": ["src/attpc_engine/detector/parameters.py:Config.calculate_drift_velocity"]}
{"id": "C61", "title": "The response template is sampled at the time buckets", "statement": "Sample i of get_response is the (clipped) analytic response at time bucket i, for i = 0..511, as its docstring says.", "quantifier": "all electronics settings with positive gain, shaping time and clock frequency", "why_tests_cant": "continuous domain", "anchors": ["src/attpc_engine/detector/response.py:get_response"]}
{"id": "C62", "title": "End to end: the files left by a simulation run", "statement": "If run_simulation with a SpyralWriter returns normally, the run files hold exactly the events of the kinematics file with a non-empty cloud, in order, each once and complete (all points above threshold with their labels, sorted by height), all files but the last are full, every file is closed with a range containing its events, ranges do not overlap, and no other file is touched. If the process stops at any earlier point, the finished files hold the first of these events in the same way.", "quantifier": "all kinematics files, configurations, solver behaviours, random generators, file sizes, crash points", "why_tests_cant": "unbounded event sequences, arbitrary solver output and generator, all crash points", "anchors": ["src/attpc_engine/detector/simulator.py:run_simulation", "src/attpc_engine/detector/writer.py:SpyralWriter"]}
{"id": "C63", "title": "The trajectory solver is given the right problem", "statement": "generate_trajectory integrates the equation of motion from the reaction vertex with the initial velocity of the given momentum, over 0..1 microsecond at equally spaced times, evaluated every 100 ps, and stopped exactly at the four stated events: kinetic energy below 1 eV, z beyond 1 m, z below 0, and radius beyond 0.292 m.", "quantifier": "all vertices, momenta, nuclei and detector parameters", "why_tests_cant": "continuous domain", "anchors": ["src/attpc_engine/detector/solver.py:generate_trajectory", "src/attpc_engine/detector/solver.py:stop_condition"]}
{"id": "C64", "title": "Motion in the fields without gas is the textbook motion", "statement": "Along any exact solution of equation_of_motion without stopping power, the canonical momenta transverse to the magnetic field are conserved (so that without electric field the orbit is a circle of radius p_T/(qB) in projection) and the total energy (relativistic kinetic energy plus electric potential energy) is conserved; with any non-negative stopping power it never increases.", "quantifier": "all solutions, charges, masses and fields", "why_tests_cant": "continuous time and arbitrary solutions", "anchors": ["src/attpc_engine/detector/solver.py:equation_of_motion"]}
{"id": "C65", "title": "The beam pads are the pads near the beam axis", "statement": "BEAM_PADS contains, each once, exactly the pads whose centre in the packaged geometry (padxy.csv) is less than 20 mm from the beam axis; the list is symmetric under the reflection that exchanges pads p and p + 5120.", "quantifier": "all 10240 pads of the packaged geometry", "why_tests_cant": "the list is a literal that no code computes; tests sample a few pads at most", "anchors": ["src/attpc_engine/detector/beam_pads.py:BEAM_PADS", "src/attpc_engine/detector/data/padxy.csv"]}
{"id": "C66", "title": "The pad found for a position is near that position", "statement": "With the packaged grid and geometry, every cell that position_to_index can select holds -1 or a pad 0..10239 whose centre is within 7.35 mm (pads of size 1.0) or 4.36 mm (pads of size 0.5) of the position; every pad can be found; closer than 12.65 mm to the beam axis only beam pads are found.", "quantifier": "all real positions, all pads", "why_tests_cant": "continuous set of positions, 312481 cells against 10240 centres", "anchors": ["src/attpc_engine/detector/transporter.py:position_to_index", "src/attpc_engine/detector/data/pad_grid.npz", "src/attpc_engine/detector/data/padxy.csv", "src/attpc_engine/detector/data/pad_scale.csv"]}
{"id": "C67", "title": "With the packaged pad data the writer never fails", "statement": "With the packaged files and default paths Config succeeds exactly when the two edges differ and has centre and size of all 10240 pads; then formatting any simulated event succeeds, and run_simulation with a SpyralWriter fails only because of a missing attribute, an unreadable event or an error inside the simulation of an event.", "quantifier": "all detector and electronics parameters, kinematics files, solver behaviours, generators, directories", "why_tests_cant": "arbitrary event sequences and solver output", "anchors": ["src/attpc_engine/detector/parameters.py:Config", "src/attpc_engine/detector/writer.py:SpyralWriter.write", "src/attpc_engine/detector/simulator.py:run_simulation"]}
{"id": "C68", "title": "The centre of a pad is assigned to that pad", "statement": "With the packaged grid and geometry, an electron arriving at the centre of a pad is assigned to that pad.", "quantifier": "all 10240 pads of the packaged geometry", "why_tests_cant": "tests sample a few pads at most", "anchors": ["src/attpc_engine/detector/transporter.py:position_to_index", "src/attpc_engine/detector/data/pad_grid.npz"]}
{"id": "C69", "title": "Pad geometry and grid come from the configured files", "statement": "Config takes the grid from the configured path, gives pad k the first two entries of data line k of the configured geometry file, leaves pads without a line at the origin, always has 10240 pads, and rejects files with more lines.", "quantifier": "all file systems and parameters", "why_tests_cant": "arbitrary file contents", "anchors": ["src/attpc_engine/detector/parameters.py:Config.load_pad_grid", "src/attpc_engine/detector/parameters.py:Config.load_pad_centers"]}
{"id": "C70", "title": "The number of primary electrons is a Fano-distributed draw", "statement": "generate_electrons makes one normal draw per track point, in the order of the track, with mean |change of kinetic energy| in eV over W and variance Fano factor times mean, and truncates it to an integer. It succeeds exactly when W is not 0, the particle moves at every point (or there is at most one point) and no variance is negative.", "quantifier": "all tracks, nuclei, parameters and generators", "why_tests_cant": "arbitrary tracks and random numbers", "anchors": ["src/attpc_engine/detector/solver.py:generate_electrons"]}
{"id": "C71", "title": "Stored nuclei match the rows of the events", "statement": "The stored proton and mass numbers are those of the nuclei of the steps in their order (target, projectile, ejectile, residual, then both products of each decay), and row i of every event has the mass of nucleus i plus its sampled excitation.", "quantifier": "all chains of steps, samplers and generators", "why_tests_cant": "chains of any length", "anchors": ["src/attpc_engine/kinematics/pipeline.py:KinematicsPipeline.get_proton_numbers", "src/attpc_engine/kinematics/pipeline.py:KinematicsPipeline.get_mass_numbers", "src/attpc_engine/kinematics/pipeline.py:KinematicsPipeline.run"]}
{"id": "C72", "title": "The simulation starts a nucleus with the kinetic energy of its four-momentum", "statement": "The kinetic energy of the initial state of the trajectory equals E - M of the stored four-momentum.", "quantifier": "all nuclei, four-momenta and detector parameters", "why_tests_cant": "real-valued momenta, masses and excitations", "anchors": ["src/attpc_engine/detector/solver.py:generate_trajectory", "src/attpc_engine/detector/simulator.py:simulate"]}
{"id": "C73", "title": "Isotropic emission and uniform vertices", "statement": "If the polar angles are drawn from PolarUniform(0, pi), the direction of the ejectile and of the first product of every decay is uniformly distributed over the sphere: cos(theta) and phi are independent and uniform. The azimuth and the z position of the vertex are independent and uniform.", "quantifier": "all pipelines with excitation samplers that always succeed, all generators of independent uniform numbers, all ranges of directions", "why_tests_cant": "a statement about probabilities", "anchors": ["src/attpc_engine/kinematics/pipeline.py:KinematicsPipeline.sample", "src/attpc_engine/kinematics/angle.py:PolarUniform.sample"]}
{"id": "C74", "title": "The width of ExcitationGaussian is a full width at half maximum", "statement": "The excitation energies of ExcitationGaussian(centroid, width) follow a normal distribution centred at the centroid; at centroid - width/2 and centroid + width/2 its density is one half of the maximum, up to 0.00006.", "quantifier": "all centroids, positive widths and normal generators", "why_tests_cant": "a statement about probabilities", "anchors": ["src/attpc_engine/kinematics/excitation.py:ExcitationGaussian"]}
{"id": "C75", "title": "Events read from the kinematics file conserve energy and momentum", "statement": "Every event that the detector simulation reads from a finished kinematics file has one row for each nucleus of the chain, without NaN, with the mass of that nucleus plus its excitation; the target is at rest, the beam moves along z, and the four-momenta of the final products add up to those of beam and target.", "quantifier": "all chains, samplers, generators, chunk sizes, event counts", "why_tests_cant": "arbitrary chains and random numbers through pipeline, file and reader", "anchors": ["src/attpc_engine/kinematics/pipeline.py:run_kinematics_pipeline", "src/attpc_engine/kinematics/pipeline.py:KinematicsPipeline.run", "src/attpc_engine/detector/simulator.py:run_simulation"]}
{"id": "C76", "title": "Charge balance of an event", "statement": "The charges of a point cloud add up to exactly the electrons deposited in the recorded window; they are at most the gain times the released electrons, without diffusion exactly the gain times the electrons released above active pads and arriving in the window, and without fluctuations at most the gain times the kinetic energy of the charged nuclei over W.", "quantifier": "all events, pad planes, configurations and random streams", "why_tests_cant": "a sum over all deposits of all nuclei for all inputs", "anchors": ["src/attpc_engine/detector/simulator.py:simulate", "src/attpc_engine/detector/simulator.py:dict_to_points", "src/attpc_engine/detector/solver.py:generate_point_cloud", "src/attpc_engine/detector/transporter.py:transport_track"]}
{"id": "C77", "title": "Diffusion is unbiased and has the right width", "statement": "The electrons that transverse diffusion puts into the 100 pixels around a track point are centred exactly at the track point, their x and y are uncorrelated, the spread is the same along both axes, and the summed squared distance along each axis is at most e*sigma^2 and at least 98 percent of that minus one electron per pixel at 3 sigma.", "quantifier": "all positions, non-zero spreads and non-negative numbers of electrons", "why_tests_cant": "holds for all real positions, spreads and charges; needs bounds on sums of exponentials", "anchors": ["src/attpc_engine/detector/transporter.py:transverse_transport", "src/attpc_engine/detector/transporter.py:bivariate_normal_pdf"]}
{"id": "C78", "title": "The diffusion width is that of the drift distance", "statement": "Electrons released at height z spread with sigma^2 = 2 D (length - z) / E, the width belonging to the distance they drift.", "quantifier": "all configurations and heights", "why_tests_cant": "holds for all real parameters; the error vanishes for micromegas_edge = 0", "anchors": ["src/attpc_engine/detector/solver.py:generate_point_cloud", "src/attpc_engine/detector/transporter.py:transport_track"]}
{"id": "C79", "title": "The stored points lie on the tracks", "statement": "With the packaged pad data every stored point belongs to the track of the nucleus named by its label: some point of that track with at least one primary electron has a height within one time bucket of the stored one (two if it arrives before time 0), and a position within three diffusion widths of it is at most 7.35 mm (4.36 mm for small pads) from the stored x and y. Without diffusion every track point with electrons above an active pad arriving in the window is in the cloud with at least its own charge, and is stored if that charge exceeds the threshold.", "quantifier": "all events, detector and electronics parameters, solvers and random streams", "why_tests_cant": "an end-to-end statement through trajectory, drift, diffusion, pad lookup, dictionary, conversion and sorting for all inputs", "anchors": ["src/attpc_engine/detector/simulator.py:simulate", "src/attpc_engine/detector/solver.py:generate_point_cloud", "src/attpc_engine/detector/transporter.py:transport_track", "src/attpc_engine/detector/writer.py:convert_to_spyral", "src/attpc_engine/detector/writer.py:SpyralWriter.write"]}
{"id": "C80", "title": "The charge above which a point is stored", "statement": "The amplitude of a point is the peak of the response times its charge, at most 4095. A point is stored exactly if its charge times the peak exceeds the threshold and the threshold is below 4095. The peak is at most exp(-3) times the counts per electron 4095 q / gain, so no point with fewer than threshold * exp(3) / (counts per electron) electrons is stored.", "quantifier": "all electronics parameters, clouds and thresholds", "why_tests_cant": "an equivalence over all real charges and electronics parameters", "anchors": ["src/attpc_engine/detector/response.py:get_response", "src/attpc_engine/detector/response.py:apply_response", "src/attpc_engine/detector/writer.py:SpyralWriter.write"]}
{"id": "C81", "title": "The products of a reaction in the laboratory", "statement": "For every allowed beam energy the momentum and energy of the ejectile in the laboratory are given by the two-body formulas with the Kallen function: the transverse momentum is the one in the centre of mass, the azimuth is the sampled one, the residual is opposite to it in the transverse plane, and the laboratory energy lies between the values for backward and forward emission and decreases strictly with the polar angle in the centre of mass. In elastic scattering the target nucleus receives the energy p*^2 (1 + cos theta) / m with p* = m p_beam / W.", "quantifier": "all reactions with physical masses, beam energies, excitations and angles at which the reaction is allowed", "why_tests_cant": "a closed form over real masses, energies and angles", "anchors": ["src/attpc_engine/kinematics/reaction.py:Reaction.calculate"]}
{"id": "C82", "title": "The events of a run are independent and distributed like the allowed samples", "statement": "With an ideal random generator the samples of a pipeline built from the distributions of the package are independent. Given that run returns an event, its parameters are distributed like those of a sample given that it is energetically allowed; run gives up with probability P(forbidden)^limit. The events of a kinematics file are independent of each other and each is distributed like the event of a single run.", "quantifier": "all pipelines, distributions of the package, probability measures on the generator state with fresh draws, sample limits, numbers of events and measurable sets of event parameters", "why_tests_cant": "a statement about probabilities; tests only see finitely many seeds", "anchors": ["src/attpc_engine/kinematics/pipeline.py:KinematicsPipeline.run", "src/attpc_engine/kinematics/pipeline.py:KinematicsPipeline.sample", "src/attpc_engine/kinematics/pipeline.py:run_kinematics_pipeline"]}
{"id": "C83", "title": "The chunk size and the number of events do not influence the events", "statement": "Whether run_kinematics_pipeline succeeds and which events it produces does not depend on the chunk size. A run for n events stores the same first n events as a run for more events from the same generator state. The table made from the file and the simulation of it do not depend on the chunk size either, and a simulation of the shorter file gives the beginning of the longer one.", "quantifier": "all pipelines, chunk sizes of at least 1, numbers of events, generator states, nuclei, configurations and writers", "why_tests_cant": "tests would need runs with several chunk sizes, which is a constant of the package, and equal generator states", "anchors": ["src/attpc_engine/kinematics/pipeline.py:run_kinematics_pipeline", "src/attpc_engine/kinematics/convert_kinematics.py:convert_kinematics_hdf5_to_polars", "src/attpc_engine/detector/simulator.py:run_simulation"]}
{"id": "C84", "title": "No table is made from an incomplete kinematics file", "statement": "Although the converter does not look at n_chunks, a kinematics file left behind by an interrupted run is never converted into a truncated or wrong table: if the conversion succeeds then the uninterrupted run succeeds and its file gives the same table, and from what a run that raised leaves behind no table can be made at any point.", "quantifier": "all pipelines, chunk sizes of at least 1, numbers of events, generator states and every point at which a run is interrupted", "why_tests_cant": "tests do not stop a run between two writes to the file", "anchors": ["src/attpc_engine/kinematics/pipeline.py:run_kinematics_pipeline", "src/attpc_engine/kinematics/convert_kinematics.py:convert_kinematics_hdf5_to_polars"]}
{"id": "C85", "title": "Every stored point lies on the trajectory of a product of the sampled reaction", "statement": "Let a pipeline be built and run, and let the resulting kinematics file be simulated with the packaged pads and the default selection of nuclei. Every event in the output files then belongs to one sampled chain, of which energy and momentum are conserved and the masses are those of the nuclei with the sampled excitations. Every stored point of it lies, within the pad reach, the diffusion circle and the time resolution, on a trajectory started at the sampled vertex with the sampled momentum of a charged final product, and the label of the point is the row of this product.", "quantifier": "all reaction chains, samplers, generators, numbers of events, chunk sizes, detector and electronics parameters, solvers and writer settings for which the two runs return", "why_tests_cant": "tests check single functions; no test follows a point of the output back through the file formats to the reaction that caused it", "anchors": ["src/attpc_engine/kinematics/pipeline.py:run_kinematics_pipeline", "src/attpc_engine/detector/simulator.py:run_simulation", "src/attpc_engine/detector/solver.py:generate_point_cloud", "src/attpc_engine/detector/writer.py:SpyralWriter.write"]}
{"id": "C86", "title": "The simulation of a finished kinematics file completes", "statement": "With the packaged pads, a detector of at least 1 m, edges 0 <= micromegas_edge < windows_edge, non-negative diffusion and Fano factor, positive field and work function, a solver that returns a solution respecting its terminal events, vertices in the tracking volume and charged final products of at least 1 eV, run_simulation on a finished kinematics file with the default selection of nuclei raises no exception, neither in the simulation nor in the writer.", "quantifier": "all reaction chains, samplers, generators, numbers of events, chunk sizes, physical parameters, solvers and writer settings", "why_tests_cant": "an exception in event number 100000 depends on the vertex, the momenta and the random numbers of that event", "anchors": ["src/attpc_engine/detector/simulator.py:run_simulation", "src/attpc_engine/detector/simulator.py:simulate", "src/attpc_engine/detector/solver.py:generate_trajectory", "src/attpc_engine/detector/writer.py:SpyralWriter.write"]}
{"id": "C87", "title": "Diffusion in machine arithmetic creates no charge", "statement": "With every float operation rounded to binary64 and int64 counters, spreading the electrons of one track point over the mesh only adds charge to the dictionary, and never more than the number of electrons given.", "quantifier": "all pad grids, times, positions, spreads, electron numbers and dictionaries; all roundings to nearest and all sufficiently accurate exp and pi", "why_tests_cant": "float errors depend on every bit of position and spread; the failing spreads are far from any tested value", "anchors": ["src/attpc_engine/detector/transporter.py:transverse_transport", "src/attpc_engine/detector/transporter.py:bivariate_normal_pdf"]}
{"id": "C88", "title": "Energy and momentum balance of an event in machine arithmetic", "statement": "With every addition and subtraction rounded to binary64 and arbitrary results of the boosts, sin, cos and invariant mass, the transverse momenta of the two products of the reaction cancel exactly in every accepted event, and every component added over the final products agrees with target plus beam up to (number of decays + 3) * (2^-53 * 2K + 2^-1075), K being a bound of the component in the event, between 1 and 2^900. The incoming rows are the target at rest with its mass and the beam along z with total energy T + m up to 2 units and momentum sqrt(T(T+2m)) up to 4 units of 2^-53 (T between 1 eV and 1e9 MeV, m between 1 and 1e9 MeV).", "quantifier": "all chains, samples, roundings to nearest, boost results", "why_tests_cant": "rounding errors depend on every bit of every input; the number of decays is unbounded", "anchors": ["src/attpc_engine/kinematics/reaction.py:Reaction.calculate", "src/attpc_engine/kinematics/reaction.py:Decay.calculate", "src/attpc_engine/kinematics/pipeline.py:KinematicsPipeline.run"]}
{"id": "C89", "title": "Drift times in machine arithmetic", "statement": "With every float operation rounded to binary64, the time bucket computed for a point of the active volume differs from the exact one by at most 2^-40; it is never below micromegas_edge, its integer part never exceeds windows_edge, points further from the pad plane never arrive earlier, and the integer time bucket is that of the exact time unless that is within 2^-40 of an integer.", "quantifier": "for all nearest roundings, all double detector lengths from 1 mm to 1 km, all edges 0 <= micromegas_edge < windows_edge <= 1000 and all heights in the detector", "why_tests_cant": "Rounding can push a time across a bucket boundary or below the edge for isolated heights only; sampling heights does not bound the error of the chain of a division by a rounded quotient.", "anchors": ["detector/parameters.py:164-174", "detector/solver.py:395-398"]}
{"id": "C90", "title": "Transport of a track in machine arithmetic", "statement": "With float64 positions, times and widths and int64 counters, transporting the electrons of a track through a detector with a realistic diffusion never fails, adds no more charge to the dictionary than primary electrons times gain, and adds it only on active non-beam pads and on time buckets from micromegas_edge to windows_edge.", "quantifier": "for all nearest roundings and all exp accurate to 2^-50, all pad grids, all tracks in the detector, all lists of electrons with released charge below 2^53 per point and 2^63 in total, all dictionaries with non-negative counters, zero diffusion or widths between 2 nm and 0.9 m", "why_tests_cant": "Conservation of charge must hold for every combination of roundings of a mesh of 100 pixels per point; overflow and NaN show up only for rare parameter combinations.", "anchors": ["detector/solver.py:386-413", "detector/transporter.py:123-317"]}
{"id": "C91", "title": "Energy balance and range of a trajectory", "statement": "Along every exact solution of the equation of motion the change of the kinetic energy between two times is the work of the electric field minus the integral of the stopping power along the path. Where the gas stops the particle with at least S MeV/m and there is no electric field, the path is not longer than the kinetic energy divided by S (up to a factor 1 + 1e-9, by which the unit conversions of the code disagree).", "quantifier": "all nuclei with positive mass, all fields, all gases with continuous stopping power, all exact solutions and times", "why_tests_cant": "A test compares a few numerically integrated tracks with tables; the balance concerns the differential equation itself for all fields, gases and initial states.", "anchors": ["detector/solver.py:19-77"]}
{"id": "C92", "title": "Electrons are released for the energy lost to the gas", "statement": "The mean number of electrons released between two points of a track is the energy that the particle gave to the gas between them, divided by W.", "quantifier": "all exact solutions of the equation of motion, all pairs of successive track points, all fields and gases", "why_tests_cant": "The energy given to the gas is an integral along the trajectory that the code never computes; the deviation caused by the electric field is about one percent for usual settings and disappears in the Fano fluctuations of a sampled test.", "anchors": ["detector/solver.py:308-347", "detector/solver.py:19-77"]}
{"id": "C93", "title": "Stored events contain points", "statement": "Every event that is stored in an output file has at least one point in its dataset.", "quantifier": "all point clouds, configurations and sort functions", "why_tests_cant": "Events with points, but with none above the threshold, are rare for usual parameters; whether the writer stores them as empty datasets depends on all charges of the cloud and the peak of the response.", "anchors": ["detector/simulator.py:183-209", "detector/writer.py:194-255"]}
{"id": "C94", "title": "Several runs in one output directory", "statement": "Runs whose first numbers are larger than the last number of an earlier completed run never change its files, even if they fail or die at any point. A run replaces exactly the files with the numbers it uses, as if the directory had been empty, and leaves all others as they are.", "quantifier": "all sequences of runs (event lists, limits, first numbers, failing calls) and all points of time between two file operations", "why_tests_cant": "It quantifies over all sequences of runs and all interruptions of them.", "anchors": ["detector/writer.py:164-192", "detector/writer.py:257-281"]}
{"id": "C95", "title": "The charge of an event is limited by the energy of its nuclei and the work of the field", "statement": "For an ODE solver without discretisation error, any electric and magnetic field and any gas that only slows down: along a track the kinetic energy changes in total (sum of the absolute changes between track points) by at most the initial kinetic energy plus twice the energy |Z E| L that the field can supply over the height L covered. Without Fano fluctuations the electrons of a track number at most this total change, in eV, over W. Hence the total charge of an event is at most the gain times the sum over the charged nuclei of (kinetic energy + 2 |Z E| x 1 m), in eV, over W. (The field term up to a factor 1 + 2e-9, by which the unit conversions of the code disagree.)", "quantifier": "for all events, vertices between the two ends of the detector, fields, gases with non-negative stopping power, nuclei, gains >= 0, W > 0, and all tracks of any number of points", "why_tests_cant": "With an electric field the particle can turn around and gain energy, and the code counts gains like losses, so the bound rests on a global argument about the number of turning points of every solution; a test sees only finitely many trajectories.", "anchors": ["detector/solver.py:19-77", "detector/solver.py:243-305", "detector/solver.py:308-347", "detector/solver.py:350-413", "detector/simulator.py:52-115"]}
{"id": "C96", "title": "The simulation up to the pad plane has no preferred direction around the beam axis", "statement": "Turning the azimuthal angles and the vertex of a sample by any angle about the z axis turns the four-momenta of every nucleus by that angle and changes nothing else: the reaction and every decay succeed or fail the same way, the energies and z components are the same. Inside the detector, the equation of motion at the turned state gives the turned derivative, every stopping condition has the same value, so the turned trajectory is a trajectory of the turned nucleus over the same time, and the electrons created along the turned track, point by point, are the same numbers at the same heights.", "quantifier": "for all reactions, decay chains, samples, angles of rotation, fields along z, gases, nuclei, states, trajectories and tracks, including the failing and not-a-number outcomes", "why_tests_cant": "It relates two runs for every angle and every input; tests compare a run with fixed numbers and would not notice a small asymmetry such as a sign or a swapped component in one branch.", "anchors": ["kinematics/reaction.py:103-178", "kinematics/reaction.py:252-303", "kinematics/pipeline.py:322-386", "detector/solver.py:19-77", "detector/solver.py:80-240", "detector/solver.py:243-305", "detector/solver.py:308-347"]}
{"id": "C97", "title": "Accepted events are distributed symmetrically around the beam axis", "statement": "For the events the pipeline stores, after all rejected samples, turning the vertex and all four-momenta by any fixed angle about the beam axis does not change their distribution: for every set of events that is measurable in terms of the sampled parameters, the probability that the accepted event lies in the set is the probability that the accepted event, turned, lies in the set.", "quantifier": "for all pipelines with in-range samples, any number of decays, extended or point targets, all fresh uniform and normal generators, all retry limits and all rotation angles", "why_tests_cant": "It is a statement about the distribution of the outcome of a rejection loop for all pipelines; a sample of events can only make an asymmetry unlikely.", "anchors": ["kinematics/pipeline.py:232-283", "kinematics/pipeline.py:285-388"]}
{"id": "C98", "title": "The electrons account for the energy a nucleus loses in the gas", "statement": "Without electric field and Fano fluctuations, the electrons released along a trajectory, times W, are the energy the nucleus loses until its trajectory ends.", "quantifier": "for all trajectories that solve the equation of motion, nuclei, gases, magnetic fields and W values", "why_tests_cant": "The number of electrons is cut to an integer in each of up to 10000 time steps and the track is evaluated every 0.1 ns only; whether that matters depends on every combination of speed, stopping power and W.", "anchors": ["detector/solver.py:16", "detector/solver.py:19-77", "detector/solver.py:243-305", "detector/solver.py:308-347"]}
{"id": "C99", "title": "The pad files are read from their text as written", "statement": "Reading a csv pad file as text (line ends, header, comma separated entries, decimal numbers) gives each pad the numbers written in its line, zeros for pads without a line, and an exception exactly when a line has too few entries, an entry is not a number, there are more than 10240 lines or the file is missing; the packaged text gives the packaged centres and sizes.", "quantifier": "for all file contents (any sequence of characters), pad parameters and pads", "why_tests_cant": "The contents of a text file are arbitrary; tests read the two packaged files and at most a few others, so unusual numbers, line ends and short or long files are not covered.", "anchors": ["detector/parameters.py:207-234", "detector/parameters.py:236-261", "detector/data/padxy.csv", "detector/data/pad_scale.csv"]}
{"id": "C100", "title": "The number of electrons at a track point has mean energy/W and variance F times the mean", "statement": "With an ideal random generator the numbers of electrons at the points of a track are independent; the one at a point where the energy changes by dE has expectation m = |dE|/W and variance F m, and the total over the track has the sum of these.", "quantifier": "for all tracks, nuclei, W-values, Fano factors, ideal generators and probability spaces", "why_tests_cant": "A test sees finitely many draws and can only estimate means; the bias of cutting towards zero is smaller than one electron per point and vanishes in the fluctuations of any sample.", "anchors": ["detector/solver.py:308-347"]}
{"id": "C101", "title": "The expected charge of an event is bounded by the energy of its nuclei", "statement": "With Fano fluctuations and an ideal random generator, the expected total charge of a simulated event is at most the gain times the electrons that the energy changes of its nuclei correspond to, plus a quarter of the Fano factor for every track point; with an exact solver at most gain times (kinetic energy plus twice the energy the field can supply) over W plus 2500 F for every charged nucleus.", "quantifier": "for all events (any number of nuclei), vertices, momenta, gases, fields, pad grids, W-values, Fano factors and ideal generators", "why_tests_cant": "An expectation over all random numbers is not observable in tests, and single events can exceed the bound.", "anchors": ["detector/solver.py:308-347", "detector/simulator.py:52-115", "detector/solver.py:350-413"]}
{"id": "C102", "title": "Rejecting forbidden samples does not bias the angles", "statement": "Among the events returned by run, all sampled polar and azimuthal angles (of the reaction and of all decays) are independent of each other and of the beam energy, the vertex and the excitations, and are distributed exactly as their distributions draw them, although samples are redrawn until they are energetically allowed. In particular, with a polar distribution uniform in solid angle the laboratory energy of the ejectile of a returned event is uniformly distributed between the energies of the two extreme angles.", "quantifier": "for all chains of reactions and decays, masses, beam energies, targets, distributions that use fresh draws, sample limits, sets of angles and sets of energies, and ideal generators", "why_tests_cant": "A bias of the accept/reject loop is a statement about the joint distribution of all parameters; histograms of a finite number of events cannot establish independence.", "anchors": ["kinematics/pipeline.py:232-283", "kinematics/pipeline.py:285-388", "kinematics/angle.py:35-80", "kinematics/reaction.py:103-178"]}
{"id": "C103", "title": "Tabulated angular distributions are reproduced as histograms", "statement": "An angle drawn by PolarArbitrary lies in any set with the probability given by the histogram of the table: each bin counts with its weight divided by the sum of the weights, and within a bin the angle is uniformly distributed. The polar angles of the events returned by run follow the same histogram.", "quantifier": "for all tables with non-negative weights adding up to one within the tolerance (bins may overlap or be spaced arbitrarily), bin widths, measurable sets and ideal generators", "why_tests_cant": "A finite sample cannot establish the distribution on arbitrary sets.", "anchors": ["kinematics/angle.py:83-152", "kinematics/pipeline.py:285-388"]}
{"id": "C104", "title": "Isotropic decays have flat energy spectra", "statement": "When the polar angle of a decay is drawn over the full solid angle, the laboratory energy of its first product is uniformly distributed between the energy for backward and the energy for forward emission from the moving parent. This holds for every decay of the chain, whatever the distributions of the directions and energies of the parent are, among the events that run returns.", "quantifier": "for all reaction chains, all decays of the chain, all excitation and other polar distributions that draw fresh numbers, all sub-intervals of energies, sample limits and ideal generators", "why_tests_cant": "The direction of the parent is itself random, so that a flat spectrum needs the rotational invariance of the emission for every parent; samples only test the average, and only statistically.", "anchors": ["kinematics/reaction.py:252-303", "kinematics/angle.py:35-80", "kinematics/pipeline.py:235-283", "kinematics/pipeline.py:285-388"]}
{"id": "C105", "title": "Every nucleus has exactly one trajectory", "statement": "Let a nucleus of positive mass start with a kinetic energy of at least 1 eV, in a gas of non-negative density whose stopping power is non-negative and locally Lipschitz for positive energies, in any uniform electric and magnetic field. Then the initial value problem that generate_trajectory poses has a solution which ends after one second, at 1 eV or on a boundary of the one metre long volume of radius 292 mm, and no solution within the second lasts longer; every other solution agrees with it for as long as it lasts. Hence the track returned by solvers that integrate without error until a terminal event, and the point cloud made from it, depend only on the vertex, the momentum, the nucleus and the detector. There is a solver that meets all conditions that the other properties impose on solvers (exact, stops at terminal events, evaluates at the first requested times, evaluates the initial state) and handles all these nuclei.", "quantifier": "for all vertices, momenta, nuclei, fields and gases as described, all pairs of exact solvers, all generators, pad tables and labels", "why_tests_cant": "Existence and uniqueness of the solution of a differential equation for every initial state and every stopping power is a statement about uncountably many functions; a test integrates one state with one method and cannot exclude other solutions.", "anchors": ["detector/solver.py:19-77", "detector/solver.py:80-121", "detector/solver.py:124-240", "detector/solver.py:243-305"]}
{"id": "C106", "title": "A nucleus whose range ends inside the chamber stops there and leaves all of its energy", "statement": "Let a nucleus with kinetic energy K of at least 1 eV and momentum p move without electric field, in any magnetic field, in a gas that stops it with at least S MeV/m at all energies between 1 eV and K, and let its range K/S be shorter than the distances of the vertex to the ends and the side of the volume. Then its trajectory ends at 1 eV inside the volume, after at most the time p/(S c) in which the force S consumes the momentum, and stays within the range around the vertex (range and time up to a factor 1 + 1e-9, by which the unit conversions of the code disagree). If that time is at most a microsecond, an exact solver is used and there are no Fano fluctuations, the primary electrons times W are at most K less 1 eV, and fall short of it by at most one electron for every 0.1 ns of flight and the energy that the nucleus still has 0.1 ns before the end, when its momentum is at most 0.03 m times the largest stopping force S' more than at 1 eV.", "quantifier": "for all vertices, momenta, nuclei, magnetic fields and gases as described, all exact solvers and all lawful generators", "why_tests_cant": "That a track ends in the gas and not at a wall, for every energy, direction and stopping power with the given lower bound, needs the solution of the differential equation for all of them; tests follow single particles in one gas.", "anchors": ["detector/solver.py:14-16", "detector/solver.py:19-77", "detector/solver.py:80-121", "detector/solver.py:243-305", "detector/solver.py:308-347"]}
{"id": "C107", "title": "Breit-Wigner excitations have the shape of a resonance of the given mass and width", "statement": "If scipy's rel_breitwigner.rvs follows its documented density, the excitation energies returned by ExcitationBreitWigner(rest_mass, centroid, width).sample are such that rest mass plus excitation energy follows the relativistic Breit-Wigner density of a resonance of mass M = rest_mass + centroid and of the given width: 1/((E^2-M^2)^2 + M^2 width^2) times a constant that makes the integral one. The density of the excitation energy has its only maximum at the centroid, and it is at least half as large as there exactly on an interval around the centroid, whose length is at least the width and exceeds it by at most the fraction (width/M)^2/2.", "quantifier": "for all rest masses, centroids and widths with 0 < width < rest_mass + centroid and all random number generators whose rel_breitwigner draws follow scipy's density", "why_tests_cant": "It is a statement about the whole distribution of a random quantity with three real parameters; a test can only draw finitely many samples for some parameters, and a histogram cannot tell rho = M/width from near misses such as rho = centroid/width for a broad tail.", "anchors": ["kinematics/excitation.py:131-188"]}
{"id": "C108", "title": "The length of a track is the range of the nucleus, whatever its direction and the magnetic field", "statement": "Let a nucleus of positive mass move without electric field, in any uniform magnetic field, in a gas whose stopping force is non-negative, and positive and continuous at the energies that occur. Along every exact solution of the equation of motion in the code, the path length from the start until any time is the integral of the inverse stopping force over the kinetic energy lost so far (the range in the continuous-slowing-down approximation), and the time itself is the integral of the inverse of stopping force times speed, both times one constant that differs from one by at most 1e-9, by which the unit conversions of the code disagree. Two such trajectories that start with the same kinetic energy therefore have the same kinetic energy and the same length at every time that both reach, whatever their directions and magnetic fields. If the range down to 1 eV is shorter than the distances of the vertex to the walls and the slowing-down time is below one second, the posed problem has a complete solution that ends at 1 eV, after that time, with that length, and never further from the vertex than the range.", "quantifier": "for all nuclei, gases, magnetic fields, momenta and vertices as described and all exact solutions", "why_tests_cant": "The equality of two integrals along every solution of a differential equation, for every stopping power, needs a change of variables for all of them; tests compare single tracks with single tabulated ranges up to the tolerance of the numerical solver.", "anchors": ["detector/solver.py:14-16", "detector/solver.py:19-77", "detector/solver.py:80-121", "detector/solver.py:243-305"]}
{"id": "C109", "title": "Signals and positions of the writer in machine arithmetic", "statement": "With every float operation rounded to the nearest double, a row written by convert_to_spyral copies pad centre, pad, time bucket and pad size unchanged; its amplitude lies between 0 and 4095 and agrees with the exact amplitude to 2^-53 relative (plus half the smallest double); its integral lies between 0 and 4095 times 512 and agrees with the exact one to 2e-13 relative; its z lies between 0 and the detector length and agrees with the exact one to 1e-15 of that length. Amplitude and integral never decrease when the charge increases and z never increases with the time bucket, so sorting by z is sorting by time. The ADC threshold decides as with exact numbers unless the amplitude is within 2^-52 of full scale of the threshold.", "quantifier": "for all rounding functions to nearest, all non-negative response templates of 512 samples, all charges >= 0, all edges 0 <= mm < window <= 1000, all detector lengths between 1 mm and 1 km that are doubles, all time buckets between the edges, all thresholds and all lists of points", "why_tests_cant": "Tests compare a few rows with a tolerance; a bound on the accumulated rounding of 512 products and sums for every charge, and monotonicity of the rounded result, are statements about all doubles.", "anchors": ["detector/writer.py:61-112", "detector/response.py:35-57", "detector/writer.py:226-238"]}
{"id": "C110", "title": "Kinetic energies and primary electrons in machine arithmetic", "statement": "With every float operation rounded to the nearest double, the kinetic energy that stop_condition and generate_electrons compute for a moving nucleus is a number, is never negative, and differs from the exact one by at most 11 units of 2^-53 of its total energy; the stopping condition by at most 13. With the same standard normal numbers, generate_electrons draws at the same points as with exact numbers, raises no exception, and gives at each point a number of electrons that differs by at most one. On a track along which the kinetic energy does not change no point passes the selection electrons >= 1, so the cancellation in gamma - 1 makes no electrons.", "quantifier": "for all rounding functions to nearest, all tracks with gamma*beta between 1e-12 and 1e6, all masses between 1 MeV and 1e9 MeV, all W-values between 1 eV and 1 MeV with total energy / W at most 1e9, all Fano factors in [0,1] and all sequences of standard normal numbers of magnitude at most 40", "why_tests_cant": "gamma is 1 plus a number that can be as small as 1e-9, and all digits of the energy come from a difference; whether some double makes the energy negative or creates an electron out of rounding cannot be found by sampling 2^192 momentum triples.", "anchors": ["detector/solver.py:308-347", "detector/solver.py:80-121", "detector/solver.py:385-388"]}
{"id": "C111", "title": "No float operation overflows", "statement": "For detector and reaction parameters within very wide bounds (for example lengths between 1 micrometre and 1000 km, fields and diffusion constants between 1e-12 and 1e12, momenta between 1e-15 and 1e15 times the mass, masses and energies below 1e15 MeV), every float operation in unpair, position_to_index, the time offset, the drift and transport of a track, stop_condition, generate_electrons, convert_to_spyral, is_excitation_allowed, Reaction.calculate and Decay.calculate has a result of magnitude at most 2^1023. The results are therefore the same whatever an overflowing operation would return.", "quantifier": "all inputs within the bounds, all roundings to nearest, all treatments of numbers beyond 2^1023, all random numbers; boosts of the vector package only assumed to return numbers of reasonable size", "why_tests_cant": "Tests run with a few typical parameters; that no combination of parameters, track points and random numbers within the bounds produces an infinity somewhere in the middle of a computation is a statement about all of them.", "anchors": ["detector/pairing.py:30-55", "detector/transporter.py:11-317", "detector/solver.py:80-121", "detector/solver.py:308-347", "detector/solver.py:386-413", "detector/writer.py:61-112", "detector/response.py:35-57", "kinematics/reaction.py:70-178", "kinematics/reaction.py:230-303"]}
{"id": "C112", "title": "The distribution of vertices and of beam energies", "statement": "With an ideal generator and an extended target, the distance of the sampled vertex from the beam axis is the absolute value of a normal number of standard deviation rho_sigma, the azimuth is uniform and z is uniform in the z range, all independent; so x and y are centred, uncorrelated and have the standard deviation rho_sigma / sqrt 2, and the distances are not those of a round Gaussian spot of any width. If the energy losses of the gas come from a stopping power S, the beam energy at the vertex lies in [a, b] with probability (integral of dE / S(E) from a to b) / (length of the z range). The events that run returns have this density times the probability that a sample of this energy is kinematically allowed, times the expected number of samples drawn.", "quantifier": "for every target, stopping power, z range, spot width, reaction, decays and interval of energies", "why_tests_cant": "The statement is about probabilities over all states of the random number generator and about an integral over the stopping power; a histogram test sees a finite sample of one configuration and tolerates small deviations of the density.", "anchors": ["kinematics/pipeline.py:232-283", "kinematics/pipeline.py:285-348", "kinematics/pipeline.py:14-36"]}
{"id": "C113", "title": "Tracks in the gas are spirals whose shape depends on the energy only", "statement": "With fields along the z axis and any stopping power, the transverse momentum of a nucleus turns about the z axis with the angular velocity q B / (m gamma), in the sense that the program's sign of the field gives, and its magnitude never grows; the gas and the electric field influence the turning only through gamma. Without electric field the angle between the motion and the z axis is constant, the distance along the z axis is the length of the track times the cosine of that angle, and the angle of turning at a given energy is the integral of q B / (p S) over the energy lost, for every direction of emission. Hence every row that generate_trajectory returns with an exact solver has the direction of the initial momentum turned by an angle that is a function of its energy, and lies at the range of the lost energy times the cosine of the angle of emission from the vertex.", "quantifier": "for all vertices, momenta of at least 1 eV, nuclei of positive mass, magnetic fields, stopping powers that are continuous and positive in the energies passed, exact solvers and rows of the track", "why_tests_cant": "A test compares one computed track with a stored one; the closed form for all fields, gases and directions needs the differential equation to be solved symbolically.", "anchors": ["detector/solver.py:19-77", "detector/solver.py:243-305"]}
{"id": "C114", "title": "Electronics settings without a response either raise at once or store empty clouds", "statement": "If gain, shaping time and clock frequency are not 0, the response is a function and writer and response behave as the other properties say. With gain 0 the constructor of the writer raises ZeroDivisionError before the output directory is touched. With gain other than 0 and shaping time or clock frequency 0 the writer is created without an exception; every call of write then raises and creates exactly what it would with a regular response and a threshold above 4095, and whatever calls are made, no dataset of any file created by the writer holds a point or a label.", "quantifier": "for all configurations, output directories, file sizes, run numbers, event requests and argsort functions", "why_tests_cant": "Tests use sensible electronics settings; the settings 0 produce NaN arrays silently, and that this leaves every file of every possible sequence of writes empty is a statement about all sequences.", "anchors": ["detector/response.py:8-57", "detector/writer.py:61-112", "detector/writer.py:164-255"]}
{"id": "C115", "title": "The whole active volume is recorded", "statement": "Electrons released above an active pad at any height of the active volume are recorded: they arrive in one of the 512 time buckets, and their charge is in the point cloud of the event.", "quantifier": "for all detector and electronics settings with the micromegas edge before the window edge, all heights, and all events, solvers and random generators", "why_tests_cant": "The test configuration itself has the window edge at 560, beyond the last time bucket, and no test looks at the part of the chamber that is lost; which settings record everything is a statement about all settings and heights.", "anchors": ["detector/parameters.py:166-175", "detector/solver.py:392-398", "detector/simulator.py:96-115", "detector/constants.py:23"]}
{"id": "C116", "title": "The gain scales the charges and changes nothing else", "statement": "Simulating the same event with the same random numbers and another gain of the micromegas raises the same exception or gives a cloud with the same points, times and labels, and leaves the generator in the same state. Without diffusion the charges are proportional to the gain. With diffusion a larger gain never lowers a charge, and multiplying the gain by m multiplies every charge by at least m.", "quantifier": "for all events, configurations, solvers, generators and pairs of gains", "why_tests_cant": "It relates two executions for every pair of gains; the cutting to whole electrons per mesh point makes the relation with diffusion an inequality that single numbers do not show.", "anchors": ["detector/solver.py:385-413", "detector/transporter.py:123-317", "detector/simulator.py:92-115"]}
{"id": "C117", "title": "The electronics settings influence the contents of stored events, nothing else", "statement": "Two runs on the same kinematics file with the same random numbers whose configurations differ only in clock frequency, amplifier gain, shaping time and threshold simulate the same point clouds, end with the same exception or none, and leave at every moment the same files, datasets, attributes and event ranges; only rows and labels may differ. If the threshold is raised, every event keeps exactly the points above the new threshold, with their labels, sorted by height.", "quantifier": "for all kinematics files, chambers, pairs of electronics settings, generators, solvers, output directories, file sizes, run numbers and orders of ties of argsort", "why_tests_cant": "It compares two complete runs for all settings, including interrupted ones, and all contents of the output directory.", "anchors": ["detector/simulator.py:118-210", "detector/writer.py:61-112", "detector/writer.py:183-281"]}
{"id": "C118", "title": "The size of an event is bounded", "statement": "The cloud of an event has at most 10001 points per simulated charged nucleus without diffusion and at most 1000100 with diffusion; with the packaged pad data it never has more than 512 x 10118 points. The stored dataset never has more rows than the cloud, and as many labels as rows.", "quantifier": "for all events, chambers, gases, generators and solvers that return one state per requested time", "why_tests_cant": "A test measures the size of a few events; the bound is for all momenta, fields, gases, diffusion coefficients and random numbers.", "anchors": ["detector/solver.py:243-305", "detector/transporter.py:123-317", "detector/simulator.py:92-115", "detector/beam_pads.py"]}
{"id": "C119", "title": "The cloud of an event is the sum of the clouds of its nuclei", "statement": "Simulating the nuclei of two lists one after the other gives, in every pad and time bucket, the charge of the first list alone plus the charge of the second list alone (simulated with the random numbers that follow); the label is that of the second list where it deposited anything, else that of the first. The event succeeds if both parts do, and further nuclei never remove a point or lower a charge when the gain is not negative.", "quantifier": "for all events, splits of the list of nuclei, chambers, generators and solvers", "why_tests_cant": "It compares three simulations for all splits of all events, including shared pads and time buckets.", "anchors": ["detector/simulator.py:92-115", "detector/transporter.py:123-317"]}
{"id": "C120", "title": "A run is determined by its input, not by the solver", "statement": "In a gas that slows nuclei down (continuous, Lipschitz and positive stopping power), two solvers that follow the equation of motion exactly and do not fail give the same result of run_simulation on every kinematics file whose simulated nuclei start with at least 1 eV: the same writer state, the same exception or none and the same final random state. Such a solver exists.", "quantifier": "for all kinematics files, detector and electronics settings, writers, generators and pairs of exact solvers", "why_tests_cant": "It quantifies over all exact solvers and rests on uniqueness of the solutions of the equation of motion with stopping events.", "anchors": ["detector/solver.py:19-77", "detector/solver.py:243-305", "detector/simulator.py:118-210"]}
{"id": "C121", "title": "A stored event contains all sampled directions and determines its sample", "statement": "In every event returned by run, the ejectile has the sampled direction in the rest frame of beam and target, and the first product of the i-th decay has the i-th sampled direction in the rest frame of the decaying nucleus. Together with conservation and masses this leaves exactly one event per sample. Conversely beam energy and excitations are the kinetic energy of the beam row and missing masses, and two calls of run with the same vertex and rows had the same sample (polar angles strictly between 0 and pi).", "quantifier": "for all chains of any length, samples, generators and buffers", "why_tests_cant": "The chain can be of any length and angles are real; a test compares a few events and cannot show that nothing else satisfies the specification or that the sample is recoverable.", "anchors": ["kinematics/pipeline.py:232-388", "kinematics/reaction.py:103-179", "kinematics/reaction.py:252-303"]}
{"id": "C122", "title": "Simulated events are independent, and times are uniform within their time buckets", "statement": "With an ideal generator, the cloud and labels of an event are independent of the generator state left behind, which is like a new one; so the events of a run are independent: the probability that a run completes with the clouds of its events in given sets is the product of the probabilities of the events simulated alone. Given the pads, time buckets, charges and labels of all points of a cloud, the stored times are independent and uniform within their time buckets.", "quantifier": "all kinematics files, configurations, solver behaviours, sets of clouds, parts of time buckets; whether or not events raise", "why_tests_cant": "Independence and uniformity are statements about the joint distribution over all random streams; a test sees finitely many samples and cannot detect a small correlation between events or points.", "anchors": ["detector/simulator.py:52-115", "detector/simulator.py:160-207", "detector/solver.py:308-413"]}
{"id": "C123", "title": "The angles of the products in the laboratory", "statement": "The momenta of the ejectile of a reaction in the laboratory form an ellipsoid around the beam axis. If a product has a smaller momentum p* in the centre of mass than m βγ, it moves forward and the sine of its angle is at most p*/(m βγ), a bound which is attained; if p* is larger, the ejectile comes out at every angle from 0 to 180 degrees. In elastic scattering the target nucleus never moves backwards and its kinetic energy is the known function of its angle, 2 m P² cos²θ / (E² - P² cos²θ).", "quantifier": "all masses, beam energies, allowed excitations, angles", "why_tests_cant": "The maximal angle is the extremum over a continuum of sampled angles and its attainment needs the exact angle; whether all angles occur is an existence claim for every angle.", "anchors": ["kinematics/reaction.py:103-179"]}
{"id": "C124", "title": "A whole event in machine arithmetic", "statement": "With correctly rounded float64 operations and int64 counters from the primary electrons to the rows of the file, every event whose tracks stay inside the detector and whose charge stays below 2^53 is simulated and formatted without exceptions. Each row of the cloud has its own (time bucket, pad) cell: the pad number is exactly an active pad that is not a beam pad, the time bucket lies between the edges, the stored time lies between the bucket and the next one and below 512, and the charge is a non-negative whole number. The labels are simulated charged nuclei. The charges add up to at most the gain times the number of electrons drawn with exact arithmetic plus one per track point. The stored rows are exactly those above the threshold, each with the centre and size of its pad, its own label and an amplitude up to 4095, sorted by z, and z is accurate to 1e-15 of the length.", "quantifier": "All events, nuclei, tracks returned by the solver, draws within 40 standard deviations, pad grids, configurations in the stated ranges, correctly rounded float64 operations and argsort orders of ties.", "why_tests_cant": "Rounding errors depend on every digit of the inputs, and the interplay of rounding in electrons, times, widths, keys and charges has no finite set of representative cases.", "anchors": ["detector/simulator.py:19-115", "detector/solver.py:308-413", "detector/transporter.py:123-317", "detector/pairing.py:5-55", "detector/writer.py:61-112", "detector/writer.py:220-238"]}
{"id": "C125", "title": "The two-body calculation reaches all, and only, the allowed final states", "statement": "For every allowed decay of a massive parent, and every allowed reaction that calculate accepts, the pairs of four-momenta that calculate returns as the polar angle runs over [0,pi] and the azimuthal angle over [0,2pi) are exactly the pairs that add up to the initial four-momentum and lie on the mass shells of the products (including the excitation). Along a chain, the events that one attempt produces for fixed beam energy and excitations, over all choices of the angles, are exactly the events that conserve energy and momentum in every step with all products on their mass shells and positive energies. Consequently a product of mass m can be sent in a given laboratory direction exactly if the direction is in the cone around the parent whose half-angle has sine p*M/(mP), or p*M is at least mP.", "quantifier": "for all masses, beam energies, excitations, parent momenta, four-momenta of the products, chains of decays and directions", "why_tests_cant": "Tests generate events and check conservation; they cannot show that no physical final state is missed, nor that a direction is unreachable.", "anchors": ["kinematics/reaction.py:103-178", "kinematics/reaction.py:252-303", "kinematics/pipeline.py:305-385"]}
{"id": "C126", "title": "A nucleus stops in the gas against the electric field and leaves all of its energy", "statement": "Let a nucleus of charge Z with kinetic energy K of at least 1 eV and momentum p move in any electric field E along the beam axis and any magnetic field, in a gas whose stopping force exceeds the force |Z E| of the electric field by at least S MeV/m at all energies between 1 eV and K, and let its range K/S be shorter than the distances of the vertex to the ends and the side of the volume. Then it only loses energy, its trajectory ends at 1 eV inside the volume after at most the time p/(S c), and stays within the range around the vertex (range and time up to a factor 1 + 1e-9, by which the unit conversions of the code disagree). If that time is at most a microsecond and an exact solver is used, every track point lies within the range, there is one for every 0.1 ns, and the kinetic energy changes along the track by at most K less 1 eV and at least K less the energy that the nucleus has 0.1 ns before the end. Without Fano fluctuations the primary electrons number at most this change over W and fall short of it by at most one for every 0.1 ns of flight.", "quantifier": "for all vertices, momenta, nuclei, electric and magnetic fields and gases as described, all exact solvers and all lawful generators", "why_tests_cant": "With the electric field the force on the particle depends on its direction, which the magnetic field keeps changing; that it never gains energy and cannot reach a wall needs an argument about every solution of the differential equation.", "anchors": ["detector/solver.py:14-16", "detector/solver.py:19-77", "detector/solver.py:80-121", "detector/solver.py:243-305", "detector/solver.py:308-347"]}
{"id": "C127", "title": "The charge of an event measures the energy of its nuclei", "statement": "Let all charged nuclei of an event stop in the gas as in C126, let every point within their ranges of the vertex be recorded (the drift ends in the 512 time buckets, and all pixels over which the diffusion spreads the electrons lie on active pads), and let there be no Fano fluctuations. Then the total charge of the point cloud is at most the gain times the sum of the kinetic energies, each less 1 eV, over W. Without diffusion it is at least the gain times the sum of the kinetic energies, each less the energy 0.1 ns before the end of the track, over W, less one electron for every 0.1 ns of flight. With diffusion it is at least 99.8 % of that, less 100 electrons for every track point. Neutral nuclei contribute nothing.", "quantifier": "for all events, numbers of nuclei, electric and magnetic fields, diffusion coefficients, gains >= 0, W > 0, gases, pad planes and configurations as described, all exact solvers and all lawful generators", "why_tests_cant": "The statement connects the kinematics of an event with the charge that is written for it, through trajectory, ionisation, drift, diffusion and binning, for all events at once.", "anchors": ["detector/simulator.py:52-115", "detector/solver.py:19-77", "detector/solver.py:243-305", "detector/solver.py:308-347", "detector/solver.py:350-413", "detector/transporter.py:124-250", "detector/transporter.py:253-317"]}
{"id": "C128", "title": "Energy resolution of the simulated charge", "statement": "With ideal random numbers, if the charged nuclei of an event have trajectories from which electrons drift to the pad plane, the simulation never fails. Let a be the share of a track point's electrons that is recorded (0 outside of the recorded time window, otherwise the weights of the pixels above active pads), m the change of the kinetic energy at the point over W, A = sum of a m, B = sum of a^2 m, N the number of track points, and t = 100 electrons with diffusion and 0 without (cutting the shares of the pixels to integers). The mean of the total charge is gain * A, at most (gain + t) N below and gain F/4 N above it (F the Fano factor), and its standard deviation is gain * sqrt(F B), up to (gain * (1/2 + sqrt(3) F / 4) + t/2) * sqrt(N). The charge deviates from gain * A by more than the bias and c of these standard deviations with probability at most 1/c^2. For nuclei that stop in the gas and are recorded, A and B are the summed kinetic energy over W, within 0.2 % for the pixels.", "quantifier": "all events, detector geometries and grids, diffusion coefficients, nonzero electric fields, Fano factors, gains, W values, solvers (C128_energy: exact solvers), ideal generators", "why_tests_cant": "A resolution is a property of the distribution over all random numbers; a test sees samples, and would need many to see a wrong width, for each energy, gas, gain and Fano factor.", "anchors": ["detector/simulator.py:52-115", "detector/solver.py:308-347", "detector/solver.py:350-413", "detector/transporter.py:253-317"]}
{"id": "C129", "title": "Errors of the ODE solver change the charge by a bounded amount", "statement": "Let the solver return, for a nucleus that stops in the gas, states at the requested times up to a time within eta of the true end, whose positions are within delta metres and whose momenta per mass within epsilon of the true trajectory. Then the kinetic energy changes along the track by at least the initial energy less the energy 0.1 ns (plus eta) before the end and 2 m epsilon, and by at most the initial energy less 1 eV plus 2 m epsilon per step; the track has at most eta/0.1 ns steps more than the true one, its points lie within the range plus delta of the vertex, and their momenta are between that at 1 eV and the initial one up to epsilon. The number of electrons, the charge of an event without Fano fluctuations, and with ideal random numbers the mean and the standard deviation of the charge for any Fano factor follow with these energies in place of the true ones. With delta = epsilon = eta = 0 this is the exact solver.", "quantifier": "all nuclei, vertices, momenta, gases, fields, detector geometries, diffusion coefficients, gains, W values, error bounds delta, epsilon, eta, solvers within these bounds", "why_tests_cant": "scipy's Radau has errors controlled by tolerances, never zero. A run shows one error for one track; how much of it reaches the charge at most, over all tracks and gases, is not visible in runs, and electrons from steps of the wrong sign add up along the track.", "anchors": ["detector/solver.py:243-305", "detector/solver.py:308-347", "detector/simulator.py:52-115"]}
{"id": "C130", "title": "The charge of an event measures its energy in machine arithmetic", "statement": "With correctly rounded float64 operations and int64 counters, an event whose nuclei are neutral or have tracks inside the detector, with electrons that arrive before time bucket 511 and recording pads all around within the reach of the diffusion, is simulated without exceptions, and without Fano fluctuations the charge of its cloud is at most the gain times (energy in eV over W plus the number of track points), and at least 0.9977 of the gain times (energy in eV over W less two electrons per track point) less 100 per track point, summed over the charged nuclei. Nuclei that stop in the gas have such tracks, also from a solver with bounded errors. On the packaged pad plane a position has recording pads all around if the pads at all whole millimetres of the square around it record.", "quantifier": "all events, nuclei, gases, fields, pad planes, solvers within the error bounds, correctly rounded float64 operations, lengths from 1 mm to 1 km, edges up to bucket 1000 (the documented 10 and 560 included), zero diffusion or widths between 2 nm and 0.9 m, charges below 2^53", "why_tests_cant": "A lower bound on the charge in float64 needs every rounding of 100 mesh pixels per track point, of keys, times and charges to be bounded at once; a single lost pixel, an index rounded to the neighbouring pad or a time rounded to 512 loses charge only for isolated inputs.", "anchors": ["detector/simulator.py:19-115", "detector/solver.py:308-413", "detector/transporter.py:78-317", "detector/pairing.py:5-55"]}
{"id": "C131", "title": "The charge of an event tells the excitation energy of the reaction", "statement": "The kinetic energies with which the detector simulation starts the final products of an event returned by the kinematics add up to the beam energy at the vertex plus the Q value of the chain, less the excitation energy of the last nucleus and the kinetic energy of the neutral products; an excited charged last nucleus has more, by at most its kinetic energy times excitation energy over mass. If these nuclei lose their energy over active pads up to given losses, the energy for which the charge of the cloud stands (charge times W over gain) therefore determines the excitation energy: it is at most beam energy plus Q value less visible energy (up to the relative correction T/m), and at least this less the losses, W per track point, and with diffusion 0.2 % and 100 electrons per track point.", "quantifier": "for all reaction chains of any length with positive masses, all samples with a non-negative excitation energy of the last nucleus, all events with energy and momentum conserved (every event returned by run, C46), the default selection of nuclei, all detector configurations with a positive gain and W and no Fano fluctuations, all pad planes, generators, solvers, and all losses for which the tracks satisfy the bounds", "why_tests_cant": "The relation couples the kinematics of a chain of any length with the transport, rounding and pad lookup of thousands of electrons per track; tests compare single functions with single numbers and would not see a sum of energies that is off by the excitation energy or a neutral product.", "anchors": ["kinematics/reaction.py:103-178", "kinematics/reaction.py:252-303", "kinematics/pipeline.py:285-388", "detector/simulator.py:52-115", "detector/solver.py:19-77", "detector/solver.py:243-305", "detector/solver.py:308-347", "detector/solver.py:350-413", "detector/transporter.py:124-250", "detector/transporter.py:253-317", "detector/simulator.py:157-158"]}
{"id": "C132", "title": "The response template in machine arithmetic", "statement": "With every float operation of get_response rounded to the nearest double, and exp, sin and the third power accurate to 2^-50, the template has 512 samples, starts with 0 and is never negative, and each sample agrees with the analytic response to 1e-15 of the counts per electron. Amplitude and integral of a signal of e electrons computed with it by apply_response agree with the exact signal of the analytic template to 1.1e-15 of (counts per electron times e) plus 2e-16 of the amplitude, and to 5.2e-13 of (counts per electron times e) plus 2e-13 of the integral. So the ADC threshold decides as with exact numbers unless the exact amplitude is that close to the threshold.", "quantifier": "for every rounding to nearest, every exp, sin and cube with these accuracies, all electronics settings with gain 1..1e9 and shaping time between 0.1 and 1e9 time buckets, all charges e >= 0 and all thresholds", "why_tests_cant": "Tests compare a few settings with the same float library; the bound covers every setting, every charge and every conforming math library.", "anchors": ["detector/response.py:8-32", "detector/response.py:35-57", "detector/constants.py:23-35", "detector/writer.py:98-110", "detector/writer.py:232"]}
{"id": "C133", "title": "PolarArbitrary accepts tables whose probabilities sum to 1", "statement": "The constructor of PolarArbitrary accepts every table of non-negative probabilities that sums to 1, as its documentation asks for.", "quantifier": "for every rounding to nearest, all tables", "why_tests_cant": "Whether the rounded sum exceeds 1 depends on the individual entries and their order; a few test tables do not show it.", "anchors": ["kinematics/angle.py:122-134", "kinematics/angle.py:105-106"]}
{"id": "C134", "title": "Bins and weights of PolarArbitrary in machine arithmetic", "statement": "With all float operations rounded (compensated sum check, cumulative sums, division by the last one, search), sample raises no error for a table whose weights sum to 1 up to 1e-9. Every sample lies in a bin of positive weight, between its lower angle and its rounded upper edge. Of the 2^53 numbers that the generator returns with equal probability, the share that selects bin i is weight_i divided by the sum of the weights, to 1e-15 times the number of bins.", "quantifier": "for every rounding to nearest, all tables of up to 100000 bins with non-negative weights, all generator states", "why_tests_cant": "Shares of 2^53 numbers cannot be enumerated, and rounding effects of order 1e-15 are invisible in samples.", "anchors": ["kinematics/angle.py:136-152"]}
{"id": "C135", "title": "Uniform samples stay in their range in machine arithmetic", "statement": "In float64 rng.uniform(low, high) returns a number from low to high for all doubles low <= high, and never high itself if low is 0 (azimuths, time offsets, smearing within a bin). ExcitationUniform samples lie from minimum to maximum. PolarUniform samples lie between the two angles up to 3e-8 rad if cos is accurate to 2^-52 and arccos to 2^-50, and a sample is returned if the angles are 5e-8 rad apart. A deviation cannot be avoided: for both angles 1e-9 the sample is 0; and ranges that do not start at 0 can return their end.", "quantifier": "for every rounding to nearest, every conforming cos and arccos, all bounds, all 2^53 numbers of the generator", "why_tests_cant": "The rounding cases that could leave the range occur for single numbers out of 2^53.", "anchors": ["kinematics/angle.py:62-80", "kinematics/excitation.py:114-128", "kinematics/pipeline.py:249-254", "kinematics/pipeline.py:272", "kinematics/pipeline.py:282", "detector/simulator.py:108"]}
{"id": "C136", "title": "Energetic condition and products near threshold in machine arithmetic", "statement": "In float64 Reaction.is_excitation_allowed decides as with exact numbers unless the centre-of-mass energy and the mass of the products agree to one part in 1e14, and Decay.is_excitation_allowed unless they agree to two parts in 1e13. If the energy above the mass of the products is at least 1e-12 e^3/(m1 m2), calculate returns no NaN: the centre-of-mass energy of the first product is accurate to 2.1e-13 e and its momentum p to 5e-13 e^2/p, and the second product is the rounded difference of parent and first product.", "quantifier": "for every rounding to nearest, every conforming sin, cos and boost, all masses from 1 MeV to 1 TeV, all beam energies from 1 eV up to the sum of the masses of beam and target, all angles, all excitations up to 1 TeV", "why_tests_cant": "Cancellation near threshold turns rounding errors into NaN or wrong decisions only for energies in a very narrow band that sampled tests do not reach.", "anchors": ["kinematics/reaction.py:70-101", "kinematics/reaction.py:103-178", "kinematics/reaction.py:230-303"]}
{"id": "C137", "title": "The products have their masses in machine arithmetic", "statement": "In float64 the ejectile and the residual of Reaction.calculate, and both products of Decay.calculate, lie on their mass shells: their squared invariant masses differ from the squared masses of the nuclei (the last one with its excitation) by at most 4e-11 of the squared centre-of-mass energy, so the masses by at most 4e-11 e^2/m.", "quantifier": "for every rounding to nearest, every sin and cos accurate to 1e-15 and every boost accurate to 3e-14 of the size of the vector, all masses from 1 MeV to 1 TeV, all beam energies from 1 eV up to the sum of the masses of beam and target, all angles, all allowed excitations, all parents with gamma up to sqrt 5", "why_tests_cant": "The rounding of the subtracted vectors, of the boost and of the angles has to be bounded for every direction and energy; tests compare single samples with a tolerance.", "anchors": ["kinematics/reaction.py:103-178", "kinematics/reaction.py:252-303"]}
{"id": "C138", "title": "The computed four-momenta are those of exact arithmetic up to rounding", "statement": "In float64 Reaction.calculate and Decay.calculate return numbers, and every component of beam, ejectile, residual and decay products differs from the one computed with real numbers by at most 1e-15 e (beam) and 1.4e-11 e^2/p (products), where e is the centre-of-mass energy and p the momentum of the products in that frame.", "quantifier": "for every rounding to nearest, every sin and cos accurate to 1e-15 and every boost accurate to 3e-14 of the size of the vector, all masses from 1 MeV to 1 TeV, all beam energies from 1 eV up to the sum of the masses of beam and target, all angles, all excitations that leave an energy of at least 1e-12 e^3/(m1 m2) above threshold, all decay parents with gamma up to sqrt 5", "why_tests_cant": "A test compares chosen samples with a tolerance; the error grows like 1/p towards the threshold and depends on direction and speed of the parent, so a bound for all inputs needs a proof.", "anchors": ["kinematics/reaction.py:103-178", "kinematics/reaction.py:252-303"]}
{"id": "C139", "title": "The equation of motion and the rest of the initial value problem in machine arithmetic", "statement": "In float64 equation_of_motion raises no exception for a moving charged nucleus; velocities are right up to 2.1e-15 of the speed, the derivatives of the momentum up to 4e-15 of the magnetic, electric and stopping terms, with the stopping power taken at the kinetic energy up to 11 units of 2^-53 of the total energy. The bound of the chamber in z is found exactly, the radius is compared with 0.292 m up to 6e-16 m, the initial momentum is rounded once, and the 10001 times of evaluation increase strictly within the time span, so that solve_ivp accepts them.", "quantifier": "for every rounding to nearest, all states with gamma beta from 1e-12 to 1e6, all nuclei with at least 500 MeV per charge, fields up to 100 T and 1e9 V/m, densities from 1e-12 to 1e3 g/cm3, every stopping power that is 0 or between 1e-9 and 1e9 MeV/(g/cm2)", "why_tests_cant": "The factors span sixty orders of magnitude (kilograms per MeV to accelerations); that no intermediate result underflows and that the error stays at a few roundings for all states can only be shown by propagating the errors symbolically.", "anchors": ["detector/solver.py:16-77", "detector/solver.py:124-305", "detector/constants.py:25-35"]}
{"id": "C140", "title": "Elastic scattering to a ground state needs no resampling", "statement": "For elastic scattering to a ground state without width, and a beam that does not stop before the vertex, the first sample is always accepted: run returns the event of that sample for every limit on the number of samples, as the user guide says. The same holds for every endothermic or elastic one-step chain whose highest excitation is allowed at the lowest beam energy. In float64 the threshold of an elastic reaction is exactly 0, and every beam energy from 1e-11 (t+p)^4/(t^2 p) MeV on is accepted and gives numbers.", "quantifier": "for all masses, beam energies, gases, angles, generators and states of the generator, sample limits of at least 1, and every rounding to nearest", "why_tests_cant": "A test sees some beam energies; that the comparison with the rounded energy and the rounded threshold never rejects a sample holds for all masses and energies only by proof, and it does fail below 1e-13 MeV.", "anchors": ["kinematics/reaction.py:70-178", "kinematics/pipeline.py:232-388"]}
{"id": "C141", "title": "Whole reaction chains in float64: same decisions, nearby momenta", "statement": "For every sample that exact arithmetic accepts safely above all thresholds, with decaying nuclei of gamma^2 at most 4.9, float64 accepts the same sample, and every row of the event is within an explicit bound of the exact one; the bound grows from decay to decay by the factor 27 m/p + 182, where m is the mass of the decaying nucleus and p the momentum of its products, plus 1.6e-11 m^2/p. A sample that exact arithmetic rejects at any decay, safely below its threshold, is rejected in float64 without an exception.", "quantifier": "for all chains with any number of decays, masses between 1 and 1e6 MeV, beam energies, excitations, angles, every rounding to nearest and every accurate implementation of the vector operations", "why_tests_cant": "Errors of one decay enter the mass of the next parent, and thereby the momentum of its products, which near a threshold changes arbitrarily fast; that the decisions stay the same along the chain is a statement about all samples and all chain lengths.", "anchors": ["kinematics/pipeline.py:322-388", "kinematics/reaction.py:70-303"]}
{"id": "C142", "title": "A kinematics run in float64 takes the same samples as exact arithmetic", "statement": "If every sample that can be drawn is decisive (safely above or safely below each threshold), then the sampling loop in float64 rejects and accepts the same samples as exact arithmetic, uses the same random numbers, raises the same exception or returns the event of the same sample with the same vertex and momenta within the bounds of C141; run_kinematics_pipeline succeeds in float64 exactly when it does in exact arithmetic, and each event read from one file corresponds to the event of the same number in the other.", "quantifier": "for all pipelines, generators, sample limits, numbers of events, chunk sizes, every rounding to nearest and every accurate implementation of the vector operations", "why_tests_cant": "One different decision shifts the random numbers of all later events, so agreement of a run requires agreement on every sample of every event; tests compare one run on one platform.", "anchors": ["kinematics/pipeline.py:285-388", "kinematics/pipeline.py:429-495"]}
{"id": "C143", "title": "A detector simulation in float64 completes and stores every event", "statement": "If the events of a kinematics file can be read and the tracks stay inside the detector with charges below 2^53, run_simulation with a new SpyralWriter completes in float64 without exceptions: it simulates all events of the file in order, each once, with sound point clouds (one row per cell, active pads, recordable buckets, a label for each row), and afterwards consecutively numbered files hold exactly the events with a non-empty cloud, in order, each with exactly the points above threshold sorted by height. All files but the last hold max_events_per_file events, no other file is touched, and every file is closed with a recorded event range; the ranges do not overlap.", "quantifier": "for all kinematics files, configurations in the stated ranges, generators, contents of the output directory, first run numbers, max_events_per_file of at least 1, every rounding to nearest and every library within the stated accuracy", "why_tests_cant": "The guarantee is about every event of runs of any length together with every rounding; a test executes one run on one platform.", "anchors": ["detector/simulator.py:118-209", "detector/writer.py:164-281"]}
{"id": "C144", "title": "Samples drawn in float64 are in range and near exact ones", "statement": "In float64 a sample of the pipeline has a vertex between the ends of the gas and within 40 standard deviations of the beam axis, a beam energy between 0 and the initial one, and azimuthal angles in [0, 2 pi), one for each decay. Each number is within a stated rounding of the number computed in exact arithmetic from the same raw random numbers (or both raise the same exception): a few parts in 1e15 for positions, azimuthal angles, Gaussian and uniform excitations, 6.1e-8 rad for uniform polar angles, and the corresponding change of energy loss for the beam energy. Every event of a kinematics file computed in float64 is the event of one such sample, with momenta near those of exact arithmetic unless the sample is within rounding of a threshold.", "quantifier": "for all pipelines with targets in the stated range, raw random numbers, numbers of decays and events, every rounding to nearest and every library within the stated accuracy", "why_tests_cant": "An angle of exactly 2 pi or a vertex outside the gas would need one particular random number out of 2^53; a test draws a few.", "anchors": ["kinematics/pipeline.py:232-283", "kinematics/pipeline.py:285-388", "kinematics/excitation.py:58-80"]}
{"id": "C145", "title": "Away from edges and the one-electron threshold, the cloud of an event in float64 has the same cells as in exact arithmetic", "statement": "Let the points of the tracks of an event either clearly have no electron (fewer than 0.9 before truncation) or clearly have one (at least 1.1), arrive before bucket 511 and farther than 2^-40 from the border of a time bucket, and have mesh lines farther than 1e-8 mm from a whole number of millimetres. Then the event is simulated in float64 and in exact arithmetic without exceptions, and both clouds have the same rows in the same order: the same pads and labels, times within 1e-13 of each other, and charges whose differences, added up over all rows, stay below an explicit bound (per point with v electrons: gain * 3e-4 * (v+1) + 100, and one electron more where v is within a tenth of a whole number). The packaged grid edges as stored in the file give the same pads as the exact ones.", "quantifier": "for all configurations in the stated range, events, raw random numbers, every rounding to nearest and every library within the stated accuracy", "why_tests_cant": "A test cannot run exact arithmetic, and the points where rounding moves charge to another pad or bucket have a tiny probability; the theorem says where they are and that there are no others.", "anchors": ["detector/transporter.py:78-317", "detector/solver.py:308-413", "detector/simulator.py:19-115"]}
{"id": "C146", "title": "Away from the threshold and from equal times, the stored event in float64 has the rows of exact arithmetic", "statement": "Let an event be clear as in C145, and let its cloud in exact arithmetic have no amplitude nearer to the ADC threshold than the rounding error and no two rows within 2e-12 time buckets. Then the writer working in float64 stores the same number of rows, in the same order, with the same labels, pads, pad positions and scales as exact arithmetic. Times differ by at most 1e-13 buckets, heights by at most 1e-9 mm times length over window, amplitudes by at most K*(0.06 B + 2e-15 E) + 1e-12 and integrals by at most K*(26 B + 1e-12 E) + 1e-6, where K is the number of counts per electron, E the largest charge and B the bound of C145 on the charges. The template, the signal, the cut and the sort are all those of float64.", "quantifier": "for all configurations in the stated range, clear events, sorting functions meeting the contract of argsort, every rounding to nearest and every library within the stated accuracy", "why_tests_cant": "A test cannot run exact arithmetic beside float64, and a row that is lost or swapped by rounding needs an amplitude or time within 1e-10 of another value; the theorem says that no other event can be stored differently.", "anchors": ["detector/writer.py:61-112", "detector/writer.py:194-255", "detector/response.py:8-57"]}
{"id": "C147", "title": "The files of a whole run in float64 are those of exact arithmetic, up to rounding", "statement": "Let a simulation run complete in exact arithmetic and let each of its events be clear as in C145 and C146. Then the run in float64 completes as well, with the same random numbers. Both runs perform the same operations on the directory, and after every single operation, and at the end, the directories have the same files with the same datasets, event numbers, attributes, labels, event ranges and open or closed state; the stored rows are the same up to the bounds of C146. Whatever was in the directory before stays the same in both.", "quantifier": "for all runs, configurations in the stated range, kinematics files, earlier directory contents, numbers of events per file, sorting functions meeting the contract of argsort, every rounding to nearest and every library within the stated accuracy", "why_tests_cant": "A test compares two runs of the same floating-point program; it cannot run exact arithmetic beside it, nor look at the directory after every single write of a run.", "anchors": ["detector/simulator.py:118-210", "detector/writer.py:164-281"]}
{"id": "C148", "title": "The times of an event are almost surely different, so the files do not depend on how argsort orders ties", "statement": "With an ideal generator, given that a simulated event has n rows, the probability that any two of their times lie within ε of each other is at most n(n-1)/2 times 2ε (4e-12 n(n-1)/2 for the distance that C146 asks for), and in a run it is at most the number of events times this bound for the largest cloud. So almost surely all times are different, and for a detector of non-zero length the outcome of a whole run (the exception or none, and all files) is almost surely the same for any two sorting functions meeting the contract of argsort, which by default (quicksort) does not promise any order of equal heights.", "quantifier": "for all events, numbers of rows, distances ε, kinematics files, configurations of non-zero detector length, states of writer and directory, pairs of sorting functions, and ideal generators", "why_tests_cant": "An event with probability zero or 1e-12 does not show in any number of test runs, and tests use one sorting function only.", "anchors": ["detector/simulator.py:104-115", "detector/simulator.py:183-210", "detector/writer.py:216-251"]}
{"id": "C149", "title": "The label array of an event is stored under its documented name", "statement": "For every event stored by SpyralWriter, the file that holds its cloud holds its label array in the same group under the name \"label_#\", # being the event number, as the user guide says.", "quantifier": "for all sequences of write calls, configurations, directory contents and event numbers", "why_tests_cant": "The tests of the repository do not read label arrays back; a test written together with the code would use the name of the code.", "anchors": ["detector/writer.py:238-251"]}
{"id": "C150", "title": "Whether a kinematics run completes and how many samples it draws", "statement": "Let q be the probability that a drawn sample is energetically forbidden. A run of n events either completes or ends with PipelineError; it completes with probability (1 - q^limit)^n. It draws on average sum_{i<n} (1 - q^limit)^i * sum_{k<limit} q^k samples, at most n/(1-q); the number of samples drawn for one event exceeds k < limit with probability q^k. It fails with probability at most n*q^limit; if q > 0 the probability that it completes tends to 0 as n grows, however large the limit.", "quantifier": "for all pipelines that do not meet C43, all sampling limits, numbers of events and chunk sizes, all probabilities q, over the random sequence of samples", "why_tests_cant": "With the default limit of 1000 samples and any realistic q the failure has a probability too small to see in a test, and a probability is not a value that one run can check.", "anchors": ["kinematics/pipeline.py:285-388", "kinematics/pipeline.py:429-495"]}
{"id": "C151", "title": "A kinematics run in float64 almost always takes the samples of exact arithmetic", "statement": "If the samples actually drawn are not within rounding of an energy threshold, a kinematics run in float64 ends like the run in exact arithmetic, uses the same random numbers and stores events with the same vertices and nearly the same momenta. The probability that a run of n events does anything else is at most the probability that one sample is near a threshold times the mean number of samples drawn, hence at most n times the ratio of the probabilities of a near-threshold sample and of an allowed sample.", "quantifier": "for all accurate float64 arithmetics, all pipelines with masses of at least 1 MeV that do not meet C43, all sampling limits, numbers of events and chunk sizes, over the random sequence of samples", "why_tests_cant": "The difference shows only for samples within about 1e-13 of a threshold, which no test will ever draw.", "anchors": ["kinematics/pipeline.py:285-388", "kinematics/pipeline.py:429-495", "kinematics/reaction.py:70-178"]}
{"id": "C152", "title": "Efficiencies estimated from a simulated file", "statement": "For any criterion on the point cloud and labels of an event, the number of events of a simulation run that meet it is the number of successes in independent trials with the probabilities of the single events simulated alone: its law is the sum over sets of events of products (binomial if the events have equal probabilities), its mean is the sum of the probabilities, and if no event raises an exception the fraction of events that meet it differs by eps or more from the mean probability with probability at most 1/(4 n eps^2) and at most 2 exp(-2 n eps^2). An event that is not written because its cloud is empty counts with its empty cloud.", "quantifier": "for all kinematics files, configurations, nucleus choices, measurable criteria and writers that do not raise, over the random numbers of an ideal generator", "why_tests_cant": "It is a statement about the distribution of counts over all random sequences and for every possible criterion.", "anchors": ["detector/simulator.py:52-115", "detector/simulator.py:118-207"]}
{"id": "C153", "title": "The events of the whole chain are independent and the simulated efficiency is binomial", "statement": "Run the kinematics pipeline with one ideal generator and the detector simulation of its file with another, independent one. The probability that both complete and that the cloud and labels given to the writer for event k lie in B_k, for every k, is the product over the events of the mean of the detector's response (the probability that simulating that event gives a result in B_k) over the accepted samples. Hence the number of events that meet a criterion is binomially distributed, with the mean response over the accepted samples as success probability. Both runs complete with the n-th power of the probability R for one event, and given that they complete the number is binomial with success probability (mean response)/R.", "quantifier": "for all pipelines, detector configurations, numbers of events, chunk sizes, nucleus choices, measurable criteria and writers that do not raise, over the random numbers of both runs; the response must be a measurable function of the sampled parameters", "why_tests_cant": "It is a statement about the joint distribution of all events over all random sequences of both programs.", "anchors": ["kinematics/pipeline.py:429-495", "detector/simulator.py:52-115", "detector/simulator.py:118-207"]}
{"id": "C154", "title": "How many samples were rejected says nothing about the events that were accepted", "statement": "In a kinematics run, the numbers of forbidden samples drawn before each accepted one are independent of the parameters of the accepted samples and of each other: the joint probability of numbers and parameters is the product over the events of sum_k q^k * P(allowed, in B). Given that the run completes, numbers and parameters factorise, so neither the sampling limit nor the rejections bias the file. The total number m of rejected samples of a completed run of n+1 events has probability choose(m+n, n) * q^m * (1-q)^(n+1) for m below the limit. The file holds exactly the events of the accepted samples, and the generator has moved by the number of accepted plus rejected samples.", "quantifier": "for all pipelines that do not meet C43, all sampling limits, numbers of events, chunk sizes, measurable sets of parameters and sets of numbers, over the random sequence of samples", "why_tests_cant": "It is a statement about the joint distribution over all random sequences; a bias introduced by the rejection loop changes no single event.", "anchors": ["kinematics/pipeline.py:285-388", "kinematics/pipeline.py:429-495"]}
{"id": "C155", "title": "The statistical error of an efficiency estimated with both programs", "statement": "Run the kinematics pipeline and then the detector simulation of its file with independent ideal generators. Given that both complete, the number of n events that meet a criterion has mean n*r, where r is the efficiency over the accepted samples; its probability of lying in any set of numbers is that of the binomial law; the fraction differs from r by eps or more with probability at most r(1-r)/(n*eps^2), and at most 2*exp(-2*n*eps^2).", "quantifier": "for all pipelines, detector configurations, numbers of events, chunk sizes, nucleus choices, measurable criteria, eps > 0 and writers that do not raise, over the random numbers of both runs; the response must be a measurable function of the sampled parameters and not almost surely fail", "why_tests_cant": "The probability of a large statistical fluctuation is a property of all random sequences of both programs and is too small to be measured.", "anchors": ["kinematics/pipeline.py:429-495", "detector/simulator.py:52-115", "detector/simulator.py:118-207"]}
{"id": "C156", "title": "Without diffusion, moving the vertex along the beam axis delays the point cloud", "statement": "The equation of motion does not depend on the position along the beam axis: as long as a trajectory, as it is and moved, keeps away from the two ends of the volume, the moved trajectory is the complete trajectory of the nucleus emitted from the moved vertex, and an exact solver returns the moved track. A moved track releases the same electrons from the same random numbers. Without diffusion, an event emitted further from the micromegas by the distance that electrons drift in k time buckets therefore has the same point cloud k buckets later: the same rows in the same order, on the same pads, with the same charges and labels, or the same error, as long as both clouds lie inside the recorded window. Nuclei that stop in the gas meet the condition if their range fits between the ends and into the window. The writer stores of it the same rows in the same order, with times k larger and positions along the axis smaller by the length of k buckets, if its sorting function only compares; a whole run on the kinematics file with all vertices moved ends alike and leaves the same files up to this change of the rows.", "quantifier": "for all events, nuclei, gases with a locally Lipschitz stopping power, fields, pad grids, electronics settings, integers k, exact solvers, lawful generators and generator states", "why_tests_cant": "It relates two runs for every vertex, shift and random sequence through the solution of a differential equation; a test can compare single pairs of runs with an inexact solver.", "anchors": ["detector/solver.py:19-76", "detector/solver.py:243-305", "detector/solver.py:308-347", "detector/solver.py:350-413", "detector/transporter.py:123-169", "detector/simulator.py:52-115", "detector/simulator.py:118-207", "detector/writer.py:61-112"]}
{"id": "C157", "title": "Exact tracks turn with the nucleus and are reflected when the magnetic field is reversed", "statement": "The complete track (the values at the requested times until the terminal event) of a nucleus whose vertex and momentum are turned about the beam axis is the turned track. With the magnetic field reversed, the equation of motion at the state reflected in the plane of the beam axis and the x axis is the reflected equation, all bounds are unchanged, and the track of the reflected nucleus is the reflected track. A solver that integrates without error therefore returns the turned or reflected track, and from the same random numbers the same electrons are released at the same heights.", "quantifier": "for all angles, vertices, momenta, nuclei, gases with a locally Lipschitz stopping power, fields, exact solvers and generator states", "why_tests_cant": "The statement relates complete solutions of differential equations for all angles and momenta, not only approximate ones at single settings.", "anchors": ["detector/solver.py:19-76", "detector/solver.py:80-240", "detector/solver.py:243-305", "detector/solver.py:308-347"]}
{"id": "C158", "title": "Without diffusion, moving both edges of the window delays the stored events and changes nothing else", "statement": "Moving micromegas_edge and windows_edge together by k time buckets leaves the drift velocity and the rest of the configuration unchanged and delays the arrival of every point by k. With the diffusion coefficient zero the simulation then fails alike or returns the cloud with every time k buckets later and the same labels, charges, pads and generator state, as long as all points stay among the 512 recorded buckets; in a chamber of at least one metre with a solver that stops at the bounds it is enough that both windows lie among them. Of the delayed cloud the writer stores the same rows in the same order with the same labels: only the column of the times differs, by k. A whole run ends alike, after the same random numbers, and leaves at every moment the same files, except that all stored times are k larger.", "quantifier": "for all k, file systems, parameters, grids of plain cells, solvers, nuclei, momenta, vertices, lawful generators, sorting functions, responses and clouds", "why_tests_cant": "The edges enter the drift velocity, the arrival times, the point dictionary's keys and the writer's conversion separately; the cancellation is claimed for all values of the edges and all events.", "anchors": ["detector/parameters.py:164-174", "detector/solver.py:350-413", "detector/simulator.py:52-115", "detector/writer.py:61-112", "detector/writer.py:194-255", "detector/simulator.py:118-207"]}
{"id": "C159", "title": "A level is populated uniformly up to the depth where the beam reaches its threshold, and nowhere else", "statement": "Reaction.is_excitation_allowed accepts an excitation exactly if the beam energy exceeds the textbook threshold ((m3+m4+Ex)^2-(m1+m2)^2)/(2 m_target), which grows with the excitation. If the beam loses energy continuously in the gas, there is exactly one depth at which it falls to that threshold. For a reaction without decays to one level that needs energy, a sample is allowed exactly if its vertex is before that depth; every event returned has its vertex between the entrance and that depth, is uniformly distributed there, and a run gives up with the probability that all the samples it may draw lie behind it.", "quantifier": "for all reactions, levels, beam energies, energy-loss functions, vertex ranges, sample limits and intervals of depth", "why_tests_cant": "A finite sample of events can neither show that the distribution is exactly uniform nor that no vertex behind the threshold depth is ever accepted.", "anchors": ["kinematics/reaction.py:70-101", "kinematics/pipeline.py:232-283", "kinematics/pipeline.py:285-388"]}
{"id": "C160", "title": "With the Fano factor 0 only the times within the time buckets are random", "statement": "With fano_factor 0, the numbers of electrons along a track do not depend on the random numbers. Two simulations of an event with any two generators in any states fail with the same exception or return the same rows in the same order with the same labels, apart from the position of the times within their time buckets; so not even which points are kept is random. Of two such clouds the writer stores the same points with the same pad centres, signals, pads, time buckets, sizes and labels, and only their order within a time bucket may differ, whichever order argsort gives to ties.", "quantifier": "for all events, configurations with Fano factor 0 (with and without diffusion), solvers, pairs of lawful generators and states, and sorting functions", "why_tests_cant": "Equality of results is claimed for all pairs of random number streams, not for a few seeds.", "anchors": ["detector/solver.py:308-347", "detector/solver.py:350-413", "detector/simulator.py:52-115", "detector/writer.py:194-255"]}
{"id": "C161", "title": "The excitation energies of accepted events are the sampled ones weighted with the accessible part of the gas", "statement": "For a reaction without decays in a gas that slows the beam down continuously and does not stop it, a sample with excitation E is allowed exactly if its vertex is before the depth at which the beam reaches the threshold of E. The part of the gas before that depth lies between 0 and 1 and shrinks with E. The excitations of allowed samples, and those of the events that a run returns, are distributed like the sampled ones with this part as weight, so that resampling distorts a given excitation spectrum by exactly this factor.", "quantifier": "for all reactions, excitation and angular distributions with independent draws, energy-loss functions, vertex ranges, sample limits and measurable sets of excitations", "why_tests_cant": "The statement is about the exact probability distribution of the accepted events.", "anchors": ["kinematics/reaction.py:70-101", "kinematics/pipeline.py:232-283", "kinematics/pipeline.py:285-388"]}
{"id": "C162", "title": "The tables of pad centers and sizes fill three columns of the output and influence nothing else", "statement": "Two configurations made from the same parameters except for the files of pad centers and pad sizes, with tables of the same lengths, give the same simulated clouds from the same random numbers. The writer stores the same rows in the same order with the same labels: only the columns x, y and scale differ, and they hold the entries of the other tables for the pad of the row. A whole run ends alike, after the same random numbers, and leaves at every moment the same files except for these columns. In particular the pads that receive charge are decided by the grid alone: nothing checks that the tables describe the pads of the grid.", "quantifier": "for all file systems, parameters, pairs of tables of the same lengths, kinematics files, solvers, generators, sorting functions and writers", "why_tests_cant": "It relates two executions for every pair of tables and every event; a test compares single outputs.", "anchors": ["detector/parameters.py:207-261", "detector/writer.py:61-112", "detector/writer.py:194-255", "detector/simulator.py:52-115", "detector/simulator.py:118-207"]}
{"id": "C163", "title": "Without diffusion only the ratio of the two gains and the product of clock and shaping time matter", "statement": "The response template is inversely proportional to the gain of the amplifier and depends on clock frequency and shaping time through their product. If the gains of micromegas and amplifier are changed with their ratio kept, and clock and shaping time with their product kept, then without diffusion the clouds have the same points, times and labels with charges proportional to the gain, the writer stores the same rows and labels, saturated or not, and a whole run ends alike, after the same random numbers, and leaves at every moment the same files.", "quantifier": "for all configurations with positive amplifier gains and diffusion 0, kinematics files, solvers, generators, sorting functions and directories", "why_tests_cant": "It relates two executions for every pair of settings, through clipping, threshold and sorting; a test compares single outputs, and in floating point only approximately.", "anchors": ["detector/response.py:8-57", "detector/solver.py:350-413", "detector/transporter.py:123-169", "detector/writer.py:61-112", "detector/writer.py:194-255", "detector/simulator.py:118-207"]}
{"id": "C164", "title": "The kinematics has no unit of energy built in", "statement": "Take any positive factor and multiply all masses, the beam energy, the sampled excitations and the energy losses in the target by it. Then reactions and decays are allowed or forbidden as before, calculate raises the same exception or gives the same four-momenta times the factor, the pipeline draws the same samples, and a call of run ends with the same exception or the same vertex after the same random numbers, with every four-momentum of the result multiplied by the factor. A whole run of the kinematics ends alike, and at every moment its file differs only in the four-momenta, which are multiplied by the factor.", "quantifier": "for all positive factors, reactions, decay chains, samplers, targets, generators, sample limits, chunk sizes, event numbers and states of the pipeline object", "why_tests_cant": "It relates two executions for every factor, through thresholds, square roots, boosts and the rejection loop. A constant in MeV hidden anywhere in the kinematics would break it.", "anchors": ["kinematics/reaction.py:70-101", "kinematics/reaction.py:103-178", "kinematics/reaction.py:230-250", "kinematics/reaction.py:252-303", "kinematics/pipeline.py:232-283", "kinematics/pipeline.py:285-388", "kinematics/pipeline.py:429-495"]}
