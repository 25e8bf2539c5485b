import Verif.Props.Motion
import Verif.Props.Reconstruction
import Verif.Props.RunFiles
import Verif.Props.Layout

/-! # C85: from the sampled reaction to the stored points -/

namespace Verif.Props

open Verif.Kinematics Verif.Spec Verif.Detector

variable {σ σ' : Type}

theorem pyGet_nat {α : Type} (l : List α) (k : ℕ) (a : α) (h : pyGet l (k : ℤ) = .ok a) :
    l[k]? = some a := by
  unfold pyGet at h
  simp only [Int.natCast_nonneg, not_lt.2, if_false, Int.toNat_natCast] at h
  cases hk : l[k]? with
  | none => rw [hk] at h; simp at h
  | some b => rw [hk] at h; simp at h; rw [h]

/-- Where the electrons of a track point come from. -/
theorem released_source {env : SimEnv} {momenta : List Vec4} {vertex : ℝ × ℝ × ℝ} {Zs As : List ℤ}
    {config : Config} {rng : Gen σ} {indices : List ℤ} {s : σ} {label : ℤ} {r : Row} {n : ℤ}
    (h : Released env momenta vertex Zs As config rng indices s label r n) :
    ∃ z a nucleus momentum track, pyGet Zs label = .ok z ∧ z ≠ 0 ∧ pyGet As label = .ok a ∧
      env.get_data z a = .ok nucleus ∧ pyGet momenta label = .ok momentum ∧
      generate_trajectory env.solve_ivp vertex (momentum.px, momentum.py, momentum.pz) nucleus
        config.det_params = .ok track ∧ r ∈ track := by
  induction h with
  | here idx z a nucleus momentum track primary rest s s₁ r n hz hz0 ha hn hm ht he hrn =>
    exact ⟨z, a, nucleus, momentum, track, hz, hz0, ha, hn, hm, ht, (List.of_mem_zip hrn).1⟩
  | neutral idx rest s label r n hz _ ih => exact ih
  | later idx z a nucleus momentum track primary rest s s₁ label r n hz hz0 ha hn hm ht he _ ih => exact ih

theorem nucleusAt_mem {p : Pipeline σ} {steps : List Step}
    (hsteps : steps = .reaction p.reaction :: p.decays.map .decay) {role : Role} {nuc : Nucleus}
    (h : nucleusAt p role = some nuc) : nuc ∈ chainNuclei steps := by
  rw [chainNuclei_built hsteps]
  have hdec : ∀ (k : ℕ) (f : Decay → Nucleus), (∀ d, f d = d.residual_1 ∨ f d = d.residual_2) →
      (p.decays[k]?).map f = some nuc →
      nuc ∈ p.decays.flatMap fun d => [d.residual_1, d.residual_2] := by
    intro k f hf h
    rw [Option.map_eq_some_iff] at h
    obtain ⟨d, hd, rfl⟩ := h
    rw [List.mem_flatMap]
    refine ⟨d, List.mem_of_getElem? hd, ?_⟩
    rcases hf d with e | e <;> simp [e]
  match role, h with
  | .target, h => simp only [nucleusAt, Option.some.injEq] at h; simp [h]
  | .projectile, h => simp only [nucleusAt, Option.some.injEq] at h; simp [h]
  | .first 0, h => simp only [nucleusAt, Option.some.injEq] at h; simp [h]
  | .second 0, h => simp only [nucleusAt, Option.some.injEq] at h; simp [h]
  | .first (k + 1), h => exact List.mem_append_right _ (hdec k _ (fun d => .inl rfl) h)
  | .second (k + 1), h => exact List.mem_append_right _ (hdec k _ (fun d => .inr rfl) h)

/-- An event of a list of simulated events comes from one call of `simulate`. -/
theorem simulated_event {env : SimEnv} {config : Config} {file : KinFile (List Vec4)} {zs as : List ℤ}
    {cs : ℕ} {indices : List ℤ} {rng : Gen σ} {k : ℕ} {s s' : σ} {evs : List EventOut}
    (h : Simulated env config file zs as cs indices rng k s evs s') :
    ∀ ev ∈ evs, ∃ momenta vertex s₁ s₂, read_event file cs ev.number = .ok (momenta, vertex) ∧
      simulate env momenta vertex zs as config rng indices s₁ = .ok ((ev.cloud, ev.labels), s₂) := by
  induction h with
  | nil => simp
  | cons h1 h2 _ ih =>
    intro ev hev
    rcases List.mem_cons.1 hev with rfl | hev
    · exact ⟨_, _, _, _, h1, h2⟩
    · exact ih ev hev

theorem forall₂_mem_right {α β : Type} {R : α → β → Prop} {l₁ : List α} {l₂ : List β}
    (h : List.Forall₂ R l₁ l₂) {y : β} (hy : y ∈ l₂) : ∃ x ∈ l₁, R x y := by
  induction h with
  | nil => simp at hy
  | cons h1 _ ih =>
    rcases List.mem_cons.1 hy with rfl | hy
    · exact ⟨_, List.mem_cons_self, h1⟩
    · obtain ⟨x, hx, hr⟩ := ih hy
      exact ⟨x, List.mem_cons_of_mem _ hx, hr⟩

/-- A point of a stored event belongs to a final product of the chain: `role` is that of a charged
nucleus `nuc` that does not decay any further, its row of the event is `mom`, and the trajectory started
at the vertex with this momentum passes the point. -/
structure OnProductTrack (p : Pipeline σ) (env : SimEnv) (config : Config) (vertex : ℝ × ℝ × ℝ)
    (rows : List Vec4) (point : SpyralRow) (label : ℤ) : Prop where
  track : ∃ (role : Role) (nuc : Nucleus) (mom : Vec4) (track : List Row) (r : Row),
    label = role.row ∧ role.InChain (p.decays.length + 1) ∧ ¬ role.Initial ∧
    ¬ role.Decays (p.decays.length + 1) ∧ nucleusAt p role = some nuc ∧ nuc.Z ≠ 0 ∧
    rows[role.row]? = some mom ∧
    generate_trajectory env.solve_ivp vertex (mom.px, mom.py, mom.pz) nuc config.det_params
      = .ok track ∧ r ∈ track ∧
    (0 ≤ arrival config r.z → |point.z - r.z * 1000| < |config.drift_velocity| * 1000) ∧
    |point.z - r.z * 1000| < 2 * |config.drift_velocity| * 1000 ∧
    ∃ pos, WithinSpread (spread config r.z) r pos ∧
      sqDist (inMm pos) (point.x, point.y) ≤ (if point.scale = 1 then 7.35 else 4.36) ^ 2

/-- **C85.** The whole program: a pipeline is built and run, the file is simulated with the packaged pads
and the default selection of nuclei, and the points are written. Every stored event then belongs to
a sampled chain with energy and momentum conserved, and each of its points lies on the trajectory of the
charged final product named by the label, which starts at the sampled vertex with its sampled momentum. -/
theorem C85_points {rng : Gen σ} {gen : σ} {uninit : ℕ → ResultRow} {steps : List Step}
    {exs polar : List (Sampler σ)} {E : ℝ} {tm : Option TargetMaterial} {limit : ℤ}
    {p : Pipeline σ} {st0 : PipeState σ}
    (hmk : mkPipeline rng gen uninit steps exs polar E tm limit = .ok (p, st0))
    (hc : ChainOk p) (hs : SamplesOk p) (cs : ℕ) (hcs : 1 ≤ cs) (n : ℤ)
    (st : KinRun (List ResultRow) (PipeState σ))
    (hkin : run_kinematics_pipeline p.runCopy p.get_proton_numbers p.get_mass_numbers cs n st0
      = (.ok (), st))
    {fs : FileSystem} (hfs : PackagedFiles fs) {d : DetectorParams} {e : ElectronicsParams}
    {config : Config} (hconf : mkConfig fs d e {} = .ok config) (hL : d.length ≠ 0) (wconfig : Config)
    (env : SimEnv) (hdata : ∀ nuc ∈ chainNuclei steps, env.get_data nuc.Z nuc.A = .ok nuc)
    (rng' : Gen σ') (hr : LawfulGen rng') (s : σ') (argsort : Argsort) (hA : IsArgsort argsort)
    (disk0 : Disk) (m first : ℤ) (hm : 1 ≤ m) (final : RunState σ' Writer)
    (hsim : run_simulation env config (mapData plainRows st.file) (spyralWriter argsort) none rng'
      ⟨s, newWriter disk0 wconfig m first⟩ = (.ok (), final)) :
    ∃ files : List (List Stored), Holds disk0 final.writer.disk first files ∧
      ∀ ev ∈ files.flatten, ∃ (k : ℕ) (g g' : σ) (x : Sample) (t b : Vec4) (products : List Vec4),
        ev.event = k ∧ (k : ℤ) < n ∧ p.sample g = .ok (x, g') ∧
        read_event st.file cs k = .ok ((t :: b :: products).map some, x.vertex) ∧
        (t :: b :: products).map Vec4.M = List.zipWith (fun (n : Nucleus) ex => n.mass + ex)
          (chainNuclei steps) (chainExcitations x) ∧
        sumVec (finals products) = t + b ∧
        ev.rows.length = ev.labels.length ∧
        ∀ pl ∈ ev.rows.zip ev.labels,
          OnProductTrack p env config x.vertex (t :: b :: products) pl.1 pl.2 := by
  obtain ⟨hsteps, -⟩ := C48_built hmk
  obtain ⟨hZ, hA', hlenN⟩ := C71_numbers hmk
  obtain ⟨-, -, hevents⟩ := C75_conservation hmk hc hs cs hcs n st hkin
  obtain ⟨a1, a2, a3, a4, -⟩ := final_attrs _ _ _ cs hcs n st0 st hkin
  obtain ⟨hgrid, hcent, -⟩ := (C67_default_config hfs d e).2 config hconf
  have hb : 0 < fs.packaged_grid.2.bin := by rw [hfs.edges]; norm_num [packagedEdges]
  have hN : fs.packaged_grid.2.high - fs.packaged_grid.2.low
      ≤ fs.packaged_grid.1.size * fs.packaged_grid.2.bin := by
    rw [hfs.edges, hfs.size]
    norm_num [packagedEdges]
  obtain ⟨zs, as, n', cs', evs, files, b1, b2, b3, b4, hsimd, hnum, hstored, -, -, hholds, -⟩ :=
    C62_complete_run env config wconfig _ none rng' hr s argsort hA disk0 m first hm hb hN hgrid final hsim
  have c1 : st.file.proton_numbers = some zs := b1
  have c2 : st.file.mass_numbers = some as := b2
  have c3 : st.file.n_events = some n' := b3
  have c4 : st.file.chunk_size = some cs' := b4
  rw [a3, Option.some.injEq] at c1
  rw [a4, Option.some.injEq] at c2
  rw [a1, Option.some.injEq] at c3
  rw [a2, Option.some.injEq] at c4
  subst c1 c2 c3 c4
  refine ⟨files, hholds, fun ev hev => ?_⟩
  obtain ⟨out, hout, hst⟩ := forall₂_mem_right hstored hev
  have hout' := (List.mem_filter.1 hout).1
  have hk : out.number < n.toNat := by
    have : out.number ∈ evs.map (·.number) := List.mem_map.2 ⟨out, hout', rfl⟩
    rw [hnum] at this
    exact List.mem_range.1 this
  obtain ⟨g, x, g', t, b, products, e1, e2, e3, e4, e5, -, -, -, e9⟩ := hevents out.number hk
  obtain ⟨momenta, vertex, s₁, s₂, f1, f2⟩ := simulated_event hsimd out hout'
  rw [e3] at f1
  simp only [Except.ok.injEq, Prod.mk.injEq] at f1
  obtain ⟨rfl, rfl⟩ := f1
  obtain ⟨centers, converted, g1, g2, g3, g4, -⟩ := hst.content
  rw [hcent, Option.some.injEq] at g1
  subst g1
  refine ⟨out.number, g, g', x, t, b, products, hst.number, by omega, e1, e2, e5, e9, g3, ?_⟩
  intro pl hpl
  have hm' := (List.mem_filter.1 (g4.mem_iff.1 hpl)).1
  obtain ⟨-, -, -, hlen, -⟩ :=
    simulate_cells (grid := fs.packaged_grid.1) (g := fs.packaged_grid.2) hb hgrid hr f2
  obtain ⟨q, hq, hrow⟩ : ∃ q, (q, pl.2) ∈ out.cloud.zip out.labels ∧
      RowOf config ((List.range 10240).map padCenter) (get_response wconfig) q pl.1 := by
    have hcl := g2.length_eq
    obtain ⟨i, hi, hieq⟩ := List.mem_iff_getElem.1 hm'
    have hi1 : i < converted.length := by simp at hi; omega
    have hi2 : i < out.labels.length := by simp at hi; omega
    have hi3 : i < out.cloud.length := by omega
    refine ⟨out.cloud[i], ?_, ?_⟩
    · rw [← hieq]
      exact List.mem_iff_getElem.2 ⟨i, by simp; omega, by simp⟩
    · have := List.Forall₂.get g2 hi3 hi1
      rw [← hieq]
      simpa using this
  obtain ⟨h1, r, cnt, h2, -, h4, h5, -, pos, h6, h7⟩ := row_near_track hfs hconf hL hr f2 hq hrow
  obtain ⟨z, a, nucleus, momentum, track, i1, i2, i3, i4, i5, i6, i7⟩ := released_source h2
  simp only [Option.getD_none] at h1
  obtain ⟨role, j1, j2, j3, j4⟩ := ((C35_final_products p).2 pl.2).1 h1
  obtain ⟨nuc, k1, k2, k3⟩ := C35_rows p role j1
  rw [j4] at i1 i3 i5
  have l1 := pyGet_nat _ _ _ i1
  have l3 := pyGet_nat _ _ _ i3
  have l5 := pyGet_nat _ _ _ i5
  rw [k2, Option.some.injEq] at l1
  rw [k3, Option.some.injEq] at l3
  subst l1 l3
  rw [hdata nuc (nucleusAt_mem hsteps k1), Except.ok.injEq] at i4
  subst i4
  exact ⟨role, nuc, momentum, track, r, j4, j1, j2, j3, k1, i2, l5, i6, i7, h4, h5, pos, h6, h7⟩

/-! ## C86 -/

theorem pyGet_of_nat {α : Type} (l : List α) (k : ℕ) (a : α) (h : l[k]? = some a) :
    pyGet l (k : ℤ) = .ok a := by
  unfold pyGet
  simp only [Int.natCast_nonneg, not_lt.2, if_false, Int.toNat_natCast, h]

/-- Every charged final product of the event has a kinetic energy of at least 1 eV (in MeV, with the
mass of its ground state). -/
def ProductsMove (p : Pipeline σ) (rows : List Vec4) : Prop :=
  ∀ (role : Role) (nuc : Nucleus) (mom : Vec4), role.InChain (p.decays.length + 1) → ¬ role.Initial →
    ¬ role.Decays (p.decays.length + 1) → nucleusAt p role = some nuc → nuc.Z ≠ 0 →
    rows[role.row]? = some mom →
    1e-6 ≤ Real.sqrt (mom.px ^ 2 + mom.py ^ 2 + mom.pz ^ 2 + nuc.mass ^ 2) - nuc.mass

/-- **C86.** The simulation of a finished kinematics file completes: with the packaged pads, physical
parameters, a detector of at least 1 m, a solver that returns a solution respecting its terminal events,
vertices in the tracking volume and charged final products of at least 1 eV, neither the simulation nor
the writer raises. -/
theorem C86_completes {rng : Gen σ} {gen : σ} {uninit : ℕ → ResultRow} {steps : List Step}
    {exs polar : List (Sampler σ)} {E : ℝ} {tm : Option TargetMaterial} {limit : ℤ}
    {p : Pipeline σ} {st0 : PipeState σ}
    (hmk : mkPipeline rng gen uninit steps exs polar E tm limit = .ok (p, st0))
    (hc : ChainOk p) (hs : SamplesOk p) (cs : ℕ) (hcs : 1 ≤ cs) (n : ℤ)
    (st : KinRun (List ResultRow) (PipeState σ))
    (hkin : run_kinematics_pipeline p.runCopy p.get_proton_numbers p.get_mass_numbers cs n st0
      = (.ok (), st))
    {fs : FileSystem} (hfs : PackagedFiles fs) {d : DetectorParams} {e : ElectronicsParams}
    {config : Config} (hconf : mkConfig fs d e {} = .ok config) (wconfig : Config)
    (hL : 1 ≤ d.length) (hmm : 0 ≤ e.micromegas_edge) (hedges : e.micromegas_edge < e.windows_edge)
    (hD : 0 ≤ d.diffusion) (hE : 0 < d.efield) (hF : 0 ≤ d.fano_factor) (hW : 0 < d.w_value)
    (env : SimEnv) (hev : RespectsEvents env.solve_ivp) (hsol : Succeeds env.solve_ivp)
    (hdata : ∀ nuc ∈ chainNuclei steps, env.get_data nuc.Z nuc.A = .ok nuc)
    (hpos : ∀ nuc ∈ chainNuclei steps, 0 < nuc.mass)
    (hevents : ∀ (k : ℕ) (rows : List Vec4) (vertex : ℝ × ℝ × ℝ), k < n.toNat →
      read_event (mapData plainRows st.file) cs k = .ok (rows, vertex) →
      InVolume vertex ∧ ProductsMove p rows)
    (rng' : Gen σ') (hr : LawfulGen rng') (s : σ') (argsort : Argsort) (disk0 : Disk) (m first : ℤ) :
    ∃ final, run_simulation env config (mapData plainRows st.file) (spyralWriter argsort) none rng'
      ⟨s, newWriter disk0 wconfig m first⟩ = (.ok (), final) := by
  obtain ⟨hsteps, -⟩ := C48_built hmk
  obtain ⟨hZ, hA', hlenN⟩ := C71_numbers hmk
  obtain ⟨-, -, hread⟩ := C75_conservation hmk hc hs cs hcs n st hkin
  obtain ⟨a1, a2, a3, a4, nc, a5⟩ := final_attrs _ _ _ cs hcs n st0 st hkin
  obtain ⟨hgrid, -, -⟩ := (C67_default_config hfs d e).2 config hconf
  have hb : 0 < fs.packaged_grid.2.bin := by rw [hfs.edges]; norm_num [packagedEdges]
  rcases hrun : run_simulation env config (mapData plainRows st.file) (spyralWriter argsort) none rng'
      ⟨s, newWriter disk0 wconfig m first⟩ with ⟨res, final⟩
  rcases C67_run hfs hconf wconfig env (mapData plainRows st.file) none rng' hr s argsort disk0 m first
    _ _ n cs nc a3 a4 a1 a2 a5 res final hrun with rfl | ⟨evs, s', err, -, h2, -, h4⟩
  · exact ⟨final, rfl⟩
  exfalso
  have hk : evs.length < n.toNat := by omega
  obtain ⟨g, x, g', t, b, products, -, -, e3, e4, -⟩ := hread evs.length hk
  obtain ⟨hvol, hmove⟩ := hevents evs.length _ _ hk e3
  have hok : ∃ cloud labels s₂, simulate env (t :: b :: products) x.vertex p.get_proton_numbers
      p.get_mass_numbers config rng' (default_indices p.get_proton_numbers.length) s'
        = .ok ((cloud, labels), s₂) := by
    refine C23_moving_partial hconf hL hmm hedges hD hE hF hW hev hsol hb
      (show config.pad_grid = some (fs.packaged_grid.1, fs.packaged_grid.2) from hgrid) hvol rng' _ ?_ s'
    intro idx hidx
    obtain ⟨role, j1, j2, j3, j4⟩ := ((C35_final_products p).2 idx).1 hidx
    obtain ⟨nuc, k1, k2, k3⟩ := C35_rows p role j1
    rw [j4]
    refine ⟨nuc.Z, pyGet_of_nat _ _ _ k2, fun hz0 => ?_⟩
    have hrow : role.row < (t :: b :: products).length := by
      rw [e4]
      have := (List.getElem?_eq_some_iff.1 k2).1
      rwa [hZ, List.length_map] at this
    exact ⟨nuc.A, nuc, _, pyGet_of_nat _ _ _ k3, hdata nuc (nucleusAt_mem hsteps k1),
      hpos nuc (nucleusAt_mem hsteps k1), pyGet_of_nat _ _ _ (List.getElem?_eq_getElem hrow),
      hmove role nuc _ j1 j2 j3 k1 hz0 (List.getElem?_eq_getElem hrow)⟩
  obtain ⟨cloud, labels, s₂, hok⟩ := hok
  rcases h4 with h4 | ⟨momenta, vertex, h5, h6⟩
  · rw [e3] at h4; simp at h4
  · rw [e3] at h5
    simp only [Except.ok.injEq, Prod.mk.injEq] at h5
    obtain ⟨rfl, rfl⟩ := h5
    simp only [Option.getD_none] at h6
    rw [hok] at h6
    simp at h6

end Verif.Props
