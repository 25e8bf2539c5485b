import Verif.Props.DefaultRun
import Verif.Props.Format
import Verif.Props.Response
import Verif.Proofs.Released

/-! # C79: the stored points lie on the tracks -/

namespace Verif.Detector

open Verif.Spec Verif.Kinematics

theorem meshOffset_abs {i : ℕ} (hi : i < 10) : |meshOffset i| ≤ 3 := by
  have h0 : (0 : ℝ) ≤ i := Nat.cast_nonneg i
  have h9 : (i : ℝ) ≤ 9 := by exact_mod_cast Nat.lt_succ_iff.1 hi
  unfold meshOffset
  rw [abs_le]
  constructor <;> linarith

/-- The pad of a deposit is the one below a position within three spreads of the track point. -/
theorem pointDeposits_pos {grid : PadGrid} {g : GridEdges} {time : ℝ} {r : Row} {e : ℤ} {sigma : ℝ}
    (hs : 0 ≤ sigma) {label : ℤ} {d : Deposit}
    (h : d ∈ pointDeposits grid g time (r.x, r.y) e sigma label) :
    ∃ pos, WithinSpread sigma r pos ∧ activePad grid g pos = some d.pad := by
  unfold pointDeposits at h
  split_ifs at h with h0
  · rcases hp : activePad grid g (r.x, r.y) with _ | pad <;> simp [hp] at h
    subst h
    exact ⟨(r.x, r.y), by simp [WithinSpread, h0], hp⟩
  · simp only [List.mem_filterMap, Option.map_eq_some_iff] at h
    obtain ⟨pw, hpw, pad, hp, rfl⟩ := h
    refine ⟨pw.1, ?_, hp⟩
    unfold meshPoints at hpw
    simp only [List.mem_flatMap, List.mem_map, List.mem_range] at hpw
    obtain ⟨i, hi, j, hj, rfl⟩ := hpw
    unfold WithinSpread
    simp only [add_sub_cancel_left, abs_mul, abs_of_nonneg hs]
    exact ⟨mul_le_mul_of_nonneg_right (meshOffset_abs hi) hs,
      mul_le_mul_of_nonneg_right (meshOffset_abs hj) hs⟩

/-- The error of a height computed from a time in the time bucket of the track point. -/
theorem height_error {fs : FileSystem} {d : DetectorParams} {e : ElectronicsParams} {p : PadParams}
    {config : Config} (hc : mkConfig fs d e p = .ok config) (hL : d.length ≠ 0) {tb height z : ℝ}
    (hh : height = ((config.elec_params.windows_edge : ℝ) - tb)
      / ((config.elec_params.windows_edge : ℝ) - config.elec_params.micromegas_edge)
      * config.det_params.length * 1000)
    (hlo : -1 < arrival config z) (hfl : ⌊tb⌋ = pyInt (arrival config z)) :
    (0 ≤ arrival config z → |height - z * 1000| < |config.drift_velocity| * 1000) ∧
    |height - z * 1000| < 2 * |config.drift_velocity| * 1000 := by
  obtain ⟨hv, hne, hd, -⟩ := C60_drift_velocity fs d e p config hc
  have hv0 : config.drift_velocity ≠ 0 := by
    intro h0; rw [h0, zero_mul, hd] at hv; exact hL hv.symm
  have hz : (config.elec_params.windows_edge : ℝ) - (config.elec_params.micromegas_edge : ℝ) ≠ 0 := by
    rw [sub_ne_zero]; exact_mod_cast hne
  have hkey : height - z * 1000 = (arrival config z - tb) * config.drift_velocity * 1000 := by
    rw [hh]
    unfold arrival
    rw [← hv]
    field_simp
    ring
  have hpos := abs_pos.2 hv0
  have h1000 : |(1000 : ℝ)| = 1000 := by norm_num
  have hone : 0 ≤ arrival config z → |arrival config z - tb| < 1 := by
    intro h0
    have hf : ⌊arrival config z⌋ = ⌊tb⌋ := by rw [hfl]; unfold pyInt; rw [if_pos h0]
    exact Int.abs_sub_lt_one_of_floor_eq_floor hf
  have htwo : |arrival config z - tb| < 2 := by
    by_cases h0 : 0 ≤ arrival config z
    · exact (hone h0).trans (by norm_num)
    · push Not at h0
      have hp0 : pyInt (arrival config z) = 0 := by
        unfold pyInt
        rw [if_neg (by linarith), Int.ceil_eq_iff]
        push_cast
        constructor <;> linarith
      rw [hp0] at hfl
      obtain ⟨hf1, hf2⟩ := Int.floor_eq_iff.1 hfl
      push_cast at hf1 hf2
      rw [abs_lt]
      constructor <;> linarith
  rw [hkey, abs_mul, abs_mul, h1000]
  refine ⟨fun h0 => ?_, ?_⟩
  · have := hone h0
    nlinarith
  · nlinarith

end Verif.Detector

namespace Verif.Props

open Verif.Detector Verif.Spec Verif.Kinematics

/-- The track point behind a row that was converted from a cloud point. -/
theorem row_near_track {σ : Type} {fs : FileSystem} (hfs : PackagedFiles fs) {d : DetectorParams}
    {e : ElectronicsParams} {config : Config} (hconf : mkConfig fs d e {} = .ok config)
    (hL : d.length ≠ 0) {env : SimEnv} {momenta : List Vec4} {vertex : ℝ × ℝ × ℝ} {Zs As : List ℤ}
    {rng : Gen σ} (hr : LawfulGen rng) {indices : List ℤ} {s s' : σ} {cloud : List CloudPoint}
    {labels : List ℤ}
    (h : simulate env momenta vertex Zs As config rng indices s = .ok ((cloud, labels), s'))
    {response : List ℝ} {p : CloudPoint} {label : ℤ} {row : SpyralRow}
    (hpl : (p, label) ∈ cloud.zip labels)
    (hrow : RowOf config ((List.range 10240).map padCenter) response p row) :
    label ∈ indices ∧
      ∃ r n, Released env momenta vertex Zs As config rng indices s label r n ∧ 1 ≤ n ∧
        (0 ≤ arrival config r.z → |row.z - r.z * 1000| < |config.drift_velocity| * 1000) ∧
        |row.z - r.z * 1000| < 2 * |config.drift_velocity| * 1000 ∧
        (row.scale = 1 ∨ row.scale = 0.5) ∧
        ∃ pos, WithinSpread (spread config r.z) r pos ∧
          sqDist (inMm pos) (row.x, row.y) ≤ (if row.scale = 1 then 7.35 else 4.36) ^ 2 := by
  obtain ⟨hgrid, hcent, hsize⟩ := (C67_default_config hfs d e).2 config hconf
  have hb : 0 < fs.packaged_grid.2.bin := by rw [hfs.edges]; norm_num [packagedEdges]
  obtain ⟨tr, s₁, htr, hlen, cells, -, hmem, hdesc⟩ :=
    simulate_cells (grid := fs.packaged_grid.1) (g := fs.packaged_grid.2) hb hgrid hr h
  obtain ⟨cell, hcell, hd⟩ := row_cell hdesc hpl
  have hfl := describes_floor hd
  obtain ⟨hpad, -, -, -, hlast⟩ := hd
  obtain ⟨-, h0, h512, hp0⟩ := (hmem cell.1 cell.2).1 hcell
  obtain ⟨l1, deps, l2, htr', ⟨dep, hdep, hdt, hdp⟩, -⟩ := htr.last hlast
  have hx : (label, deps) ∈ tr := by rw [htr']; simp
  have hidx : label ∈ indices := by rw [← htr.labels]; exact List.mem_map.2 ⟨_, hx, rfl⟩
  obtain ⟨r, m, hrel, hm1, hdep⟩ := htr.released _ hx dep hdep
  unfold releasedDeposits at hdep
  obtain ⟨pos, hpos, hact⟩ := pointDeposits_pos (Real.sqrt_nonneg _) hdep
  obtain ⟨ht1, -, -⟩ := mem_pointDeposits hdep
  obtain ⟨n, hn, hlt, hnear⟩ := C66_lookup_near hfs pos dep.pad (activePad_lookup hb hact)
  have hlo : -1 < arrival config r.z := by
    by_contra hc
    push Not at hc
    have : pyInt (arrival config r.z) < 0 := by
      unfold pyInt
      rw [if_neg (by linarith)]
      have : ⌈arrival config r.z⌉ ≤ -1 := by
        rw [Int.ceil_le]; push_cast; exact hc
      omega
    omega
  have htb : ⌊p.tb⌋ = pyInt (arrival config r.z) := by
    have hfl' : ⌊p.tb⌋ = cell.1 := hfl
    rw [hfl', ← ht1, hdt]
  obtain ⟨hz1, hz2⟩ := height_error hconf hL hrow.height hlo htb
  obtain ⟨n', hn', hxy, hsc⟩ := hrow.pad_ok
  have hnn : n' = n := by
    have hpad' : p.pad = (cell.2 : ℝ) := hpad
    rw [hpad', ← hdp, hn] at hn'
    exact_mod_cast hn'.symm
  subst hnn
  have hxy' : (row.x, row.y) = padCenter n' := by
    rw [List.getElem?_map, List.getElem?_range hlt] at hxy
    exact (Option.some.inj hxy).symm
  have hsc' : row.scale = if padIsLarge n' then 1 else 0.5 := by
    rw [hsize, List.getElem?_map, List.getElem?_range hlt] at hsc
    exact (Option.some.inj hsc).symm
  refine ⟨hidx, r, m, hrel, hm1, hz1, hz2, ?_, pos, hpos, ?_⟩
  · rw [hsc']; split_ifs <;> simp
  · rw [hxy', hsc']
    by_cases hl : padIsLarge n' = true
    · simpa [hl] using hnear
    · norm_num [hl] at hnear ⊢
      exact hnear

/-- **C79.** With the packaged pad data every stored point lies on the track of the nucleus named by
its label. There is a point of that track with at least one primary electron whose height differs from
the stored one by less than one time bucket (two if its electrons arrive before time 0), and a position
within three spreads of it that is at most 7.35 mm (4.36 mm for the small pads) away from the stored
x and y. -/
theorem C79_near_track {σ : Type} {fs : FileSystem} (hfs : PackagedFiles fs) {d : DetectorParams}
    {e : ElectronicsParams} {config : Config} (hconf : mkConfig fs d e {} = .ok config)
    (hL : d.length ≠ 0) {env : SimEnv} {momenta : List Vec4} {vertex : ℝ × ℝ × ℝ} {Zs As : List ℤ}
    {rng : Gen σ} (hr : LawfulGen rng) {indices : List ℤ} {s s' : σ} {cloud : List CloudPoint}
    {labels : List ℤ}
    (h : simulate env momenta vertex Zs As config rng indices s = .ok ((cloud, labels), s'))
    {argsort : Argsort} (hA : IsArgsort argsort) {response : List ℝ} {rows : List SpyralRow}
    {labels' : List ℤ}
    (hf : format_event argsort response cloud labels config = .ok (rows, labels')) :
    ∀ rl ∈ rows.zip labels', rl.2 ∈ indices ∧
      ∃ r n, Released env momenta vertex Zs As config rng indices s rl.2 r n ∧ 1 ≤ n ∧
        (0 ≤ arrival config r.z → |rl.1.z - r.z * 1000| < |config.drift_velocity| * 1000) ∧
        |rl.1.z - r.z * 1000| < 2 * |config.drift_velocity| * 1000 ∧
        (rl.1.scale = 1 ∨ rl.1.scale = 0.5) ∧
        ∃ pos, WithinSpread (spread config r.z) r pos ∧
          sqDist (inMm pos) (rl.1.x, rl.1.y) ≤ (if rl.1.scale = 1 then 7.35 else 4.36) ^ 2 := by
  obtain ⟨hgrid, hcent, hsize⟩ := (C67_default_config hfs d e).2 config hconf
  have hb : 0 < fs.packaged_grid.2.bin := by rw [hfs.edges]; norm_num [packagedEdges]
  obtain ⟨-, -, -, hlen, -⟩ :=
    simulate_cells (grid := fs.packaged_grid.1) (g := fs.packaged_grid.2) hb hgrid hr h
  have hpads := cloud_pads hfs hgrid hr h
  obtain ⟨centers, converted, hcs, hconv, -, hperm, -⟩ := C27_content argsort hA response cloud labels
    config hlen (fun p hp => let ⟨n, hn, _⟩ := hpads p hp; ⟨n, hn⟩) rows labels' hf
  rw [hcent, Option.some.injEq] at hcs
  subst hcs
  intro rl hrl
  have hm := (List.mem_filter.1 (hperm.mem_iff.1 hrl)).1
  -- the cloud point of the row
  obtain ⟨p, hpl, hrow⟩ : ∃ p, (p, rl.2) ∈ cloud.zip labels ∧
      RowOf config ((List.range 10240).map padCenter) response p rl.1 := by
    obtain ⟨k, hk, hkeq⟩ := List.mem_iff_getElem.1 hm
    have hk1 : k < converted.length := by simp at hk; omega
    have hk2 : k < labels.length := by simp at hk; omega
    have hk3 : k < cloud.length := by omega
    refine ⟨cloud[k], ?_, ?_⟩
    · rw [← hkeq]
      exact List.mem_iff_getElem.2 ⟨k, by simp; omega, by simp⟩
    · have := List.Forall₂.get hconv hk3 hk1
      rw [← hkeq]
      simpa using this
  exact row_near_track hfs hconf hL hr h hpl hrow

/-- **C79, without diffusion.** Every stored point is at most 7.35 mm (4.36 mm for the small pads) in the
plane and one time bucket in height away from a point of the track of the nucleus named by its label. -/
theorem C79_no_diffusion {σ : Type} {fs : FileSystem} (hfs : PackagedFiles fs) {d : DetectorParams}
    {e : ElectronicsParams} {config : Config} (hconf : mkConfig fs d e {} = .ok config)
    (hL : d.length ≠ 0) (hD : d.diffusion = 0) {env : SimEnv} {momenta : List Vec4}
    {vertex : ℝ × ℝ × ℝ} {Zs As : List ℤ} {rng : Gen σ} (hr : LawfulGen rng) {indices : List ℤ}
    {s s' : σ} {cloud : List CloudPoint} {labels : List ℤ}
    (h : simulate env momenta vertex Zs As config rng indices s = .ok ((cloud, labels), s'))
    {argsort : Argsort} (hA : IsArgsort argsort) {response : List ℝ} {rows : List SpyralRow}
    {labels' : List ℤ}
    (hf : format_event argsort response cloud labels config = .ok (rows, labels')) :
    ∀ rl ∈ rows.zip labels',
      ∃ r n, Released env momenta vertex Zs As config rng indices s rl.2 r n ∧ 1 ≤ n ∧
        (0 ≤ arrival config r.z → |rl.1.z - r.z * 1000| < |config.drift_velocity| * 1000) ∧
        |rl.1.z - r.z * 1000| < 2 * |config.drift_velocity| * 1000 ∧
        sqDist (inMm (r.x, r.y)) (rl.1.x, rl.1.y) ≤ (if rl.1.scale = 1 then 7.35 else 4.36) ^ 2 := by
  intro rl hrl
  obtain ⟨-, r, n, h1, h2, h3, h4, -, pos, ⟨hx, hy⟩, h5⟩ :=
    C79_near_track hfs hconf hL hr h hA hf rl hrl
  have hs : spread config r.z = 0 := by
    obtain ⟨-, -, hd, -⟩ := C60_drift_velocity _ _ _ _ config hconf
    unfold spread
    rw [hd, hD]
    simp
  rw [hs, mul_zero, abs_nonpos_iff, sub_eq_zero] at hx hy
  refine ⟨r, n, h1, h2, h3, h4, ?_⟩
  have : pos = (r.x, r.y) := Prod.ext hx hy
  rwa [this] at h5

theorem releasedDeposits_nonneg {config : Config} {grid : PadGrid} {g : GridEdges} {label : ℤ} {r : Row}
    {n : ℤ} (hn : 1 ≤ n) (hG : 0 ≤ config.det_params.mpgd_gain) :
    ∀ d ∈ releasedDeposits config grid g label r n, 0 ≤ d.e := by
  have he : 0 ≤ n * config.det_params.mpgd_gain := mul_nonneg (by omega) hG
  intro d hd
  unfold releasedDeposits pointDeposits at hd
  split_ifs at hd with hs
  · rcases hp : activePad grid g (r.x, r.y) with _ | pad <;> simp [hp] at hd
    subst hd
    exact he
  · simp only [List.mem_filterMap, Option.map_eq_some_iff] at hd
    obtain ⟨pw, hpw, pad, hp, rfl⟩ := hd
    unfold meshPoints at hpw
    simp only [List.mem_flatMap, List.mem_map, List.mem_range] at hpw
    obtain ⟨i, hi, j, hj, rfl⟩ := hpw
    have : (0 : ℝ) ≤ meshWeight i j * ((n * config.det_params.mpgd_gain : ℤ) : ℝ) :=
      mul_nonneg (meshWeight_pos i j).le (by exact_mod_cast he)
    show 0 ≤ pyInt _
    rw [pyInt_of_nonneg this]
    exact Int.floor_nonneg.2 this

/-- A point whose signal exceeds the threshold is stored. -/
theorem stored_of_signal {argsort : Argsort} (hA : IsArgsort argsort) {response : List ℝ}
    {cloud : List CloudPoint} {labels : List ℤ} {config : Config} (hlen : cloud.length = labels.length)
    (hpads : ∀ q ∈ cloud, ∃ m : ℕ, q.pad = m) {rows : List SpyralRow} {labels' : List ℤ}
    (hf : format_event argsort response cloud labels config = .ok (rows, labels')) {p : CloudPoint}
    (hp : p ∈ cloud) (hthr : (config.elec_params.adc_threshold : ℝ) < (apply_response response p.e).1) :
    ∃ rl ∈ rows.zip labels', rl.1.pad = p.pad ∧ rl.1.tb = p.tb := by
  obtain ⟨centers, converted, -, hconv, -, hperm, -⟩ := C27_content argsort hA _ cloud labels
    config hlen hpads rows labels' hf
  obtain ⟨k, hk, hkeq⟩ := List.mem_iff_getElem.1 hp
  have hk1 : k < converted.length := by rw [← hconv.length_eq]; exact hk
  have hk2 : k < labels.length := by omega
  have hrow := List.Forall₂.get hconv hk hk1
  simp only [List.get_eq_getElem, hkeq] at hrow
  have hamp : (config.elec_params.adc_threshold : ℝ) < converted[k].amp := by
    have h2 : converted[k].amp = (apply_response response p.e).1 := congrArg Prod.fst hrow.signal
    rw [h2]
    exact hthr
  refine ⟨(converted[k], labels[k]), ?_, hrow.pad, hrow.tb⟩
  rw [hperm.mem_iff, List.mem_filter]
  refine ⟨List.mem_iff_getElem.2 ⟨k, by simp; omega, by simp⟩, ?_⟩
  simpa using hamp

/-- **C79, completeness.** Without diffusion every track point with at least one primary electron above
an active pad, whose electrons arrive in the recorded window, is in the cloud, with at least the charge
of its own electrons; and it is stored if that charge alone exceeds the threshold. -/
theorem C79_complete {σ : Type} {config : Config} {grid : PadGrid} {g : GridEdges} (hb : 0 < g.bin)
    (hgrid : config.pad_grid = some (grid, g)) (hD : config.det_params.diffusion = 0)
    (hG : 0 ≤ config.det_params.mpgd_gain) {env : SimEnv} {momenta : List Vec4}
    {vertex : ℝ × ℝ × ℝ} {Zs As : List ℤ} {rng : Gen σ} (hr : LawfulGen rng) {indices : List ℤ}
    {s s' : σ} {cloud : List CloudPoint} {labels : List ℤ}
    (h : simulate env momenta vertex Zs As config rng indices s = .ok ((cloud, labels), s'))
    {label : ℤ} {r : Row} {n : ℤ}
    (hrel : Released env momenta vertex Zs As config rng indices s label r n) (hn : 1 ≤ n) {pad : ℕ}
    (hpad : activePad grid g (r.x, r.y) = some (pad : ℤ)) (h0 : 0 ≤ pyInt (arrival config r.z))
    (h1 : pyInt (arrival config r.z) < 512) :
    (∃ p ∈ cloud, p.pad = pad ∧ ⌊p.tb⌋ = pyInt (arrival config r.z) ∧
      ((n * config.det_params.mpgd_gain : ℤ) : ℝ) ≤ p.e) ∧
    ∀ {argsort : Argsort} (_ : IsArgsort argsort) {wconfig : Config}
      (_ : ElectronicsOk wconfig.elec_params) {rows : List SpyralRow} {labels' : List ℤ},
      format_event argsort (get_response wconfig) cloud labels config = .ok (rows, labels') →
      (config.elec_params.adc_threshold : ℝ)
        < (apply_response (get_response wconfig) (n * config.det_params.mpgd_gain : ℤ)).1 →
      ∃ row ∈ rows, row.pad = pad ∧ ⌊row.tb⌋ = pyInt (arrival config r.z) := by
  obtain ⟨tr, s₁, htr, hlen, cells, -, hmem, hdesc⟩ := simulate_cells hb hgrid hr h
  have hs : spread config r.z = 0 := by
    unfold spread
    rw [hD]
    simp
  have hdep : (⟨pyInt (arrival config r.z), pad, n * config.det_params.mpgd_gain, label⟩ : Deposit)
      ∈ releasedDeposits config grid g label r n := by
    unfold releasedDeposits pointDeposits
    rw [if_pos hs, hpad]
    exact List.mem_singleton.2 rfl
  obtain ⟨x, hx, -, hxd⟩ := htr.of_released hrel hn
  have hhist := hxd _ hdep
  have hhist : (⟨pyInt (arrival config r.z), pad, n * config.det_params.mpgd_gain, label⟩ : Deposit)
      ∈ history tr := List.mem_flatMap.2 ⟨x, hx, hhist⟩
  have hnn : ∀ d ∈ history tr, 0 ≤ d.e := by
    intro d hd
    obtain ⟨y, hy, hd⟩ := List.mem_flatMap.1 hd
    obtain ⟨r', n', -, hn', hd⟩ := htr.released y hy d hd
    exact releasedDeposits_nonneg hn' hG d hd
  have hcharge : n * config.det_params.mpgd_gain
      ≤ chargeAt (history tr) (pyInt (arrival config r.z)) pad := by
    unfold chargeAt
    refine List.single_le_sum ?_ _ (List.mem_map.2 ⟨_, List.mem_filter.2 ⟨hhist, ?_⟩, rfl⟩)
    · intro c hc
      obtain ⟨d, hd, rfl⟩ := List.mem_map.1 hc
      exact hnn d (List.mem_filter.1 hd).1
    · simp [Deposit.at]
  obtain ⟨⟨p, l⟩, hpl, hd⟩ := cell_row hdesc ((hmem (pyInt (arrival config r.z)) pad).2
    ⟨⟨_, hhist, rfl, rfl⟩, h0, h1, by omega⟩)
  have hp := (List.of_mem_zip hpl).1
  have hpe : ((n * config.det_params.mpgd_gain : ℤ) : ℝ) ≤ p.e := by
    have : p.e = (chargeAt (history tr) (pyInt (arrival config r.z)) pad : ℝ) := hd.2.2.2.1
    rw [this]
    exact_mod_cast hcharge
  have hpp : p.pad = (pad : ℝ) := by have := hd.1; simpa using this
  have hfl : ⌊p.tb⌋ = pyInt (arrival config r.z) := describes_floor hd
  refine ⟨⟨p, hp, hpp, hfl, hpe⟩, ?_⟩
  intro argsort hA wconfig hok rows labels' hf hthr
  have hpads : ∀ q ∈ cloud, ∃ m : ℕ, q.pad = m := by
    intro q hq
    obtain ⟨lq, hlq⟩ := row_label hlen hq
    obtain ⟨cell, hcell, hdq⟩ := row_cell hdesc hlq
    obtain ⟨-, -, -, hc⟩ := (hmem cell.1 cell.2).1 hcell
    refine ⟨cell.2.toNat, ?_⟩
    have h1 : q.pad = (cell.2 : ℝ) := hdq.1
    rw [h1, ← Int.cast_natCast, Int.toNat_of_nonneg hc]
  obtain ⟨rl, hrl, h1, h2⟩ := stored_of_signal hA hlen hpads hf hp
    (hthr.trans_le (C25_monotone wconfig hok _ _ hpe).1)
  exact ⟨rl.1, (List.of_mem_zip hrl).1, by rw [h1, hpp], by rw [h2, hfl]⟩

/-- The hypotheses can be met: with the packaged pad data, an event with a stored point, which therefore
lies on the track of its nucleus. -/
example : ∃ config rows labels' rl, mkConfig exPackaged (exDet 100 0) exElec {} = .ok config ∧
    (∃ cloud labels, simulate exPadEnv exMomenta (0, 0, 0.5) [1, 1, 1] [1, 1, 1] config exGen [2] ()
      = .ok ((cloud, labels), ()) ∧
      format_event exArgsort [1] cloud labels config = .ok (rows, labels')) ∧
    rl ∈ rows.zip labels' ∧ ∃ r n, Released exPadEnv exMomenta (0, 0, 0.5) [1, 1, 1] [1, 1, 1] config exGen
      [2] () rl.2 r n ∧ sqDist (inMm (r.x, r.y)) (rl.1.x, rl.1.y) ≤ 7.35 ^ 2 := by
  obtain ⟨config, hconf, cloud, labels, h, p, hp, hpad, he⟩ := exPad_simulate
  obtain ⟨hgrid, -, -⟩ := (C67_default_config exPackaged_ok (exDet 100 0) exElec).2 config hconf
  have hb : 0 < exPackaged.packaged_grid.2.bin := by
    rw [exPackaged_ok.edges]; norm_num [packagedEdges]
  obtain ⟨⟨rows, labels'⟩, hf⟩ := C67_format exPackaged_ok hconf exGen_lawful h exArgsort [1]
  obtain ⟨-, -, -, hlen, -⟩ := simulate_cells (grid := exPackaged.packaged_grid.1)
    (g := exPackaged.packaged_grid.2) hb hgrid exGen_lawful h
  obtain ⟨-, -, -, helec⟩ := C60_drift_velocity _ _ _ _ config hconf
  obtain ⟨rl, hrl, -⟩ := stored_of_signal exArgsort_ok hlen
    (fun q hq => let ⟨n, hn, _⟩ := cloud_pads exPackaged_ok hgrid exGen_lawful h q hq; ⟨n, hn⟩) hf hp
    (by rw [helec, he]; norm_num [exElec, apply_response, npMax])
  obtain ⟨r, n, h1, -, -, -, h2⟩ := C79_no_diffusion exPackaged_ok hconf (by norm_num [exDet]) rfl
    exGen_lawful h exArgsort_ok hf rl hrl
  refine ⟨config, rows, labels', rl, hconf, ⟨cloud, labels, h, hf⟩, hrl, r, n, h1, h2.trans ?_⟩
  split_ifs <;> norm_num

end Verif.Props
