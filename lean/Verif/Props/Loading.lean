import Verif.Proofs.Config
import Verif.Props.Drift
import Verif.Props.PadPlane

/-! # C67, C69: loading of the pad data -/

namespace Verif.Detector

/-- The lines read for the pad centres, or the reason why there are none. -/
def centerLines (fs : FileSystem) (p : PadParams) : Option (List (List ℝ)) :=
  if p.geometry_path = "Default" then some fs.packaged_padxy else fs.csv p.geometry_path

/-- The grid read for the configured path. -/
def configuredGrid (fs : FileSystem) (p : PadParams) : Option (PadGrid × GridEdges) :=
  if p.grid_path = "Default" then some fs.packaged_grid else fs.npz p.grid_path

theorem mapM_except_map {α β : Type} (f : α → Except PyErr β) (g : α → β) (l : List α)
    (h : ∀ a ∈ l, f a = .ok (g a)) : l.mapM f = .ok (l.map g) := by
  induction l with
  | nil => rfl
  | cons a l ih =>
    rw [mapM_except_cons]
    exact ⟨g a, l.map g, h a (by simp), ih fun b hb => h b (List.mem_cons_of_mem _ hb), rfl⟩

theorem mapM_except_get {α β : Type} (f : α → Except PyErr β) (l : List α) (r : List β)
    (h : l.mapM f = .ok r) : List.Forall₂ (fun a b => f a = .ok b) l r := by
  induction l generalizing r with
  | nil =>
    have : ([] : List β) = r := Except.ok.inj h
    subst this
    exact .nil
  | cons a l ih =>
    obtain ⟨b, bs, hb, hbs, rfl⟩ := (mapM_except_cons _ _ _ _).1 h
    exact .cons hb (ih _ hbs)

theorem mapM_except_of {α β : Type} (f : α → Except PyErr β) (l : List α) (r : List β)
    (h : List.Forall₂ (fun a b => f a = .ok b) l r) : l.mapM f = .ok r := by
  induction h with
  | nil => rfl
  | cons h1 _ ih => exact (mapM_except_cons _ _ _ _).2 ⟨_, _, h1, ih, rfl⟩

theorem parseXY_ok (row : List ℝ) (v : ℝ × ℝ) :
    parseXY row = .ok v ↔ row[0]? = some v.1 ∧ row[1]? = some v.2 := by
  rcases row with _ | ⟨x, _ | ⟨y, l⟩⟩
  · simp [parseXY]
  · simp [parseXY]
  · simp only [parseXY, Except.ok.injEq, List.getElem?_cons_zero, Option.some.injEq,
      List.getElem?_cons_succ]
    exact ⟨fun h => by rw [← h]; exact ⟨rfl, rfl⟩, fun h => Prod.ext h.1 h.2⟩

theorem load_centers_iff (lines : List (List ℝ)) (res : List (ℝ × ℝ)) :
    loadLines parseXY 0 lines (List.replicate NUM_PADS ((0 : ℝ), (0 : ℝ))) = .ok res ↔
    lines.length ≤ 10240 ∧ ∃ vals, lines.mapM parseXY = .ok vals ∧
      res = vals ++ List.replicate (10240 - vals.length) (0, 0) := by
  rw [loadLines_ok_iff _ _ _ _ _ (Nat.zero_le _)]
  simp only [List.length_replicate, List.take_zero, List.nil_append, List.drop_replicate,
    Nat.zero_add, NUM_PADS]
  constructor
  · rintro ⟨vals, h1, h2, h3⟩; exact ⟨h2, vals, h1, h3⟩
  · rintro ⟨h2, vals, h1, h3⟩; exact ⟨vals, h1, h2, h3⟩

theorem load_sizes_iff (lines : List (List ℝ)) (res : List ℝ) :
    loadLines parseFirst 0 lines (List.replicate NUM_PADS (0 : ℝ)) = .ok res ↔
    lines.length ≤ 10240 ∧ ∃ vals, lines.mapM parseFirst = .ok vals ∧
      res = vals ++ List.replicate (10240 - vals.length) 0 := by
  rw [loadLines_ok_iff _ _ _ _ _ (Nat.zero_le _)]
  simp only [List.length_replicate, List.take_zero, List.nil_append, List.drop_replicate,
    Nat.zero_add, NUM_PADS]
  constructor
  · rintro ⟨vals, h1, h2, h3⟩; exact ⟨h2, vals, h1, h3⟩
  · rintro ⟨h2, vals, h1, h3⟩; exact ⟨vals, h1, h2, h3⟩

theorem packaged_centers :
    loadLines parseXY 0 packagedPadXY (List.replicate NUM_PADS ((0 : ℝ), (0 : ℝ)))
      = .ok ((List.range 10240).map padCenter) := by
  rw [load_centers_iff]
  refine ⟨by simp [packagedPadXY], (List.range 10240).map padCenter, ?_, by simp⟩
  unfold packagedPadXY
  rw [List.mapM_map]
  exact mapM_except_map _ _ _ fun p _ => rfl

theorem packaged_sizes :
    loadLines parseFirst 0 packagedScale (List.replicate NUM_PADS (0 : ℝ))
      = .ok ((List.range 10240).map fun (p : ℕ) => if padIsLarge p then 1 else 0.5) := by
  rw [load_sizes_iff]
  refine ⟨by simp [packagedScale],
    (List.range 10240).map (fun (p : ℕ) => if padIsLarge p then 1 else 0.5), ?_, by simp⟩
  unfold packagedScale
  rw [List.mapM_map]
  exact mapM_except_map _ _ _ fun p _ => rfl

theorem mkConfig_ok_iff (fs : FileSystem) (d : DetectorParams) (e : ElectronicsParams)
    (p : PadParams) (config : Config) :
    mkConfig fs d e p = .ok config ↔
    ∃ v g c s, calculate_drift_velocity d e = .ok v ∧ load_pad_grid fs p = .ok g ∧
      load_pad_centers fs p = .ok c ∧ load_pad_sizes fs p = .ok s ∧
      config = ⟨d, e, p, some g, some c, s, v⟩ := by
  unfold mkConfig
  simp only [except_bind_ok]
  constructor
  · rintro ⟨v, hv, g, hg, c, hc, s, hs, h⟩
    exact ⟨v, g, c, s, hv, hg, hc, hs, (Except.ok.inj h).symm⟩
  · rintro ⟨v, g, c, s, hv, hg, hc, hs, rfl⟩
    exact ⟨v, hv, g, hg, c, hc, s, hs, rfl⟩

end Verif.Detector

namespace Verif.Props

open Verif.Detector

/-- **C69.** The pad centres are those of the configured file: pad `k` has the first two entries of
data line `k`, pads without a line are at the origin, and there are 10240 pads. -/
theorem C69_centers (fs : FileSystem) (d : DetectorParams) (e : ElectronicsParams) (p : PadParams)
    (config : Config) (h : mkConfig fs d e p = .ok config) :
    ∃ lines centers, centerLines fs p = some lines ∧ config.pad_centers = some centers ∧
      lines.length ≤ 10240 ∧ centers.length = 10240 ∧
      (∀ (k : ℕ) (hk : k < lines.length), ∃ x y, lines[k][0]? = some x ∧ lines[k][1]? = some y ∧
        centers[k]? = some (x, y)) ∧
      ∀ k : ℕ, lines.length ≤ k → k < 10240 → centers[k]? = some (0, 0) := by
  obtain ⟨v, g, c, s, -, -, hc, -, rfl⟩ := (mkConfig_ok_iff _ _ _ _ _).1 h
  obtain ⟨lines, hl, hc⟩ : ∃ lines, centerLines fs p = some lines ∧
      loadLines parseXY 0 lines (List.replicate NUM_PADS ((0 : ℝ), (0 : ℝ))) = .ok c := by
    unfold load_pad_centers at hc
    simp only at hc
    unfold centerLines
    by_cases hp : p.geometry_path = DEFAULT
    · rw [if_pos hp] at hc
      exact ⟨_, if_pos hp, hc⟩
    · rw [if_neg hp, except_bind_ok] at hc
      obtain ⟨lines, ho, hc⟩ := hc
      refine ⟨lines, (if_neg hp).trans ?_, hc⟩
      unfold openCsv at ho
      cases hcsv : fs.csv p.geometry_path with
      | none => rw [hcsv] at ho; simp at ho
      | some l => rw [hcsv] at ho; rw [Except.ok.inj ho]
  obtain ⟨hlen, vals, hv, rfl⟩ := (load_centers_iff _ _).1 hc
  have hf := mapM_except_get _ _ _ hv
  have hvl : lines.length = vals.length := hf.length_eq
  refine ⟨lines, _, hl, rfl, hlen, by simp; omega, ?_, ?_⟩
  · intro k hk
    have := (List.forall₂_iff_get.1 hf).2 k hk (by omega)
    simp only [List.get_eq_getElem] at this
    obtain ⟨h1, h2⟩ := (parseXY_ok _ _).1 this
    refine ⟨_, _, h1, h2, ?_⟩
    rw [List.getElem?_append_left (by omega), List.getElem?_eq_getElem (by omega)]
  · intro k h1 h2
    rw [List.getElem?_append_right (by omega), List.getElem?_replicate, if_pos (by omega)]

/-- The grid is the configured one. -/
theorem C69_grid (fs : FileSystem) (d : DetectorParams) (e : ElectronicsParams) (p : PadParams)
    (config : Config) (h : mkConfig fs d e p = .ok config) :
    ∃ g, configuredGrid fs p = some g ∧ config.pad_grid = some g := by
  obtain ⟨v, g, c, s, -, hg, -, -, rfl⟩ := (mkConfig_ok_iff _ _ _ _ _).1 h
  refine ⟨g, ?_, rfl⟩
  unfold load_pad_grid at hg
  unfold configuredGrid
  by_cases hp : p.grid_path = DEFAULT
  · rw [if_pos hp] at hg
    exact (if_pos hp).trans (by rw [Except.ok.inj hg])
  · rw [if_neg hp] at hg
    refine (if_neg hp).trans ?_
    cases hz : fs.npz p.grid_path with
    | none => rw [hz] at hg; simp at hg
    | some g' => rw [hz] at hg; rw [Except.ok.inj hg]

/-- A geometry file with more than 10240 lines is rejected. -/
theorem C69_too_many_lines (fs : FileSystem) (d : DetectorParams) (e : ElectronicsParams)
    (p : PadParams) (lines : List (List ℝ)) (hl : centerLines fs p = some lines)
    (hn : 10240 < lines.length) : ∃ err, mkConfig fs d e p = .error err := by
  cases h : mkConfig fs d e p with
  | error err => exact ⟨err, rfl⟩
  | ok config =>
    obtain ⟨lines', _, hl', -, hlen, -⟩ := C69_centers fs d e p config h
    rw [hl] at hl'
    obtain rfl := Option.some.inj hl'
    omega

/-- C69 applies to a configuration whose geometry comes from a file with one line. -/
example : ∃ fs d e p config, mkConfig fs d e p = .ok config ∧ p.geometry_path = "geometry.csv" ∧
    fs.csv "geometry.csv" = some [[1, 2]] := by
  obtain ⟨fs, d, e, p, config, h, -, hg, -, hc, -⟩ := C58_refuted
  exact ⟨fs, d, e, p, config, h, hg, hc⟩

/-- **C67.** With the packaged files and default paths, building a configuration succeeds exactly
when the two edges differ; all 10240 pads then have their packaged centre and size. -/
theorem C67_default_config {fs : FileSystem} (hfs : PackagedFiles fs) (d : DetectorParams)
    (e : ElectronicsParams) :
    (e.windows_edge ≠ e.micromegas_edge ↔ ∃ config, mkConfig fs d e {} = .ok config) ∧
    ∀ config, mkConfig fs d e {} = .ok config →
      config.pad_grid = some fs.packaged_grid ∧
      config.pad_centers = some ((List.range 10240).map padCenter) ∧
      config.pad_sizes = (List.range 10240).map fun (p : ℕ) => if padIsLarge p then 1 else 0.5 := by
  have hg : load_pad_grid fs {} = .ok fs.packaged_grid := rfl
  have hc : load_pad_centers fs {} = .ok ((List.range 10240).map padCenter) := by
    unfold load_pad_centers
    simp only [if_true]
    rw [hfs.padxy]
    exact packaged_centers
  have hs : load_pad_sizes fs {}
      = .ok ((List.range 10240).map fun (p : ℕ) => if padIsLarge p then 1 else 0.5) := by
    unfold load_pad_sizes
    simp only [if_true]
    rw [hfs.scale]
    exact packaged_sizes
  have hz : ((e.windows_edge - e.micromegas_edge : ℤ) : ℝ) = 0 ↔
      e.windows_edge = e.micromegas_edge := by
    rw [Int.cast_eq_zero, sub_eq_zero]
  constructor
  · constructor
    · intro hne
      refine ⟨_, (mkConfig_ok_iff _ _ _ _ _).2
        ⟨d.length / ((e.windows_edge - e.micromegas_edge : ℤ) : ℝ), _, _, _, ?_, hg, hc, hs, rfl⟩⟩
      unfold calculate_drift_velocity
      rw [if_neg (mt hz.1 hne)]
    · rintro ⟨config, h⟩ he
      obtain ⟨v, _, _, _, hv, -⟩ := (mkConfig_ok_iff _ _ _ _ _).1 h
      unfold calculate_drift_velocity at hv
      rw [if_pos (hz.2 he)] at hv
      simp at hv
  · intro config h
    obtain ⟨v, g, c, s, -, hg', hc', hs', rfl⟩ := (mkConfig_ok_iff _ _ _ _ _).1 h
    rw [hg] at hg'
    rw [hc] at hc'
    rw [hs] at hs'
    exact ⟨by rw [Except.ok.inj hg'], by rw [Except.ok.inj hc'], (Except.ok.inj hs').symm⟩

end Verif.Props
