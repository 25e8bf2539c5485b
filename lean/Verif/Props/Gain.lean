import Verif.Props.Simulate

/-! # C116: the gain scales the charges and changes nothing else -/

namespace Verif.Detector

open Verif.Spec Verif.Kinematics

/-- A configuration with another gain of the micromegas. -/
def withGain (config : Config) (gain : ℤ) : Config :=
  { config with det_params := { config.det_params with mpgd_gain := gain } }

/-- Two dictionaries with the same keys in the same order, the same labels and related charges. -/
def SameCells (ρ : ℤ → ℤ → Prop) (p p' : Points) : Prop :=
  List.Forall₂ (fun a b => a.1 = b.1 ∧ a.2.2 = b.2.2 ∧ ρ a.2.1 b.2.1) p p'

theorem SameCells.get {ρ : ℤ → ℤ → Prop} (h0 : ρ 0 0) {p p' : Points} (h : SameCells ρ p p') (id : ℤ) :
    ρ (p.get id (0, 0)).1 (p'.get id (0, 0)).1 := by
  induction h with
  | nil => exact h0
  | @cons a b p p' hab _ ih =>
    obtain ⟨k, e, l⟩ := a
    obtain ⟨k', e', l'⟩ := b
    obtain ⟨rfl, -, he⟩ := hab
    unfold Points.get
    by_cases hk : k = id
    · simpa [hk] using he
    · simpa [hk] using ih

theorem SameCells.set {ρ : ℤ → ℤ → Prop} {p p' : Points} (h : SameCells ρ p p') (id : ℤ) {e e' : ℤ}
    (he : ρ e e') (l : ℤ) : SameCells ρ (p.set id (e, l)) (p'.set id (e', l)) := by
  induction h with
  | nil => exact .cons ⟨rfl, rfl, he⟩ .nil
  | @cons a b p p' hab hr ih =>
    obtain ⟨k, v⟩ := a
    obtain ⟨k', v'⟩ := b
    obtain ⟨rfl, h2⟩ := hab
    unfold Points.set
    by_cases hk : k = id
    · simp only [hk, if_true]
      exact .cons ⟨rfl, rfl, he⟩ hr
    · simp only [hk, if_false]
      exact .cons ⟨rfl, h2⟩ ih

/-- Relations between charges that survive adding up. -/
structure Additive (ρ : ℤ → ℤ → Prop) : Prop where
  zero : ρ 0 0
  add : ∀ {a b c d}, ρ a b → ρ c d → ρ (a + c) (b + d)

theorem SameCells.addCharge {ρ : ℤ → ℤ → Prop} (hρ : Additive ρ) {p p' : Points} (h : SameCells ρ p p')
    (tb pad : ℤ) {e e' : ℤ} (he : ρ e e') (l : ℤ) :
    SameCells ρ (addCharge p tb pad e l) (addCharge p' tb pad e' l) :=
  h.set _ (hρ.add (h.get hρ.zero _) he) l

/-- The numbers of electrons of a track point before and after diffusion are related. -/
structure Transports (ρ : ℤ → ℤ → Prop) (e e' : ℤ) : Prop where
  point : ρ e e'
  pixel : ∀ center sigma pixel, ρ (pixel_electrons center sigma e pixel) (pixel_electrons center sigma e' pixel)

theorem transport_step_same {ρ : ℤ → ℤ → Prop} (hρ : Additive ρ) (grid : PadGrid) (g : GridEdges)
    (D E v : ℝ) (label : ℤ) (r : Row) {e e' : ℤ} (he : ρ e e')
    (hpix : D = 0 ∨ Transports ρ e e') {p p' : Points} (h : SameCells ρ p p') :
    (∃ err, transport_step grid g D E v label p (r, e) = .error err ∧
      transport_step grid g D E v label p' (r, e') = .error err) ∨
    ∃ q q', transport_step grid g D E v label p (r, e) = .ok q ∧
      transport_step grid g D E v label p' (r, e') = .ok q' ∧ SameCells ρ q q' := by
  unfold transport_step
  simp only
  split_ifs with hE
  · exact .inl ⟨_, rfl, rfl⟩
  · rcases hs : npSqrt (2 * D * v * r.z / E) with _ | sigma
    · exact .inl ⟨_, rfl, rfl⟩
    · right
      simp only
      split_ifs with h0
      · refine ⟨_, _, rfl, rfl, ?_⟩
        unfold point_transport
        simp only
        split_ifs
        · exact h
        · exact h.addCharge hρ _ _ he _
        · exact h
      · refine ⟨_, _, rfl, rfl, ?_⟩
        have hpix : Transports ρ e e' := by
          rcases hpix with hD | h
          · exfalso
            apply h0
            rw [hD] at hs
            simp [npSqrt] at hs
            exact hs.symm
          · exact h
        unfold transverse_transport
        generalize transverse_mesh (r.x, r.y) sigma = mesh
        induction mesh generalizing p p' with
        | nil => exact h
        | cons pix mesh ih =>
          rw [List.foldl_cons, List.foldl_cons]
          apply ih
          unfold transverse_pixel
          simp only
          split_ifs
          · exact h
          · exact h.addCharge hρ _ _ (hpix.pixel _ _ _) _
          · exact h

/-- What a pair of runs has to look like: both raise the same exception, or both succeed with related
results. -/
def Alike {α : Type} (R : α → α → Prop) (x y : Except PyErr α) : Prop :=
  (∃ err, x = .error err ∧ y = .error err) ∨ ∃ a b, x = .ok a ∧ y = .ok b ∧ R a b

theorem foldlM_alike {α β γ : Type} {R : β → β → Prop} {f f' : β → α → Except PyErr β} {fa fa' : γ → α}
    (l : List γ) (hf : ∀ c ∈ l, ∀ b b', R b b' → Alike R (f b (fa c)) (f' b' (fa' c))) (b b' : β)
    (h : R b b') : Alike R ((l.map fa).foldlM f b) ((l.map fa').foldlM f' b') := by
  induction l generalizing b b' with
  | nil => exact .inr ⟨b, b', rfl, rfl, h⟩
  | cons c l ih =>
    rw [List.map_cons, List.map_cons, List.foldlM_cons, List.foldlM_cons]
    rcases hf c (by simp) b b' h with ⟨err, h1, h2⟩ | ⟨q, q', h1, h2, h3⟩
    · rw [h1, h2]
      exact .inl ⟨err, rfl, rfl⟩
    · rw [h1, h2]
      exact ih (fun c hc => hf c (by simp [hc])) q q' h3

theorem point_cloud_alike {σ : Type} {ρ : ℤ → ℤ → Prop} (hρ : Additive ρ) {config : Config} {G G' : ℤ}
    (he : ∀ n, 1 ≤ n → ρ (n * G) (n * G'))
    (hpix : config.det_params.diffusion = 0 ∨ ∀ n, 1 ≤ n → Transports ρ (n * G) (n * G'))
    (ivp : IvpSolver) (momentum vertex : ℝ × ℝ × ℝ) (nucleus : Nucleus) (rng : Gen σ)
    {p p' : Points} (h : SameCells ρ p p') (label : ℤ) (s : σ) :
    Alike (fun a b => SameCells ρ a.1 b.1 ∧ a.2 = b.2)
      (generate_point_cloud ivp momentum vertex nucleus (withGain config G) rng p label s)
      (generate_point_cloud ivp momentum vertex nucleus (withGain config G') rng p' label s) := by
  unfold generate_point_cloud
  have ht : ∀ G, generate_trajectory ivp vertex momentum nucleus (withGain config G).det_params
      = generate_trajectory ivp vertex momentum nucleus config.det_params := fun _ => rfl
  have hel : ∀ G track, generate_electrons track nucleus (withGain config G).det_params rng s
      = generate_electrons track nucleus config.det_params rng s := fun _ _ => rfl
  rw [ht, ht]
  rcases generate_trajectory ivp vertex momentum nucleus config.det_params with err | track
  · exact .inl ⟨err, rfl, rfl⟩
  simp only [bind, Except.bind, hel]
  rcases generate_electrons track nucleus config.det_params rng s with err | ⟨el, s1⟩
  · exact .inl ⟨err, rfl, rfl⟩
  simp only
  have hg : ∀ G, (withGain config G).pad_grid = config.pad_grid := fun _ => rfl
  rw [hg, hg]
  rcases config.pad_grid with _ | ⟨grid, g⟩
  · exact .inl ⟨_, rfl, rfl⟩
  simp only
  unfold transport_track
  rw [masked_zip, masked_zip]
  have hfold := foldlM_alike (R := SameCells ρ)
    (f := transport_step grid g (withGain config G).det_params.diffusion
      (withGain config G).det_params.efield (withGain config G).drift_velocity label)
    (f' := transport_step grid g (withGain config G').det_params.diffusion
      (withGain config G').det_params.efield (withGain config G').drift_velocity label)
    (fa := fun re => ({ re.1 with z := to_time_bucket (withGain config G) re.1.z },
      re.2 * (withGain config G).det_params.mpgd_gain))
    (fa' := fun re => ({ re.1 with z := to_time_bucket (withGain config G') re.1.z },
      re.2 * (withGain config G').det_params.mpgd_gain))
    ((track.zip el).filter fun re => decide (1 ≤ re.2)) (by
      intro re hre q q' hq
      have h1 : 1 ≤ re.2 := by simpa using (List.mem_filter.1 hre).2
      exact transport_step_same hρ grid g config.det_params.diffusion config.det_params.efield
        config.drift_velocity label { re.1 with z := to_time_bucket config re.1.z } (he _ h1)
        (hpix.imp id fun h => h _ h1) hq) p p' h
  rcases hfold with ⟨err, h1, h2⟩ | ⟨q, q', h1, h2, h3⟩
  · rw [h1, h2]
    exact .inl ⟨err, rfl, rfl⟩
  · rw [h1, h2]
    exact .inr ⟨_, _, rfl, rfl, h3, rfl⟩

theorem nuclei_alike {σ : Type} {ρ : ℤ → ℤ → Prop} (hρ : Additive ρ) {config : Config} {G G' : ℤ}
    (he : ∀ n, 1 ≤ n → ρ (n * G) (n * G'))
    (hpix : config.det_params.diffusion = 0 ∨ ∀ n, 1 ≤ n → Transports ρ (n * G) (n * G'))
    (env : SimEnv) (momenta : List Vec4) (vertex : ℝ × ℝ × ℝ) (Zs As : List ℤ) (rng : Gen σ)
    (indices : List ℤ) (s : σ) :
    Alike (fun a b => SameCells ρ a.1 b.1 ∧ a.2 = b.2)
      (indices.foldlM (simulate_nucleus env momenta vertex Zs As (withGain config G) rng) ([], s))
      (indices.foldlM (simulate_nucleus env momenta vertex Zs As (withGain config G') rng) ([], s)) := by
  have := foldlM_alike (R := fun a b : Points × σ => SameCells ρ a.1 b.1 ∧ a.2 = b.2)
    (f := simulate_nucleus env momenta vertex Zs As (withGain config G) rng)
    (f' := simulate_nucleus env momenta vertex Zs As (withGain config G') rng)
    (fa := id) (fa' := id) indices (by
      rintro idx - ⟨p, t⟩ ⟨p', t'⟩ ⟨hp, ht⟩
      simp only at hp ht
      subst ht
      unfold simulate_nucleus
      rcases hz : pyGet Zs (id idx) with err | z
      · exact .inl ⟨err, rfl, rfl⟩
      simp only [bind, Except.bind]
      split_ifs with h0
      · exact .inr ⟨_, _, rfl, rfl, hp, rfl⟩
      rcases pyGet As (id idx) with err | a
      · exact .inl ⟨err, rfl, rfl⟩
      simp only
      rcases env.get_data z a with err | nucleus
      · exact .inl ⟨err, rfl, rfl⟩
      simp only
      rcases pyGet momenta (id idx) with err | q
      · exact .inl ⟨err, rfl, rfl⟩
      exact point_cloud_alike hρ he hpix env.solve_ivp _ vertex nucleus rng hp _ t)
    ([], s) ([], s) ⟨.nil, rfl⟩
  rwa [List.map_id] at this

/-- The rows of two clouds agree in pad and time, and their charges are related. -/
def SameRows (ρ : ℤ → ℤ → Prop) (cloud cloud' : List CloudPoint) : Prop :=
  List.Forall₂ (fun a b => a.pad = b.pad ∧ a.tb = b.tb ∧ ∃ e e' : ℤ, a.e = (e : ℝ) ∧ b.e = (e' : ℝ) ∧ ρ e e')
    cloud cloud'

/-- Two events that differ in the gain only raise the same exception, or they give clouds with the same
points and labels, the charges being related, and leave the generator in the same state. -/
theorem simulate_alike {σ : Type} {ρ : ℤ → ℤ → Prop} (hρ : Additive ρ) {config : Config} {G G' : ℤ}
    (he : ∀ n, 1 ≤ n → ρ (n * G) (n * G'))
    (hpix : config.det_params.diffusion = 0 ∨ ∀ n, 1 ≤ n → Transports ρ (n * G) (n * G'))
    (env : SimEnv) (momenta : List Vec4) (vertex : ℝ × ℝ × ℝ) (Zs As : List ℤ) (rng : Gen σ)
    (indices : List ℤ) (s : σ) :
    Alike (fun a b => SameRows ρ a.1.1 b.1.1 ∧ a.1.2 = b.1.2 ∧ a.2 = b.2)
      (simulate env momenta vertex Zs As (withGain config G) rng indices s)
      (simulate env momenta vertex Zs As (withGain config G') rng indices s) := by
  unfold simulate
  rcases nuclei_alike hρ he hpix env momenta vertex Zs As rng indices s with
    ⟨err, h1, h2⟩ | ⟨⟨p, t⟩, ⟨p', t'⟩, h1, h2, h3, h4⟩
  · rw [h1, h2]
    exact .inl ⟨err, rfl, rfl⟩
  simp only at h3 h4
  subst h4
  rw [h1, h2]
  refine .inr ⟨_, _, rfl, rfl, ?_⟩
  simp only [dict_to_points]
  have hl : p.length = p'.length := List.Forall₂.length_eq h3
  rw [List.length_map, List.length_map, ← hl]
  generalize hw : rng.uniformN 0 1 p.length t = wt
  obtain ⟨wiggle, t1⟩ := wt
  refine ⟨?_, ?_, rfl⟩
  · simp only
    clear hw hl h1 h2
    unfold SameRows
    induction h3 generalizing wiggle with
    | nil => simp [maskSel]
    | @cons a b p p' hab _ ih =>
      cases wiggle with
      | nil => simp [maskSel]
      | cons w wiggle =>
        obtain ⟨k, e, l⟩ := a
        obtain ⟨k', e', l'⟩ := b
        obtain ⟨rfl, -, hee⟩ := hab
        simp only [List.map_cons, List.zip_cons_cons]
        cases (decide ((0 : ℝ) ≤ ((unpair k).1 : ℝ) + w) && decide (((unpair k).1 : ℝ) + w < (NUM_TB : ℝ)))
        · exact ih wiggle
        · exact .cons ⟨rfl, rfl, e, e', rfl, rfl, hee⟩ (ih wiggle)
  · simp only
    clear hw hl h1 h2
    induction h3 generalizing wiggle with
    | nil => simp [maskSel]
    | @cons a b p p' hab _ ih =>
      cases wiggle with
      | nil => simp [maskSel]
      | cons w wiggle =>
        obtain ⟨k, e, l⟩ := a
        obtain ⟨k', e', l'⟩ := b
        obtain ⟨rfl, hll, hee⟩ := hab
        simp only at hll
        subst hll
        simp only [List.map_cons, List.zip_cons_cons]
        cases (decide ((0 : ℝ) ≤ ((unpair k).1 : ℝ) + w) && decide (((unpair k).1 : ℝ) + w < (NUM_TB : ℝ)))
        · exact ih wiggle
        · exact congrArg _ (ih wiggle)

/-- **C116.** Without diffusion the charges are proportional to the gain, and nothing else depends on it:
not the points, their times and labels, not the random numbers consumed, and not whether an exception is
raised. -/
theorem C116_proportional {σ : Type} {config : Config} (hD : config.det_params.diffusion = 0) (G G' : ℤ)
    (env : SimEnv) (momenta : List Vec4) (vertex : ℝ × ℝ × ℝ) (Zs As : List ℤ) (rng : Gen σ)
    (indices : List ℤ) (s : σ) :
    Alike (fun a b => SameRows (fun e e' => G' * e = G * e') a.1.1 b.1.1 ∧ a.1.2 = b.1.2 ∧ a.2 = b.2)
      (simulate env momenta vertex Zs As (withGain config G) rng indices s)
      (simulate env momenta vertex Zs As (withGain config G') rng indices s) :=
  simulate_alike ⟨by simp, fun h1 h2 => by rw [mul_add, mul_add, h1, h2]⟩ (fun n _ => by ring) (.inl hD)
    env momenta vertex Zs As rng indices s

theorem pyInt_mono {x y : ℝ} (h : x ≤ y) : pyInt x ≤ pyInt y := by
  unfold pyInt
  split_ifs with hx hy hy
  · exact Int.floor_le_floor h
  · exact absurd (hx.trans h) hy
  · have h1 : ⌈x⌉ ≤ 0 := by rw [Int.ceil_le]; push_cast; linarith
    exact h1.trans (Int.floor_nonneg.2 hy)
  · exact Int.ceil_le_ceil h

theorem pixel_weight_nonneg (center : ℝ × ℝ) (sigma : ℝ) (pixel : ℝ × ℝ) :
    0 ≤ bivariate_normal_pdf pixel center sigma
      * (2 * 3 * sigma / ((STEPS : ℝ) - 1) * (2 * 3 * sigma / ((STEPS : ℝ) - 1))) := by
  apply mul_nonneg
  · unfold bivariate_normal_pdf
    have := Real.pi_pos
    positivity
  · exact mul_self_nonneg _

theorem pixel_electrons_mono (center : ℝ × ℝ) (sigma : ℝ) (pixel : ℝ × ℝ) {e e' : ℤ} (h : e ≤ e') :
    pixel_electrons center sigma e pixel ≤ pixel_electrons center sigma e' pixel := by
  unfold pixel_electrons
  exact pyInt_mono (mul_le_mul_of_nonneg_left (by exact_mod_cast h)
    (pixel_weight_nonneg center sigma pixel))

theorem pixel_electrons_mul (center : ℝ × ℝ) (sigma : ℝ) (pixel : ℝ × ℝ) {e m : ℤ} (he : 0 ≤ e)
    (hm : 0 ≤ m) : m * pixel_electrons center sigma e pixel
      ≤ pixel_electrons center sigma (e * m) pixel := by
  unfold pixel_electrons
  have hw := pixel_weight_nonneg center sigma pixel
  simp only
  generalize bivariate_normal_pdf pixel center sigma
      * (2 * 3 * sigma / ((STEPS : ℝ) - 1) * (2 * 3 * sigma / ((STEPS : ℝ) - 1))) = w at *
  have he' : (0 : ℝ) ≤ e := by exact_mod_cast he
  have hm' : (0 : ℝ) ≤ m := by exact_mod_cast hm
  unfold pyInt
  push_cast
  rw [if_pos (by positivity), if_pos (by positivity), Int.le_floor]
  push_cast
  have := Int.floor_le (w * (e : ℝ))
  nlinarith

/-- **C116.** With diffusion a larger gain gives the same points, times and labels, and at every point at
least as much charge. -/
theorem C116_monotone {σ : Type} {config : Config} {G G' : ℤ} (h : G ≤ G')
    (env : SimEnv) (momenta : List Vec4) (vertex : ℝ × ℝ × ℝ) (Zs As : List ℤ) (rng : Gen σ)
    (indices : List ℤ) (s : σ) :
    Alike (fun a b => SameRows (fun e e' => e ≤ e') a.1.1 b.1.1 ∧ a.1.2 = b.1.2 ∧ a.2 = b.2)
      (simulate env momenta vertex Zs As (withGain config G) rng indices s)
      (simulate env momenta vertex Zs As (withGain config G') rng indices s) := by
  have hle : ∀ n : ℤ, 1 ≤ n → n * G ≤ n * G' := fun n hn => mul_le_mul_of_nonneg_left h (by omega)
  exact simulate_alike ⟨le_rfl, add_le_add⟩ hle
    (.inr fun n hn => ⟨hle n hn, fun c sg px => pixel_electrons_mono c sg px (hle n hn)⟩)
    env momenta vertex Zs As rng indices s

/-- **C116.** With diffusion, multiplying the gain by `m` multiplies every charge by at least `m`: what is
lost by cutting to whole electrons becomes relatively smaller. -/
theorem C116_multiple {σ : Type} {config : Config} {G m : ℤ} (hG : 0 ≤ G) (hm : 0 ≤ m)
    (env : SimEnv) (momenta : List Vec4) (vertex : ℝ × ℝ × ℝ) (Zs As : List ℤ) (rng : Gen σ)
    (indices : List ℤ) (s : σ) :
    Alike (fun a b => SameRows (fun e e' => m * e ≤ e') a.1.1 b.1.1 ∧ a.1.2 = b.1.2 ∧ a.2 = b.2)
      (simulate env momenta vertex Zs As (withGain config G) rng indices s)
      (simulate env momenta vertex Zs As (withGain config (G * m)) rng indices s) := by
  have hle : ∀ n : ℤ, m * (n * G) ≤ n * (G * m) := fun n => le_of_eq (by ring)
  refine simulate_alike ⟨by simp, fun h1 h2 => by rw [mul_add]; exact add_le_add h1 h2⟩
    (fun n _ => hle n) (.inr fun n hn => ⟨hle n, fun c sg px => ?_⟩)
    env momenta vertex Zs As rng indices s
  rw [← mul_assoc]
  exact pixel_electrons_mul c sg px (mul_nonneg (by omega) hG) hm

/-- C116: a configuration built with another gain is the configuration with the gain replaced. -/
theorem C116_config (fs : FileSystem) (d : DetectorParams) (e : ElectronicsParams) (p : PadParams) (G : ℤ)
    {config : Config} (h : mkConfig fs d e p = .ok config) :
    mkConfig fs { d with mpgd_gain := G } e p = .ok (withGain config G) := by
  unfold mkConfig at h ⊢
  simp only [except_bind_ok] at h ⊢
  obtain ⟨v, hv, g, hg, c, hc, sz, hs, h⟩ := h
  refine ⟨v, hv, g, hg, c, hc, sz, hs, ?_⟩
  rw [← Except.ok.inj h]
  rfl

/-- The example event at gain 100 and at gain 700, with diffusion: the charges grow at least sevenfold. -/
example : ∃ cloud cloud' labels,
    simulate exEnv exMomenta (0, 0, 0.5) [1, 1, 1] [1, 1, 1] (exConfig 100 1) exGen [2] ()
      = .ok ((cloud, labels), ()) ∧
    simulate exEnv exMomenta (0, 0, 0.5) [1, 1, 1] [1, 1, 1] (exConfig 700 1) exGen [2] ()
      = .ok ((cloud', labels), ()) ∧
    SameRows (fun e e' => 7 * e ≤ e') cloud cloud' := by
  obtain ⟨cloud, labels, h⟩ := exSimulate 100 1 zero_le_one
  have h1 : withGain (exConfig 1 1) 100 = exConfig 100 1 := rfl
  have h2 : withGain (exConfig 1 1) (100 * 7) = exConfig 700 1 := rfl
  have := C116_multiple (config := exConfig 1 1) (G := 100) (m := 7) (by norm_num) (by norm_num) exEnv
    exMomenta (0, 0, 0.5) [1, 1, 1] [1, 1, 1] exGen [2] ()
  rw [h1, h2] at this
  rcases this with ⟨err, h3, -⟩ | ⟨⟨⟨c, l⟩, ⟨⟩⟩, ⟨⟨c', l'⟩, ⟨⟩⟩, h3, h4, h5, h6, -⟩
  · rw [h] at h3
    cases h3
  · rw [h] at h3
    have h3 := congrArg Prod.fst (Except.ok.inj h3)
    obtain ⟨rfl, rfl⟩ := Prod.mk.inj h3
    simp only at h6
    subst h6
    exact ⟨_, c', _, h, h4, h5⟩

end Verif.Detector
