import Verif.Props.Translation
import Verif.Props.Format

/-! # C160: what is random in an event without Fano fluctuations -/

namespace Verif.Detector

open Verif.Spec Verif.Kinematics

/-- A point of the cloud with the start of its time bucket as its time. -/
noncomputable def wholeBucket (p : CloudPoint) : CloudPoint := { p with tb := (⌊p.tb⌋ : ℝ) }

theorem except_map_cases {α β γ : Type} {x : Except PyErr α} {y : Except PyErr β} {f : α → γ} {g : β → γ}
    (h : x.map f = y.map g) :
    (∃ e, x = .error e ∧ y = .error e) ∨ ∃ a b, x = .ok a ∧ y = .ok b ∧ f a = g b := by
  rcases x with e | a <;> rcases y with e' | b
  · left
    exact ⟨e, rfl, by rw [Except.error.inj h]⟩
  · cases h
  · cases h
  · right
    exact ⟨a, b, rfl, rfl, Except.ok.inj h⟩

section

variable {σ τ : Type} {rng : Gen σ} {rng' : Gen τ}

theorem fano_draw_zero (hr : LawfulGen rng) (m : Option ℝ) (s : σ) :
    (fano_draw rng 0 m s).map Prod.fst = match m with
      | none => .error .valueError
      | some x => .ok (pyInt x) := by
  unfold fano_draw
  cases m with
  | none => rfl
  | some x =>
    have h0 : npSqrt (0 * x) = some 0 := by
      unfold npSqrt
      simp
    simp only [h0]
    change Except.ok (pyInt (rng.normal x 0 s).1) = _
    rw [hr.normal_zero]

theorem fano_draws_fixed (hr : LawfulGen rng) (hr' : LawfulGen rng') : ∀ (ms : List (Option ℝ)) (s : σ) (s' : τ),
    (fano_draws rng 0 ms s).map Prod.fst = (fano_draws rng' 0 ms s').map Prod.fst
  | [], _, _ => rfl
  | m :: ms, s, s' => by
    have h := (fano_draw_zero hr m s).trans (fano_draw_zero hr' m s').symm
    unfold fano_draws
    rcases except_map_cases h with ⟨e, h1, h2⟩ | ⟨⟨v, s1⟩, ⟨v', s1'⟩, h1, h2, rfl⟩
    · rw [h1, h2]
      rfl
    · rw [h1, h2]
      have ih := fano_draws_fixed hr hr' ms s1 s1'
      simp only [bind, Except.bind]
      rcases except_map_cases ih with ⟨e, h3, h4⟩ | ⟨⟨vs, s2⟩, ⟨vs', s2'⟩, h3, h4, h5⟩
      · rw [h3, h4]
        rfl
      · rw [h3, h4]
        simp only at h5
        simp only [h5, pure, Except.pure, Except.map]

/-- **C160.** The numbers of electrons along a track do not depend on the random numbers. -/
theorem C160_electrons (hr : LawfulGen rng) (hr' : LawfulGen rng') {params : DetectorParams} (hF : params.fano_factor = 0)
    (track : List Row) (nucleus : Nucleus) (s : σ) (s' : τ) :
    (generate_electrons track nucleus params rng s).map Prod.fst
      = (generate_electrons track nucleus params rng' s').map Prod.fst := by
  unfold generate_electrons
  rw [hF]
  split_ifs
  · rfl
  · exact fano_draws_fixed hr hr' _ s s'

theorem cloud_no_fano (hr : LawfulGen rng) (hr' : LawfulGen rng') {config : Config}
    (hF : config.det_params.fano_factor = 0) (ivp : IvpSolver) (momentum vertex : ℝ × ℝ × ℝ) (nucleus : Nucleus)
    (points : Points) (label : ℤ) (s : σ) (s' : τ) :
    (generate_point_cloud ivp momentum vertex nucleus config rng points label s).map Prod.fst
      = (generate_point_cloud ivp momentum vertex nucleus config rng' points label s').map Prod.fst := by
  unfold generate_point_cloud
  rcases generate_trajectory ivp vertex momentum nucleus config.det_params with e | track
  · rfl
  · simp only [bind, Except.bind]
    rcases except_map_cases (C160_electrons hr hr' hF track nucleus s s') with
      ⟨e, h1, h2⟩ | ⟨⟨v, s1⟩, ⟨v', s1'⟩, h1, h2, rfl⟩
    · rw [h1, h2]
      rfl
    · rw [h1, h2]
      simp only
      rcases config.pad_grid with _ | ⟨grid, g⟩
      · rfl
      · simp only
        rcases transport_track grid g config.det_params.diffusion config.det_params.efield config.drift_velocity
          ((maskSel (v.map fun e => decide (1 ≤ e)) track).map fun r => { r with z := to_time_bucket config r.z })
          ((maskSel (v.map fun e => decide (1 ≤ e)) v).map (· * config.det_params.mpgd_gain)) points label with e | q
        · rfl
        · rfl

variable {env : SimEnv} {momenta : List Vec4} {vertex : ℝ × ℝ × ℝ} {Zs As : List ℤ} {config : Config}

theorem nucleus_no_fano (hr : LawfulGen rng) (hr' : LawfulGen rng') (hF : config.det_params.fano_factor = 0)
    (points : Points) (idx : ℤ) (s : σ) (s' : τ) :
    (simulate_nucleus env momenta vertex Zs As config rng (points, s) idx).map Prod.fst
      = (simulate_nucleus env momenta vertex Zs As config rng' (points, s') idx).map Prod.fst := by
  unfold simulate_nucleus
  rcases pyGet Zs idx with e | z
  · rfl
  · by_cases hz : z = 0
    · simp only [hz, bind, Except.bind, if_true]
      rfl
    · simp only [bind, Except.bind, if_neg hz]
      rcases pyGet As idx with e | a
      · rfl
      · simp only
        rcases env.get_data z a with e | n
        · rfl
        · simp only
          rcases pyGet momenta idx with e | m
          · rfl
          · exact cloud_no_fano hr hr' hF _ _ _ _ _ _ _ _

theorem nuclei_no_fano (hr : LawfulGen rng) (hr' : LawfulGen rng') (hF : config.det_params.fano_factor = 0) :
    ∀ (indices : List ℤ) (points : Points) (s : σ) (s' : τ),
    (indices.foldlM (simulate_nucleus env momenta vertex Zs As config rng) (points, s)).map Prod.fst
      = (indices.foldlM (simulate_nucleus env momenta vertex Zs As config rng') (points, s')).map Prod.fst
  | [], _, _, _ => rfl
  | idx :: indices, points, s, s' => by
    rw [List.foldlM_cons, List.foldlM_cons]
    rcases except_map_cases (nucleus_no_fano (env := env) (momenta := momenta) (vertex := vertex) (Zs := Zs) (As := As)
      hr hr' hF points idx s s') with ⟨e, h1, h2⟩ | ⟨⟨q, s1⟩, ⟨q', s1'⟩, h1, h2, rfl⟩
    · rw [h1, h2]
      rfl
    · rw [h1, h2]
      exact nuclei_no_fano hr hr' hF indices q s1 s1'

end

/-- The rows of a dictionary that are kept, with the start of their time buckets as times. -/
theorem wiggled_floor : ∀ (p : Points) (w : List ℝ), w.length = p.length → (∀ u ∈ w, 0 ≤ u ∧ u < 1) →
    (wiggled p w).map wholeBucket = (dict_to_points p).1 ∧
    (wiggled p w).map (fun r => decide (0 ≤ r.tb) && decide (r.tb < (NUM_TB : ℝ)))
      = (dict_to_points p).1.map fun r => decide (0 ≤ r.tb) && decide (r.tb < (NUM_TB : ℝ))
  | [], [], _, _ => by simp [wiggled, dict_to_points]
  | a :: p, u :: w, hl, hw => by
    obtain ⟨ih1, ih2⟩ := wiggled_floor p w (by simpa using hl) fun u hu => hw u (by simp [hu])
    have hu := hw u (by simp)
    have hf : ⌊((unpair a.1).1 : ℝ) + u⌋ = (unpair a.1).1 := by
      rw [Int.floor_eq_iff]
      constructor <;> linarith [hu.1, hu.2]
    have h1 : (0 ≤ ((unpair a.1).1 : ℝ) + u) ↔ 0 ≤ ((unpair a.1).1 : ℝ) := by
      constructor
      · intro h
        have : (0 : ℤ) ≤ ⌊((unpair a.1).1 : ℝ) + u⌋ := Int.floor_nonneg.2 h
        rw [hf] at this
        exact_mod_cast this
      · intro h
        linarith [hu.1]
    have h2 : (((unpair a.1).1 : ℝ) + u < (NUM_TB : ℝ)) ↔ ((unpair a.1).1 : ℝ) < (NUM_TB : ℝ) := by
      constructor
      · intro h
        linarith [hu.1]
      · intro h
        have h3 : (unpair a.1).1 < (NUM_TB : ℤ) := by exact_mod_cast h
        have h4 : (unpair a.1).1 + 1 ≤ (NUM_TB : ℤ) := h3
        have h5 : ((unpair a.1).1 : ℝ) + 1 ≤ (NUM_TB : ℝ) := by exact_mod_cast h4
        linarith [hu.2]
    have c1 : wiggled (a :: p) (u :: w)
        = ⟨((unpair a.1).2 : ℝ), ((unpair a.1).1 : ℝ) + u, (a.2.1 : ℝ)⟩ :: wiggled p w := rfl
    have c2 : (dict_to_points (a :: p)).1
        = ⟨((unpair a.1).2 : ℝ), ((unpair a.1).1 : ℝ), (a.2.1 : ℝ)⟩ :: (dict_to_points p).1 := rfl
    rw [c1, c2]
    refine ⟨?_, ?_⟩
    · rw [List.map_cons, ih1]
      simp only [wholeBucket, hf]
    · rw [List.map_cons, List.map_cons, ih2]
      simp only [h1, h2]

section

variable {σ τ : Type} {rng : Gen σ} {rng' : Gen τ} {env : SimEnv} {momenta : List Vec4} {vertex : ℝ × ℝ × ℝ}
  {Zs As : List ℤ} {config : Config}

theorem simulate_floor {rng : Gen σ} (hr : LawfulGen rng) (indices : List ℤ) (s : σ) :
    (simulate env momenta vertex Zs As config rng indices s).map (fun r => (r.1.1.map wholeBucket, r.1.2))
      = ((indices.foldlM (simulate_nucleus env momenta vertex Zs As config rng) (([] : Points), s)).map Prod.fst).map
        fun p => (maskSel ((dict_to_points p).1.map fun r => decide (0 ≤ r.tb) && decide (r.tb < (NUM_TB : ℝ)))
            (dict_to_points p).1,
          maskSel ((dict_to_points p).1.map fun r => decide (0 ≤ r.tb) && decide (r.tb < (NUM_TB : ℝ)))
            (dict_to_points p).2) := by
  unfold simulate
  rcases indices.foldlM (simulate_nucleus env momenta vertex Zs As config rng) (([] : Points), s) with e | ⟨p, s1⟩
  · rfl
  · simp only [bind, Except.bind, pure, Except.pure, Except.map]
    obtain ⟨w, s2, hw⟩ : ∃ w s'', rng.uniformN 0 1 (dict_to_points p).1.length s1 = (w, s'') := ⟨_, _, rfl⟩
    have hw1 : w.length = (dict_to_points p).1.length := by
      have := uniformN_length rng 0 1 (dict_to_points p).1.length s1
      rwa [hw] at this
    have hw2 : ∀ u ∈ w, 0 ≤ u ∧ u < 1 := by
      have := uniformN_mem hr 0 1 one_pos (dict_to_points p).1.length s1
      rwa [hw] at this
    simp only [hw]
    obtain ⟨e1, e2⟩ := wiggled_floor p w (by rw [hw1]; simp [dict_to_points]) hw2
    change Except.ok ((maskSel ((wiggled p w).map _) (wiggled p w)).map wholeBucket,
      maskSel ((wiggled p w).map _) (dict_to_points p).2) = _
    rw [e2, ← maskSel_map_comm, e1]

/-- **C160.** With the Fano factor 0, two simulations of an event with any two random number generators fail alike or
give clouds that differ at most in the times within the time buckets: same rows, same order, same labels. -/
theorem C160_cloud (hr : LawfulGen rng) (hr' : LawfulGen rng') (hF : config.det_params.fano_factor = 0)
    (indices : List ℤ) (s : σ) (s' : τ) :
    (simulate env momenta vertex Zs As config rng indices s).map (fun r => (r.1.1.map wholeBucket, r.1.2))
      = (simulate env momenta vertex Zs As config rng' indices s').map fun r => (r.1.1.map wholeBucket, r.1.2) := by
  rw [simulate_floor hr, simulate_floor hr', nuclei_no_fano hr hr' hF indices [] s s']

end

/-- What is stored of a point apart from the time within its bucket and the height, which is computed from it. -/
noncomputable def content (rl : SpyralRow × ℤ) : ℝ × ℝ × ℝ × ℝ × ℝ × ℤ × ℝ × ℤ :=
  (rl.1.x, rl.1.y, rl.1.amp, rl.1.integral, rl.1.pad, ⌊rl.1.tb⌋, rl.1.scale, rl.2)

theorem content_eq {config : Config} {centers : List (ℝ × ℝ)} {response : List ℝ} {data data' : List CloudPoint}
    {c c' : List SpyralRow} (h1 : List.Forall₂ (RowOf config centers response) data c)
    (h2 : List.Forall₂ (RowOf config centers response) data' c')
    (hd : data.map wholeBucket = data'.map wholeBucket) (labels : List ℤ) :
    (c.zip labels).map content = (c'.zip labels).map content := by
  induction h1 generalizing data' c' labels with
  | nil =>
    obtain rfl : data' = [] := by simpa using hd.symm
    cases h2
    rfl
  | @cons p r data c hp hc ih =>
    cases h2 with
    | nil => simp at hd
    | @cons p' r' data' c' hp' hc' =>
      rw [List.map_cons, List.map_cons, List.cons.injEq] at hd
      obtain ⟨hpp, hdd⟩ := hd
      simp only [wholeBucket, CloudPoint.mk.injEq] at hpp
      obtain ⟨q1, q2, q3⟩ := hpp
      cases labels with
      | nil => simp
      | cons l labels =>
        rw [List.zip_cons_cons, List.zip_cons_cons, List.map_cons, List.map_cons, ih hc' hdd labels]
        congr 1
        obtain ⟨n, a1, a2, a3⟩ := hp.pad_ok
        obtain ⟨n', b1, b2, b3⟩ := hp'.pad_ok
        have hn : n = n' := by
          have : (n : ℝ) = n' := by rw [← a1, ← b1, q1]
          exact_mod_cast this
        subst hn
        have hxy := Option.some.inj (a2.symm.trans b2)
        have hsc := Option.some.inj (a3.symm.trans b3)
        have hsig : (r.amp, r.integral) = (r'.amp, r'.integral) := by rw [hp.signal, hp'.signal, q3]
        simp only [Prod.mk.injEq] at hxy hsig
        have htb : ⌊r.tb⌋ = ⌊r'.tb⌋ := by rw [hp.tb, hp'.tb]; exact_mod_cast q2
        simp only [content, Prod.mk.injEq]
        exact ⟨hxy.1, hxy.2, hsig.1, hsig.2, by rw [hp.pad, hp'.pad, q1], htb, hsc, trivial⟩

/-- **C160.** Of two such clouds the same points are stored, with the same positions on the pad plane, signals, time
buckets and labels; only the order within a time bucket may differ. -/
theorem C160_stored {argsort argsort' : Argsort} (hA : IsArgsort argsort) (hA' : IsArgsort argsort')
    {response : List ℝ} {data data' : List CloudPoint} {labels : List ℤ} {config : Config}
    (hlen : data.length = labels.length) (hpads : ∀ p ∈ data, ∃ n : ℕ, p.pad = n)
    (hd : data.map wholeBucket = data'.map wholeBucket) {rows rows' : List SpyralRow} {ls ls' : List ℤ}
    (h : format_event argsort response data labels config = .ok (rows, ls))
    (h' : format_event argsort' response data' labels config = .ok (rows', ls')) :
    ((rows.zip ls).map content).Perm ((rows'.zip ls').map content) := by
  have hlen' : data'.length = labels.length := by
    have := congrArg List.length hd
    rw [List.length_map, List.length_map] at this
    rw [← this, hlen]
  have hpads' : ∀ p ∈ data', ∃ n : ℕ, p.pad = n := by
    intro p hp
    have : wholeBucket p ∈ data.map wholeBucket := by rw [hd]; exact List.mem_map_of_mem hp
    obtain ⟨q, hq, hqp⟩ := List.mem_map.1 this
    obtain ⟨n, hn⟩ := hpads q hq
    refine ⟨n, ?_⟩
    rw [← hn]
    have := congrArg CloudPoint.pad hqp
    exact this.symm
  obtain ⟨c1, conv, hc, hf, -, hp, -⟩ := C27_content argsort hA response data labels config hlen hpads rows ls h
  obtain ⟨c2, conv', hc', hf', -, hp', -⟩ :=
    C27_content argsort' hA' response data' labels config hlen' hpads' rows' ls' h'
  obtain rfl : c1 = c2 := Option.some.inj (hc.symm.trans hc')
  have hfilter : ∀ l : List (SpyralRow × ℤ),
      (l.filter fun rl => decide ((config.elec_params.adc_threshold : ℝ) < rl.1.amp)).map content
        = (l.map content).filter fun c => decide ((config.elec_params.adc_threshold : ℝ) < c.2.2.1) := by
    intro l
    rw [List.filter_map]
    rfl
  refine (hp.map content).trans ?_
  refine List.Perm.trans ?_ (hp'.map content).symm
  rw [hfilter, hfilter, content_eq hf hf' hd labels]

/-- A generator whose uniform numbers lie in the middle. -/
noncomputable def midGen : Gen Unit := { normal := fun m _ s => (m, s), uniform := fun a b s => ((a + b) / 2, s) }

theorem midGen_lawful : LawfulGen midGen where
  uniform_ge := fun a b _ h => by simp only [midGen]; linarith
  uniform_lt := fun a b _ h => by simp only [midGen]; linarith
  uniform_eq := fun a _ => by simp [midGen]
  normal_zero := fun _ _ => rfl

/-- The event of C07 with diffusion, simulated with other random numbers. -/
example : ∃ cloud cloud' labels,
    simulate exEnv exMomenta (0, 0, 0.5) [1, 1, 1] [1, 1, 1] (exConfig 7 0.1) exGen [2] () = .ok ((cloud, labels), ()) ∧
    simulate exEnv exMomenta (0, 0, 0.5) [1, 1, 1] [1, 1, 1] (exConfig 7 0.1) midGen [2] () = .ok ((cloud', labels), ()) ∧
    cloud.map wholeBucket = cloud'.map wholeBucket := by
  obtain ⟨cloud, labels, h⟩ := exSimulate 7 0.1 (by norm_num)
  have key := C160_cloud (env := exEnv) (momenta := exMomenta) (vertex := (0, 0, 0.5)) (Zs := [1, 1, 1])
    (As := [1, 1, 1]) (config := exConfig 7 0.1) exGen_lawful midGen_lawful rfl [2] () ()
  rcases except_map_cases key with ⟨e, h1, -⟩ | ⟨a, ⟨⟨cloud', labels'⟩, _⟩, h1, h2, h3⟩
  · rw [h] at h1
    cases h1
  · rw [h] at h1
    cases h1
    simp only [Prod.mk.injEq] at h3
    exact ⟨cloud, cloud', labels, h, by rw [h2, h3.2], h3.1⟩

/-- Two points in the same time bucket, the other way round in height: both are stored, in the other order. -/
example : ∃ rows rows' ls ls',
    format_event exArgsort [0.5] [⟨0, 50.2, 1000⟩, ⟨1, 50.9, 2000⟩] [2, 3]
      { exConfig 7 0 with pad_centers := some [(1, 2), (3, 4)], pad_sizes := [1, 1] } = .ok (rows, ls) ∧
    format_event exArgsort [0.5] [⟨0, 50.8, 1000⟩, ⟨1, 50.1, 2000⟩] [2, 3]
      { exConfig 7 0 with pad_centers := some [(1, 2), (3, 4)], pad_sizes := [1, 1] } = .ok (rows', ls') ∧
    ((rows.zip ls).map content).Perm ((rows'.zip ls').map content) := by
  have hok : ∀ t t' : ℝ, ∃ r, format_event exArgsort [0.5] [⟨0, t, 1000⟩, ⟨1, t', 2000⟩] [2, 3]
      { exConfig 7 0 with pad_centers := some [(1, 2), (3, 4)], pad_sizes := [1, 1] } = .ok r := fun t t' =>
    C27_no_error _ _ _ _ _ [(1, 2), (3, 4)] rfl (by norm_num [exConfig, exElec]) (by
      intro p hp
      simp only [List.mem_cons, List.not_mem_nil, or_false] at hp
      rcases hp with rfl | rfl
      · exact ⟨0, by simp, by simp, by simp⟩
      · exact ⟨1, by simp, by simp, by simp⟩)
  obtain ⟨⟨rows, ls⟩, h⟩ := hok 50.2 50.9
  obtain ⟨⟨rows', ls'⟩, h'⟩ := hok 50.8 50.1
  refine ⟨rows, rows', ls, ls', h, h', C160_stored exArgsort_ok exArgsort_ok rfl ?_ ?_ h h'⟩
  · intro p hp
    simp only [List.mem_cons, List.not_mem_nil, or_false] at hp
    rcases hp with rfl | rfl
    · exact ⟨0, by simp⟩
    · exact ⟨1, by simp⟩
  · have h1 : ⌊(50.2 : ℝ)⌋ = 50 := by norm_num [Int.floor_eq_iff]
    have h2 : ⌊(50.8 : ℝ)⌋ = 50 := by norm_num [Int.floor_eq_iff]
    have h3 : ⌊(50.9 : ℝ)⌋ = 50 := by norm_num [Int.floor_eq_iff]
    have h4 : ⌊(50.1 : ℝ)⌋ = 50 := by norm_num [Int.floor_eq_iff]
    simp only [List.map_cons, List.map_nil, wholeBucket, h1, h2, h3, h4]

end Verif.Detector
