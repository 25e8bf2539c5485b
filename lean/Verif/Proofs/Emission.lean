import Verif.Proofs.Sphere
import Verif.Proofs.Unbiased
import Verif.Proofs.Chain
import Verif.Props.LabKinematics

/-! # The products of an event as functions of its sample -/

namespace Verif.Spec

open Verif.Kinematics Verif.Props MeasureTheory

/-- The measurable sets of four-momenta: those described by the components. -/
instance : MeasurableSpace Vec4 :=
  MeasurableSpace.comap (fun q : Vec4 => (q.px, q.py, q.pz, q.E)) inferInstance

variable {V : Type} [MeasurableSpace V]

theorem measurable_vec4 {f : V → Vec4} (h1 : Measurable fun w => (f w).px)
    (h2 : Measurable fun w => (f w).py) (h3 : Measurable fun w => (f w).pz)
    (h4 : Measurable fun w => (f w).E) : Measurable f :=
  measurable_comap_iff.2 (h1.prodMk (h2.prodMk (h3.prodMk h4)))

theorem measurable_components : Measurable fun q : Vec4 => (q.px, q.py, q.pz, q.E) :=
  comap_measurable _

@[fun_prop] theorem measurable_px : Measurable Vec4.px := measurable_fst.comp measurable_components
@[fun_prop] theorem measurable_py : Measurable Vec4.py :=
  (measurable_fst.comp measurable_snd).comp measurable_components
@[fun_prop] theorem measurable_pz : Measurable Vec4.pz :=
  (measurable_fst.comp (measurable_snd.comp measurable_snd)).comp measurable_components
@[fun_prop] theorem measurable_E : Measurable Vec4.E :=
  (measurable_snd.comp (measurable_snd.comp measurable_snd)).comp measurable_components

@[fun_prop] theorem measurable_M : Measurable Vec4.M := by
  have h : Measurable Vec4.M2 := by unfold Vec4.M2; fun_prop
  unfold Vec4.M
  refine Measurable.ite (measurableSet_lt h measurable_const) ?_ ?_ <;> fun_prop

/-- The four-momentum of the particle of mass `m1` that a nucleus with four-momentum `q` emits in the
direction given by `polar` and `azimuthal` in its rest frame, leaving the mass `m2`. -/
noncomputable def emitted (m1 m2 : ℝ) (q : Vec4) (polar azimuthal : ℝ) : Vec4 :=
  let e := (m1 ^ 2 - m2 ^ 2 + q.M ^ 2) / (2 * q.M)
  let p := Real.sqrt (e ^ 2 - m1 ^ 2)
  Vec4.boost ⟨p * Real.sin polar * Real.cos azimuthal, p * Real.sin polar * Real.sin azimuthal,
    p * Real.cos polar, e⟩ q

theorem measurable_emitted {m1 m2 polar azimuthal : V → ℝ} {q : V → Vec4} (h1 : Measurable m1)
    (h2 : Measurable m2) (hq : Measurable q) (hp : Measurable polar) (ha : Measurable azimuthal) :
    Measurable fun w => emitted (m1 w) (m2 w) (q w) (polar w) (azimuthal w) := by
  apply measurable_vec4 <;> simp only [emitted, Vec4.boost, Vec4.boostBeta] <;> fun_prop

theorem measurable_sub {q r : V → Vec4} (hq : Measurable q) (hr : Measurable r) :
    Measurable fun w => q w - r w := by
  apply measurable_vec4 <;> simp only [Vec4.sub_px, Vec4.sub_py, Vec4.sub_pz, Vec4.sub_E] <;> fun_prop

/-- The vector that the code computes is the one emitted. -/
theorem cmVector_emitted {q : Vec4} (hq : q.Massive) {m1 m2 : ℝ} (polar azimuthal : ℝ) (h1 : 0 ≤ m1)
    (h2 : 0 ≤ m2) (hle : m1 + m2 < q.M) :
    ∃ v, cmVector m1 m2 q.M polar azimuthal = some v ∧ v.boost q = emitted m1 m2 q polar azimuthal ∧
      (v.boost q).M2 = m1 ^ 2 ∧ (q - v.boost q).M2 = m2 ^ 2 ∧ 0 < (q - v.boost q).E := by
  obtain ⟨v, pp, hv, g1, g2, g3, g4, g5, g6, g7, g8, g9, g10, g11, g12⟩ :=
    breakup hq polar azimuthal h1 h2 hle.le
  refine ⟨v, hv, ?_, g7, g8, g12 (.inr hle)⟩
  unfold cmVector npSqrt at hv
  simp only at hv
  split_ifs at hv with hneg
  simp only [Option.some.injEq] at hv
  rw [← hv]
  rfl

/-- Energy of the emitted particle. -/
theorem emitted_E {q : Vec4} (hq : q.Massive) (m1 m2 polar azimuthal : ℝ) :
    (emitted m1 m2 q polar azimuthal).E
      = (q.E * ((m1 ^ 2 - m2 ^ 2 + q.M ^ 2) / (2 * q.M))
        + Real.sqrt (((m1 ^ 2 - m2 ^ 2 + q.M ^ 2) / (2 * q.M)) ^ 2 - m1 ^ 2)
          * Sphere.dotDir (q.px, q.py, q.pz) polar azimuthal) / q.M := by
  unfold emitted
  simp only
  rw [Vec4.boost_eq hq]
  simp only [Vec4.dot, Sphere.dotDir]
  congr 1
  ring

/-- The nucleus that undergoes decay number `k` of the decays `ds`, of a nucleus with four-momentum `q`;
the excitations and angles are numbered from `idx`. -/
noncomputable def parentAt (exs polars azimuths : List ℝ) : ℕ → ℕ → List Decay → Vec4 → Vec4
  | 0, _, _, q => q
  | _ + 1, _, [], q => q
  | k + 1, idx, d :: ds, q => parentAt exs polars azimuths k (idx + 1) ds
      (q - emitted d.residual_1.mass (d.residual_2.mass + exs.getD idx 0) q (polars.getD idx 0)
        (azimuths.getD idx 0))

theorem measurable_parentAt {exs polars azimuths : V → List ℝ} (h1 : Measurable exs)
    (h2 : Measurable polars) (h3 : Measurable azimuths) (k : ℕ) : ∀ (idx : ℕ) (ds : List Decay)
    {q : V → Vec4}, Measurable q →
    Measurable fun w => parentAt (exs w) (polars w) (azimuths w) k idx ds (q w) := by
  induction k with
  | zero => intro idx ds q hq; simpa only [parentAt] using hq
  | succ k ih =>
    intro idx ds q hq
    cases ds with
    | nil => simpa only [parentAt] using hq
    | cons d ds =>
      simp only [parentAt]
      exact ih _ _ (measurable_sub hq (measurable_emitted measurable_const
        (((measurable_list_getD idx).comp h1).const_add _) hq ((measurable_list_getD idx).comp h2)
        ((measurable_list_getD idx).comp h3)))

/-- Only the angles of the decays before number `k` matter. -/
theorem parentAt_congr {exs l1 l2 m1 m2 : List ℝ} (k : ℕ) : ∀ (idx : ℕ) (ds : List Decay) (q : Vec4),
    (∀ j < idx + k, l1.getD j 0 = m1.getD j 0) → (∀ j < idx + k, l2.getD j 0 = m2.getD j 0) →
    parentAt exs l1 l2 k idx ds q = parentAt exs m1 m2 k idx ds q := by
  induction k with
  | zero => intros; rfl
  | succ k ih =>
    intro idx ds q h1 h2
    cases ds with
    | nil => rfl
    | cons d ds =>
      simp only [parentAt]
      rw [h1 idx (by omega), h2 idx (by omega)]
      exact ih _ _ _ (fun j hj => h1 j (by omega)) fun j hj => h2 j (by omega)

theorem listGet_getD {l : List ℝ} {i : ℕ} {a : ℝ} (h : listGet l i = .ok a) : l.getD i 0 = a := by
  unfold listGet at h
  rw [List.getD_eq_getElem?_getD]
  cases hl : l[i]? with
  | none => rw [hl] at h; simp at h
  | some b => rw [hl] at h; simpa using h

/-- The rows of the decays. -/
theorem decayRows_closed (x : Sample) (ds : List Decay) : ∀ (idx : ℕ) (parent : Vec4),
    parent.Massive → (∀ d ∈ ds, 0 ≤ d.residual_1.mass) →
    (∀ de ∈ ds.zip (x.decay_excitations.drop idx), 0 < de.1.residual_2.mass + de.2) →
    ∀ rows, decayRows x idx ds (some parent) = .ok (some rows) → ∀ k (hk : k < ds.length),
      ∃ q a, q = parentAt x.decay_excitations x.decay_thetas x.decay_phis k idx ds parent ∧
        a = emitted ds[k].residual_1.mass (ds[k].residual_2.mass + x.decay_excitations.getD (idx + k) 0) q
          (x.decay_thetas.getD (idx + k) 0) (x.decay_phis.getD (idx + k) 0) ∧
        q.Massive ∧ 0 ≤ a.M ∧ 0 < (q - a).M ∧ a.M + (q - a).M < q.M ∧
        a.M = ds[k].residual_1.mass ∧
        (q - a).M = ds[k].residual_2.mass + x.decay_excitations.getD (idx + k) 0 ∧
        (some parent :: rows)[2 * k]? = some (some q) ∧
        (some parent :: rows)[2 * k + 1]? = some (some a) ∧
        (some parent :: rows)[2 * k + 2]? = some (some (q - a)) := by
  induction ds with
  | nil => intro idx parent _ _ _ rows _ k hk; simp at hk
  | cons d ds ih =>
    intro idx parent hp h1 h2 rows h k hk
    unfold decayRows at h
    simp only at h
    cases hx : listGet x.decay_excitations idx with
    | error e => rw [hx] at h; simp at h
    | ok ex =>
    cases ht : listGet x.decay_thetas idx with
    | error e =>
      rw [hx, ht] at h
      simp only [bind, Except.bind] at h
      split_ifs at h
      simp at h
    | ok theta =>
    cases hph : listGet x.decay_phis idx with
    | error e =>
      rw [hx, ht, hph] at h
      simp only [bind, Except.bind] at h
      split_ifs at h
      simp at h
    | ok phi =>
    rw [hx, ht, hph] at h
    simp only [bind, Except.bind] at h
    have hex := listGet_getD hx
    have hth := listGet_getD ht
    have hpp := listGet_getD hph
    have hx' : x.decay_excitations[idx]? = some ex := by
      unfold listGet at hx
      cases hl : x.decay_excitations[idx]? with
      | none => rw [hl] at hx; simp at hx
      | some b => rw [hl] at hx; simpa using hx
    obtain ⟨hlt, hxe⟩ := List.getElem?_eq_some_iff.1 hx'
    have hdrop : x.decay_excitations.drop idx = ex :: x.decay_excitations.drop (idx + 1) := by
      rw [← hxe]; exact List.drop_eq_getElem_cons hlt
    rw [hdrop] at h2
    have hm2 : 0 < d.residual_2.mass + ex := h2 (d, ex) (by simp)
    have hm1 : 0 ≤ d.residual_1.mass := h1 d (by simp)
    by_cases ha : d.is_excitation_allowed parent ex = true
    · have ha' := (C42_decay d parent ex).1 ha
      obtain ⟨v, hv, hem, hM1, hM2, hE⟩ := cmVector_emitted hp theta phi hm1 hm2.le (by linarith)
      have hcalc : d.calculate parent theta phi ex
          = .ok (parent, some (v.boost parent), some (parent - v.boost parent)) := by
        unfold Decay.calculate
        simp only
        rw [if_neg (by linarith), if_pos hp.boostable, Vec4.boostCM_self hp]
        simp only [hv]
      simp only [ha, Bool.not_true, Bool.false_eq_true, if_false, hcalc] at h
      have hbm : (parent - v.boost parent).Massive := massive_of_M2 hm2 hM2 hE
      have e1 : (v.boost parent).M = d.residual_1.mass := Vec4.M_of_M2 hm1 hM1
      have e2 : (parent - v.boost parent).M = d.residual_2.mass + ex := Vec4.M_of_M2 hm2.le hM2
      cases hr : decayRows x (idx + 1) ds (some (parent - v.boost parent)) with
      | error e => rw [hr] at h; simp at h
      | ok o =>
        cases o with
        | none => rw [hr] at h; simp at h
        | some rows' =>
          rw [hr] at h
          simp only [Except.ok.injEq, Option.some.injEq] at h
          subst h
          cases k with
          | zero =>
            refine ⟨parent, v.boost parent, rfl, ?_, hp, ?_, ?_, ?_, ?_, ?_, rfl, rfl, rfl⟩
            · simp only [List.getElem_cons_zero, Nat.add_zero, hex, hth, hpp, hem]
            · rw [e1]; exact hm1
            · rw [e2]; exact hm2
            · rw [e1, e2]; linarith
            · simp only [List.getElem_cons_zero, e1]
            · simp only [List.getElem_cons_zero, e2, Nat.add_zero, hex]
          | succ k =>
            obtain ⟨q, a, i1, i2, i3, i4, i5, i6, i7, i8, i9, i10, i11⟩ := ih (idx + 1) _ hbm
              (fun d' hd' => h1 d' (by simp [hd'])) (fun de hde => h2 de (by simp [hde])) _ hr k
              (by simpa using hk)
            refine ⟨q, a, ?_, ?_, i3, i4, i5, i6, ?_, ?_, ?_, ?_, ?_⟩
            · rw [i1]
              simp only [parentAt, hex, hth, hpp, hem]
            · rw [i2]
              simp only [List.getElem_cons_succ, show idx + 1 + k = idx + (k + 1) by omega]
            · simpa only [List.getElem_cons_succ] using i7
            · simpa only [List.getElem_cons_succ, show idx + 1 + k = idx + (k + 1) by omega] using i8
            · rw [show 2 * (k + 1) = 2 * k + 1 + 1 by ring]
              simpa only [List.getElem?_cons_succ] using i9
            · rw [show 2 * (k + 1) + 1 = 2 * k + 1 + 1 + 1 by ring]
              simpa only [List.getElem?_cons_succ] using i10
            · rw [show 2 * (k + 1) + 2 = 2 * k + 2 + 1 + 1 by ring]
              simpa only [List.getElem?_cons_succ] using i11
    · simp only [ha, Bool.not_false, if_true] at h
      simp at h

/-- The residual of the reaction. -/
noncomputable def residualOf (r : Reaction) (x : Sample) : Vec4 :=
  let q := targetVec r + beamVec r x.beam_energy
  q - emitted r.ejectile.mass (r.residual.mass + x.reaction_excitation) q x.reaction_theta x.reaction_phi

theorem residualOf_massive {r : Reaction} (hr : ReactionOk r) {x : Sample} (hT : 0 ≤ x.beam_energy)
    (hm : 0 < r.residual.mass + x.reaction_excitation)
    (ha : r.is_excitation_allowed x.beam_energy x.reaction_excitation = true) {res}
    (hc : r.calculate x.beam_energy x.reaction_theta x.reaction_phi x.reaction_excitation = .ok res) :
    res.2.2.2 = some (residualOf r x) ∧ (residualOf r x).Massive := by
  have hq := parent_massive hr hT
  rw [C42_reaction hr hT] at ha
  have hle : r.ejectile.mass + (r.residual.mass + x.reaction_excitation)
      < (targetVec r + beamVec r x.beam_energy).M := by
    linarith
  obtain ⟨v, hv, hem, hM1, hM2, hE⟩ := cmVector_emitted hq x.reaction_theta x.reaction_phi
    hr.ejectile hm.le hle
  rw [reaction_calculate hr hT] at hc
  rw [parent_M hr hT] at hv
  split_ifs at hc
  rw [hv] at hc
  simp only [Except.ok.injEq] at hc
  subst hc
  have e : residualOf r x = targetVec r + beamVec r x.beam_energy
      - v.boost (targetVec r + beamVec r x.beam_energy) := by
    rw [hem]; rfl
  rw [e]
  exact ⟨rfl, massive_of_M2 hm hM2 hE⟩

end Verif.Spec
