import Verif.Machine.Kinematics
import Verif.Proofs.FloatError
import Verif.Proofs.Electrons64
import Verif.Proofs.Chain
import Verif.Proofs.Simulate

/-! # C88: conservation of energy and momentum in machine arithmetic -/

namespace Verif.Machine

open Verif.Kinematics Verif.Spec

/-- A component of a four-momentum. -/
inductive Component where
  | px | py | pz | E
  deriving DecidableEq

/-- The value of a component. -/
def Component.of : Component → Vec4 → ℝ
  | .px, v => v.px
  | .py, v => v.py
  | .pz, v => v.pz
  | .E, v => v.E

/-- The components of a four-momentum are doubles. -/
def Doubles (v : Vec4) : Prop := ∀ c : Component, c.of v ∈ Binary64

/-- What is assumed about the float operations: rounding to nearest, and boosts return doubles. Nothing is
assumed about the values of the boosts, of `sin`, `cos` and `M`. -/
structure Kin64.Ok (k : Kin64) : Prop where
  rounding : Rounding k.rn
  boost : ∀ p q v, k.boost p q = some v → Doubles v

theorem of_add64 (c : Component) (rn : ℝ → ℝ) (a b : Vec4) : c.of (add64 rn a b) = rn (c.of a + c.of b) := by
  cases c <;> rfl

theorem of_sub64 (c : Component) (rn : ℝ → ℝ) (a b : Vec4) : c.of (sub64 rn a b) = rn (c.of a - c.of b) := by
  cases c <;> rfl

theorem of_add (c : Component) (a b : Vec4) : c.of (a + b) = c.of a + c.of b := by
  cases c <;> rfl

theorem of_zero (c : Component) : c.of ⟨0, 0, 0, 0⟩ = 0 := by cases c <;> rfl

/-- What a computed reaction looks like. -/
theorem reaction64_shape {k : Kin64} {r : Reaction} {x0 x1 x2 x3 : ℝ} {t b e s : Vec4}
    (h : reaction_calculate64 k r x0 x1 x2 x3 = .ok (t, some b, some e, some s)) :
    t.px = 0 ∧ t.py = 0 ∧ b.px = 0 ∧ b.py = 0 ∧ (∃ p q, k.boost p q = some e) ∧
      s = sub64 k.rn (add64 k.rn t b) e := by
  unfold reaction_calculate64 at h
  simp only at h
  split_ifs at h
  split at h
  · simp at h
  split at h
  · simp at h
  split at h
  · simp at h
  split at h
  · simp at h
  rename_i hb
  simp only [Except.ok.injEq, Prod.mk.injEq, Option.some.injEq] at h
  obtain ⟨rfl, rfl, rfl, rfl⟩ := h
  exact ⟨rfl, rfl, rfl, rfl, ⟨_, _, hb⟩, rfl⟩

/-- What a computed decay looks like. -/
theorem decay64_shape {k : Kin64} {d : Decay} {q a b : Vec4} {x1 x2 x3 : ℝ}
    (h : decay_calculate64 k d q x1 x2 x3 = .ok (some a, some b)) :
    (∃ p q, k.boost p q = some a) ∧ b = sub64 k.rn q a := by
  unfold decay_calculate64 at h
  simp only at h
  split_ifs at h
  split at h
  · simp at h
  split at h
  · simp at h
  split at h
  · simp at h
  rename_i hb
  simp only [Except.ok.injEq, Prod.mk.injEq, Option.some.injEq] at h
  obtain ⟨rfl, rfl⟩ := h
  exact ⟨⟨_, _, hb⟩, rfl⟩

/-- One rounded operation on numbers of size at most `K`. -/
theorem Rounding.size {rn : ℝ → ℝ} (h : Rounding rn) {x K : ℝ} (h1 : 1 ≤ K) (hK : K ≤ 2 ^ (1000 : ℤ))
    (hx : |x| ≤ K) : |rn x - x| ≤ 2 ^ (-53 : ℤ) * K + 2 ^ (-1075 : ℤ) := by
  refine (h.err (hx.trans hK)).trans ?_
  gcongr

theorem big_le {a K : ℝ} (ha : a ≤ 2 ^ (100 : ℤ)) (hK : K ≤ 2 ^ (900 : ℤ)) (h1 : 1 ≤ K) :
    a * K ≤ 2 ^ (1000 : ℤ) := by
  have : (2 : ℝ) ^ (1000 : ℤ) = 2 ^ (100 : ℤ) * 2 ^ (900 : ℤ) := by
    rw [← zpow_add₀ (by norm_num)]; norm_num
  rw [this]
  exact mul_le_mul ha hK (by linarith) (by positivity)

theorem two_mul_le {K : ℝ} (hK : K ≤ 2 ^ (900 : ℤ)) (h1 : 1 ≤ K) : 2 * K ≤ 2 ^ (1000 : ℤ) :=
  big_le (by norm_num) hK h1

/-- The decay loop conserves every component up to one rounding per decay. -/
theorem decayLoop64_sum {k : Kin64} (hk : k.Ok) (c : Component) {K : ℝ} (h1 : 1 ≤ K)
    (hK : K ≤ 2 ^ (900 : ℤ)) (sample : Sample) :
    ∀ (ds : List Decay) (idx : ℕ) (q : Vec4) (rows : List Vec4) (a : Vec4),
      decayLoop64 k sample idx ds q = .ok (some rows) → |c.of q| ≤ K → (∀ v ∈ rows, |c.of v| ≤ K) →
      |c.of (sumVec (finals (a :: q :: rows))) - (c.of a + c.of q)|
        ≤ ds.length * (2 ^ (-53 : ℤ) * (2 * K) + 2 ^ (-1075 : ℤ)) := by
  intro ds
  induction ds with
  | nil =>
    intro idx q rows a h _ _
    simp only [decayLoop64, Except.ok.injEq, Option.some.injEq] at h
    subst h
    simp only [finals, sumVec, of_add, of_zero]
    simp
  | cons d ds ih =>
    intro idx q rows a h hq hrows
    unfold decayLoop64 at h
    obtain ⟨ex, h2, h⟩ := Verif.Detector.except_bind_ok.1 h
    split_ifs at h with hall
    · simp [pure, Except.pure] at h
    obtain ⟨th, h3, h⟩ := Verif.Detector.except_bind_ok.1 h
    obtain ⟨ph, h4, h⟩ := Verif.Detector.except_bind_ok.1 h
    obtain ⟨r, h5, h⟩ := Verif.Detector.except_bind_ok.1 h
    split at h
    · rename_i r1 r2
      obtain ⟨rs, h6, h⟩ := Verif.Detector.except_bind_ok.1 h
      split at h
      · rename_i rows'
        simp only [pure, Except.pure, Except.ok.injEq, Option.some.injEq] at h
        subst h
        obtain ⟨-, hr2⟩ := decay64_shape h5
        have b1 : |c.of r1| ≤ K := hrows r1 (by simp)
        have b2 : |c.of r2| ≤ K := hrows r2 (by simp)
        have i2 := ih (idx + 1) r2 rows' r1 h6 b2 fun v hv => hrows v (by simp [hv])
        have hs : c.of (sumVec (finals (a :: q :: r1 :: r2 :: rows')))
            = c.of a + c.of (sumVec (finals (r1 :: r2 :: rows'))) := by
          simp only [finals, sumVec, of_add]
        have hsub : |c.of q - c.of r1| ≤ 2 * K := by
          refine (abs_sub _ _).trans ?_
          linarith
        have he := hk.rounding.size (K := 2 * K) (by linarith)
          (two_mul_le hK h1) hsub
        have hc2 : c.of r2 = k.rn (c.of q - c.of r1) := by rw [hr2, of_sub64]
        rw [← hc2] at he
        rw [hs]
        have e1 : c.of a + c.of (sumVec (finals (r1 :: r2 :: rows'))) - (c.of a + c.of q)
            = (c.of (sumVec (finals (r1 :: r2 :: rows'))) - (c.of r1 + c.of r2))
              + (c.of r2 - (c.of q - c.of r1)) := by ring
        rw [e1]
        refine (abs_add_le _ _).trans ?_
        rw [List.length_cons]
        push_cast
        linarith
      · simp [pure, Except.pure] at h
    · simp [pure, Except.pure] at h

theorem decayLoop64_length {k : Kin64} {sample : Sample} :
    ∀ {ds : List Decay} {idx : ℕ} {q : Vec4} {rows : List Vec4},
      decayLoop64 k sample idx ds q = .ok (some rows) → rows.length = 2 * ds.length := by
  intro ds
  induction ds with
  | nil =>
    intro idx q rows h
    simp only [decayLoop64, Except.ok.injEq, Option.some.injEq] at h
    subst h
    rfl
  | cons d ds ih =>
    intro idx q rows h
    unfold decayLoop64 at h
    obtain ⟨ex, h2, h⟩ := Verif.Detector.except_bind_ok.1 h
    split_ifs at h with hall
    · simp [pure, Except.pure] at h
    obtain ⟨th, h3, h⟩ := Verif.Detector.except_bind_ok.1 h
    obtain ⟨ph, h4, h⟩ := Verif.Detector.except_bind_ok.1 h
    obtain ⟨r, h5, h⟩ := Verif.Detector.except_bind_ok.1 h
    split at h
    · obtain ⟨rs, h6, h⟩ := Verif.Detector.except_bind_ok.1 h
      split at h
      · simp only [pure, Except.pure, Except.ok.injEq, Option.some.injEq] at h
        subst h
        have := ih h6
        simp only [List.length_cons]
        omega
      · simp [pure, Except.pure] at h
    · simp [pure, Except.pure] at h

/-- **C88.** In machine arithmetic, whatever the boosts, `sin`, `cos` and `M` return: in every accepted
event the transverse momenta of the two products of the reaction cancel exactly, and each component of the
four-momentum, added over the final products, agrees with target plus beam up to `2^-53` of twice the largest
magnitude per rounding. -/
theorem C88_conserved {σ : Type} {k : Kin64} (hk : k.Ok) {p : Pipeline σ} {x : Sample} {event : List Vec4}
    (h : attempt64 k p x = .ok (some event)) :
    ∃ t b e r rows, event = t :: b :: e :: r :: rows ∧ rows.length = 2 * p.decays.length ∧
      e.px + r.px = 0 ∧ e.py + r.py = 0 ∧
      ∀ (c : Component) (K : ℝ), 1 ≤ K → K ≤ 2 ^ (900 : ℤ) → (∀ v ∈ event, |c.of v| ≤ K) →
        |c.of (sumVec (finals (e :: r :: rows))) - (c.of t + c.of b)|
          ≤ (p.decays.length + 3) * (2 ^ (-53 : ℤ) * (2 * K) + 2 ^ (-1075 : ℤ)) := by
  unfold attempt64 at h
  split_ifs at h
  · simp at h
  obtain ⟨v, h1, h⟩ := Verif.Detector.except_bind_ok.1 h
  split at h
  · rename_i t b e r
    obtain ⟨rs, h2, h⟩ := Verif.Detector.except_bind_ok.1 h
    split at h
    · rename_i rows
      simp only [pure, Except.pure, Except.ok.injEq, Option.some.injEq] at h
      subst h
      obtain ⟨tx, ty, bx, by', ⟨u, w, hb⟩, hr⟩ := reaction64_shape h1
      have hz : k.rn 0 = 0 := hk.rounding.exact zero_mem
      have bal : ∀ c : Component, c.of t = 0 → c.of b = 0 → c.of e + c.of r = 0 := by
        intro c h3 h4
        rw [hr, of_sub64, of_add64, h3, h4, add_zero, hz, zero_sub,
          hk.rounding.exact (neg_mem (hk.boost _ _ _ hb c))]
        ring
      have key : ∀ (c : Component) (K : ℝ), 1 ≤ K → K ≤ 2 ^ (900 : ℤ) →
          (∀ v ∈ t :: b :: e :: r :: rows, |c.of v| ≤ K) →
          |c.of (sumVec (finals (e :: r :: rows))) - (c.of t + c.of b)|
            ≤ (p.decays.length + 3) * (2 ^ (-53 : ℤ) * (2 * K) + 2 ^ (-1075 : ℤ)) := by
        intro c K hK1 hK hall
        have at' := abs_le.1 (hall t (by simp))
        have ab := abs_le.1 (hall b (by simp))
        have ae := abs_le.1 (hall e (by simp))
        have i2 := decayLoop64_sum hk c hK1 hK x p.decays 0 r rows e h2
          (hall r (by simp)) fun v hv => hall v (by simp [hv])
        have e1 := hk.rounding.size (x := c.of t + c.of b) (K := 2 * K) (by linarith)
          (two_mul_le hK hK1) (by rw [abs_le]; constructor <;> linarith)
        have hsmall : (2 : ℝ) ^ (-53 : ℤ) * (2 * K) + 2 ^ (-1075 : ℤ) ≤ K := by
          have h5 : (2 : ℝ) ^ (-1075 : ℤ) ≤ 2 ^ (-2 : ℤ) := zpow_le_zpow_right₀ (by norm_num) (by norm_num)
          norm_num at h5 ⊢
          linarith
        have b1 := abs_le.1 e1
        have e2 := hk.rounding.size (x := k.rn (c.of t + c.of b) - c.of e) (K := 4 * K) (by linarith)
          (big_le (by norm_num) hK hK1) (by rw [abs_le]; constructor <;> linarith)
        have hc : c.of r = k.rn (k.rn (c.of t + c.of b) - c.of e) := by rw [hr, of_sub64, of_add64]
        rw [← hc] at e2
        have e3 : c.of (sumVec (finals (e :: r :: rows))) - (c.of t + c.of b)
            = (c.of (sumVec (finals (e :: r :: rows))) - (c.of e + c.of r))
              + ((c.of r - (k.rn (c.of t + c.of b) - c.of e))
              + (k.rn (c.of t + c.of b) - (c.of t + c.of b))) := by ring
        rw [e3]
        refine (abs_add_le _ _).trans ?_
        refine (add_le_add i2 (abs_add_le _ _)).trans ?_
        have hp : (0 : ℝ) < 2 ^ (-1075 : ℤ) := by positivity
        linarith
      refine ⟨t, b, e, r, rows, rfl, ?_, bal .px tx bx, bal .py ty by', fun c K h3 h4 h5 =>
        key c K h3 h4 h5⟩
      exact decayLoop64_length h2
    · simp [pure, Except.pure] at h
  · simp [pure, Except.pure] at h

/-- The two incoming rows of a computed reaction. -/
theorem reaction64_incoming {k : Kin64} {r : Reaction} {x0 x1 x2 x3 : ℝ} {t b e s : Vec4}
    (h : reaction_calculate64 k r x0 x1 x2 x3 = .ok (t, some b, some e, some s)) :
    t = ⟨0, 0, 0, r.target.mass⟩ ∧ b.px = 0 ∧ b.py = 0 ∧ b.E = k.rn (x0 + r.projectile.mass) ∧
      npSqrt64 k.rn (k.rn (x0 * k.rn (x0 + k.rn (2 * r.projectile.mass)))) = some b.pz := by
  unfold reaction_calculate64 at h
  simp only at h
  split_ifs at h
  split at h
  · simp at h
  rename_i hpz
  split at h
  · simp at h
  split at h
  · simp at h
  split at h
  · simp at h
  simp only [Except.ok.injEq, Prod.mk.injEq, Option.some.injEq] at h
  obtain ⟨rfl, rfl, rfl, rfl⟩ := h
  exact ⟨rfl, rfl, rfl, rfl, hpz⟩

/-- **C88.** The incoming rows of an accepted event in machine arithmetic: the target at rest with its mass, the beam
along the z axis with total energy `T + m` and momentum `√(T (T + 2 m))` up to 2 and 4 units of `2^-53`. -/
theorem C88_incoming {σ : Type} {k : Kin64} (hk : k.Ok) {p : Pipeline σ} {x : Sample} {event : List Vec4}
    (h : attempt64 k p x = .ok (some event)) (hT : 1e-6 ≤ x.beam_energy) (hT' : x.beam_energy ≤ 1e9)
    (hm : 1 ≤ p.reaction.projectile.mass) (hm' : p.reaction.projectile.mass ≤ 1e9) :
    ∃ t b rest, event = t :: b :: rest ∧ t = ⟨0, 0, 0, p.reaction.target.mass⟩ ∧ b.px = 0 ∧ b.py = 0 ∧
      |b.E - (x.beam_energy + p.reaction.projectile.mass)|
        ≤ 2 * 2 ^ (-53 : ℤ) * (x.beam_energy + p.reaction.projectile.mass) ∧
      |b.pz - Real.sqrt (x.beam_energy * (x.beam_energy + 2 * p.reaction.projectile.mass))|
        ≤ 4 * 2 ^ (-53 : ℤ) * Real.sqrt (x.beam_energy * (x.beam_energy + 2 * p.reaction.projectile.mass)) := by
  unfold attempt64 at h
  split_ifs at h
  · simp at h
  obtain ⟨v, h1, h⟩ := Verif.Detector.except_bind_ok.1 h
  split at h
  · rename_i t b e r
    obtain ⟨rs, h2, h⟩ := Verif.Detector.except_bind_ok.1 h
    split at h
    · rename_i rows
      simp only [pure, Except.pure, Except.ok.injEq, Option.some.injEq] at h
      subst h
      obtain ⟨ht, bx, by', bE, bz⟩ := reaction64_incoming h1
      refine ⟨t, b, _, rfl, ht, bx, by', ?_, ?_⟩
      · rw [bE]
        have w : Wn 1 (k.rn (x.beam_energy + p.reaction.projectile.mass))
            (x.beam_energy + p.reaction.projectile.mass) :=
          Wn.round hk.rounding Wn.refl (by linarith) (by linarith)
        refine (w.error (by norm_num) (by linarith)).trans_eq ?_
        norm_num [uro]
      · generalize x.beam_energy = T at *
        generalize p.reaction.projectile.mass = m at *
        have half : ∀ j : ℕ, j ≤ 10 → 1 / 2 ≤ (1 - uro) ^ j := by
          intro j hj
          have := one_add_mul_le_pow (a := -uro) (by linarith [uro_lt]) j
          have hj' : (j : ℝ) ≤ 10 := by exact_mod_cast hj
          have : 1 + (j : ℝ) * -uro ≥ 1 / 2 := by nlinarith [uro_pos, uro_lt]
          rw [show 1 - uro = 1 + -uro by ring]
          linarith
        have size : ∀ {j : ℕ} {a y : ℝ}, j ≤ 10 → Wn j a y → 0 ≤ y → 0 ≤ a → y / 2 ≤ a ∧ a ≤ 2 * y := by
          intro j a y hj hw hy ha
          have e := half j hj
          refine ⟨?_, ?_⟩
          · have := mul_le_mul_of_nonneg_left e hy
            linarith [hw.low]
          · have := mul_le_mul_of_nonneg_left e ha
            linarith [hw.up]
        have T0 : 0 < T := by linarith
        have w1 : Wn 1 (k.rn (2 * m)) (2 * m) := Wn.round hk.rounding Wn.refl (by linarith) (by linarith)
        have p1 := w1.pos (by linarith)
        obtain ⟨s1, s1'⟩ := size (by norm_num) w1 (by linarith) p1.le
        have w2 : Wn 2 (k.rn (T + k.rn (2 * m))) (T + 2 * m) :=
          Wn.round hk.rounding (w1.add_right T0.le) (by linarith) (by linarith)
        have p2 := w2.pos (by linarith)
        obtain ⟨s2, s2'⟩ := size (by norm_num) w2 (by linarith) p2.le
        have w3 : Wn 2 (T * k.rn (T + k.rn (2 * m))) (T * (T + 2 * m)) := by
          have := (Wn.refl (x := T)).mul w2 T0.le p2.le T0.le (by linarith)
          rwa [zero_add] at this
        have y1 : (1e-6 : ℝ) * 2 ≤ T * (T + 2 * m) := mul_le_mul hT (by linarith) (by norm_num) T0.le
        have y2 : T * (T + 2 * m) ≤ 1e9 * 3e9 := mul_le_mul hT' (by linarith) (by linarith) (by norm_num)
        have p3 := w3.pos (by linarith)
        obtain ⟨s3, s3'⟩ := size (by norm_num) w3 (by linarith) p3.le
        have w4 : Wn 3 (k.rn (T * k.rn (T + k.rn (2 * m)))) (T * (T + 2 * m)) :=
          Wn.round hk.rounding w3 (by linarith) (by linarith)
        have p4 := w4.pos (by linarith)
        obtain ⟨s4, s4'⟩ := size (by norm_num) w4 (by linarith) p4.le
        have w5 := Wn.sqrt (k := 2) (w4.mono (by linarith) p4.le (by norm_num))
        unfold npSqrt64 at bz
        rw [if_neg (not_lt.2 p4.le)] at bz
        rw [← Option.some.inj bz]
        have w6 := Wn.round hk.rounding w5
          (by
            refine Real.le_sqrt_of_sq_le ?_
            linarith)
          (by
            rw [Real.sqrt_le_left (by norm_num)]
            refine s4'.trans ?_
            linarith)
        refine (w6.error (by norm_num) (Real.sqrt_nonneg _)).trans_eq ?_
        norm_num [uro]
    · simp [pure, Except.pure] at h
  · simp [pure, Except.pure] at h

/-! ### An example: elastic scattering of mass 5 on mass 7, followed by a decay into 3 + 3 -/

/-- Componentwise rounding. -/
noncomputable def round4 (rn : ℝ → ℝ) (v : Vec4) : Vec4 := ⟨rn v.px, rn v.py, rn v.pz, rn v.E⟩

/-- Float operations that are exact up to a final rounding. -/
noncomputable def exactKin (rn : ℝ → ℝ) : Kin64 :=
  { rn := rn, sin := fun x => rn (Real.sin x), cos := fun x => rn (Real.cos x)
    boost := fun p q => some (round4 rn (p.boost q))
    boostCM_of := fun p q => some (round4 rn (p.boostCM_of q))
    M := fun p => rn p.M }

theorem exactKin_ok {rn : ℝ → ℝ} (h : Rounding rn) : (exactKin rn).Ok :=
  ⟨h, fun p q v hv => by
    simp only [exactKin, Option.some.injEq] at hv
    subst hv
    intro c
    cases c <;> exact (h _).1⟩

def exPipe64 (σ : Type) (rng : Gen σ) : Pipeline σ :=
  { reaction := ⟨⟨1, 7, 7, "t"⟩, ⟨1, 5, 5, "p"⟩, ⟨1, 5, 5, "p"⟩, ⟨1, 7, 7, "t"⟩⟩
    decays := [⟨⟨1, 7, 7, "t"⟩, ⟨1, 3, 3, "a"⟩, ⟨0, 3, 3, "b"⟩⟩]
    excitations := [], polar_dists := [], beam_energy := 8, target_material := none
    event_sample_limit := 1, rng := rng }

noncomputable def exSample64 : Sample :=
  { beam_energy := 8, reaction_excitation := 0, reaction_theta := Real.pi / 2, reaction_phi := 0
    vertex := (0, 0, 0), decay_excitations := [0], decay_thetas := [1], decay_phis := [2] }

theorem dyadic {rn : ℝ → ℝ} (h : Rounding rn) (n : ℤ) (hn : |n| < 2 ^ 53) : rn ((n : ℝ) / 16) = n / 16 :=
  h.exact ⟨n, -4, hn, by norm_num, by norm_num, by norm_num [div_eq_mul_inv]⟩

example (σ : Type) (rng : Gen σ) : ∃ (k : Kin64) (event : List Vec4), k.Ok ∧
    attempt64 k (exPipe64 σ rng) exSample64 = .ok (some event) ∧ event.length = 6 := by
  obtain ⟨rn, h⟩ := exists_rounding
  have d : ∀ {x : ℝ} (n : ℤ), x = n / 16 → |n| < 2 ^ 53 → rn x = x := by
    intro x n hx hn
    rw [hx]
    exact dyadic h n hn
  have r0 : rn (0) = 0 := d (0) (by norm_num) (by norm_num)
  have r1 : rn (3) = 3 := d (48) (by norm_num) (by norm_num)
  have r2 : rn (5) = 5 := d (80) (by norm_num) (by norm_num)
  have r3 : rn (7) = 7 := d (112) (by norm_num) (by norm_num)
  have r4 : rn (8) = 8 := d (128) (by norm_num) (by norm_num)
  have r5 : rn (9) = 9 := d (144) (by norm_num) (by norm_num)
  have r6 : rn (10) = 10 := d (160) (by norm_num) (by norm_num)
  have r7 : rn (12) = 12 := d (192) (by norm_num) (by norm_num)
  have r8 : rn (13) = 13 := d (208) (by norm_num) (by norm_num)
  have r9 : rn (14) = 14 := d (224) (by norm_num) (by norm_num)
  have r10 : rn (15) = 15 := d (240) (by norm_num) (by norm_num)
  have r11 : rn (16) = 16 := d (256) (by norm_num) (by norm_num)
  have r12 : rn (18) = 18 := d (288) (by norm_num) (by norm_num)
  have r13 : rn (20) = 20 := d (320) (by norm_num) (by norm_num)
  have r14 : rn (25) = 25 := d (400) (by norm_num) (by norm_num)
  have r15 : rn (32) = 32 := d (512) (by norm_num) (by norm_num)
  have r16 : rn (49) = 49 := d (784) (by norm_num) (by norm_num)
  have r17 : rn (144) = 144 := d (2304) (by norm_num) (by norm_num)
  have r18 : rn (232) = 232 := d (3712) (by norm_num) (by norm_num)
  have r19 : rn (256) = 256 := d (4096) (by norm_num) (by norm_num)
  have r20 : rn (400) = 400 := d (6400) (by norm_num) (by norm_num)
  have r21 : rn (-24) = -24 := d (-384) (by norm_num) (by norm_num)
  have r22 : rn (6) = 6 := d (96) (by norm_num) (by norm_num)
  have r23 : rn (1) = 1 := d (16) (by norm_num) (by norm_num)
  have r24 : rn (29 / 4) = 29 / 4 := d (116) (by norm_num) (by norm_num)
  have r25 : rn (841 / 16) = 841 / 16 := d (841) (by norm_num) (by norm_num)
  have r26 : rn (441 / 16) = 441 / 16 := d (441) (by norm_num) (by norm_num)
  have r27 : rn (21 / 4) = 21 / 4 := d (84) (by norm_num) (by norm_num)
  have r28 : rn (87 / 16) = 87 / 16 := d (87) (by norm_num) (by norm_num)
  have r29 : rn (145 / 16) = 145 / 16 := d (145) (by norm_num) (by norm_num)
  have r30 : rn (-(21 / 4)) = -(21 / 4) := d (-84) (by norm_num) (by norm_num)
  have r31 : rn (105 / 16) = 105 / 16 := d (105) (by norm_num) (by norm_num)
  have r32 : rn (175 / 16) = 175 / 16 := d (175) (by norm_num) (by norm_num)
  have r33 : rn (24) = 24 := d (384) (by norm_num) (by norm_num)
  have r34 : rn (7 / 2) = 7 / 2 := d (56) (by norm_num) (by norm_num)
  have r35 : rn (49 / 4) = 49 / 4 := d (196) (by norm_num) (by norm_num)
  have r36 : rn (13 / 4) = 13 / 4 := d (52) (by norm_num) (by norm_num)
  have r37 : rn (-7) = -7 := d (-112) (by norm_num) (by norm_num)
  have r38 : rn (512) = 512 := d (8192) (by norm_num) (by norm_num)
  have s16 : Real.sqrt 256 = 16 := by rw [show (256 : ℝ) = 16 ^ 2 by norm_num]; exact Real.sqrt_sq (by norm_num)
  have s144 : Real.sqrt 144 = 12 := by
    rw [show (144 : ℝ) = 12 ^ 2 by norm_num]; exact Real.sqrt_sq (by norm_num)
  have sp : Real.sqrt (441 / 16) = 21 / 4 := by
    rw [show (441 / 16 : ℝ) = (21 / 4) ^ 2 by norm_num]; exact Real.sqrt_sq (by norm_num)
  have sg : Real.sqrt (16 / 25) = 4 / 5 := by
    rw [show (16 / 25 : ℝ) = (4 / 5) ^ 2 by norm_num]; exact Real.sqrt_sq (by norm_num)
  have s49 : Real.sqrt 49 = 7 := by
    rw [show (49 : ℝ) = 7 ^ 2 by norm_num]; exact Real.sqrt_sq (by norm_num)
  have s625 : Real.sqrt 625 = 25 := by
    rw [show (625 : ℝ) = 25 ^ 2 by norm_num]; exact Real.sqrt_sq (by norm_num)
  have hall : reaction_allowed64 (exactKin rn) (exPipe64 σ rng).reaction 8 0 = true := by
    norm_num [reaction_allowed64, npSqrt64, exactKin, exPipe64, s144, s16, r0, r1, r2, r3, r4, r5, r6, r7, r8, r9, r10, r11, r12, r13, r14, r15, r16, r17, r18, r19, r20, r21, r22, r23, r24, r25, r26, r27, r28, r29, r30, r31, r32, r33, r34, r35, r36, r37, r38]
  have hcalc : reaction_calculate64 (exactKin rn) (exPipe64 σ rng).reaction 8 (Real.pi / 2) 0 0
      = .ok (⟨0, 0, 0, 7⟩, some ⟨0, 0, 12, 13⟩, some ⟨21 / 4, 0, 87 / 16, 145 / 16⟩,
        some ⟨-21 / 4, 0, 105 / 16, 175 / 16⟩) := by
    norm_num [reaction_calculate64, npSqrt64, exactKin, exPipe64, s144, s16, sp, sg, add64, sub64, cmVector64, round4,
      Vec4.boost, Vec4.boostCM_of, Vec4.boostBeta, r0, r1, r2, r3, r4, r5, r6, r7, r8, r9, r10, r11, r12, r13, r14, r15, r16, r17, r18, r19, r20, r21, r22, r23, r24, r25, r26, r27, r28, r29, r30, r31, r32, r33, r34, r35, r36, r37, r38]
  have hdec : ∃ r1 r2, decay_calculate64 (exactKin rn) ⟨⟨1, 7, 7, "t"⟩, ⟨1, 3, 3, "a"⟩, ⟨0, 3, 3, "b"⟩⟩
      ⟨-21 / 4, 0, 105 / 16, 175 / 16⟩ 1 2 0 = .ok (some r1, some r2) := by
    norm_num [decay_calculate64, npSqrt64, exactKin, sub64, cmVector64, round4, Vec4.boostCM_of, Vec4.boostBeta,
      Vec4.M, Vec4.M2, s16, s49, s625, r0, r1, r2, r3, r4, r5, r6, r7, r8, r9, r10, r11, r12, r13, r14, r15, r16, r17, r18, r19, r20, r21, r22, r23, r24, r25, r26, r27, r28, r29, r30, r31, r32, r33, r34, r35, r36, r37, r38]
  have hdall : decay_allowed64 (exactKin rn) ⟨⟨1, 7, 7, "t"⟩, ⟨1, 3, 3, "a"⟩, ⟨0, 3, 3, "b"⟩⟩
      ⟨-21 / 4, 0, 105 / 16, 175 / 16⟩ 0 = true := by
    norm_num [decay_allowed64, exactKin, Vec4.M, Vec4.M2, s16, s49, s625, r0, r1, r2, r3, r4, r5, r6, r7, r8, r9, r10, r11, r12, r13, r14, r15, r16, r17, r18, r19, r20, r21, r22, r23, r24, r25, r26, r27, r28, r29, r30, r31, r32, r33, r34, r35, r36, r37, r38]
  obtain ⟨r1, r2, hdec⟩ := hdec
  refine ⟨exactKin rn, [⟨0, 0, 0, 7⟩, ⟨0, 0, 12, 13⟩, ⟨21 / 4, 0, 87 / 16, 145 / 16⟩,
    ⟨-21 / 4, 0, 105 / 16, 175 / 16⟩, r1, r2], exactKin_ok h, ?_, rfl⟩
  unfold attempt64
  rw [if_neg (by simp only [exSample64, hall]; decide)]
  simp only [exSample64]
  rw [hcalc]
  simp [bind, Except.bind, decayLoop64, exPipe64, listGet, hdall, hdec, pure, Except.pure]

end Verif.Machine
