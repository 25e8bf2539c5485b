import Mathlib.Data.Real.Basic
import Mathlib.Analysis.Real.Sqrt

/-! # Four-vectors: model of the operations of the external `vector` package used by the engine -/

namespace Verif.Kinematics

/-- `vector.MomentumObject4D` in Cartesian coordinates, and one row `[px, py, pz, E]` of a
kinematics array. -/
@[ext] structure Vec4 where
  px : ℝ
  py : ℝ
  pz : ℝ
  E : ℝ

namespace Vec4

/-- `a + b` of `vector` objects. -/
noncomputable def add (a b : Vec4) : Vec4 := ⟨a.px + b.px, a.py + b.py, a.pz + b.pz, a.E + b.E⟩
noncomputable instance : Add Vec4 := ⟨add⟩

/-- `a - b` of `vector` objects. -/
noncomputable def sub (a b : Vec4) : Vec4 := ⟨a.px - b.px, a.py - b.py, a.pz - b.pz, a.E - b.E⟩
noncomputable instance : Sub Vec4 := ⟨sub⟩

/-- Squared invariant mass. -/
noncomputable def M2 (p : Vec4) : ℝ := p.E ^ 2 - (p.px ^ 2 + p.py ^ 2 + p.pz ^ 2)

/-- `p.M` of `vector`: `copysign(sqrt(|E² - p²|), E² - p²)`. -/
noncomputable def M (p : Vec4) : ℝ :=
  if p.M2 < 0 then - Real.sqrt (-p.M2) else Real.sqrt p.M2

/-- `vector`'s boost by a velocity `β`:
`γ = 1/√(1-β²)`, `p' = p + (γ²/(1+γ) (β·p) + γ E) β`, `E' = γ (E + β·p)`. -/
noncomputable def boostBeta (p : Vec4) (bx by' bz : ℝ) : Vec4 :=
  let b2 := bx ^ 2 + by' ^ 2 + bz ^ 2
  let gam := 1 / Real.sqrt (1 - b2)
  let bgam := gam ^ 2 / (1 + gam)
  let bp := bx * p.px + by' * p.py + bz * p.pz
  { px := p.px + (bgam * bp + gam * p.E) * bx
    py := p.py + (bgam * bp + gam * p.E) * by'
    pz := p.pz + (bgam * bp + gam * p.E) * bz
    E := gam * (p.E + bp) }

/-- `p.boost(q)` for a four-momentum `q`: boost by the velocity of `q`
(kinematics/reaction.py:174, 301). -/
noncomputable def boost (p q : Vec4) : Vec4 := boostBeta p (q.px / q.E) (q.py / q.E) (q.pz / q.E)

/-- `p.boostCM_of(q)`: boost into the rest frame of `q` (kinematics/reaction.py:156, 285). -/
noncomputable def boostCM_of (p q : Vec4) : Vec4 :=
  boostBeta p (-(q.px / q.E)) (-(q.py / q.E)) (-(q.pz / q.E))

end Vec4
end Verif.Kinematics
