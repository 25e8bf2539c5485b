import Verif.Machine.Float

/-!
# Absence of overflow

`Verif/Machine` rounds every result to a nearest finite double, however large it is. In IEEE arithmetic results beyond
the largest double become infinite. A computation is free of overflow if it only ever rounds numbers up to `2^1023`, so
that its outcome is the same for every other treatment of larger numbers.
-/

namespace Verif.Machine

/-- `f` rounds like `rn` up to `2^1023` and is arbitrary beyond. -/
def SameBelow (rn f : ℝ → ℝ) : Prop := ∀ x : ℝ, |x| ≤ 2 ^ 1023 → f x = rn x

end Verif.Machine
