import Mathlib.Data.Real.Basic

/-! # The parts of the external package `spyral_utils.nuclear` used by the engine -/

namespace Verif

/-- `spyral_utils.nuclear.NucleusData` (external): the fields the engine uses. -/
structure Nucleus where
  Z : ℤ
  A : ℤ
  mass : ℝ
  isotopic_symbol : String

/-- `spyral_utils.nuclear.target.GasTarget` (external): the methods the engine uses, as arbitrary
functions. -/
structure GasTarget where
  density : ℝ
  /-- `get_dedx(nucleus, kinetic_energy)` -/
  get_dedx : Nucleus → ℝ → ℝ
  /-- `get_energy_loss(projectile, energy, distance)` for a single distance -/
  get_energy_loss : Nucleus → ℝ → ℝ → ℝ

end Verif
