import Verif.Detector.Simulator
import Verif.Kinematics.Pipeline

/-! # Specification vocabulary for whole simulation runs -/

namespace Verif.Spec

open Verif.Detector Verif.Kinematics

/-- The nuclei of a chain: target, projectile, and the two products of every step (step 0 is the
reaction, steps 1, 2, … are the decays). -/
inductive Role where
  | target
  | projectile
  | first (step : ℕ)
  | second (step : ℕ)
  deriving DecidableEq

/-- Row of a nucleus in the kinematics arrays. -/
def Role.row : Role → ℕ
  | .target => 0
  | .projectile => 1
  | .first k => 2 + 2 * k
  | .second k => 3 + 2 * k

/-- The role occurs in a chain of `n` steps. -/
def Role.InChain (n : ℕ) : Role → Prop
  | .target => True
  | .projectile => True
  | .first k => k < n
  | .second k => k < n

/-- The nucleus is beam or target. -/
def Role.Initial : Role → Prop
  | .target => True
  | .projectile => True
  | _ => False

/-- The nucleus is the parent of a later step: the second product of every step but the last. -/
def Role.Decays (n : ℕ) : Role → Prop
  | .second k => k + 1 < n
  | _ => False

/-- The nucleus occupying a role in a pipeline. -/
def nucleusAt {σ : Type} (p : Pipeline σ) : Role → Option Nucleus
  | .target => some p.reaction.target
  | .projectile => some p.reaction.projectile
  | .first 0 => some p.reaction.ejectile
  | .second 0 => some p.reaction.residual
  | .first (k + 1) => (p.decays[k]?).map (·.residual_1)
  | .second (k + 1) => (p.decays[k]?).map (·.residual_2)

/-- A call of a method of the writer. -/
inductive Call where
  | write (cloud : List CloudPoint) (labels : List ℤ) (config : Config) (event : ℕ)
  | close

/-- The writer that behaves like `W` and records the calls made to it. -/
def logged {τ : Type} (W : SimWriter τ) : SimWriter (τ × List Call) where
  write c l config n st :=
    ((W.write c l config n st.1).1, (W.write c l config n st.1).2, st.2 ++ [.write c l config n])
  close st := ((W.close st.1).1, (W.close st.1).2, st.2 ++ [.close])

/-- One simulated event: its number, cloud and labels. -/
structure EventOut where
  number : ℕ
  cloud : List CloudPoint
  labels : List ℤ

/-- `evs` are the consecutive events from number `k` on, read from the file and simulated, with the
generator starting in state `s` and ending in state `s'`. -/
inductive Simulated {σ : Type} (env : SimEnv) (config : Config) (file : KinFile (List Vec4))
    (zs as : List ℤ) (chunk_size : ℕ) (indices : List ℤ) (rng : Gen σ) :
    ℕ → σ → List EventOut → σ → Prop where
  | nil (k s) : Simulated env config file zs as chunk_size indices rng k s [] s
  | cons {k s momenta vertex cloud labels s' evs s''} :
    read_event file chunk_size k = .ok (momenta, vertex) →
    simulate env momenta vertex zs as config rng indices s = .ok ((cloud, labels), s') →
    Simulated env config file zs as chunk_size indices rng (k + 1) s' evs s'' →
    Simulated env config file zs as chunk_size indices rng k s (⟨k, cloud, labels⟩ :: evs) s''

/-- The write calls due for a list of events: one for each event with a non-empty cloud. -/
def writeCalls (config : Config) (evs : List EventOut) : List Call :=
  evs.flatMap fun ev =>
    if ev.cloud.length = 0 then [] else [.write ev.cloud ev.labels config ev.number]

end Verif.Spec
