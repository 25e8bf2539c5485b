import Verif.Detector.Writer

/-! # Specification of what the writer stores -/

namespace Verif.Spec

open Verif.Detector

/-- The contract of `np.argsort`: a permutation of the positions that sorts the keys. Any order of
ties is allowed. -/
structure IsArgsort (argsort : Argsort) : Prop where
  perm : ∀ keys, (argsort keys).Perm (List.range keys.length)
  sorted : ∀ keys, (takeIdx (argsort keys) keys).Pairwise (· ≤ ·)

/-- Point `p` of a simulated cloud and its row in Spyral format. -/
structure RowOf (config : Config) (centers : List (ℝ × ℝ)) (response : List ℝ) (p : CloudPoint)
    (r : SpyralRow) : Prop where
  /-- position and size of the pad -/
  pad_ok : ∃ n : ℕ, p.pad = n ∧ centers[n]? = some (r.x, r.y) ∧ config.pad_sizes[n]? = some r.scale
  /-- height in mm: the position at which drift from the window to the micromegas is divided -/
  height : r.z = ((config.elec_params.windows_edge : ℝ) - p.tb)
    / ((config.elec_params.windows_edge : ℝ) - config.elec_params.micromegas_edge)
    * config.det_params.length * 1000
  signal : (r.amp, r.integral) = apply_response response p.e
  pad : r.pad = p.pad
  tb : r.tb = p.tb

/-- A call of `write`. -/
structure WriteReq where
  data : List CloudPoint
  labels : List ℤ
  config : Config
  event : ℤ

/-- An event as it is stored. -/
structure Stored where
  event : ℤ
  rows : List SpyralRow
  labels : List ℤ

/-- The two datasets of an event in the file of run `run`. -/
noncomputable def Stored.dsets (run : ℤ) (e : Stored) : List (String × Dset) :=
  [(cloud_name e.event, .cloud e.rows [("orig_run", (run : ℝ)), ("orig_event", (e.event : ℝ)),
      ("ic_amplitude", -1), ("ic_multiplicity", -1), ("ic_integral", -1), ("ic_centroid", -1)]),
   (labels_name e.event, .labels e.labels)]

/-- A sequence of calls of `write`; exceptions are caught by the caller, who goes on. -/
noncomputable def attempts (argsort : Argsort) :
    List WriteReq → Writer → List (Except PyErr Unit) × Writer
  | [], w => ([], w)
  | r :: rs, w =>
    let (res, w) := w.write argsort r.data r.labels r.config r.event
    let (ress, w) := attempts argsort rs w
    (res :: ress, w)

/-- The event that a call of `write` should store, if its cloud can be formatted. -/
noncomputable def WriteReq.stored (argsort : Argsort) (response : List ℝ) (r : WriteReq) :
    Option Stored :=
  match format_event argsort response r.data r.labels r.config with
  | .ok (rows, labels) => some ⟨r.event, rows, labels⟩
  | .error _ => none

/-- The events of the successful calls, in order. -/
noncomputable def accepted (argsort : Argsort) (response : List ℝ) (reqs : List WriteReq)
    (results : List (Except PyErr Unit)) : List Stored :=
  (reqs.zip results).filterMap fun rr =>
    match rr.2 with
    | .ok _ => rr.1.stored argsort response
    | .error _ => none

end Verif.Spec
