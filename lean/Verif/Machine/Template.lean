import Verif.Machine.Response

/-! # Float arithmetic of the response template -/

namespace Verif.Machine

open Verif.Detector

/-- The float64 operations used by `get_response` (detector/response.py:24-28): the rounding `rn` of the arithmetic
operations, and the values of `np.exp`, `np.sin` and of the third power `**3`. -/
structure NumpyMath where
  rn : ℝ → ℝ
  exp : ℝ → ℝ
  sin : ℝ → ℝ
  cube : ℝ → ℝ

/-- `np.linspace(0.0, NUM_TB, NUM_TB)`, detector/response.py:26, as computed by numpy in float64: the step is
`(stop - start) / (num - 1)`, sample `i` is `i * step + start`, and the last sample is replaced by `stop`. -/
noncomputable def time_buckets64 (rn : ℝ → ℝ) : List ℝ :=
  (List.range NUM_TB).map fun (i : ℕ) =>
    if i + 1 = NUM_TB then (NUM_TB : ℝ)
    else rn (rn ((i : ℝ) * rn (rn ((NUM_TB : ℝ) - 0) / ((NUM_TB : ℝ) - 1))) + 0)

/-- The response before clipping at one sample, detector/response.py:25, 27-28, in float64. The decimal literals and
the elementary charge are rounded when they are read. -/
noncomputable def response_at64 (m : NumpyMath) (e : ElectronicsParams) (tb : ℝ) : ℝ :=
  let rn := m.rn
  let c1 := rn (rn (rn (4095 * rn E_CHARGE) / (e.amp_gain : ℝ)) / rn 1e-15)
  let c2 := rn (tb / rn (rn ((e.shaping_time : ℝ) * e.clock_freq) * rn 0.001))
  rn (rn (rn (c1 * m.exp (rn (-3 * c2))) * m.cube c2) * m.sin c2)

/-- `get_response(config)`, detector/response.py:8-32, in float64, for a gain other than 0 and a product of shaping
time and clock frequency other than 0 (see `Detector/ResponseRaw.lean` for these). -/
noncomputable def get_response64 (m : NumpyMath) (config : Config) : List ℝ :=
  let response := (time_buckets64 m.rn).map (response_at64 m config.elec_params)
  response.map fun r => if r < 0 then 0 else r

end Verif.Machine
