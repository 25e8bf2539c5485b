import Verif.Detector.Parameters
import Mathlib.Analysis.SpecialFunctions.Trigonometric.Basic

/-! # Model of `src/attpc_engine/detector/response.py` and `constants.py` -/

namespace Verif.Detector

/-- `NUM_TB`, detector/constants.py:23. -/
def NUM_TB : ℕ := 512

/-- `MEV_2_JOULE`, detector/constants.py:25-27 (CODATA value of the scipy constant). -/
noncomputable def MEV_2_JOULE : ℝ := 1.602176634e-19 * 1.0e6

/-- `MEV_2_KG`, detector/constants.py:29-31 (CODATA value, 10 digits, of the scipy constant). -/
noncomputable def MEV_2_KG : ℝ := 1.782661921e-36 * 1.0e6

/-- `C`, detector/constants.py:33. -/
noncomputable def C : ℝ := 299792458

/-- `E_CHARGE`, detector/constants.py:35. -/
noncomputable def E_CHARGE : ℝ := 1.602176634e-19

/-- The analytic response before clipping at one sample `tb`, detector/response.py:25, 27-28.
`shaping_time * clock_freq ≠ 0` and `amp_gain ≠ 0` (Python raises ZeroDivisionError for
`amp_gain = 0`; numpy yields NaN for a vanishing product; see `Detector/ResponseRaw.lean`). -/
noncomputable def response_at (e : ElectronicsParams) (tb : ℝ) : ℝ :=
  let c1 := 4095 * E_CHARGE / (e.amp_gain : ℝ) / 1e-15
  let c2 := tb / ((e.shaping_time : ℝ) * e.clock_freq * 0.001)
  c1 * Real.exp (-3 * c2) * (c2 ^ 3) * Real.sin c2

/-- `get_response(config)`, detector/response.py:8-32. -/
noncomputable def get_response (config : Config) : List ℝ :=
  let tbs := linspace 0 (NUM_TB : ℝ) NUM_TB
  let response := tbs.map (response_at config.elec_params)
  response.map fun r => if r < 0 then 0 else r

/-- `arr.max()` for a non-empty array. -/
noncomputable def npMax : List ℝ → ℝ
  | [] => 0          -- numpy raises ValueError on an empty array; responses have 512 samples
  | x :: xs => xs.foldl max x

/-- `apply_response(response, electrons)`, detector/response.py:35-57. -/
noncomputable def apply_response (response : List ℝ) (electrons : ℝ) : ℝ × ℝ :=
  let resp_sig := response.map fun r => r * electrons
  let resp_sig := resp_sig.map fun s => if s > 4095 then 4095 else s
  (npMax resp_sig, resp_sig.sum)

end Verif.Detector
