import Verif.Proofs.PadData
import Verif.Detector.BeamPads

/-! # The beam pads among the packaged pads -/

namespace Verif.Detector

theorem beam_pads : selectPads nearAxis 0 10240 [] = BEAM_PADS.map Int.toNat := by decide +kernel

end Verif.Detector
