/-! # Model of `src/attpc_engine/detector/beam_pads.py` -/

namespace Verif.Detector

/-- `BEAM_PADS` / `BEAM_PADS_ARRAY`, detector/beam_pads.py:11-137 (copied literally). -/
def BEAM_PADS : List Int := [
  134, 135, 136, 137, 138, 139, 140, 141, 142, 143, 144, 145, 146, 147, 148, 149, 150, 151, 152, 
  153, 154, 155, 156, 157, 158, 159, 160, 161, 162, 163, 164, 166, 435, 436, 437, 438, 439, 440, 
  441, 442, 443, 444, 445, 446, 447, 448, 449, 450, 451, 452, 453, 454, 455, 456, 457, 459, 733, 
  735, 738, 740, 741, 5254, 5255, 5256, 5257, 5258, 5259, 5260, 5261, 5262, 5263, 5264, 5265, 
  5266, 5267, 5268, 5269, 5270, 5271, 5272, 5273, 5274, 5275, 5276, 5277, 5278, 5279, 5280, 5281, 
  5282, 5283, 5284, 5286, 5555, 5556, 5557, 5558, 5559, 5560, 5561, 5562, 5563, 5564, 5565, 5566, 
  5567, 5568, 5569, 5570, 5571, 5572, 5573, 5574, 5575, 5576, 5577, 5579, 5853, 5855, 5858, 5860, 
  5861
  ]

end Verif.Detector
