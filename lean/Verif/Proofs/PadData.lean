import Verif.Detector.PadData
import Mathlib.Tactic.Linarith
import Mathlib.Tactic.NormNum

/-! # Evaluation of the packaged pad data -/

namespace Verif.Detector

open Verif.Data

/-- Evaluates the argument before it is used several times. -/
def force {α : Sort _} (n : ℕ) (k : ℕ → α) : α :=
  Nat.casesOn n (k 0) fun m => k (m + 1)

theorem force_eq {α : Sort _} (n : ℕ) (k : ℕ → α) : force n k = k n := by cases n <;> rfl

/-- The larger of the distances of `a` and `b` from `c`. -/
def far (a b c : ℤ) : ℕ :=
  bif Nat.ble (a - c).natAbs (b - c).natAbs then (b - c).natAbs else (a - c).natAbs

/-- The run `pad, len` starting at column `j` of row `i` names a pad whose centre is near enough. -/
def okRun (i j pad len : ℕ) : Bool :=
  bif Nat.beq pad 99999 then true else
  Nat.blt pad 10240 &&
    Nat.ble
      (far ((i : ℤ) * 10000000 - 2800000000) (((i + 1 : ℕ) : ℤ) * 10000000 - 2800000000) (padX pad) ^ 2 +
       far ((j : ℤ) * 10000000 - 2800000000) (((j + len : ℕ) : ℤ) * 10000000 - 2800000000) (padY pad) ^ 2)
      (bif padIsLarge pad then 5402250000000000 else 1900960000000000)

/-- All runs of a row are fine: the runs `v` from column `j` on. The definitions of this file are
written for evaluation by the kernel, with the recursor and without type classes. -/
noncomputable def okRuns (i fuel : ℕ) : ℕ → ℕ → Bool :=
  Nat.rec (fun _ _ => true) (fun _ ih v j =>
    bif Nat.beq v (nat_lit 0) then true else
    force (Nat.mod (Nat.div v (nat_lit 1000)) (nat_lit 100000)) fun pad =>
    force (Nat.mod v (nat_lit 1000)) fun len => force j fun j =>
    okRun i j pad len && ih (Nat.div v (nat_lit 100000000)) (Nat.add j len)) fuel

/-- Rows `a`, …, `a + n - 1` are fine. -/
noncomputable def okRows (a : ℕ) : ℕ → Bool
  | 0 => true
  | n + 1 => force (a + n) (fun i => okRuns i 559 (nth padGridRows i) 0) && okRows a n

/-- The cell at column `j` of a row. -/
noncomputable def cellF (fuel : ℕ) : ℕ → ℕ → ℕ :=
  Nat.rec (fun _ _ => nat_lit 99999) (fun _ ih v j =>
    bif Nat.beq v (nat_lit 0) then nat_lit 99999 else
    bif Nat.blt j (Nat.mod v (nat_lit 1000)) then
      Nat.mod (Nat.div v (nat_lit 1000)) (nat_lit 100000)
    else ih (Nat.div v (nat_lit 100000000)) (Nat.sub j (Nat.mod v (nat_lit 1000)))) fuel

/-- Row or column of the grid, in units of ten, of a coordinate in units of 10⁻⁷ mm. -/
def cellOf (x : ℤ) : ℕ := ((x + 2800000000) / 10000000).toNat

/-- The centre of pad `p` lies in a cell of that pad. -/
noncomputable def selfCell (p : ℕ) : Bool :=
  Nat.beq (cellF 559 (nth padGridRows (cellOf (padX p))) (cellOf (padY p))) p

/-- The cell above the one with the centre of pad `p` is a cell of that pad. -/
noncomputable def cellAbove (p : ℕ) : Bool :=
  Nat.beq (cellF 559 (nth padGridRows (cellOf (padX p))) (cellOf (padY p) + 1)) p

/-- The centre of pad `p` lies inside the grid. -/
def inGridPad (p : ℕ) : Bool :=
  decide (-2800000000 ≤ padX p) && decide (padX p < 2780000000) &&
    decide (-2800000000 ≤ padY p) && decide (padY p < 2780000000)

/-- Distance from the axis below 20 mm. -/
def nearAxis (p : ℕ) : Bool :=
  Nat.blt ((padX p).natAbs * (padX p).natAbs + (padY p).natAbs * (padY p).natAbs) 40000000000000000

/-- Pads `a`, …, `a + n - 1` satisfy `f`. -/
def allPads (f : ℕ → Bool) (a : ℕ) : ℕ → Bool
  | 0 => true
  | n + 1 => f (a + n) && allPads f a n

/-- The pads among `a`, …, `a + n - 1` that satisfy `f`, in front of `l`. -/
def selectPads (f : ℕ → Bool) (a : ℕ) : ℕ → List ℕ → List ℕ
  | 0, l => l
  | n + 1, l => selectPads f a n (bif f (a + n) then (a + n) :: l else l)

/-- The pads whose centre lies in a cell of another pad, or of none. -/
def displaced : List ℕ :=
  [172, 215, 260, 340, 345, 348, 363, 366, 385, 388, 393, 406, 411, 428, 433, 436, 451, 454, 468,
  473, 476, 481, 491, 494, 499, 513, 516, 521, 524, 534, 539, 556, 561, 564, 760, 803, 848, 916,
  921, 924, 939, 942, 961, 964, 969, 982, 987, 1004, 1009, 1012, 1027, 1030, 1044, 1049, 1052,
  1057, 1067, 1070, 1075, 1089, 1092, 1097, 1100, 1110, 1115, 1132, 1323, 1366, 1470, 1473, 1488,
  1491, 1510, 1513, 1518, 1531, 1536, 1553, 1558, 1561, 1576, 1579, 1593, 1598, 1601, 1606, 1616,
  1619, 1624, 1638, 1641, 1646, 1649, 1659, 1664, 1859, 1902, 2012, 2015, 2034, 2037, 2042, 2055,
  2060, 2077, 2082, 2085, 2100, 2103, 2117, 2122, 2125, 2130, 2140, 2143, 2148, 2162, 2165, 2170,
  2173, 2183, 2188, 2370, 2413, 2509, 2512, 2531, 2534, 2539, 2552, 2557, 2574, 2579, 2582, 2597,
  2600, 2614, 2619, 2622, 2627, 2637, 2640, 2645, 2659, 2662, 2667, 2670, 2680, 2853, 2896, 2980,
  2999, 3002, 3007, 3020, 3025, 3042, 3047, 3050, 3065, 3068, 3082, 3087, 3090, 3095, 3105, 3108,
  3113, 3127, 3130, 3135, 3138, 3306, 3349, 3438, 3441, 3446, 3459, 3464, 3481, 3486, 3489, 3504,
  3507, 3521, 3526, 3529, 3534, 3544, 3547, 3552, 3566, 3569, 3730, 3773, 3846, 3849, 3854, 3867,
  3872, 3889, 3894, 3897, 3912, 3915, 3929, 3934, 3937, 3942, 3952, 3955, 3960, 5146, 5163, 5168,
  5171, 5186, 5189, 5208, 5211, 5216, 5229, 5234, 5251, 5256, 5259, 5274, 5277, 5291, 5296, 5299,
  5304, 5314, 5317, 5336, 5339, 5344, 5347, 5357, 5362, 5379, 5384, 5387, 5392, 5589, 5632, 5677,
  5751, 5756, 5759, 5774, 5777, 5796, 5799, 5804, 5817, 5822, 5839, 5844, 5847, 5862, 5865, 5879,
  5884, 5887, 5892, 5902, 5905, 5924, 5927, 5932, 5935, 5945, 5950, 5967, 5972, 5975, 6165, 6208,
  6253, 6314, 6319, 6322, 6337, 6340, 6359, 6362, 6367, 6380, 6385, 6402, 6407, 6410, 6425, 6428,
  6442, 6447, 6450, 6455, 6465, 6468, 6487, 6490, 6495, 6498, 6508, 6513, 6530, 6714, 6757, 6855,
  6858, 6873, 6876, 6895, 6898, 6903, 6916, 6921, 6938, 6943, 6946, 6961, 6964, 6978, 6983, 6986,
  6991, 7001, 7004, 7023, 7026, 7031, 7034, 7044, 7049, 7238, 7281, 7384, 7387, 7406, 7409, 7414,
  7427, 7432, 7449, 7454, 7457, 7472, 7475, 7489, 7494, 7497, 7502, 7512, 7515, 7534, 7537, 7542,
  7545, 7555, 7560, 7735, 7778, 7867, 7870, 7889, 7892, 7897, 7910, 7915, 7932, 7937, 7940, 7955,
  7958, 7972, 7977, 7980, 7985, 7995, 7998, 8017, 8020, 8025, 8028, 8203, 8246, 8342, 8345, 8350,
  8363, 8368, 8385, 8390, 8393, 8408, 8425, 8430, 8433, 8438, 8448, 8451, 8470, 8473, 8478, 8481,
  8642, 8685, 8766, 8769, 8774, 8787, 8792, 8809, 8814, 8817, 8832, 8849, 8854, 8857, 8862, 8872,
  8875, 8894, 8897, 9050, 9093]

theorem okRows_0 : okRows 0 43 = true := by decide +kernel

theorem okRows_43 : okRows 43 43 = true := by decide +kernel

theorem okRows_86 : okRows 86 43 = true := by decide +kernel

theorem okRows_129 : okRows 129 43 = true := by decide +kernel

theorem okRows_172 : okRows 172 43 = true := by decide +kernel

theorem okRows_215 : okRows 215 43 = true := by decide +kernel

theorem okRows_258 : okRows 258 43 = true := by decide +kernel

theorem okRows_301 : okRows 301 43 = true := by decide +kernel

theorem okRows_344 : okRows 344 43 = true := by decide +kernel

theorem okRows_387 : okRows 387 43 = true := by decide +kernel

theorem okRows_430 : okRows 430 43 = true := by decide +kernel

theorem okRows_473 : okRows 473 43 = true := by decide +kernel

theorem okRows_516 : okRows 516 43 = true := by decide +kernel

theorem displaced_0 : selectPads (fun p => !selfCell p) 0 1024 []
    = displaced.filter (fun p => Nat.ble 0 p && Nat.blt p 1024) := by decide +kernel

theorem displaced_1024 : selectPads (fun p => !selfCell p) 1024 1024 []
    = displaced.filter (fun p => Nat.ble 1024 p && Nat.blt p 2048) := by decide +kernel

theorem displaced_2048 : selectPads (fun p => !selfCell p) 2048 1024 []
    = displaced.filter (fun p => Nat.ble 2048 p && Nat.blt p 3072) := by decide +kernel

theorem displaced_3072 : selectPads (fun p => !selfCell p) 3072 1024 []
    = displaced.filter (fun p => Nat.ble 3072 p && Nat.blt p 4096) := by decide +kernel

theorem displaced_4096 : selectPads (fun p => !selfCell p) 4096 1024 []
    = displaced.filter (fun p => Nat.ble 4096 p && Nat.blt p 5120) := by decide +kernel

theorem displaced_5120 : selectPads (fun p => !selfCell p) 5120 1024 []
    = displaced.filter (fun p => Nat.ble 5120 p && Nat.blt p 6144) := by decide +kernel

theorem displaced_6144 : selectPads (fun p => !selfCell p) 6144 1024 []
    = displaced.filter (fun p => Nat.ble 6144 p && Nat.blt p 7168) := by decide +kernel

theorem displaced_7168 : selectPads (fun p => !selfCell p) 7168 1024 []
    = displaced.filter (fun p => Nat.ble 7168 p && Nat.blt p 8192) := by decide +kernel

theorem displaced_8192 : selectPads (fun p => !selfCell p) 8192 1024 []
    = displaced.filter (fun p => Nat.ble 8192 p && Nat.blt p 9216) := by decide +kernel

theorem displaced_9216 : selectPads (fun p => !selfCell p) 9216 1024 []
    = displaced.filter (fun p => Nat.ble 9216 p && Nat.blt p 10240) := by decide +kernel

theorem displaced_above : displaced.all cellAbove = true := by decide +kernel

theorem in_grid_pads : allPads inGridPad 0 10240 = true := by decide +kernel

theorem mirror_pads : allPads (fun p => decide (padX (p + 5120) = padX p) &&
    decide (padY (p + 5120) = -padY p)) 0 5120 = true := by decide +kernel

theorem column_280 : allPads (fun i => Nat.beq (cellF 559 (nth padGridRows i) 280) 99999) 0 559
    = true := by decide +kernel

end Verif.Detector
