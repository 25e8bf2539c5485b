"""Writes lean/Verif/Data/*.lean from the data files of the package.

The files are only read as data (csv text, and the arrays of an npz archive); nothing of the package
is imported or run. Usage: python3 tools/extract_pad_data.py /repo/src/attpc_engine/detector/data
"""

import ast
import struct
import sys
import zipfile
from array import array
from decimal import Decimal
from pathlib import Path

src = Path(sys.argv[1])
dst = Path(__file__).resolve().parent.parent / "lean" / "Verif" / "Data"
dst.mkdir(exist_ok=True)


def csv(name):
    lines = (src / name).read_text().split("\n")[1:]
    return [[Decimal(e) for e in line.split(",")] for line in lines if line.strip()]


def npy(name):
    raw = zipfile.ZipFile(src / "pad_grid.npz").read(name)
    assert raw[6] == 1
    (n,) = struct.unpack("<H", raw[8:10])
    return ast.literal_eval(raw[10 : 10 + n].decode()), raw[10 + n :]


def write(name, doc, defs):
    text = f"/-! # {doc} -/\n\nnamespace Verif.Data\n"
    for d in defs:
        text += "\n" + d + "\n"
    (dst / name).write_text(text + "\nend Verif.Data\n")


def rows(base, doc, literals):
    defs = []
    for k, lit in enumerate(literals):
        d = f"/-- {doc(k)} -/\n" if doc(k) else ""
        defs.append(d + f"def {base}{k} : Nat :=\n  {lit}")
    names = [f"{base}{k}" for k in range(len(literals))]
    blocks = ["[" + ",\n   ".join(", ".join(names[i : min(i + 8, b + 24)]) for i in range(b, min(b + 24, len(names)), 8)) + "]"
              for b in range(0, len(names), 24)]
    return defs, "[\n  " + ",\n  ".join(blocks) + "]"


# padxy.csv: 11 digits per coordinate, a sign digit (1 for minus) and the value in units of 1e-7 mm
def coord(d):
    v = int(d * 10**7)
    assert v == d * 10**7 and abs(v) < 10**10
    return ("1" if v < 0 else "0") + "%010d" % abs(v)


xy = csv("padxy.csv")
assert len(xy) == 10240
lits = ["".join(coord(x) + coord(y) for x, y in reversed(xy[128 * k : 128 * k + 128])) for k in range(80)]
defs, table = rows("padxy", lambda k: f"Pads {128*k} to {128*k+127}, `padxy.csv` lines {128*k+2} to {128*k+129}.", lits)
write(
    "PadXY.lean",
    "Contents of `src/attpc_engine/detector/data/padxy.csv`\n\n"
    "The centres of 128 pads per number, 22 decimal digits per pad, the last pad of the group first: for x\n"
    "and for y a sign digit (1 for minus) and ten digits, the value in units of 10⁻⁷ mm. Written by\n"
    "`tools/extract_pad_data.py`.",
    defs + ["/-- The groups of 128 pads, 24 groups per list. -/\ndef padxyRows : List (List Nat) := " + table],
)

# pad_scale.csv: one bit per pad
scale = csv("pad_scale.csv")
assert len(scale) == 10240 and all(s in ([Decimal("0.5")], [Decimal("1")]) for s in scale)
bits = sum(1 << p for p, s in enumerate(scale) if s == [1])
write(
    "PadScale.lean",
    "Contents of `src/attpc_engine/detector/data/pad_scale.csv`\n\n"
    "Bit `p` is set if the entry of pad `p` is 1.0, and not set if it is 0.5 (there are no other entries).\n"
    "Written by `tools/extract_pad_data.py`.",
    [f"/-- The pads of size 1.0. -/\ndef padScaleBits : Nat :=\n  0x{bits:x}"],
)

# pad_grid.npz: rows and columns 0, 10, ..., 5580, as runs of equal cells
head, raw = npy("edges.npy")
assert head["descr"] == "<f8" and struct.unpack("<3d", raw) == (-280.0, 279.0, 0.1)
head, raw = npy("grid.npy")
assert head == {"descr": "<i2", "fortran_order": False, "shape": (5600, 5600)}
grid = array("h")
grid.frombytes(raw)
lits = []
for i in range(0, 5590, 10):
    runs = []
    for j in range(0, 5590, 10):
        v = grid[i * 5600 + j]
        assert -1 <= v < 99999
        if runs and runs[-1][0] == v:
            runs[-1][1] += 1
        else:
            runs.append([v, 1])
    lits.append("".join("%05d%03d" % (99999 if v < 0 else v, n) for v, n in reversed(runs)))
defs, table = rows("padGrid", lambda k: f"`pad_grid.npz`: `grid[{10*k}, 0], grid[{10*k}, 10], …, grid[{10*k}, 5580]`.", lits)
write(
    "PadGrid.lean",
    "Part of `src/attpc_engine/detector/data/pad_grid.npz`\n\n"
    "The cells `grid[10 * i, 10 * j]` for `i, j = 0 … 558`, one number per `i`. The cells of a row are given\n"
    "as runs of equal cells, eight decimal digits per run, the last run first: five digits for the pad\n"
    "(99999 for -1) and three digits for the length of the run. Written by `tools/extract_pad_data.py`.",
    defs + ["/-- The rows, 24 rows per list. -/\ndef padGridRows : List (List Nat) := " + table],
)


# the text of the csv files, one number for a group of lines, the first character in the lowest byte
def text_groups(name, header, size):
    raw = (src / name).read_bytes()
    assert raw.startswith(header) and raw.endswith(b"\n") and b"\r" not in raw and max(raw) < 128
    lines = raw[len(header) :].split(b"\n")[:-1]
    assert len(lines) == 10240
    return ["0x" + (b"\n".join(lines[k : k + size]) + b"\n")[::-1].hex() for k in range(0, 10240, size)]


defs, table = rows("padxyText", lambda k: f"`padxy.csv`, lines {128*k+2} to {128*k+129}.", text_groups("padxy.csv", b"x,y\n", 128))
defs2, table2 = rows("scaleText", lambda k: f"`pad_scale.csv`, lines {512*k+2} to {512*k+513}.", text_groups("pad_scale.csv", b"scale\n", 512))
write(
    "PadText.lean",
    "Text of `src/attpc_engine/detector/data/padxy.csv` and `pad_scale.csv` after the header line\n\n"
    "A group of lines per number, the first character in the lowest byte. Written by\n"
    "`tools/extract_pad_data.py`.",
    defs + ["/-- The groups of 128 lines of `padxy.csv`, 24 groups per list. -/\ndef padxyTextRows : List (List Nat) := " + table]
    + defs2 + ["/-- The groups of 512 lines of `pad_scale.csv`. -/\ndef scaleTextRows : List (List Nat) := " + table2],
)
