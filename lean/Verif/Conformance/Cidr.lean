import Verif.Conformance.Basic
/-!
# The unit tests of `/repo/src/cidr.rs`, run on the model

Written by `tools/gen_conformance.py`.  These are tests of the model on literals, not proofs of properties.
-/
set_option maxRecDepth 100000
namespace Ripcalc.Conformance
open Ripcalc

-- lines 87
example : [0b00000000#8, 0b00000000#8, 0b00000000#8, 0b00000000#8] = subnetMaskBytesFromPrefix 0 4 :=
  by decide +kernel

-- lines 89
example : [0b10000000#8, 0b00000000#8, 0b00000000#8, 0b00000000#8] = subnetMaskBytesFromPrefix 1 4 :=
  by decide +kernel

-- lines 90
example : [0b11000000#8, 0b00000000#8, 0b00000000#8, 0b00000000#8] = subnetMaskBytesFromPrefix 2 4 :=
  by decide +kernel

-- lines 91
example : [0b11100000#8, 0b00000000#8, 0b00000000#8, 0b00000000#8] = subnetMaskBytesFromPrefix 3 4 :=
  by decide +kernel

-- lines 92
example : [0b11110000#8, 0b00000000#8, 0b00000000#8, 0b00000000#8] = subnetMaskBytesFromPrefix 4 4 :=
  by decide +kernel

-- lines 93
example : [0b11111000#8, 0b00000000#8, 0b00000000#8, 0b00000000#8] = subnetMaskBytesFromPrefix 5 4 :=
  by decide +kernel

-- lines 94
example : [0b11111100#8, 0b00000000#8, 0b00000000#8, 0b00000000#8] = subnetMaskBytesFromPrefix 6 4 :=
  by decide +kernel

-- lines 95
example : [0b11111110#8, 0b00000000#8, 0b00000000#8, 0b00000000#8] = subnetMaskBytesFromPrefix 7 4 :=
  by decide +kernel

-- lines 96
example : [0b11111111#8, 0b00000000#8, 0b00000000#8, 0b00000000#8] = subnetMaskBytesFromPrefix 8 4 :=
  by decide +kernel

-- lines 98
example : [0b11111111#8, 0b10000000#8, 0b00000000#8, 0b00000000#8] = subnetMaskBytesFromPrefix 9 4 :=
  by decide +kernel

-- lines 99
example : [0b11111111#8, 0b11000000#8, 0b00000000#8, 0b00000000#8] = subnetMaskBytesFromPrefix 10 4 :=
  by decide +kernel

-- lines 100
example : [0b11111111#8, 0b11100000#8, 0b00000000#8, 0b00000000#8] = subnetMaskBytesFromPrefix 11 4 :=
  by decide +kernel

-- lines 101
example : [0b11111111#8, 0b11110000#8, 0b00000000#8, 0b00000000#8] = subnetMaskBytesFromPrefix 12 4 :=
  by decide +kernel

-- lines 102
example : [0b11111111#8, 0b11111000#8, 0b00000000#8, 0b00000000#8] = subnetMaskBytesFromPrefix 13 4 :=
  by decide +kernel

-- lines 103
example : [0b11111111#8, 0b11111100#8, 0b00000000#8, 0b00000000#8] = subnetMaskBytesFromPrefix 14 4 :=
  by decide +kernel

-- lines 104
example : [0b11111111#8, 0b11111110#8, 0b00000000#8, 0b00000000#8] = subnetMaskBytesFromPrefix 15 4 :=
  by decide +kernel

-- lines 105
example : [0b11111111#8, 0b11111111#8, 0b00000000#8, 0b00000000#8] = subnetMaskBytesFromPrefix 16 4 :=
  by decide +kernel

-- lines 107
example : [0b11111111#8, 0b11111111#8, 0b10000000#8, 0b00000000#8] = subnetMaskBytesFromPrefix 17 4 :=
  by decide +kernel

-- lines 108
example : [0b11111111#8, 0b11111111#8, 0b11000000#8, 0b00000000#8] = subnetMaskBytesFromPrefix 18 4 :=
  by decide +kernel

-- lines 109
example : [0b11111111#8, 0b11111111#8, 0b11100000#8, 0b00000000#8] = subnetMaskBytesFromPrefix 19 4 :=
  by decide +kernel

-- lines 110
example : [0b11111111#8, 0b11111111#8, 0b11110000#8, 0b00000000#8] = subnetMaskBytesFromPrefix 20 4 :=
  by decide +kernel

-- lines 111
example : [0b11111111#8, 0b11111111#8, 0b11111000#8, 0b00000000#8] = subnetMaskBytesFromPrefix 21 4 :=
  by decide +kernel

-- lines 112
example : [0b11111111#8, 0b11111111#8, 0b11111100#8, 0b00000000#8] = subnetMaskBytesFromPrefix 22 4 :=
  by decide +kernel

-- lines 113
example : [0b11111111#8, 0b11111111#8, 0b11111110#8, 0b00000000#8] = subnetMaskBytesFromPrefix 23 4 :=
  by decide +kernel

-- lines 114
example : [0b11111111#8, 0b11111111#8, 0b11111111#8, 0b00000000#8] = subnetMaskBytesFromPrefix 24 4 :=
  by decide +kernel

-- lines 116
example : [0b11111111#8, 0b11111111#8, 0b11111111#8, 0b10000000#8] = subnetMaskBytesFromPrefix 25 4 :=
  by decide +kernel

-- lines 117
example : [0b11111111#8, 0b11111111#8, 0b11111111#8, 0b11000000#8] = subnetMaskBytesFromPrefix 26 4 :=
  by decide +kernel

-- lines 118
example : [0b11111111#8, 0b11111111#8, 0b11111111#8, 0b11100000#8] = subnetMaskBytesFromPrefix 27 4 :=
  by decide +kernel

-- lines 119
example : [0b11111111#8, 0b11111111#8, 0b11111111#8, 0b11110000#8] = subnetMaskBytesFromPrefix 28 4 :=
  by decide +kernel

-- lines 120
example : [0b11111111#8, 0b11111111#8, 0b11111111#8, 0b11111000#8] = subnetMaskBytesFromPrefix 29 4 :=
  by decide +kernel

-- lines 121
example : [0b11111111#8, 0b11111111#8, 0b11111111#8, 0b11111100#8] = subnetMaskBytesFromPrefix 30 4 :=
  by decide +kernel

-- lines 122
example : [0b11111111#8, 0b11111111#8, 0b11111111#8, 0b11111110#8] = subnetMaskBytesFromPrefix 31 4 :=
  by decide +kernel

-- lines 123
example : [0b11111111#8, 0b11111111#8, 0b11111111#8, 0b11111111#8] = subnetMaskBytesFromPrefix 32 4 :=
  by decide +kernel

end Ripcalc.Conformance
