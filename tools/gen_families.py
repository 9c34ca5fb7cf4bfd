#!/usr/bin/env python3
"""Writes lean/Verif/Props/Families.lean from a list of generic theorem names (one per line, standard input)."""
import os, sys
names = [l.split()[0].replace("Ripcalc.", "") for l in sys.stdin if l.strip()]
mods = ["Addr", "BitManip", "Net", "Parse", "Enumerate", "Derange", "Minimize", "Resize", "Split"]
out = "".join("import Verif.Props.%s\n" % m for m in mods)
out += """/-!
# The generic theorems, for both address families

Many theorems are stated for every address type that satisfies `LawfulIpAddr`.  Here each of them is instantiated with the two
address types of the program, so that nothing remains conditional: these theorems fail if an operation of either type does
not satisfy the laws.  `type_of%` stands for the statement of the generic theorem at the given type.
-/
namespace Ripcalc

"""
for n in names:
    t = n[:-len("_partial")] + "_families_partial" if n.endswith("_partial") else n + "_families"
    out += "theorem %s : (type_of% (@%s V4 _ _ _)) ∧ (type_of% (@%s V6 _ _ _)) :=\n  ⟨@%s V4 _ _ _, @%s V6 _ _ _⟩\n\n".replace("type_of% ", "type_of%% ") % (t, n, n, n, n)
out += "end Ripcalc\n"
open(os.path.join(os.path.dirname(__file__), "..", "lean", "Verif", "Props", "Families.lean"), "w").write(out)
