#!/usr/bin/env python3
"""Rewrites section 6 of DESIGN.md: the theorems of each property with the axioms `#print axioms` reports (run after `lake build`)."""
import json, os, re, subprocess, tempfile
root = os.path.join(os.path.dirname(os.path.abspath(__file__)), "..")
claims = json.load(open(os.path.join(root, "MANIFEST.json")))["claims"]
names = [t for c in claims for t in c["theorems"]]
with tempfile.NamedTemporaryFile("w", suffix=".lean", delete=False) as f:
    f.write("import Verif\n" + "".join("#print axioms %s\n" % n for n in names))
out = subprocess.run(["lake", "env", "lean", f.name], cwd=os.path.join(root, "lean"), capture_output=True, text=True).stdout
os.unlink(f.name)
ax = {}
for m in re.finditer(r"'([^']*(?:'[^']*)*?)' (?:depends on axioms: \[([^\]]*)\]|does not depend on any axioms)", out):
    ax[m.group(1)] = frozenset(x.strip() for x in (m.group(2) or "").split(",") if x.strip())
missing = [n for n in names if n not in ax]
assert not missing, missing
short = {"propext": "p", "Classical.choice": "c", "Quot.sound": "q"}
def code(s):
    assert s <= set(short), s
    return "".join(short[a] for a in short if a in s) or "none"
lines = ["## 6. Theorem index", "",
 "The theorems of each property (namespace `Ripcalc`) and the axioms each depends on, as printed by `#print axioms`:",
 "p = `propext`, c = `Classical.choice`, q = `Quot.sound`. Generated by `tools/gen_index.py`.", "",
 "| id | status | theorems (axioms) |", "|---|---|---|"]
for c in claims:
    ts = ", ".join("`%s` (%s)" % (t.replace("Ripcalc.", ""), code(ax[t])) for t in c["theorems"])
    lines.append("| %s | %s | %s |" % (c["property"], c["status"], ts))
p = os.path.join(root, "DESIGN.md")
s = open(p).read()
i = s.index("## 6. Theorem index")
open(p, "w").write(s[:i] + "\n".join(lines) + "\n")
print(len(names), "theorems")
