#!/usr/bin/env python3
"""Writes lean/Verif/Props/Axioms.lean: the axioms of every theorem named in MANIFEST.json, as Lean prints them.

Run after a full build. The printed text is checked again by `#guard_msgs` whenever the module is built."""
import json, re, subprocess, os
root = os.path.join(os.path.dirname(os.path.abspath(__file__)), "..")
names = []
for c in json.load(open(os.path.join(root, "MANIFEST.json")))["claims"]:
    for t in c["theorems"]:
        n = t if t.startswith("Verif") else "Verif.Props." + t
        if n not in names:
            names.append(n)
mods = sorted({l.split()[1] for l in open(os.path.join(root, "lean/Verif.lean")) if l.startswith("import Verif.Props.")
               and "Axioms" not in l})
head = "\n".join("import " + m for m in mods)
src = head + "\n" + "\n".join("#print axioms " + n for n in names) + "\n"
open("/tmp/ax.lean", "w").write(src)
out = subprocess.run(["lake", "env", "lean", "/tmp/ax.lean"], cwd=os.path.join(root, "lean"), capture_output=True, text=True).stdout
msgs = {}
for m in re.finditer(r"info: '([^']*)' (does not depend on any axioms|depends on axioms: \[[^\]]*\])", out):
    msgs[m.group(1)] = m.group(0)[len("info: "):]
if not msgs:
    for m in re.finditer(r"'([^']*)' (does not depend on any axioms|depends on axioms: \[[^\]]*\])", out):
        msgs[m.group(1)] = m.group(0)
missing = [n for n in names if n not in msgs]
assert not missing, (missing, out[:2000])
body = []
for n in names:
    body.append("/-- info: %s -/\n#guard_msgs in\n#print axioms %s\n" % (msgs[n], n))
doc = "/-!\n# The axioms of the theorems named in `MANIFEST.json`\n\nGenerated by `tools/axioms_gen.py`.\n-/\n"
open(os.path.join(root, "lean/Verif/Props/Axioms.lean"), "w").write(head + "\n\n" + doc + "\n" + "\n".join(body))
print(len(names), sorted({m.split(" ", 1)[1] for m in msgs.values()}))
