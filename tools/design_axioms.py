#!/usr/bin/env python3
"""Rewrite section 6 of DESIGN.md: the axioms every property theorem depends on.

Run after `lake build`; asks Lean with `#print axioms`.
"""
import json, os, re, subprocess, tempfile

ROOT = os.path.dirname(os.path.dirname(os.path.abspath(__file__)))
names = [t for c in json.load(open(ROOT + "/MANIFEST.json"))["claims"] for t in c["theorems"]]
with tempfile.NamedTemporaryFile("w", suffix=".lean", delete=False) as f:
    f.write("import Verif\n" + "".join("#print axioms %s\n" % n for n in names))
out = subprocess.run(["lake", "env", "lean", f.name], cwd=ROOT + "/lean", capture_output=True, text=True).stdout
os.unlink(f.name)
ax = {}
for x in re.finditer(r"'(\S+)' (?:depends on axioms: \[([^\]]*)\]|does not depend on any axioms)", out):
    ax[x.group(1)] = ", ".join(sorted(a.strip() for a in (x.group(2) or "").split(",") if a.strip()))
groups = {}
for n in names:
    groups.setdefault(ax[n], []).append(n.split(".")[-1])
text = "## 6. Axioms\n\nOutput of `#print axioms` for every property theorem, written by `tools/design_axioms.py`.\n"
for k in sorted(groups, key=lambda k: (len(k), k)):
    text += "\n### %s (%d theorems)\n\n" % ("`" + k + "`" if k else "none", len(groups[k]))
    line = ""
    for n in groups[k]:
        if len(line) + len(n) > 95:
            text += line.rstrip() + "\n"
            line = ""
        line += n + ", "
    text += line.rstrip(", ") + "\n"
d = open(ROOT + "/DESIGN.md").read()
i = d.find("## 6. Axioms")
open(ROOT + "/DESIGN.md", "w").write((d if i < 0 else d[:i]).rstrip() + "\n\n" + text)
print({k: len(v) for k, v in groups.items()})
