#!/usr/bin/env python3
"""Regenerate MANIFEST.json from the theorem names in lean/Verif/Props.

A theorem called Cnn_... in a Props file belongs to property Cnn. STATUS below
overrides the default status and supplies notes."""
import json, re, glob, os
root = os.path.dirname(os.path.dirname(os.path.abspath(__file__)))
exec(open(os.path.join(root, "tools", "status.py")).read())
thms = {}
for f in sorted(glob.glob(os.path.join(root, "lean/Verif/Props/**/*.lean"), recursive=True)):
    ns = []
    for line in open(f):
        m = re.match(r"namespace (\S+)", line)
        if m: ns.append(m.group(1))
        m = re.match(r"end (\S+)", line)
        if m and ns and ns[-1] == m.group(1): ns.pop()
        m = re.match(r"(?:private )?theorem (C\d+)(\w*)", line)
        if m: thms.setdefault(m.group(1), []).append(".".join(ns + [m.group(1) + m.group(2)]))
claims = []
for line in open(os.path.join(root, "properties.jsonl")):
    p = json.loads(line)["id"]
    t = thms.get(p, [])
    st, note = STATUS.get(p, ("proved" if t else "partial", ""))
    if p not in STATUS and any("_partial" in x or "_false" in x for x in t):
        raise SystemExit(p + " has partial theorems but no note in status.py")
    if not t and st != "not_applicable":
        st, note = "partial", (note or "not formalised yet")
    claims.append({"property": p, "status": st, "theorems": t, "note": note})
json.dump({"claims": claims}, open(os.path.join(root, "MANIFEST.json"), "w"), indent=1)
print({s: sum(c["status"] == s for c in claims) for s in ("proved", "partial", "not_applicable")})
