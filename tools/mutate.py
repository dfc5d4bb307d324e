#!/usr/bin/env python3
"""Apply wrong edits to a scratch copy of the model, rebuild and record which theorems fail.

usage: mutate.py MUTANTS.jsonl [ID ...]

Every line of MUTANTS.jsonl has: id, file (below lean/Verif), def, old, new, claim, props.
The scratch copy is /tmp/mut/lean. One line per attempt is appended to seeded/LOG.jsonl.
"""
import json, os, re, subprocess, sys, time

ROOT = os.path.dirname(os.path.dirname(os.path.abspath(__file__)))
MUT = "/tmp/mut/lean"
LOG = os.path.join(ROOT, "seeded", "LOG.jsonl")


def sync():
    os.makedirs("/tmp/mut", exist_ok=True)
    subprocess.run(["rsync", "-a", "--delete", ROOT + "/lean/", MUT + "/"], check=True) \
        if subprocess.run(["which", "rsync"], capture_output=True).returncode == 0 else \
        subprocess.run("rm -rf %s && cp -a %s/lean %s" % (MUT, ROOT, MUT), shell=True, check=True)


def decl_at(path, line):
    """Name of the declaration that contains a line."""
    name = None
    for i, l in enumerate(open(path), 1):
        if i > line:
            break
        m = re.match(r"\s*(?:@\[[^\]]*\]\s*)?(?:private |protected |noncomputable )*(?:theorem|lemma|def|instance|example|macro|abbrev)\s*([^\s:({\[]*)", l)
        if m:
            name = m.group(1) or "example(line %d)" % i
    return name or "?"


def props_of(mod):
    path = os.path.join(MUT, mod.replace(".", "/") + ".lean")
    if "/Props/" not in path or not os.path.exists(path):
        return []
    return re.findall(r"^theorem (C\d+_\w+)", open(path).read(), re.M)


def targets(props):
    """The modules with theorems for these properties."""
    res = []
    for dp, _, fs in os.walk(os.path.join(MUT, "Verif", "Props")):
        for f in fs:
            name = os.path.relpath(os.path.join(dp, f), MUT)[:-5].replace("/", ".")
            if any(t.split("_")[0] in props for t in props_of(name)):
                res.append(name)
    return sorted(res)


def build(mods):
    r = subprocess.run(["nice", "lake", "build"] + mods, cwd=MUT, capture_output=True, text=True, timeout=3000)
    return r.stdout + r.stderr


def main():
    muts = [json.loads(l) for l in open(sys.argv[1]) if l.strip()]
    want = set(sys.argv[2:])
    sync()
    for m in muts:
        if want and m["id"] not in want:
            continue
        path = os.path.join(MUT, "Verif", m["file"])
        orig = open(path).read()
        if orig.count(m["old"]) != 1:
            print(m["id"], "SKIP: old text occurs", orig.count(m["old"]), "times", flush=True)
            continue
        open(path, "w").write(orig.replace(m["old"], m["new"]))
        t0 = time.time()
        try:
            out = build(targets(m["props"]))
            if not re.search(r"^error: Verif/", out, re.M):
                out = build([])
        except subprocess.TimeoutExpired:
            out = "TIMEOUT"
        open("/tmp/mut/%s.log" % m["id"], "w").write(out)
        open(path, "w").write(orig)
        errs = re.findall(r"^error: (Verif/\S+?\.lean):(\d+):\d+", out, re.M)
        direct = []
        modelerr = False
        for f, l in errs:
            if f.startswith("Verif/Model"):
                modelerr = True
            d = f[6:-5].replace("/", ".") + ": " + decl_at(os.path.join(MUT, f), int(l))
            if d not in direct:
                direct.append(d)
        # modules that could not be built
        bad = {f[:-5].replace("/", ".") for f, _ in errs}
        mods = {}
        for dp, _, fs in os.walk(os.path.join(MUT, "Verif")):
            for f in fs:
                if f.endswith(".lean"):
                    p = os.path.join(dp, f)
                    name = os.path.relpath(p, MUT)[:-5].replace("/", ".")
                    mods[name] = re.findall(r"^import (Verif\.\S+)", open(p).read(), re.M)
        blocked = set(bad)
        ch = True
        while ch:
            ch = False
            for k, v in mods.items():
                if k not in blocked and any(x in blocked for x in v):
                    blocked.add(k)
                    ch = True
        failed = [t for k in sorted(bad) for t in props_of(k) if any(d.endswith(": " + t) for d in direct)]
        noproof = [t for k in sorted(blocked) for t in props_of(k) if t not in failed]
        hit = sorted({t.split("_")[0] for t in failed + noproof} & set(m["props"]))
        rec = {"id": m["id"], "definition": "%s (%s)" % (m["def"], m["file"]), "edit": {"from": m["old"], "to": m["new"]},
               "claim": m["claim"], "properties": m["props"], "failed_directly": direct,
               "property_theorems_failed": failed,
               "property_theorems_without_proof": [t for t in noproof if t.split("_")[0] in m["props"]],
               "other_property_theorems_without_proof": len([t for t in noproof if t.split("_")[0] not in m["props"]]),
               "tightened": [], "seconds": int(time.time() - t0)}
        if modelerr:
            rec["note"] = "the edit does not compile"
        print(m["id"], "MODELERR" if modelerr else ("killed" if errs else ("SURVIVED" if "Build completed" in out else "???")),
              "hit", hit, "of", m["props"], direct[:3], flush=True)
        open("/tmp/mut/results.jsonl", "a").write(json.dumps(rec) + "\n")


main()
