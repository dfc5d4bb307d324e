#!/usr/bin/env python3
"""Run wrong edits like mutate.py, but stop a build at its first error.

usage: mutfast.py MUTANTS.jsonl RESULTS.jsonl [WORKDIR]

Meant for many edits: an edit is killed as soon as one proof fails. Edits that do not compile are dropped.
"""
import json, os, re, shutil, signal, subprocess, sys, time

ROOT = os.path.dirname(os.path.dirname(os.path.abspath(__file__)))
DIR = sys.argv[3] if len(sys.argv) > 3 else "/tmp/mut2"
BASE, WORK = DIR + "/base", DIR + "/work"


def decl_at(path, line):
    name = None
    for i, l in enumerate(open(path), 1):
        if i > line:
            break
        m = re.match(r"\s*(?:@\[[^\]]*\]\s*)?(?:private |protected |noncomputable )*(?:theorem|lemma|def|instance|example|macro|abbrev)\s*([^\s:({\[]*)", l)
        if m:
            name = m.group(1) or "example(line %d)" % i
    return name or "?"


def build():
    p = subprocess.Popen(["nice", "lake", "build"], cwd=WORK, stdout=subprocess.PIPE, stderr=subprocess.STDOUT, text=True,
                         start_new_session=True)
    out, t0 = [], time.time()
    for l in p.stdout:
        out.append(l)
        if l.startswith("error: Verif/"):
            os.killpg(p.pid, signal.SIGKILL)
            break
    p.wait()
    return "".join(out)


def blocked_by(mod):
    mods = {}
    for dp, _, fs in os.walk(WORK + "/Verif"):
        for f in fs:
            if f.endswith(".lean"):
                p = os.path.join(dp, f)
                mods[os.path.relpath(p, WORK)[:-5].replace("/", ".")] = re.findall(r"^import (Verif\.\S+)", open(p).read(), re.M)
    res = {mod}
    ch = True
    while ch:
        ch = False
        for k, v in mods.items():
            if k not in res and any(x in res for x in v):
                res.add(k)
                ch = True
    out = set()
    for k in res:
        if ".Props." in k:
            out |= set(re.findall(r"^theorem (C\d+)_", open(WORK + "/" + k.replace(".", "/") + ".lean").read(), re.M))
    return sorted(out)


def main():
    os.makedirs(DIR, exist_ok=True)
    shutil.rmtree(BASE, ignore_errors=True)
    subprocess.run(["cp", "-a", ROOT + "/lean", BASE], check=True)
    done = set()
    if os.path.exists(sys.argv[2]):
        done = {json.loads(l)["id"] for l in open(sys.argv[2])}
    for l in open(sys.argv[1]):
        m = json.loads(l)
        if m["id"] in done:
            continue
        shutil.rmtree(WORK, ignore_errors=True)
        subprocess.run(["cp", "-a", BASE, WORK], check=True)
        path = os.path.join(WORK, "Verif", m["file"])
        orig = open(path).read()
        if orig.count(m["old"]) != 1:
            print(m["id"], "SKIP", flush=True)
            continue
        open(path, "w").write(orig.replace(m["old"], m["new"]))
        t0 = time.time()
        out = build()
        err = re.search(r"^error: (Verif/\S+?\.lean):(\d+):\d+", out, re.M)
        rec = {"id": m["id"], "definition": "%s (%s)" % (m["def"], m["file"]), "edit": {"from": m["old"], "to": m["new"]},
               "claim": m["claim"], "properties": m["props"], "tightened": [], "seconds": int(time.time() - t0)}
        if err and err.group(1).startswith("Verif/Model"):
            rec["note"] = "the edit does not compile"
            res = "MODELERR"
        elif err:
            d = err.group(1)[6:-5].replace("/", ".") + ": " + decl_at(os.path.join(WORK, err.group(1)), int(err.group(2)))
            rec["failed_directly"] = [d]
            rec["properties_without_proof"] = blocked_by(err.group(1)[:-5].replace("/", "."))
            rec["note"] = "build stopped at the first failing proof"
            res = "killed " + d
        elif "Build completed" in out:
            rec["failed_directly"] = []
            res = "SURVIVED"
        else:
            res = "???" + out[-300:]
        print(m["id"], m["file"], m["def"], res, rec["seconds"], flush=True)
        open(sys.argv[2], "a").write(json.dumps(rec) + "\n")


main()
