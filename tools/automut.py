#!/usr/bin/env python3
"""Generate wrong edits of the definitions of the model, one small change each.

usage: automut.py SEED PER_DEF [FILE ...] > mutants.jsonl

Each definition of lean/Verif/Model gets up to PER_DEF edits, chosen at random from: exchanging < and ≤, ∧ and ∨,
true and false, = and ≠ (or negating a condition), changing a number by one, leaving out a step of a do block, and
leaving out an assignment to a field. mutate.py runs them; edits that do not compile are skipped there.
"""
import glob, json, os, random, re, sys

ROOT = os.path.dirname(os.path.dirname(os.path.abspath(__file__)))
BASE = os.path.join(ROOT, "lean", "Verif")


def defs(text):
    """(name, doc, start, end) of all definitions; the body starts after the name."""
    res = []
    for m in re.finditer(r"(/--(?:(?!-/).)*-/\n)?(?:@\[[^\]]*\]\s*)?def (\S+)", text, re.S):
        end = re.search(r"\n\s*\n|\n/--|\ninstance|\nend ", text[m.end():])
        res.append((m.group(2), (m.group(1) or "").strip("/-\n "), m.end(), m.end() + end.start() if end else len(text)))
    return res


def edits(body):
    """(start, end, new) within the body; comments are left alone."""
    out = []
    k = body.find(":=")
    if k < 0:
        k = body.find("\n")
    safe = re.sub(r"--[^\n]*", lambda m: " " * len(m.group(0)), body)
    def add(rx, f):
        for m in re.finditer(rx, safe):
            if m.start() > k:
                out.append((m.start(), m.end(), f(m)))
    add(r" ≤ ", lambda m: " < ")
    add(r" < ", lambda m: " ≤ ")
    add(r" ∧ ", lambda m: " ∨ ")
    add(r" ∨ ", lambda m: " ∧ ")
    add(r"\btrue\b", lambda m: "false")
    add(r"\bfalse\b", lambda m: "true")
    add(r"(?<=if )([^\n]*?)(?= then)", lambda m: "¬ (" + m.group(1) + ")")
    add(r"(?<![\w.])(0x[0-9a-f]+|\d+)(?![\w.#])", lambda m: str(int(m.group(1), 0) + 1))
    add(r" \+ 1\b", lambda m: "")
    add(r" - 1\b", lambda m: "")
    add(r"\n +let (\w+) ← (?:scr )?\1[^\n]*(?=\n)", lambda m: "")
    add(r"\w+ := [^,\n{}]+, (?=\w+ :=)", lambda m: "")
    add(r", \w+ := [^,\n{}]+(?= \}|\n)", lambda m: "")
    return out


def main():
    rnd = random.Random(int(sys.argv[1]))
    per = int(sys.argv[2])
    files = sys.argv[3:] or sorted(os.path.relpath(f, BASE) for f in glob.glob(BASE + "/Model/**/*.lean", recursive=True))
    seen = set()
    for l in glob.glob(os.path.join(ROOT, "seeded", "mutants-*.jsonl")):
        for x in open(l):
            o = json.loads(x)
            seen.add((o["file"], o["old"], o["new"]))
    n = 0
    for f in files:
        text = open(os.path.join(BASE, f)).read()
        for name, doc, a, b in defs(text):
            es = edits(text[a:b])
            rnd.shuffle(es)
            k = 0
            for s, e, new in es:
                if k >= per:
                    break
                # extend to whole lines, and to unique text
                i = text.rfind("\n", 0, a + s) + 1
                j = text.find("\n", a + e)
                old = text[i:j]
                while text.count(old) != 1:
                    i = text.rfind("\n", 0, i - 1) + 1
                    old = text[i:j]
                repl = text[i:a + s] + new + text[a + e:j]
                if (f, old, repl) in seen:
                    continue
                k += 1
                n += 1
                cite = re.search(r"\((?:e\.g\. )?((?:src|external)/[^)]*)\)", doc.replace("\n", " "))
                print(json.dumps({"id": "a%s-%d" % (sys.argv[1], n), "file": f, "def": name, "old": old, "new": repl,
                                  "claim": "%s does what the C code does (%s)" % (name, cite.group(1) if cite else "see the comment"),
                                  "props": []}))


main()
