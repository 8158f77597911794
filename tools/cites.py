#!/usr/bin/env python3
"""Check that every file:line citation in the Lean sources points into an existing file of /repo."""
import re, os, glob
R = "/repo"
n = {}
for p in glob.glob(R + "/**/*.go", recursive=True): n[os.path.relpath(p, R)] = sum(1 for _ in open(p, errors="replace"))
bad = 0; tot = 0
for f in sorted(glob.glob("/verif/lean/Verif/**/*.lean", recursive=True)):
    d = {"Rfc5424": "rfc5424", "Rfc3164": "rfc3164", "Octet": "octetcounting", "NonTransparent": "nontransparent", "Builder": "rfc5424"}
    base = next((d[x] for x in f.split("/") if x in d), None) or d.get(os.path.basename(f)[:-5], "")
    for i, l in enumerate(open(f), 1):
        for m in re.finditer(r"((?:[\w-]+/)*[\w]+\.go):(\d+)(?:-(\d+))?", l):
            tot += 1
            p, a, b = m.group(1), int(m.group(2)), int(m.group(3) or m.group(2))
            c = [x for x in (p, os.path.join(base, p)) if x in n]
            if base and os.path.join(base, p) in n: c = [os.path.join(base, p)] + c
            if not c or all(b > n[x] for x in c) or a > b: print(f, i, m.group(0), c); bad += 1
print(tot, "citations", bad, "bad")
