#!/usr/bin/env python3
"""Seeded-bug runner: apply an edit to a scratch copy of the Lean project, rebuild, report which theorems fail.
usage: seed.py mutants.py results.jsonl [id ...]
/tmp/seed_base: a built copy of /verif/lean; /tmp/seed/lean: the scratch copy that is edited;
/tmp/deps/deps.json: the constants each property theorem transitively uses (written by Deps.lean.txt, run with `lake env lean` in /tmp/seed_base)."""
DEPS = None
import json, subprocess, sys, re, os, time, runpy
S = "/tmp/seed/lean"
def sh(cmd, t=3000):
    return subprocess.run(cmd, shell=True, cwd=S, capture_output=True, text=True, timeout=t)
def theorem_at(f, line):
    ls = open(os.path.join(S, f)).read().split("\n")
    for i in range(min(line, len(ls)) - 1, -1, -1):
        m = re.match(r"\s*(?:@\[[^\]]*\]\s*)?(?:private |protected |noncomputable )*(theorem|def|example|instance|inductive|structure)\b\s*(\S*)", ls[i])
        if m: return m.group(2) if m.group(1) != "example" else "example@%d" % (i + 1)
    return "?"
muts = runpy.run_path(sys.argv[1])["M"]; out = sys.argv[2]; only = sys.argv[3:]
done = set()
if os.path.exists(out):
    done = {json.loads(l)["id"] for l in open(out)}
for m in muts:
    if (only and m["id"] not in only) or (not only and m["id"] in done): continue
    subprocess.run("mkdir -p /tmp/seed && rm -rf /tmp/seed/lean && cp -a /tmp/seed_base /tmp/seed/lean", shell=True)
    bad = False
    for f, a, b in m["edits"]:
        p = os.path.join(S, f); s = open(p).read()
        if s.count(a) < 1: print("NO MATCH", m["id"], f, a, flush=True); bad = True; break
        open(p, "w").write(s.replace(a, b, 1))
    if bad: continue
    t0 = time.time()
    r = sh("lake build Verif 2>&1", 4000)
    fails, mods = [], set()
    for l in r.stdout.split("\n"):
        k = re.match(r"error: (Verif/\S+\.lean):(\d+):", l)
        if k:
            n = k.group(1)[6:-5] + ":" + theorem_at(k.group(1), int(k.group(2)))
            if n not in fails: fails.append(n)
            mods.add(k.group(1)[:-5].replace("/", "."))
    # modules that (transitively) import a failed module were not rebuilt
    imp = {}
    for root, _, fs in os.walk(os.path.join(S, "Verif")):
        for f in fs:
            if f.endswith(".lean"):
                mod = os.path.relpath(os.path.join(root, f), S)[:-5].replace("/", ".")
                imp[mod] = re.findall(r"^import (Verif\.\S+)", open(os.path.join(root, f)).read(), re.M)
    lost = set(mods)
    ch = True
    while ch:
        ch = False
        for k, v in imp.items():
            if k not in lost and any(x in lost for x in v): lost.add(k); ch = True
    # a property theorem is lost when it is, or transitively uses, a declaration that no longer checks
    if DEPS is None:
        DEPS = {k: set(v) for k, v in json.load(open("/tmp/deps/deps.json")).items()}
    bad = [("Verif." + x.split(":")[0].replace("/", "."), x.split(":")[1]) for x in fails]
    def uses(k):
        for y in DEPS[k]:
            mo, n = y.split(":", 1)
            for bm, bn in bad:
                if mo == bm and (n == bn or n.endswith("." + bn)): return True
        return False
    failed_props, still, untested = [], [], []
    for k in sorted(DEPS):
        mo = next(y.split(":")[0] for y in DEPS[k] if y.endswith(":" + k))
        if uses(k): failed_props.append(k)
        elif mo in lost and mo not in mods: untested.append(k)
        else: still.append(k)
    probe = ""
    if m.get("probe"):
        pf = os.path.join(S, "Probe.lean")
        open(pf, "w").write(m["probe"])
        q = sh("lake env lean Probe.lean 2>&1")
        probe = q.stdout.strip()[:600]
        os.remove(pf)
    rec = dict(id=m["id"], definition=m["definition"], edit=m["edit"], breaks=m["breaks"], ok=(r.returncode == 0), failed=fails,
               failed_props=failed_props, untested=untested, still_proved=still, probe=probe, secs=int(time.time() - t0))
    open(out, "a").write(json.dumps(rec) + "\n")
    print(m["id"], "SURVIVED" if rec["ok"] else "killed", fails[:3], "props:", len(failed_props), "still:", len(still), "probe:", probe[:200], rec["secs"], flush=True)
