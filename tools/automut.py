#!/usr/bin/env python3
"""One random edit in each function of Verif/Gen/Mini.lean (the statements of the hand-written Go functions), for seed.py.
usage: automut.py seed > seeded/mutantsN.py"""
import re, sys, random
F = "Verif/Gen/Mini.lean"
src = open("/verif/lean/" + F).read()
rnd = random.Random(int(sys.argv[1]))
SWAP = {"gt": "ge", "ge": "gt", "lt": "le", "le": "lt", "eq": "ne", "ne": "eq", "add": "sub", "sub": "add", "mul": "add", "div": "mod", "mod": "div"}
def close(s, i):
    d, q, k = 0, False, i
    while k < len(s):
        c = s[k]
        if q:
            if c == "\\": k += 1
            elif c == '"': q = False
        elif c == '"': q = True
        elif c in "(⟨[": d += 1
        elif c in ")⟩]":
            d -= 1
            if d == 0: return k
        k += 1
def args(s, i):
    """the parenthesised arguments that follow position i"""
    r = []
    while i < len(s):
        while i < len(s) and s[i] == " ": i += 1
        if i < len(s) and s[i] == "(":
            j = close(s, i); r.append((i, j + 1)); i = j + 1
        elif s[i:i+1] == ".":
            m = re.compile(r"\.\w+").match(s, i); r.append((i, m.end())); i = m.end()
        else: break
    return r
def edits(b):
    for m in re.finditer(r"\.bin \.(\w+)", b):
        if m.group(1) in SWAP: yield "`%s` becomes `%s`" % (m.group(1), SWAP[m.group(1)]), b[:m.start(1)] + SWAP[m.group(1)] + b[m.end(1):]
    for m in re.finditer(r"\(\.(and|or) ", b):
        o = "or" if m.group(1) == "and" else "and"
        yield "`%s` becomes `%s`" % (m.group(1), o), b[:m.start(1)] + o + b[m.end(1):]
    for m in re.finditer(r"\.lit \(\.int \.(\w+) (\d+)\)", b):
        yield "the constant %s becomes %d" % (m.group(2), int(m.group(2)) + 1), b[:m.start(2)] + str(int(m.group(2)) + 1) + b[m.end(2):]
    for m in re.finditer(r"\.bool (true|false)", b):
        o = "false" if m.group(1) == "true" else "true"
        yield "`%s` becomes `%s`" % (m.group(1), o), b[:m.start(1)] + o + b[m.end(1):]
    for m in re.finditer(r"\.ifs ", b):
        a = args(b, m.end())
        if len(a) >= 3:
            (s0, s1), (t0, t1) = a[1], a[2]
            yield "the branches of an if are exchanged", b[:s0] + b[t0:t1] + " " + b[s0:s1] + b[t1:]
            yield "an if is taken always", b[:m.start()] + b[s0:s1] + b[t1:] if b[m.start()-1] == "(" else b[:m.start()] + b[s0:s1] + b[t1:]
    for m in re.finditer(r"\.seq ", b):
        a = args(b, m.end())
        if a and b[a[0][0]] == "(":
            s0, s1 = a[0]
            yield "a statement is dropped: " + re.sub(r"\s+", " ", b[s0:s1])[:60], b[:s0] + ".skip" + b[s1:]
    for m in re.finditer(r'ascii "((?:[^"\\]|\\.)*)"', b):
        yield 'the text "%s" has a character more' % m.group(1), b[:m.end(1)] + "x" + b[m.end(1):]
print('"""Random edits of the statements of hand-written Go functions (tools/automut.py %s)."""' % sys.argv[1])
print("M = []")
n = 0
for m in re.finditer(r"/-- (`[^\n]*) -/\ndef (\w+) : Fn := ⟨(.*?)⟩\n(?=\n|$)", src, re.S):
    name, body = m.group(2), m.group(3)
    if name.startswith("testing"): continue
    es = list(edits(body))
    if not es: continue
    what, new = rnd.choice(es)
    old = "def %s : Fn := ⟨%s⟩\n" % (name, body)
    n += 1
    print("M.append(dict(id=%r, definition=%r, edit=%r, breaks=%r, edits=[(%r, %r, %r)], probe=None))" %
        ("auto%s-%s" % (sys.argv[1], name), "Gen.Mini." + name, what, "the properties of " + m.group(1).replace("`", ""), F, old, "def %s : Fn := ⟨%s⟩\n" % (name, new)))
