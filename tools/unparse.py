#!/usr/bin/env python3
"""A second opinion on `tools/goast.py`: print lean/Verif/Gen/Go*.lean back as Go, and compare it with /repo, line by line.

Nothing is shared with `goast.py`. From the Lean side: every definition `... : K × Lbl` in file order is a label and its statements; the names of
primitive statements, conditions and returns are replaced by the Go text in their doc comments; the label that follows each piece of code, the
table of `switch cs` and the search trees that find the code of a label are checked too. From the Go side: the lines of the function with comments,
blank lines and the names of constants removed, `m.p` and `(p)` written `p`, `if s; c {` written as two lines, the builder's `:=` for the automaton's variables as `=`, `switch` written as nested `if`s.
"""
import os, re, sys
REPO = '/repo/'; GEN = os.environ.get('GEN', '/verif/lean/Verif/Gen/')
FILES = [('GoRfc5424', 'rfc5424/machine.go', r'func \(m \*machine\) Parse\('), ('GoRfc3164', 'rfc3164/machine.go', r'func \(m \*machine\) Parse\('),
         ('GoBuilder', 'rfc5424/builder.go', r'func \(sm \*SyslogMessage\) set\('), ('GoLines', 'nontransparent/parser.go', r'func \(m \*machine\) Exec\(')]

# ------------------------------------------------------------------ Go
def norm(t):
    t = re.sub(r'\bm\.(pe|p|cs|eof|data)\b', r'\1', t)
    while True:
        u = re.sub(r'(?<![\w\])])\(([A-Za-z_]\w*)\)', r'\1', t)
        if u == t: return re.sub(r'\s+', ' ', t).strip()
        t = u
# in the builder the argument is called `value`, the four variables are declared where they are first assigned
BUILDER = {'data := []byte(value)': 'data = input', 'p := 0': 'p = 0', 'pe := len(data)': 'pe = len(input)', 'eof := len(data)': 'eof = len(input)'}
def go_lines(path, head):
    src = open(REPO + path).read().split('\n')
    const = dict(re.findall(r'^const (\w+) int = (\d+)$', '\n'.join(src), re.M))
    i = next(k for k, l in enumerate(src) if re.match(head, l)); out = []
    for l in src[i + 1:]:
        if l == '}': break
        l = re.sub(r'//.*', '', l).strip()
        if not l: continue
        l = norm(l)
        if re.match(r'goto \w+$|\w+:$', l) is None: l = re.sub(r'(?<![\w.])(%s)\b' % '|'.join(const), lambda m: const[m[1]], l)
        l = BUILDER.get(l, l)
        m = re.match(r'(if|switch) ([^{]*); ([^{]*) \{$', l)
        if m: out += [m[2], '%s %s {' % (m[1], m[3])]
        else: out.append(l)
    return out
def go_tree(ls):
    pos = [0]
    def seq(stop):
        r = []
        while pos[0] < len(ls):
            l = ls[pos[0]]
            if l in stop or (('case' in stop) and (l.startswith('case ') or l == 'default:')): return r
            pos[0] += 1
            if l == '{': r += seq(['}']); pos[0] += 1
            elif l.startswith('if '):
                t = seq(['}', '} else {']); e = []
                if ls[pos[0]] == '} else {': pos[0] += 1; e = seq(['}'])
                assert ls[pos[0]] == '}'; pos[0] += 1
                r.append(('if', l[3:-2], t, e))
            elif l.startswith('switch'):
                subj = l[6:-1].strip(); alts = []
                while ls[pos[0]] != '}':
                    c = ls[pos[0]]; pos[0] += 1; b = seq(['case', '}'])
                    alts.append((None if c == 'default:' else c[5:-1], b))
                pos[0] += 1
                assert all(c is not None for c, _ in alts[:-1])
                if subj == 'cs' and all(len(b) == 1 and re.match(r'goto stCase', b[0]) for c, b in alts): r.append(('jump', [(c, b[0]) for c, b in alts])); continue
                e = []
                for c, b in reversed(alts):
                    if c is None: e = b
                    elif subj == '': e = [('if', c, b, e)]
                    elif subj == 'cs': e = [('if', 'cs in ' + c, b, e)]
                    else: e = [('if', '%s == %s' % (subj, c), b, e)]
                r += e
            elif re.match(r'\w+:$', l): r.append(('label', l[:-1]))
            else: r.append(l)
        return r
    r = seq([]); assert pos[0] == len(ls), ls[pos[0]:][:3]; return r

# ------------------------------------------------------------------ Lean
def sexp(s):
    toks = re.findall(r'[()\[\],⟨⟩]|[^\s()\[\],⟨⟩]+', s); pos = [0]
    def atom():
        t = toks[pos[0]]; pos[0] += 1
        if t == '(':
            r = []
            while toks[pos[0]] not in (')', ','): r.append(atom())
            if toks[pos[0]] == ',': pos[0] += 1; s2 = []; r = (r, s2); [s2.append(atom()) for _ in iter(lambda: toks[pos[0]] != ')', False)]
            pos[0] += 1; return r
        if t == '[':
            r = []; cur = []
            while toks[pos[0]] != ']':
                if toks[pos[0]] == ',': pos[0] += 1; r.append(cur); cur = []
                else: cur.append(atom())
            pos[0] += 1; return ['list'] + r + ([cur] if cur else [])
        return t
    r = []
    while pos[0] < len(toks): r.append(atom())
    return r
def lbl(a):
    if isinstance(a, str): return {'.stOut': 'stOut', '.testEof': '_testEof', '.out': '_out'}[a]
    return {'.st': 'st', '.stCase': 'stCase', '.tr': 'tr', '.testEofN': '_testEof'}[a[0]] + a[1]
def ls_(a): assert a[0] == 'list'; return ', '.join(x[0] for x in a[1:])
class L:
    def __init__(s, text, path):
        s.nm = {}
        for kind in 'ACR':
            blk = re.search(r'^inductive %s where\n(.*?)\n  deriving' % kind, text, re.M | re.S)[1]
            for d, c in re.findall(r'/-- `(.*?)` -/\n  \| (\w+)', blk): s.nm[kind, '.' + c] = norm(d)
        const = dict(re.findall(r'^const (\w+) int = (\d+)$', open(REPO + path).read(), re.M)); s.jumps = None
        for k in s.nm: s.nm[k] = re.sub(r'(?<![\w.])(%s)\b' % '|'.join(const), lambda m: const[m[1]], s.nm[k])
    def opd(s, a): return {'.byte': 'data[p]', '.widec': '_widec'}[a] if isinstance(a, str) else a[1]
    def cond(s, a):
        if a == '.pEqPe': return 'p == pe'
        if a == '.pEqEof': return 'p == eof'
        if a[0] == '.cmp': return '%s %s %s' % (s.opd(a[2]), {'.lt': '<', '.le': '<=', '.eq': '==', '.ge': '>=', '.gt': '>'}[a[1]], s.opd(a[3]))
        if a[0] == '.and': return '%s && %s' % (s.cond(a[1]), s.cond(a[2]))
        if a[0] == '.csIn': return 'cs in ' + ls_(a[1])
        if a[0] == '.csFailed': return 'cs < %s || cs == %s' % (a[1], a[2])
        if a[0] == '.prim': return s.nm['C', a[1]]
        raise Exception(a)
    def stmt(s, a):
        if isinstance(a, str): return {'.incP': 'p++', '.decP': 'p--', '.pZero': 'p = 0', '.dataInput': 'data = input', '.peLen': 'pe = len(input)', '.eofLen': 'eof = len(input)', '.widecZero': 'var _widec int16', '.widecByte': '_widec = int16(data[p])'}[a]
        if a[0] == '.setCs': return 'cs = ' + a[1]
        if a[0] == '.widecBase': return '_widec = %s + (int16(data[p]) - %s)' % (a[1], a[2])
        if a[0] == '.widecAdd': return '_widec += ' + a[1]
        if a[0] == '.prim': return s.nm['A', a[1]]
        raise Exception(a)
    def code(s, a):
        r = []
        while a != '.done':
            if a[0] == '.stmt': r.append(s.stmt(a[1])); a = a[2]
            elif a[0] == '.goto': r.append('goto ' + lbl(a[1])); a = a[2]
            elif a[0] == '.ifElse': r.append(('if', s.cond(a[1]), s.code(a[2]), s.code(a[3]))); a = a[4]
            elif a[0] == '.jumpCs': assert a[1] == 'jumps'; r.append(('jump', s.jumps)); a = a[2]
            elif a[0] == '.ret': r.append(s.nm['R', a[1]]); a = a[2]
            else: raise Exception(a)
        return r
def lean_tree(text, path):
    o = L(text, path); out = []; follow = None
    j = sexp(re.search(r'^def jumps : List \(Nat × Lbl\) := (\[.*?\])$', text, re.M | re.S)[1])[0]
    o.jumps = [(x[0][0][0], 'goto ' + lbl(x[0][1])) for x in j[1:]]
    names = []
    for n, body in re.findall(r'^def (\w+) : K × Lbl := ⟨(.*?)⟩$', text, re.M | re.S):
        m = re.match(r'(stCase|st|tr|testEof)(\d+)$', n)
        label = None if n == 'entry' else ({'testEof': '_testEof'}.get(m[1], m[1]) + m[2] if m else {'stOut': 'stOut', 'testEof': '_testEof', 'out': '_out'}[n])
        names.append(n)
        t = sexp(body); k = next(i for i, x in enumerate(t) if x == ',')
        c, f = t[:k], t[k + 1:]
        if label is None: assert out == []
        else:
            assert follow == label, (n, follow)
            out.append(('label', label))
        c = c if len(c) > 1 else c[0]
        out += o.code(c)
        follow = lbl(f if len(f) > 1 else f[0])
    assert follow == '_out'
    # the trees: in-order keys sorted, and each key's value is the definition of that name
    seen = ['entry', 'stOut', 'testEof', 'out']
    for tree, pre in (('sts', 'st'), ('stCases', 'stCase'), ('trs', 'tr'), ('testEofs', 'testEof')):
        b = re.search(r'^def %s : Tree [^\n]*?:=(.*?)(?=^def |^/--|\Z)' % tree, text, re.M | re.S)[1]
        def walk(x):
            if x == '.nil' or x == ['.nil']: return []
            assert x[0] == '.node' and len(x) == 5, x[:3]
            return walk(x[1]) + [(int(x[2]), x[3])] + walk(x[4])
        t = sexp(b); w = walk(t[0] if len(t) == 1 else t)
        assert [k for k, _ in w] == sorted(set(k for k, _ in w))
        assert all(v == pre + str(k) for k, v in w)
        seen += [v for _, v in w]
    assert sorted(seen) == sorted(names), (len(seen), len(names))
    return out, len(names)

def count(t): return sum(1 if isinstance(x, str) or x[0] != 'if' else 1 + count(x[2]) + count(x[3]) for x in t)
bad = 0
for mod, path, head in FILES:
    text = open(GEN + mod + '.lean').read()
    g = go_tree(go_lines(path, head)); l, n = lean_tree(text, path)
    diff = [(i, a, b) for i, (a, b) in enumerate(zip(g, l)) if a != b]
    ok = not diff and len(g) == len(l); bad += not ok
    print('%s: %d labels, %d statements, %s' % (path, n, count(g), 'equal' if ok else 'DIFFERENT (%d, %d)' % (len(g), len(l))))
    for i, a, b in diff[:3]: print('   ', str(a)[:300], '|||', str(b)[:300])
sys.exit(bad != 0)
