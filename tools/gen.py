#!/usr/bin/env python3
"""Emit lean/Verif/Gen/{Rfc5424,Rfc3164,Builder}.lean from the generated Go FSMs (see extract.py)."""
import sys
from extract import extract, ranges, A5424, A3164, ABUILD
OUT = '/verif/lean/Verif/Gen/'

def emit(name, path, cat, doc, split):
    st, lb, eof = extract('/repo/' + path, cat)
    o = []
    w = o.append
    w('import Verif.Fsm')
    w('')
    w('/-!')
    w('# %s: transition table of the Ragel-generated FSM in `%s`' % (name, path))
    w('')
    w('GENERATED by `tools/gen.py` from the Go source; do not edit by hand.')
    w(doc)
    w('* `Act`: one constructor per distinct action snippet of the Go code (the snippet is quoted).')
    w('* `trN`: the Go label `trN:` (its actions in order, and the state it goes to).')
    w('* `rN`: the Go label `stCaseN:` (from-state actions, byte ranges, the `goto` taken by all')
    w('  remaining bytes, and the actions of `case N:` in the end-of-input switch).')
    w('-/')
    w('')
    w('namespace Verif.Gen.%s' % name)
    w('open Verif.Fsm')
    w('')
    w('/-- Actions embedded in `%s`. -/' % path)
    w('inductive Act where')
    for k in cat:
        w('  /-- `%s` -/' % cat[k].replace('-/', '- /'))
        w('  | %s' % k)
    w('  deriving DecidableEq, Repr')
    w('')
    w('/-- label `stN:` — `if p++; p == pe { goto _testEofN }` then `stCaseN`: no action, go to N. -/')
    w('@[reducible] def st (n : Nat) : Label Act := ⟨[], n⟩')
    w('')
    acts = lambda l: '[' + ', '.join('.' + a for a in l) + ']'
    for l in sorted((l for l in lb if l.startswith('tr')), key=lambda x: int(x[2:])):
        n, a, t = lb[l]
        w('/-- %s:%d -/' % (path, n))
        w('def %s : Label Act := ⟨%s, %d⟩' % (l, acts(a), t))
    w('')
    lab = lambda l: l if l.startswith('tr') else 'st %s' % l[2:]
    def row(nm, N, t, n):
        r, d = ranges(t)
        w('/-- %s:%d%s -/' % (path, n, (', end of input: line %d' % eof[N][0]) if N in eof else ''))
        w('def %s : Row Act := ⟨%s, [%s], %s, %s⟩' % (nm, acts(st[N]['frm']), ', '.join('(%d, %d, %s)' % (lo, hi, lab(l)) for lo, hi, l in r), lab(d), acts(eof[N][1] if N in eof else [])))
    w('/-- `st0:` — `cs = 0; goto _out` (never dispatched: the interpreter stops in state 0). -/')
    w('def r0 : Row Act := ⟨[], [], st 0, []⟩')
    mx = max(st)
    assert set(st) == set(range(1, mx+1)), 'state numbers not contiguous'
    for N in sorted(st): row('r%d' % N, N, st[N]['t0'], st[N]['line'])
    alt = [N for N in sorted(st) if st[N]['t0'] != st[N]['t1']]
    if split:
        w('')
        w('/-! Rows of the states guarded by `when { m.rfc3339 }`, for `m.rfc3339 = true`. -/')
        for N in alt: row('rr%d' % N, N, st[N]['t1'], st[N]['line'])
    else: assert not alt
    def table(nm, f):
        w('')
        w('/-- The FSM, row `N` = `stCaseN`. -/')
        w('def %s : List (Row Act) := [' % nm)
        names = [f(N) for N in range(mx+1)]
        for i in range(0, len(names), 12):
            w('  ' + ', '.join(names[i:i+12]) + (',' if i+12 < len(names) else ']'))
    if split:
        table('table', lambda N: 'r%d' % N)
        table('tableR', lambda N: ('rr%d' if N in alt else 'r%d') % N)
    else:
        table('table', lambda N: 'r%d' % N)
    w('')
    w('end Verif.Gen.%s' % name)
    open(OUT + name + '.lean', 'w').write('\n'.join(o) + '\n')

emit('Rfc5424', 'rfc5424/machine.go', A5424, 'start = 1, firstFinal = 603, enMsgAny = 607, enMsgCompliant = 609, enFail = 614 (machine.go:53-59).', False)
emit('Rfc3164', 'rfc3164/machine.go', A3164, 'start = 1, firstFinal = 333, enFail = 373. `table` is for `m.rfc3339 = false`, `tableR` for `true`.', True)
emit('Builder', 'rfc5424/builder.go', ABUILD, 'Entry states: see `entrypoint.translate` (builder.go).', False)
