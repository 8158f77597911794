#!/usr/bin/env python3
"""Transcribe the `goto` functions of /repo into the syntax of lean/Verif/Go/Lang.lean.

A purely syntactic pass over gofmt'ed Go: every line is a label, a `goto`, a `return`, the head of an `if` or `switch`, a `case`,
a brace, a comment or a simple statement. Simple statements and conditions are looked up verbatim in the tables below; anything that
is not found there aborts the script.  `goast.py` writes lean/Verif/Gen/Go*.lean.
"""
import re, sys
OUT = '/verif/lean/Verif/Gen/'

# ------------------------------------------------------------------ parsing
class Body:
    def __init__(self, path, head):
        src = open('/repo/' + path).read().split('\n')
        i = next(k for k, l in enumerate(src) if l.startswith(head)); j = next(k for k in range(i, len(src)) if src[k] == '}')
        self.lines = [(n + 1, src[n].strip()) for n in range(i + 1, j)]
        self.first = i + 1; self.last = j + 1
        self.lines = [(n, re.sub(r'\s+//.*$', '', l) if not l.startswith('//') else '') for n, l in self.lines]
        self.lines = [(n, l) for n, l in self.lines if l]
        self.k = 0
    def peek(self): return self.lines[self.k] if self.k < len(self.lines) else (None, None)
    def seq(self):
        """statements up to a closing brace, `case`, `default` or the end"""
        r = []
        while True:
            n, l = self.peek()
            if l is None or l == '}' or l == '} else {' or re.match(r'case .*:$', l) or l == 'default:': return r
            self.k += 1
            if re.match(r'(stCase\d+|st\d+|tr\d+|stOut|_testEof\d*|_out):$', l): r.append(('label', l[:-1], n))
            elif l.startswith('goto '): r.append(('goto', l[5:]))
            elif l.startswith('return '): r.append(('ret', l))
            elif l == '{':
                r += self.seq(); self.close()
            elif l.startswith('if ') and l.endswith(' {'):
                c = l[3:-2]; ini = None
                if '; ' in c: ini, c = c.split('; ')
                t = self.seq(); e = []
                m, x = self.peek()
                if x == '} else {': self.k += 1; e = self.seq()
                self.close()
                if ini: r.append(('stmt', ini))
                r.append(('if', c, t, e))
            elif l.startswith('switch ') and l.endswith('{'):
                subj = l[7:-1].strip() or None; cases = []; d = []
                while self.peek()[1] != '}':
                    m, x = self.peek(); self.k += 1
                    if x == 'default:':
                        assert self.peek()[1] is not None; d = self.seq(); assert self.peek()[1] == '}'
                    else:
                        assert x.startswith('case '), x
                        cases.append((x[5:-1], self.seq()))
                self.close()
                r.append(('switch', subj, cases, d))
            else: r.append(('stmt', l))
    def close(self):
        n, l = self.peek(); assert l == '}', (n, l); self.k += 1

# ------------------------------------------------------------------ emission
def lbl(x):
    for p, c in (('stCase', 'stCase'), ('st', 'st'), ('tr', 'tr'), ('_testEof', 'testEofN')):
        m = re.match(re.escape(p) + r'(\d+)$', x)
        if m: return '(.%s %s)' % (c, m.group(1))
    return {'stOut': '.stOut', '_testEof': '.testEof', '_out': '.out'}[x]
BYTE = ('(m.data)[(m.p)]', 'data[p]')
class Emit:
    def __init__(self, stmts, conds, rets): self.stmts, self.conds, self.rets = stmts, conds, rets; self.used = set()
    def look(self, tbl, x, what):
        if x not in tbl: sys.exit('UNRECOGNISED %s: %r' % (what, x))
        self.used.add(x); return tbl[x]
    def opd(self, x):
        if x in BYTE: return '.byte'
        if x == '_widec': return '.widec'
        assert re.match(r'\d+$', x), x
        return '(.lit %s)' % x
    def cond(self, c):
        if c in self.conds: self.used.add(c); return self.conds[c]
        if ' && ' in c:
            a, b = c.split(' && '); return '(.and %s %s)' % (self.cond(a), self.cond(b))
        m = re.match(r'(\S+) (<|<=|==|>=|>) (\S+)$', c)
        if not m: sys.exit('UNRECOGNISED CONDITION: %r' % c)
        op = {'<': 'lt', '<=': 'le', '==': 'eq', '>=': 'ge', '>': 'gt'}[m.group(2)]
        return '(.cmp .%s %s %s)' % (op, self.opd(m.group(1)), self.opd(m.group(3)))
    def stmt(self, s):
        if s in ('(m.p)++', 'p++'): return '.incP'
        if s == '(m.p)--': return '.decP'
        m = re.match(r'(m\.)?cs = (\d+)$', s)
        if m: return '(.setCs %s)' % m.group(2)
        if s == 'var _widec int16': return '.widecZero'
        if s in ('_widec = int16((m.data)[(m.p)])', '_widec = int16(data[p])'): return '.widecByte'
        m = re.match(r'_widec = (\d+) \+ \(int16\((\(m\.data\)\[\(m\.p\)\]|data\[p\])\) - (\d+)\)$', s)
        if m: return '(.widecBase %s %s)' % (m.group(1), m.group(3))
        m = re.match(r'_widec \+= (\d+)$', s)
        if m: return '(.widecAdd %s)' % m.group(1)
        return self.look(self.stmts, s, 'STATEMENT')
    def code(self, items, k='.done'):
        r = k
        for it in reversed(items):
            if it[0] == 'stmt':
                r = self.par('.stmt %s' % self.stmt(it[1]), r)
            elif it[0] == 'goto': r = self.par('.goto %s' % lbl(it[1]), r)
            elif it[0] == 'ret': r = self.par('.ret %s' % self.look(self.rets, it[1], 'RETURN'), r)
            elif it[0] == 'if': r = '(.ifElse %s %s %s %s)' % (self.cond(it[1]), self.code(it[2]), self.code(it[3]), r)
            elif it[0] == 'switch':
                subj, cases, d = it[1:]
                if subj in ('m.cs', 'cs') and all(len(b) == 1 and b[0][0] == 'goto' and re.match(r'\d+$', c) for c, b in cases) and not d:
                    assert not hasattr(self, 'jumps')
                    self.jumps = ', '.join('(%s, %s)' % (c, lbl(b[0][1]).strip('()')) for c, b in cases)
                    r = '(.jumpCs jumps %s)' % r
                else:
                    e = self.code(d)
                    for c, b in reversed(cases):
                        if subj is None: cc = self.cond(c)
                        elif subj in ('m.cs', 'cs'): cc = '(.csIn [%s])' % c
                        else: cc = '(.cmp .eq %s %s)' % (self.opd(subj), self.opd(c))
                        # a `switch` is a chain of else branches, followed by `r` once
                        e = '(.ifElse %s %s %s .done)' % (cc, self.code(b), e)
                    r = e[:-len(' .done)')] + ' ' + r + ')' if cases else r
            else: sys.exit('bad item %r' % (it,))
        return r
    def par(self, h, r): return '(%s %s)' % (h, r)

def strip(x): return x[1:-1] if x.startswith('(') else x

def emit(name, path, head, A, C, R, doc):
    b = Body(path, head); items = b.seq(); assert b.peek()[1] is None
    em = Emit({k: '(.prim .%s)' % v if not v.startswith('!') else v[1:] for k, v in A.items()},
              {k: '(.prim .%s)' % v if not v.startswith('!') else v[1:] for k, v in C.items()}, {k: '.' + v for k, v in R.items()})
    blocks = [('entry', b.first, [])]
    for it in items:
        if it[0] == 'label': blocks.append((it[1], it[2], []))
        else: blocks[-1][2].append(it)
    o = []; w = o.append
    w('import Verif.Go.Lang'); w('')
    w('/-!'); w('# The body of `%s` in `%s` (lines %d-%d), statement by statement' % (head.rstrip(' {'), path, b.first, b.last)); w('')
    w('GENERATED by `tools/goast.py` from the Go source; do not edit by hand.')
    if doc: w(doc)
    w('-/'); w(''); w('namespace Verif.Gen.%s' % name); w('open Verif.Go'); w('')
    defs = []
    for nm, n, its in blocks:
        lean = 'entry' if nm == 'entry' else nm.replace('_', '')
        defs.append((lean, n, em.code(its), nm))
    for ty, tbl, d in (('A', A, 'Statements'), ('C', C, 'Conditions'), ('R', R, 'Return statements')):
        w('/-- %s of `%s`. -/' % (d, path)); w('inductive %s where' % ty)
        seen = set()
        for k, v in tbl.items():
            if v.startswith('!') or v in seen: continue
            seen.add(v)
            if k not in em.used: sys.exit('UNUSED %r' % k)
            w('  /-- `%s` -/' % k.replace('-/', '- /')); w('  | %s' % v)
        w('  deriving DecidableEq, Repr'); w('')
    w('/-- Code of this function. -/'); w('abbrev K := Code A C R'); w('')
    w('/-- `switch cs`: the state and the label -/'); w('def jumps : List (Nat × Lbl) := [%s]' % em.jumps); w('')
    nxt = [lbl(x[3]) for x in defs[1:]] + ['.out']
    info = {}
    for (lean, n, c, nm), nx in zip(defs, nxt):
        w('/-- %s:%d -/' % (path, n)); w('def %s : K × Lbl := ⟨%s, %s⟩' % (lean, strip(c), strip(nx) if nx.startswith('(') else nx)); info[nm] = lean
    def table(nm, pre):
        ks = sorted(int(k[len(pre):]) for k in info if re.match(pre + r'\d+$', k))
        def tree(ks, d):
            if not ks: return '.nil'
            m = len(ks) // 2
            v = info[pre + str(ks[m])]
            if len(ks) == 1: return '(.node .nil %d %s .nil)' % (ks[0], v)
            l, r = tree(ks[:m], d + 1), tree(ks[m+1:], d + 1)
            return '(.node %s %d %s\n  %s)' % (l, ks[m], v, r) if len(ks) > 5 else '(.node %s %d %s %s)' % (l, ks[m], v, r)
        w(''); w('/-- the labels `%sN:` by number -/' % pre); w('def %s : Tree (K × Lbl) :=' % nm); w('  ' + tree(ks, 0))
    for nm, pre in (('sts', 'st'), ('stCases', 'stCase'), ('trs', 'tr'), ('testEofs', '_testEof')): table(nm, pre)
    w(''); w('/-- The function: what is at each label, and the label that follows. -/'); w('def prog : Prog A C R')
    w('  | .entry => some entry\n  | .st n => sts.find n\n  | .stCase n => stCases.find n\n  | .tr n => trs.find n\n  | .testEofN n => testEofs.find n')
    w('  | .stOut => some stOut\n  | .testEof => some testEof\n  | .out => some out')
    w(''); w('end Verif.Gen.%s' % name)
    open(OUT + name + '.lean', 'w').write('\n'.join(o) + '\n')
    print(name, len(blocks), 'blocks')

# ------------------------------------------------------------------ the statements of each function
def const(path, name):
    m = re.search(r'^const %s int = (\d+)$' % name, open('/repo/' + path).read(), re.M); return m.group(1)
M5, M3, B5, NT = 'rfc5424/machine.go', 'rfc3164/machine.go', 'rfc5424/builder.go', 'nontransparent/parser.go'
def err5(x): return {'m.err = fmt.Errorf(%s+ColumnPositionTemplate, m.p)' % x: 'err' + x[3:]}
COMMON = {'m.data = input': '!.dataInput', 'm.p = 0': '!.pZero', 'm.pe = len(input)': '!.peLen', 'm.eof = len(input)': '!.eofLen'}
A5 = dict(COMMON)
A5.update({
 'm.pb = 0': 'pbZero', 'm.msgat = 0': 'msgatZero', 'm.backslashat = []int{}': 'backslashatNew', 'm.err = nil': 'errNil',
 'output := &syslogMessage{}': 'outputNew', 'm.cs = start': '!(.setCs %s)' % const(M5, 'start'),
 'm.pb = m.p': 'pbP', 'm.msgat = m.p': 'msgatP', 'm.backslashat = append(m.backslashat, m.p)': 'backslashatAppend',
 'output.priority = uint8(common.UnsafeUTF8DecimalCodePointsToInt(m.text()))': 'priority', 'output.prioritySet = true': 'prioritySet',
 'output.version = uint16(common.UnsafeUTF8DecimalCodePointsToInt(m.text()))': 'version',
 't, e := time.Parse(RFC3339MICRO, string(m.text()))': 'timeParse', 'output.timestamp = t': 'timestamp', 'output.timestampSet = true': 'timestampSet',
 'm.err = fmt.Errorf("%s [col %d]", e, m.p)': 'errTime',
 'output.hostname = string(m.text())': 'hostname', 'output.appname = string(m.text())': 'appname', 'output.procID = string(m.text())': 'procID',
 'output.msgID = string(m.text())': 'msgID', 'output.message = string(m.text())': 'message',
 'output.message = string(m.data[m.msgat:m.p])': 'messagePartial',
 'output.structuredData = map[string]map[string]string{}': 'sdNew', '_, ok := output.structuredData[string(m.text())]': 'sdLookup',
 'id := string(m.text())': 'idText', 'output.structuredData[id] = map[string]string{}': 'sdAdd', 'output.hasElements = true': 'hasElements',
 'output.hasElements = false': 'hasNoElements', 'm.currentelem = id': 'currentelem', 'm.currentparam = string(m.text())': 'currentparam',
 'text := m.text()': 'textNew', 'text = common.RemoveBytes(text, m.backslashat, m.pb)': 'removeBytes',
 'output.structuredData[m.currentelem][m.currentparam] = string(text)': 'sdSet',
 'delete(output.structuredData, m.currentelem)': 'sdDelete', 'delete(output.structuredData[m.currentelem], m.currentparam)': 'paramDelete',
})
for x in ('ErrPrival', 'ErrPri', 'ErrVersion', 'ErrTimestamp', 'ErrHostname', 'ErrAppname', 'ErrProcID', 'ErrMsgID', 'ErrStructuredData', 'ErrSdID',
          'ErrSdIDDuplicated', 'ErrSdParam', 'ErrMsg', 'ErrMsgNotCompliant', 'ErrEscape', 'ErrParse'): A5.update(err5(x))
C5 = {'(m.p) == (m.pe)': '!.pEqPe', '(m.p) == (m.eof)': '!.pEqEof',
 'm.cs < firstFinal || m.cs == enFail': '!(.csFailed %s %s)' % (const(M5, 'firstFinal'), const(M5, 'enFail')),
 'e != nil': 'eNotNil', 'ok': 'ok', 'output.hasElements': 'hasElements', 'len(m.backslashat) > 0': 'hasBackslashes',
 'len(output.structuredData) == 0': 'sdEmpty', 'len(output.structuredData) > 0': 'sdNotEmpty', 'm.msgat > 0': 'msgatPositive',
 'm.compliantMsg': 'compliantMsg', 'm.bestEffort && output.minimal()': 'bestEffortMinimal'}
R5 = {'return output.export(), m.err': 'partialOutput', 'return nil, m.err': 'failed', 'return output.export(), nil': 'complete'}

def err3(x): return {'m.err = fmt.Errorf(%s, m.p)' % x: x}
A3 = {k: v for k, v in A5.items() if k in COMMON or v in ('pbZero', 'errNil', 'outputNew', 'pbP', 'priority', 'prioritySet', 'errTime', 'timestamp', 'timestampSet', 'hostname', 'message')}
A3.update({'m.cs = start': '!(.setCs %s)' % const(M3, 'start'),
 't, e := time.Parse(time.Stamp, string(m.text()))': 'stampParse', 't, e := time.Parse(time.RFC3339, string(m.text()))': 'rfc3339Parse',
 't, _ = time.ParseInLocation(time.Stamp, string(m.text()), m.timezone)': 'parseInLocation',
 'output.timestamp = t.AddDate(m.yyyy, 0, 0)': 'timestampAddDate', 'output.timestamp = output.timestamp.In(m.loc)': 'timestampIn',
 'output.tag = string(m.text())': 'tag', 'output.content = string(m.text())': 'content'})
for x in ('errPrival', 'errPri', 'errTimestamp', 'errRFC3339', 'errHostname', 'errTag'): A3.update(err3(x))
C3 = {'(m.p) == (m.pe)': '!.pEqPe', '(m.p) == (m.eof)': '!.pEqEof',
 'm.cs < firstFinal || m.cs == enFail': '!(.csFailed %s %s)' % (const(M3, 'firstFinal'), const(M3, 'enFail')),
 'e != nil': 'eNotNil', 'm.rfc3339': 'rfc3339', 'm.timezone != nil': 'hasTimezone', 'm.loc != nil': 'hasLoc',
 'm.bestEffort && output.minimal()': 'bestEffortMinimal'}

AB = {'data := []byte(value)': '!.dataInput', 'p := 0': '!.pZero', 'pe := len(data)': '!.peLen', 'eof := len(data)': '!.eofLen',
 'pb := 0': 'pbZero', 'cs := from.translate()': 'csFrom', 'backslashes := []int{}': 'backslashesNew',
 'pb = p': 'pbP', 'backslashes = append(backslashes, p)': 'backslashesAppend',
 't, e := time.Parse(RFC3339MICRO, string(data[pb:p]))': 'timeParse', 'sm.Timestamp = &t': 'timestamp',
 's := string(data[pb:p])': 'sText', 'sm.Hostname = &s': 'hostname', 'sm.Appname = &s': 'appname', 'sm.ProcID = &s': 'procID', 'sm.MsgID = &s': 'msgID',
 'sm.Message = &s': 'message', 'sm.StructuredData = &(map[string]map[string]string{})': 'sdNew', 'id := string(data[pb:p])': 'idText',
 'elements := *sm.StructuredData': 'elements', '_, ok := elements[id]': 'elementLookup', 'elements[id] = map[string]string{}': 'elementAdd',
 'elements[currentid][string(data[pb:p])] = ""': 'paramAdd', 'text := data[pb:p]': 'textNew',
 'text = common.RemoveBytes(text, backslashes, pb)': 'removeBytes', 'elements[currentid][currentparamname] = string(text)': 'paramSet'}
CB = {'p == pe': '!.pEqPe', 'p == eof': '!.pEqEof', 'e == nil': 'eNil', 's != "-"': 'sNotDash', 's != ""': 'sNotEmpty', 'sm.StructuredData == nil': 'sdNil',
 '!ok': 'notOk', 'len(backslashes) > 0': 'hasBackslashes'}
RB = {'return sm': 'sm'}

AN = {'cs, p, pe, eof, data := s.Get()': 'get', 's.Set(cs, p, pe, eof)': 'set', 'm.process()': 'process', 'm.candidate = make([]byte, 0)': 'candidateNew',
 'm.candidate = append(m.candidate, data...)': 'candidateAppend'}
CN = {'p == pe': '!.pEqPe', 'len(m.candidate) > 0': 'hasCandidate', 'm.trailertyp == LF': 'isLF', 'm.trailertyp == NUL': 'isNUL'}
RN = {'return p, pe': 'pPe'}

emit('GoRfc5424', M5, 'func (m *machine) Parse(input []byte)', A5, C5, R5, '`start` = %s, `firstFinal` = %s, `enFail` = %s (rfc5424/machine.go:53-58).' % tuple(const(M5, x) for x in ('start', 'firstFinal', 'enFail')))
emit('GoRfc3164', M3, 'func (m *machine) Parse(input []byte)', A3, C3, R5, '')
emit('GoBuilder', B5, 'func (sm *SyslogMessage) set(', AB, CB, RB, '')
emit('GoLines', NT, 'func (m *machine) Exec(', AN, CN, RN, '')
