#!/usr/bin/env python3
"""Extract the transition tables of the Ragel-generated Go FSMs in /repo into Lean.

It reads the *generated* Go (the code that actually runs), not the .rl sources:
  rfc5424/machine.go, rfc5424/builder.go, rfc3164/machine.go
and for every state number records
  * the Go line of its `stCaseN:` label,
  * its from-state actions (code between `stCaseN:` and the dispatch),
  * its dispatch on the current byte, as a list of byte ranges -> label (trN / stN),
  * the actions + target of every label, and the eof actions of the state.
Every action must match one of the verbatim Go snippets in ACTIONS, otherwise the
script aborts: nothing is skipped silently.
"""
import re, sys

def norm(s): return re.sub(r'\s+', ' ', s).strip()

# ---------------------------------------------------------------- action catalogues
HOLD5424 = ' (m.p)-- { goto st614 }'
HOLD3164 = ' (m.p)-- { goto st373 }'
def err5424(name): return 'm.err = fmt.Errorf(%s+ColumnPositionTemplate, m.p)' % name + HOLD5424
A5424 = {
 'mark': 'm.pb = m.p',
 'markmsg': 'm.msgat = m.p',
 'selectMsgMode': '(m.p)-- if m.compliantMsg { { goto st609 } } { goto st607 }',
 'setPrival': 'output.priority = uint8(common.UnsafeUTF8DecimalCodePointsToInt(m.text())) output.prioritySet = true',
 'setVersion': 'output.version = uint16(common.UnsafeUTF8DecimalCodePointsToInt(m.text()))',
 'setTimestamp': 'if t, e := time.Parse(RFC3339MICRO, string(m.text())); e != nil { m.err = fmt.Errorf("%s [col %d]", e, m.p) (m.p)-- { goto st614 } } else { output.timestamp = t output.timestampSet = true }',
 'setHostname': 'output.hostname = string(m.text())',
 'setAppname': 'output.appname = string(m.text())',
 'setProcid': 'output.procID = string(m.text())',
 'setMsgid': 'output.msgID = string(m.text())',
 'iniElements': 'output.structuredData = map[string]map[string]string{}',
 'setId': 'if _, ok := output.structuredData[string(m.text())]; ok { // As per RFC5424 section 6.3.2 SD-ID MUST NOT exist more than once in a message m.err = fmt.Errorf(ErrSdIDDuplicated+ColumnPositionTemplate, m.p) (m.p)-- { goto st614 } } else { id := string(m.text()) output.structuredData[id] = map[string]string{} output.hasElements = true m.currentelem = id }',
 'iniSdparam': 'm.backslashat = []int{}',
 'addSlash': 'm.backslashat = append(m.backslashat, m.p)',
 'setParamname': 'm.currentparam = string(m.text())',
 'setParamvalue': 'if output.hasElements { // (fixme) > what if SD-PARAM-NAME already exist for the current element (ie., current SD-ID)? // Store text text := m.text() // Strip backslashes only when there are ... if len(m.backslashat) > 0 { text = common.RemoveBytes(text, m.backslashat, m.pb) } output.structuredData[m.currentelem][m.currentparam] = string(text) }',
 'setMsg': 'output.message = string(m.text())',
 'errPrival': err5424('ErrPrival'), 'errPri': err5424('ErrPri'), 'errVersion': err5424('ErrVersion'),
 'errTimestamp': err5424('ErrTimestamp'), 'errHostname': err5424('ErrHostname'), 'errAppname': err5424('ErrAppname'),
 'errProcid': err5424('ErrProcID'), 'errMsgid': err5424('ErrMsgID'), 'errStructureddata': err5424('ErrStructuredData'),
 'errSdid': 'delete(output.structuredData, m.currentelem) if len(output.structuredData) == 0 { output.hasElements = false } ' + err5424('ErrSdID'),
 'errSdparam': 'if len(output.structuredData) > 0 { delete(output.structuredData[m.currentelem], m.currentparam) } ' + err5424('ErrSdParam'),
 'errMsg': '// If error encountered within the message rule ... if m.msgat > 0 { // Save the text until valid (m.p is where the parser has stopped) output.message = string(m.data[m.msgat:m.p]) } if m.compliantMsg { m.err = fmt.Errorf(ErrMsgNotCompliant+ColumnPositionTemplate, m.p) } else { m.err = fmt.Errorf(ErrMsg+ColumnPositionTemplate, m.p) }' + HOLD5424,
 'errEscape': err5424('ErrEscape'), 'errParse': err5424('ErrParse'),
}
def err3164(name): return 'm.err = fmt.Errorf(%s, m.p)' % name + HOLD3164
A3164 = {
 'mark': 'm.pb = m.p',
 'setPrival': A5424['setPrival'],
 'setTimestamp': 'if t, e := time.Parse(time.Stamp, string(m.text())); e != nil { m.err = fmt.Errorf("%s [col %d]", e, m.p) (m.p)-- { goto st373 } } else { if m.timezone != nil { t, _ = time.ParseInLocation(time.Stamp, string(m.text()), m.timezone) } output.timestamp = t.AddDate(m.yyyy, 0, 0) if m.loc != nil { output.timestamp = output.timestamp.In(m.loc) } output.timestampSet = true }',
 'setRfc3339': 'if t, e := time.Parse(time.RFC3339, string(m.text())); e != nil { m.err = fmt.Errorf("%s [col %d]", e, m.p) (m.p)-- { goto st373 } } else { output.timestamp = t output.timestampSet = true }',
 'setHostname': 'output.hostname = string(m.text())',
 'setTag': 'output.tag = string(m.text())',
 'setContent': 'output.content = string(m.text())',
 'setMessage': 'output.message = string(m.text())',
 'errPrival': err3164('errPrival'), 'errPri': err3164('errPri'), 'errTimestamp': err3164('errTimestamp'),
 'errRfc3339': err3164('errRFC3339'), 'errHostname': err3164('errHostname'), 'errTag': err3164('errTag'),
}
def setStr(f): return 'if s := string(data[pb:p]); s != "-" { sm.%s = &s }' % f
ABUILD = {
 'mark': 'pb = p',
 'setTimestamp': 'if t, e := time.Parse(RFC3339MICRO, string(data[pb:p])); e == nil { sm.Timestamp = &t }',
 'setHostname': setStr('Hostname'), 'setAppname': setStr('Appname'), 'setProcid': setStr('ProcID'), 'setMsgid': setStr('MsgID'),
 'setSdid': 'if sm.StructuredData == nil { sm.StructuredData = &(map[string]map[string]string{}) } id := string(data[pb:p]) elements := *sm.StructuredData if _, ok := elements[id]; !ok { elements[id] = map[string]string{} }',
 'setSdpn': '// Assuming SD map already exists, contains currentid key (set from outside) elements := *sm.StructuredData elements[currentid][string(data[pb:p])] = ""',
 'markslash': 'backslashes = append(backslashes, p)',
 'setSdpv': '// Store text text := data[pb:p] // Strip backslashes only when there are ... if len(backslashes) > 0 { text = common.RemoveBytes(text, backslashes, pb) } // Assuming SD map already exists, contains currentid key and currentparamname key (set from outside) elements := *sm.StructuredData elements[currentid][currentparamname] = string(text)',
 'setMsg': 'if s := string(data[pb:p]); s != "" { sm.Message = &s }',
}

def split_actions(code, cat):
    code = norm(code); out = []
    items = sorted(((norm(v), k) for k, v in cat.items()), key=lambda x: -len(x[0]))
    while code:
        for v, k in items:
            if code.startswith(v) and (len(code) == len(v) or code[len(v)] == ' '):
                out.append(k); code = code[len(v):].strip(); break
        else:
            sys.exit('UNRECOGNISED ACTION CODE: ' + repr(code[:300]))
    return out

# ---------------------------------------------------------------- dispatch mini-interpreter
TOK = re.compile(r'//[^\n]*|\(m\.data\)\[\(m\.p\)\]|data\[p\]|m\.rfc3339|int16|[A-Za-z_][A-Za-z_0-9]*|\d+|<=|>=|==|\+=|&&|[-{}()<>=:;+]')
class P:
    """parser for: _widec assignments, if COND {..}, switch X {case N: ..}, switch {case COND: .. default: ..}, goto L"""
    def __init__(s, txt):
        s.t = [t for t in TOK.findall(txt) if not t.startswith('//')]; s.i = 0
    def peek(s): return s.t[s.i] if s.i < len(s.t) else None
    def nxt(s): s.i += 1; return s.t[s.i-1]
    def exp(s, x):
        g = s.nxt(); assert g == x, (g, x, s.t[max(0,s.i-10):s.i+10])
    def stmts(s, stops):
        r = []
        while s.peek() is not None and s.peek() not in stops: r.append(s.stmt())
        return r
    def stmt(s):
        t = s.peek()
        if t == 'goto': s.nxt(); return ('goto', s.nxt())
        if t == '_widec':
            s.nxt(); op = s.nxt(); assert op in ('=', '+=')
            return ('set', op, s.arith())
        if t == 'if':
            s.nxt(); c = s.cond(); s.exp('{'); b = s.stmts(['}']); s.exp('}'); return ('if', c, b)
        if t == 'switch':
            s.nxt(); subj = None
            if s.peek() != '{': subj = s.atom()
            s.exp('{'); cases = []; dflt = None
            while s.peek() != '}':
                if s.peek() == 'case':
                    s.nxt(); c = s.cond() if subj is None else ('==', subj, s.atom()); s.exp(':')
                    cases.append((c, s.stmts(['case', 'default', '}'])))
                else:
                    s.exp('default'); s.exp(':'); dflt = s.stmts(['case', 'default', '}'])
            s.exp('}'); return ('switch', cases, dflt)
        sys.exit('bad stmt %r in %r' % (t, s.t))
    def cond(s):
        c = s.rel()
        while s.peek() == '&&': s.nxt(); c = ('&&', c, s.rel())
        return c
    def rel(s):
        if s.peek() == 'm.rfc3339': s.nxt(); return ('flag',)
        a = s.atom(); op = s.nxt(); assert op in ('<', '<=', '>', '>=', '=='), op
        return (op, a, s.atom())
    def arith(s):
        a = s.term()
        while s.peek() in ('+', '-'):
            op = s.nxt(); a = (op, a, s.term())
        return a
    def term(s):
        if s.peek() == '(': s.nxt(); a = s.arith(); s.exp(')'); return a
        if s.peek() == 'int16': s.nxt(); s.exp('('); a = s.atom(); s.exp(')'); return a
        return s.atom()
    def atom(s):
        t = s.nxt()
        if t in ('(m.data)[(m.p)]', 'data[p]'): return 'b'
        if t == '_widec': return 'w'
        return int(t)
def ev(prog, b, flag):
    env = {'b': b, 'w': None}
    def at(x):
        if isinstance(x, int): return x
        if isinstance(x, tuple):
            return at(x[1]) + at(x[2]) if x[0] == '+' else at(x[1]) - at(x[2])
        return env[x]
    def cd(c):
        if c[0] == 'flag': return flag
        if c[0] == '&&': return cd(c[1]) and cd(c[2])
        a, d = at(c[1]), at(c[2])
        return {'<': a < d, '<=': a <= d, '>': a > d, '>=': a >= d, '==': a == d}[c[0]]
    def run(ss):
        for s in ss:
            if s[0] == 'goto': return s[1]
            if s[0] == 'set':
                env['w'] = at(s[2]) if s[1] == '=' else env['w'] + at(s[2])
            elif s[0] == 'if':
                if cd(s[1]):
                    r = run(s[2])
                    if r: return r
            else:
                for c, body in s[1]:
                    if cd(c):
                        r = run(body)
                        if r: return r
                        break
                else:
                    if s[2] is not None:
                        r = run(s[2])
                        if r: return r
        return None
    r = run(prog); assert r, prog
    return r

def ranges(tbl):
    """256 labels -> ([(lo,hi,label)], default): default = label covering most bytes; the others as maximal ranges"""
    from collections import Counter
    d = Counter(tbl).most_common(1)[0][0]; out = []; i = 0
    while i < 256:
        j = i
        while j+1 < 256 and tbl[j+1] == tbl[i]: j += 1
        if tbl[i] != d: out.append((i, j, tbl[i]))
        i = j+1
    return out, d

def extract(path, cat):
    lines = open(path).read().split('\n')
    lab = re.compile(r'^\t(stCase\d+|st\d+|tr\d+|stOut|_testEof\d*|_out):$')
    blocks = {}; order = []; cur = None
    for n, l in enumerate(lines, 1):
        m = lab.match(l)
        if m:
            cur = m.group(1); assert cur not in blocks; blocks[cur] = (n, []); order.append(cur); continue
        if cur: blocks[cur][1].append(l)
    states = {}; labels = {}
    for name in order:
        n, body = blocks[name]; txt = '\n'.join(body)
        if name.startswith('tr'):
            k = txt.rfind('goto st'); tgt = int(re.match(r'goto st(\d+)\s*$', txt[k:]).group(1))
            labels[name] = (n, split_actions(txt[:k], cat), tgt)
        elif re.match(r'st\d+$', name):
            N = int(name[2:]); labels[name] = (n, [], N)
            if N != 0:
                assert norm(txt) in (norm('if (m.p)++; (m.p) == (m.pe) { goto _testEof%d }' % N), norm('if p++; p == pe { goto _testEof%d }' % N)), (name, txt)
            else:
                assert norm(txt) in ('m.cs = 0 goto _out', 'cs = 0 goto _out'), txt
        elif name.startswith('stCase'):
            N = int(name[6:])
            if N == 0: assert txt.strip() == ''; continue
            m = re.search(r'^\t\t(if|switch|goto|_widec)\b.*(data\)?\[|goto|_widec|\{$)', txt, re.M)
            # from-state actions come first; the dispatch starts at the first line testing the byte
            i = 0
            for i, l in enumerate(body):
                if re.match(r'^\t\t(goto (tr|st)\d+$|_widec = |switch \{|switch .*data\)?\[|switch _widec|if .*data\)?\[\(?(m\.)?p\)?\] |if \d+ <= .*data)', l): break
            frm = split_actions('\n'.join(body[:i]), cat)
            prog = P('\n'.join(body[i:])); prog = prog.stmts([])
            t0 = [ev(prog, b, False) for b in range(256)]; t1 = [ev(prog, b, True) for b in range(256)]
            states[N] = dict(line=n, frm=frm, t0=t0, t1=t1)
        elif re.match(r'_testEof\d+$', name):
            assert re.match(r'^(m\.)?cs = %s goto _testEof$' % name[8:], norm(txt)), (name, txt)
    # eof switch
    txt = '\n'.join(blocks['_testEof'][1]); base = blocks['_testEof'][0]
    eof = {}; cases = list(re.finditer(r'^\t\t\tcase ([\d, ]+):\n', txt, re.M))
    pre = norm(txt[:cases[0].start()])
    assert re.match(r'^\{ \} if \(?(m\.)?p\)? == \(?(m\.)?eof\)? \{ switch (m\.)?cs \{$', pre), pre
    for i, c in enumerate(cases):
        end = cases[i+1].start() if i+1 < len(cases) else txt.rindex('\t\t\t}\n\t\t}')
        acts = split_actions(txt[c.end():end], cat); line = base + 1 + txt[:c.start()].count('\n')
        for s in c.group(1).split(','): eof[int(s)] = (line, acts)
    # the jump table `switch cs { case N: goto stCaseN }`
    src = '\n'.join(lines)
    for a, b in re.findall(r'\t\tcase (\d+):\n\t\t\tgoto stCase(\d+)\n', src): assert a == b
    jt = set(int(a) for a, _ in re.findall(r'\t\tcase (\d+):\n\t\t\tgoto stCase(\d+)\n', src))
    assert jt - {0} == set(states), (jt ^ set(states))
    return states, labels, eof

if __name__ == '__main__':
    which = sys.argv[1]
    path, cat = {'5424': ('/repo/rfc5424/machine.go', A5424), '3164': ('/repo/rfc3164/machine.go', A3164), 'builder': ('/repo/rfc5424/builder.go', ABUILD)}[which]
    st, lb, eof = extract(path, cat)
    for N in sorted(st):
        s = st[N]
        def show(t):
            r, d = ranges(t)
            def lab(l):
                a = lb[l]; return (','.join(a[1]) + '>' if a[1] else '') + str(a[2])
            return ' '.join('%s:%s' % (lo if lo == hi else '%d-%d' % (lo, hi), lab(l)) for lo, hi, l in r) + ' | *:' + lab(d)
        print(N, 'L%d' % s['line'], s['frm'] or '', show(s['t0']), (' ||R3339|| ' + show(s['t1'])) if s['t0'] != s['t1'] else '', 'EOF', eof.get(N, ('', '-'))[1])
