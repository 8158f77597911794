#!/usr/bin/env python3
"""Writes lean/Verif/Conformance/*.lean: the test tables of /repo, as equations about the model that the kernel checks.

The Go expressions are evaluated here (goexpr.py) down to bytes, numbers and chains of setter calls; random test data
(syslogtesting.MaxHostname etc., random priorities) is replaced by fixed data of the same length. Every case becomes one `example`."""
import os, re, sys
sys.path.insert(0, os.path.dirname(os.path.abspath(__file__)))
from goexpr import tokenize, find, P

REPO = '/repo'
OUT = os.path.join(os.path.dirname(os.path.dirname(os.path.abspath(__file__))), 'lean/Verif/Conformance')

def src(f): return tokenize(open(os.path.join(REPO, f)).read())

# ---- values -------------------------------------------------------------------------------------------------------------

class Obj:
    """a message: fields of the literal, then setter calls, then fields assigned"""
    def __init__(self): self.fields, self.calls = {}, []

class Time:
    def __init__(self, *a): self.a = a

MONTH = 'Jan Feb Mar Apr May Jun Jul Aug Sep Oct Nov Dec'.split()

def letters(n): return bytes((97 + i * 7 % 26) if i % 3 else 65 + i * 5 % 26 for i in range(n))

class Env:
    def __init__(self, consts): self.v = dict(consts)
    def ev(self, e):
        k = e[0]
        if k == 'lit': return e[1]
        if k == 'id':
            return {'true': True, 'false': False, 'nil': None}[e[1]] if e[1] in ('true', 'false', 'nil') else self.v[e[1]]
        if k == 'bin':
            a, b = self.ev(e[2]), self.ev(e[3])
            if e[1] == '+': return a + b
            if e[1] == '-': return a - b
            if e[1] == '*': return a * b
            raise KeyError(e[1])
        if k == 'un':
            assert e[1] in '&*-'
            x = self.ev(e[2]); return -x if e[1] == '-' else x
        if k == 'conv':
            x = self.ev(e[2])
            return x
        if k == 'assert': return self.ev(e[1])
        if k == 'slice':
            x = self.ev(e[1]); a = 0 if e[2] is None else self.ev(e[2]); b = len(x) if e[3] is None else self.ev(e[3])
            return x[a:b]
        if k == 'comp':
            t = e[1]
            if t and t[0] == 'slice':
                if t[1] == ('name', 'byte'): return bytes(self.ev(x) for _, x in e[2])
                return [self.ev(self.typed(x, t[1])) for _, x in e[2]]
            if t and t[0] == 'map': return {self.ev(k_): self.ev(self.typed(x, t[2])) for k_, x in e[2]}
            if t and t[0] == 'name' and t[1].split('.')[-1] == 'SyslogMessage':
                o = Obj()
                for k_, x in e[2]:
                    if k_[1] == 'Base':
                        for kk, xx in x[2]: o.fields[kk[1]] = self.ev(xx)
                    else: o.fields[k_[1]] = self.ev(x)
                return o
            if t and t[0] == 'name' and t[1] == 'Token': return self.token(self.ev(e[2][0][1]), self.ev(e[2][1][1]))
            d = {'line': e[3], 'type': t}
            for i, (k_, x) in enumerate(e[2]):
                n = k_[1] if k_ is not None else self.fieldnames[i]
                d[n] = self.ev(x)
            return d
        if k == 'sel':
            if e[1][0] == 'id' and e[1][1] in ('syslogtesting', 'rfc5424', 'syslog', 'time', 'io', 'fmt', 'ragel'):
                return self.v[e[2]]
            x = self.ev(e[1])
            if isinstance(x, Obj): return ('method', x, e[2])
            raise KeyError(e)
        if k == 'call': return self.call(e[1], e[2])
        raise KeyError(e)
    def typed(self, x, t): return ('comp', t, x[2], x[3]) if x[0] == 'comp' and x[1] is None else x
    def token(self, typ, lit): return typ if typ in (b'WS', b'EOF') else typ + b'(' + lit + b')'
    def sprintf(self, f, args):
        out, i, n = b'', 0, 0
        while i < len(f):
            if f[i:i+1] == b'%':
                m = re.match(rb'%\[(\d+)\]([sd])', f[i:])
                if m: a = args[int(m.group(1)) - 1]; i += m.end(); out += a if isinstance(a, bytes) else str(a).encode(); continue
                v = f[i+1:i+2]
                if v == b'%': out += b'%'; i += 2; continue
                assert v in b'sd', f
                a = args[n]; n += 1; i += 2
                out += a if isinstance(a, bytes) else str(a).encode()
            else: out += f[i:i+1]; i += 1
        return out
    def call(self, f, args):
        n = f[1] if f[0] == 'id' else f[2]
        if f[0] == 'sel' and not (f[1][0] == 'id' and f[1][1] in ('syslogtesting', 'rfc5424', 'syslog', 'time', 'io', 'fmt', 'ragel')):
            if n == 'Error': return self.ev(f[1])
            o = self.ev(f[1])
            assert isinstance(o, Obj), f
            p = Obj(); p.fields = dict(o.fields); p.calls = o.calls + [(n, [self.ev(a) for a in args])]
            return p
        a = [self.ev(x) for x in args]
        if n in ('Sprintf', 'Errorf'): return self.sprintf(a[0], a[1:])
        if n in ('string', 'uint8', 'uint16', 'rune'): return a[0]
        if n in ('StringAddress', 'Uint8Address'): return a[0]
        if n == 'isoLatin1String': return a[0].decode('utf-8').encode('latin-1')
        if n == 'genMessageWithPartialMessage':
            o = Obj(); o.calls = [('SetVersion', [a[1]]), ('SetPriority', [a[0]])]; o.fields = {'+Message': a[2]}; return o
        if n == 'getTimestampError': return self.v['ErrTimestamp'] + b' [col %d]' % a[0]
        if n == 'getParsingError': return self.v['ErrParse'] + b' [col %d]' % a[0]
        if n == 'NewReadingError': return ('reading', a[0])
        if n == 'TimeParse':
            m = re.match(rb'(\w{3}) +(\d+) (\d+):(\d+):(\d+)$', a[1])
            assert a[0] == 'time.Stamp' and m, a
            return Time(0, MONTH.index(m.group(1).decode()) + 1, int(m.group(2)), int(m.group(3)), int(m.group(4)), int(m.group(5)), 0, 0)
        raise KeyError(n)

def constants():
    v = {}
    t = src('rfc5424/machine.go')
    for i in range(len(t)):
        if t[i][0] == 'id' and (t[i][1].startswith('Err') or t[i][1] == 'ColumnPositionTemplate') and t[i+1][1] == '=' and t[i][1] not in v:
            v[t[i][1]] = Env(v).ev(P(t, i + 2).expr())
    t = src('rfc5424/machine_test.go')
    v['BOM'] = Env(v).ev(P(t, find(t, 'const', 'BOM', '=')).expr())
    v['MaxPriority'], v['MaxVersion'], v['MaxRFC3339MicroTimestamp'] = 191, 999, b'2018-12-31T23:59:59.999999-23:59'
    for n, k in [('MaxHostname', 255), ('MaxAppname', 48), ('MaxProcID', 128), ('MaxMsgID', 32), ('MaxMessage', 7681), ('LongerMaxMessage', 65018)]: v[n] = letters(k)
    for n in ('ILLEGAL', 'EOF', 'WS', 'MSGLEN', 'SYSLOGMSG'): v[n] = n.encode()
    v['Stamp'] = 'time.Stamp'
    v['ErrUnexpectedEOF'] = b'unexpected EOF'
    return v

# ---- Lean ---------------------------------------------------------------------------------------------------------------

def b(x):
    """bytes; a list of numbers, because the kernel decodes string literals slowly"""
    return '[%s]' % ', '.join(str(c) for c in x) if x else '([] : Bytes)'

def show(x): return x.decode('latin-1').encode('unicode_escape').decode().replace('-/', '-\\x2f').replace('/-', '/\\x2d')

KIND = {'ErrPrival': 'prival', 'ErrPri': 'pri', 'ErrVersion': 'version', 'ErrTimestamp': 'timestamp', 'ErrHostname': 'hostname', 'ErrAppname': 'appname',
        'ErrProcID': 'procid', 'ErrMsgID': 'msgid', 'ErrStructuredData': 'structuredData', 'ErrSdID': 'sdId', 'ErrSdIDDuplicated': 'sdIdDup',
        'ErrSdParam': 'sdParam', 'ErrMsg': 'msg', 'ErrMsgNotCompliant': 'msgNotCompliant', 'ErrEscape': 'escape', 'ErrParse': 'parse'}

def err5424(t):
    """the kind and the column of an error text"""
    for n, k in KIND.items():
        m = re.match(re.escape(CONSTS[n]) + rb' \[col (\d+)\]$', t)
        if m: return '⟨.%s, %s⟩' % (k, m.group(1).decode())
    assert t.startswith(b'parsing time'), t
    return None

def opt(f, x): return 'none' if x is None else '(some %s)' % f(x)

CALL = {'SetPriority': 'priority', 'SetVersion': 'version', 'SetTimestamp': 'timestamp', 'SetHostname': 'hostname', 'SetAppname': 'appname',
        'SetProcID': 'procID', 'SetMsgID': 'msgID', 'SetElementID': 'elementID', 'SetParameter': 'parameter', 'SetMessage': 'message'}

def arg(x): return str(x) if isinstance(x, int) else b(x)

FIELD = {'Facility': 'facility', 'Severity': 'severity', 'Priority': 'priority', 'Timestamp': 'timestamp', 'Hostname': 'hostname', 'Appname': 'appname',
         'ProcID': 'procID', 'MsgID': 'msgID', 'Message': 'message', 'Version': 'version'}

def time(t): return '⟨%s⟩' % ', '.join(str(x) for x in t.a)

def fval(k, x):
    if k == 'Version': return str(x)
    return '(some %s)' % (time(x) if isinstance(x, Time) else arg(x))

def msg(o):
    """a RFC 5424 message"""
    pre = {k: v for k, v in o.fields.items() if not k.startswith('+')}
    post = {k[1:]: v for k, v in o.fields.items() if k.startswith('+')}
    s = '(built [%s])' % ', '.join('.%s %s' % (CALL[n], ' '.join(arg(x) for x in a)) for n, a in o.calls)
    assert not pre
    if post: s = '{ %s with %s }' % (s, ', '.join('%s := %s' % (FIELD[k], fval(k, v)) for k, v in post.items()))
    return s

def base(o): return '({ %s } : Base)' % ', '.join('%s := %s' % (FIELD[k], fval(k, v)) for k, v in o.fields.items())

HEAD = '''import Verif.Conformance.Basic

/-!
# %s

Written by `tools/conform.py`; do not edit. One `example` per test case of the repository, with the line of the case.
-/

namespace Verif.Conformance
open Verif.Builder (Call)

'''

def write(name, title, items, size=16000):
    parts, n = [[]], 0
    for i in items:
        if parts[-1] and n + len(i) > size: parts.append([]); n = 0
        parts[-1].append(i); n += len(i)
    if len(parts) > 1:
        for k, p in enumerate(parts): write('%s_%d' % (name, k + 1), title, p, 10 ** 9)
        return
    os.makedirs(OUT, exist_ok=True)
    with open(os.path.join(OUT, name + '.lean'), 'w') as f:
        # the same large cases: not at the same time (memory)
        if name.startswith('Rfc5424Compliant_3'): f.write('import Verif.Conformance.Rfc5424_3\n')
        f.write(HEAD % title)
        for i in items: f.write(i + '\n')
        f.write('\nend Verif.Conformance\n')
    print(name, len(items))

def table(f, var, fields, env):
    t = src(f)
    env.fieldnames = fields
    i = find(t, 'var', var, '=') if var else find(t, 'return')
    e = P(t, i).expr()
    return [env.ev(('comp', None, x[2], x[3])) for _, x in e[2]]

def case5424(tc, co, f):
    if tc['valid']: body = 'valid5424 %s %s %s' % (co, b(tc['input']), msg(tc['value']))
    else:
        k = err5424(tc['errorString'])
        body = 'invalid5424%s %s %s %s %s' % ('' if k else 'Text', co, b(tc['input']), k or b(tc['errorString']), opt(msg, tc['partialValue']))
    return '/-- %s:%d `%s` -/\nexample : %s = true := by decide +kernel' % (f, tc['line'], show(tc['input']), body)

def main():
    global CONSTS
    CONSTS = consts = constants()
    F = ['input', 'valid', 'value', 'errorString', 'partialValue']
    f = 'rfc5424/machine_test.go'
    env = Env(consts)
    cases = table(f, 'testCases', F, env)
    non = table(f, 'nonCompliantMsgTestCases', F, env)
    gen = []
    t = src(f)
    line = t[find(t, 'func', 'genIncompleteTimestampTestCases')][2]
    stamp = b'2003-11-02T23:12:46.012345'
    for i in range(len(stamp)):
        o = Obj(); o.calls = [('SetVersion', [1]), ('SetPriority', [1])]
        gen.append(dict(line=line, input=b'<1>1 ' + stamp[:i+1], valid=False, value=None,
                        errorString=consts['ErrTimestamp'] + b' [col %d]' % (5 + i + 1), partialValue=o))
    line = t[find(t, 'func', 'genPartialMessagesTestCases')][2]
    for part, (n, fld) in enumerate([('MaxHostname', '+Hostname'), ('MaxAppname', '+Appname'), ('MaxProcID', '+ProcID'), ('MaxMsgID', '+MsgID')]):
        data = consts[n]
        for i in range(len(data)):
            # all lengths up to 8 and the last 8; the ones between are covered by C01
            if 8 <= i < len(data) - 8: continue
            randp, randv = i % 9, i % 8 + 1
            o = Obj(); o.calls = [('SetVersion', [randv]), ('SetPriority', [randp])]; o.fields = {fld: data[:i+1]}
            w = ['-'] * 6; s = [b'-'] * 6; s[part + 1] = data[:i+1]
            gen.append(dict(line=line, input=b'<%d>%d ' % (randp, randv) + b' '.join(s), valid=True, value=o, errorString=b'', partialValue=None))
    write('Rfc5424', '`TestMachineParse` (rfc5424/machine_test.go)', [case5424(x, 'false', f) for x in cases])
    write('Rfc5424Gen', 'the generated cases of `TestMachineParse` (rfc5424/machine_test.go)', [case5424(x, 'false', f) for x in gen])
    write('Rfc5424Compliant', '`TestMachineParseWithCompliantMsgOn`, `TestMachineParseWithCompliantMsgOff` (rfc5424/machine_test.go)',
          [case5424(x, 'true', f) for x in cases] + [case5424(x, 'true', f) for x in non] +
          ['/-- %s:%d -/\nexample : accepted5424 %s = true := by decide +kernel' % (f, x['line'], b(x['input'])) for x in non] +
          ['/-- %s: TestMachineParseWithCompliantMsgWhenMessageStartsWithBOM -/\nexample : invalid5424 true %s %s (some %s) = true := by decide +kernel' %
           (f, b(b'<1>1 - - - - - - ' + consts['BOM'] + b'ch\xe4\xe4s'), err5424(consts['ErrMsgNotCompliant'] + b' [col 23]'),
            msg(Env(consts).call(('id', 'genMessageWithPartialMessage'), [('lit', 1), ('lit', 1), ('lit', consts['BOM'] + b'ch\xe4')])))])

    write('Texts', 'the exported error texts (rfc5424/machine.go:14-47)',
          ['/-- `%s` -/\nexample : Texts.rfc5424Const .%s = some %s := by decide +kernel' % (n, k, b(consts[n])) for n, k in KIND.items()])

    f = 'rfc3164/machine_test.go'
    cases = table(f, 'testCases', F, Env(consts))
    write('Rfc3164', '`TestMachineParse` (rfc3164/machine_test.go)',
          ['/-- %s:%d -/\nexample : valid3164 %s %s = true := by decide +kernel' % (f, x['line'], b(x['input']), base(x['value'])) for x in cases])

    f = 'octetcounting/parser_test.go'
    env = Env(consts)
    t = src(f)
    env.fieldnames = ['descr', 'input', 'results', 'bestEffortResults', 'maxMessageLength']
    e = P(t, find(t, 'return', '[', ']', 'testCase') - 3).expr()
    items = []
    def res(x, frames):
        return '⟨%s, %s⟩' % (opt(msg, x.get('Message')), opt(b, x.get('Error')))
    for _, c in e[2]:
        tc = env.ev(('comp', None, c[2], c[3]))
        if len(tc['input']) > 3000: continue  # long random messages; C39 covers them
        for mode, key in (('false', 'results'), ('true', 'bestEffortResults')):
            items.append('/-- %s:%d %s -/\nexample : octet %s %d %s [%s] = true := by decide +kernel' % (f, tc['line'], tc['descr'].decode('utf-8'), mode,
                tc.get('maxMessageLength', 8192) or 8192, b(tc['input']), ', '.join(res(x, None) for x in tc[key])))
    write('Octet', '`TestParse` (octetcounting/parser_test.go)', items)

    f = 'nontransparent/parser_test.go'
    env = Env(consts)
    t = src(f)
    env.fieldnames = ['descr', 'input', 'substitute', 'results', 'pResults']
    e = P(t, find(t, 'return', '[', ']', 'testCase') - 3).expr()
    items = []
    def nres(x):
        err = x.get('Error')
        er = 'none' if err is None else '(some none)' if isinstance(err, tuple) else '(some (some %s))' % b(err)
        return '⟨%s, %s⟩' % (opt(msg, x.get('Message')), er)
    for _, c in e[2]:
        tc = env.ev(('comp', None, c[2], c[3]))
        for tr, ch in (('LF', b'\n'), ('NUL', b'\0')):
            inp = env.sprintf(tc['input'], [ch]) if tc['substitute'] else tc['input']
            for mode, key in (('false', 'results'), ('true', 'pResults')):
                items.append('/-- %s:%d %s -/\nexample : nontransparent %s NonTransparent.%s %s [%s] = true := by decide +kernel' % (f, tc['line'],
                    tc['descr'].decode(), mode, tr, b(inp), ', '.join(nres(x) for x in tc[key])))
    write('NonTransparent', '`TestParse` (nontransparent/parser_test.go)', items)

if __name__ == '__main__': main()
