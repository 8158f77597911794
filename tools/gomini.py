#!/usr/bin/env python3
"""Transcribe the hand-written functions of /repo into the syntax of lean/Verif/Mini/Lang.lean  (writes lean/Verif/Gen/Mini.lean).

A recursive descent parser for the part of Go these functions use, and a syntax-directed emission.  Anything unknown aborts.
What it decides: which local variables are boxed (their address is taken), fresh names for shadowing declarations, which function a
selector call denotes (table CALLS; interface calls are dispatched by the model), zero values of the declared struct types.
"""
import re, sys
REPO = '/repo/'

# ------------------------------------------------------------------ scanner
TOK = re.compile(r'''(?P<ws>[ \t\r]+)|(?P<lc>//[^\n]*)|(?P<bc>/\*.*?\*/)|(?P<nl>\n)|(?P<num>0x[0-9a-fA-F]+|\d+)|(?P<id>[A-Za-z_]\w*)
|(?P<str>"(?:\\.|[^"\\])*")|(?P<raw>`[^`]*`)|(?P<chr>'(?:\\.|[^'\\])')
|(?P<op>:=|\+\+|--|\+=|-=|\*=|/=|>>=|<<=|==|!=|<=|>=|&&|\|\||<<|>>|\.\.\.|[-+*/%&|^!<>=(){}\[\],;.:])''', re.X | re.S)
def scan(src):
    toks = []; i = 0; line = 1; last = None
    while i < len(src):
        m = TOK.match(src, i); assert m, src[i:i+40]
        k = m.lastgroup; t = m.group()
        if k == 'nl' or k == 'lc' or k == 'bc': pass
        if k == 'nl':
            if last and (last[0] in ('num', 'str', 'raw', 'chr') or (last[0] == 'id' and last[1] not in KW) or last[1] in ('break', 'continue', 'fallthrough', 'return', '++', '--', ')', ']', '}')):
                toks.append(('op', ';', line)); last = None
        elif k not in ('ws', 'lc', 'bc'):
            toks.append((k, t, line)); last = (k, t)
        line += t.count('\n'); i = m.end()
    toks.append(('eof', '', line)); return toks
KW = {'break','case','const','continue','default','defer','else','fallthrough','for','func','if','import','interface','map','package','range','return','struct','switch','type','var','goto'}

# ------------------------------------------------------------------ parser
class Ps:
    def __init__(s, toks): s.t = toks; s.i = 0; s.nolit = False
    def pk(s, k=0): return s.t[s.i + k][1] if s.t[s.i+k][0] != 'str' and s.t[s.i+k][0] != 'raw' else '"'
    def kind(s): return s.t[s.i][0]
    def nx(s): r = s.t[s.i]; s.i += 1; return r
    def ex(s, x): r = s.nx(); assert r[1] == x, (r, x); return r
    def opt(s, x):
        if s.kind() == 'op' and s.pk() == x: s.i += 1; return True
        return False
    # types, kept as text
    def typ(s):
        if s.opt('*'): return '*' + s.typ()
        if s.opt('['):
            if s.opt('...'): s.ex(']'); return '[...]' + s.typ()
            s.ex(']'); return '[]' + s.typ()
        if s.opt('...'): return '...' + s.typ()
        if s.pk() == 'map': s.nx(); s.ex('['); k = s.typ(); s.ex(']'); return 'map[%s]%s' % (k, s.typ())
        if s.pk() == 'func': s.nx(); p = s.params(); r = s.result(); return 'func'
        if s.pk() == 'struct': s.nx(); s.ex('{'); s.ex('}'); return 'struct{}'
        n = s.nx(); assert n[0] == 'id', n
        r = n[1]
        if s.pk() == '.' : s.nx(); r += '.' + s.nx()[1]
        return r
    def params(s):
        s.ex('('); items = []
        while s.pk() != ')':
            if s.kind() == 'id' and s.pk(1) in (',', ')') : items.append((s.nx()[1], None))
            elif s.kind() == 'id' and s.pk(1) != '.' : n = s.nx()[1]; items.append((n, s.typ()))
            else: items.append((None, s.typ()))
            if not s.opt(','): break
        s.ex(')')
        if not any(n and t for n, t in items): return [(None, t or n) for n, t in items]
        t = None; out = []
        for n, ty in reversed(items):
            t = ty or t; out.append((n, t))
        return out[::-1]
    def result(s):
        if s.pk() == '(' : return s.params()
        if s.pk() in ('{', ';', ')', ',', '}'): return []
        return [(None, s.typ())]
    # expressions
    PREC = {'||': 1, '&&': 2, '==': 3, '!=': 3, '<': 3, '<=': 3, '>': 3, '>=': 3, '+': 4, '-': 4, '|': 4, '*': 5, '/': 5, '%': 5, '&': 5, '<<': 5, '>>': 5}
    def expr(s, p=1):
        a = s.unary()
        while s.kind() == 'op' and s.PREC.get(s.pk(), 0) >= p:
            o = s.nx()[1]; b = s.expr(s.PREC[o] + 1); a = ('bin', o, a, b)
        return a
    def unary(s):
        if s.kind() == 'op' and s.pk() in ('&', '*', '!', '-'):
            o = s.nx()[1]; return ('un', o, s.unary())
        return s.primary()
    def primary(s):
        k, t, l = s.t[s.i]
        if k == 'num': s.nx(); a = ('num', int(t, 0))
        elif k == 'str': s.nx(); a = ('str', unq(t))
        elif k == 'raw': s.nx(); a = ('str', t[1:-1].encode())
        elif k == 'chr': s.nx(); a = ('num', unq(t)[0])
        elif t == '(':
            s.nx(); o = s.nolit; s.nolit = False; a = s.expr(); s.nolit = o; s.ex(')')
        elif t == '[' or t == 'map':
            ty = s.typ()
            if s.pk() == '{': a = s.lit(ty)
            else: s.ex('('); e = s.expr(); s.ex(')'); a = ('conv', ty, e)
        elif t == 'func':
            s.nx(); ps = s.params(); rs = s.result(); b = s.block(); a = ('func', ps, b)
        else:
            assert k == 'id', (k, t, l); s.nx(); a = ('id', t)
        while s.kind() == 'op':
            t = s.pk()
            if t == '.':
                s.nx()
                if s.opt('('): s.typ(); s.ex(')'); a = ('assert', a)
                else: a = ('sel', a, s.nx()[1])
            elif t == '(':
                s.nx(); o = s.nolit; s.nolit = False; args = []; ell = False
                while s.pk() != ')':
                    if s.kind() == 'op' and s.pk() == '[' and s.pk(1) == ']': # a type argument of make
                        j = s.i; ty = s.typ()
                        if s.pk() in (',', ')'): args.append(('type', ty))
                        else: s.i = j; args.append(s.expr())
                    else: args.append(s.expr())
                    if s.opt('...'): ell = True
                    if not s.opt(','): break
                s.ex(')'); s.nolit = o; a = ('call', a, args, ell)
            elif t == '[':
                s.nx(); o = s.nolit; s.nolit = False
                lo = None if s.pk() == ':' else s.expr()
                if s.opt(':'):
                    hi = None if s.pk() == ']' else s.expr(); a = ('slice', a, lo, hi)
                else: a = ('index', a, lo)
                s.ex(']'); s.nolit = o
            elif t == '{' and not s.nolit and (a[0] == 'id' or (a[0] == 'sel' and a[1][0] == 'id')):
                a = s.lit(a[1] if a[0] == 'id' else a[1][1] + '.' + a[2])
            else: break
        return a
    def lit(s, ty):
        s.ex('{'); o = s.nolit; s.nolit = False; els = []
        while s.pk() != '}':
            while s.opt(';'): pass
            a = s.expr()
            if s.opt(':'): els.append((a, s.expr()))
            else: els.append((None, a))
            if not s.opt(','): break
            while s.opt(';'): pass
        while s.opt(';'): pass
        s.ex('}'); s.nolit = o; return ('lit', ty, els)
    # statements
    def block(s):
        s.ex('{'); r = []
        o = s.nolit; s.nolit = False
        while s.pk() != '}':
            if s.opt(';'): continue
            r.append(s.stmt())
        s.ex('}'); s.nolit = o; return r
    def simple(s):
        if s.kind() == 'id' and s.pk() == 'var':
            s.nx(); n = s.nx()[1]
            if s.opt('='): return ('def', [('id', n)], [s.expr()])
            return ('var', n, s.typ())
        l = [s.expr()]
        while s.opt(','): l.append(s.expr())
        t = s.pk()
        if t in ('++', '--'): s.nx(); return ('opset', t[0], l[0], ('num', 1))
        if t in ('+=', '-=', '*=', '>>='): s.nx(); return ('opset', t[:-1], l[0], s.expr())
        if t in (':=', '='):
            s.nx()
            if s.pk() == 'range': s.nx(); return ('range', l, s.expr())
            r = [s.expr()]
            while s.opt(','): r.append(s.expr())
            return ('def' if t == ':=' else 'set', l, r)
        assert len(l) == 1; return ('expr', l[0])
    def stmt(s):
        t = s.pk()
        if t == 'return':
            s.nx(); r = []
            while s.pk() not in (';', '}'):
                r.append(s.expr())
                if not s.opt(','): break
            return ('ret', r)
        if t == 'break': s.nx(); return ('brk',)
        if t == 'fallthrough': s.nx(); return ('fall',)
        if t == 'defer': s.nx(); return ('defer', s.expr())
        if t == '{': return ('block', s.block())
        if t == 'if':
            s.nx(); s.nolit = True; a = s.simple(); ini = None
            if s.opt(';'): ini = a; a = s.simple()
            s.nolit = False; assert a[0] == 'expr', a
            th = s.block(); el = []
            if s.kind() == 'id' and s.pk() == 'else':
                s.nx(); el = [s.stmt()] if s.pk() == 'if' else s.block()
            r = ('if', a[1], th, el)
            return ('block', [ini, r]) if ini else r
        if t == 'for':
            s.nx(); s.nolit = True
            if s.pk() == '{': s.nolit = False; return ('for', None, None, None, s.block())
            a = s.simple() if s.pk() != ';' else None
            if a and a[0] == 'range': s.nolit = False; return ('rangefor', a[1], a[2], s.block())
            s.ex(';'); c = s.expr(); s.ex(';')
            p = s.simple() if s.pk() != '{' else None
            s.nolit = False; return ('for', a, c, p, s.block())
        if t == 'switch':
            s.nx(); s.nolit = True; e = s.expr(); s.nolit = False; s.ex('{'); cs = []
            while s.pk() != '}':
                if s.opt(';'): continue
                if s.pk() == 'default': s.nx(); vs = None
                else:
                    s.ex('case'); vs = [s.expr()]
                    while s.opt(','): vs.append(s.expr())
                s.ex(':'); b = []
                while s.pk() not in ('case', 'default', '}'):
                    if s.opt(';'): continue
                    b.append(s.stmt())
                cs.append((vs, b))
            s.ex('}'); return ('switch', e, cs)
        return s.simple()
def unq(s):
    q = s[0]; s = s[1:-1]; out = b''; i = 0
    while i < len(s):
        if s[i] == '\\': out += {'n': b'\n', 't': b'\t', '\\': b'\\', '"': b'"', "'": b"'"}[s[i+1]]; i += 2
        else: out += s[i].encode(); i += 1
    return out

# ------------------------------------------------------------------ files
class File:
    def __init__(s, path, pkg):
        s.path = path; s.pkg = pkg; s.src = open(REPO + path).read()
    def func(s, head):
        """the function whose declaration starts with `func ` + head"""
        i = s.src.index('\nfunc ' + head) + 1; j = s.src.index('\n}', i) + 2
        if '\n' not in s.src[i:s.src.index('\n', i) + 1].strip('\n') and s.src[i:s.src.index('\n', i)].endswith('}'): j = s.src.index('\n', i)
        l0 = s.src.count('\n', 0, i) + 1; l1 = s.src.count('\n', 0, j) + 1
        p = Ps(scan(s.src[i:j] + '\n')); p.ex('func')
        recv = p.params()[0] if p.pk() == '(' else None
        name = p.nx()[1]; ps = p.params(); rs = p.result(); body = p.block()
        return dict(recv=recv, name=name, params=ps, results=rs, body=body, l0=l0, l1=l1, file=s)
    def struct(s, name):
        m = re.search(r'^type %s struct \{(.*?)^\}' % name, s.src, re.S | re.M); out = []
        if not m: assert re.search(r'^type %s struct\{\}' % name, s.src, re.M), name; return []
        for l in m.group(1).split('\n'):
            l = re.sub(r'//.*', '', l).strip()
            if not l: continue
            w = re.match(r'(\w+(?:, \w+)*)\s+(\S.*)$', l)
            if w: out += [(n.strip(), w.group(2).strip()) for n in w.group(1).split(',')]
            else: out.append((None, l))
        return out

NAMES = {}
def nm(x):
    NAMES[x] = 1
    return '.' + ('«%s»' % x if x in LEANKW else x)
LEANKW = {'at', 'end', 'from', 'in', 'then', 'do', 'if', 'else', 'let', 'have', 'match', 'with', 'open', 'set', 'prefix', 'section', 'variable', 'by', 'fun', 'where', 'mutual', 'export', 'type', 'Type', 'sort', 'Sort', 'Prop'}

def byts(b): return '(ascii %s)' % lstr(b)
def lstr(b):
    return '"' + b.decode().replace('\\', '\\\\').replace('"', '\\"').replace('\n', '\\n') + '"'

INT = {'int': 'int', 'uint8': 'u8', 'byte': 'u8', 'uint16': 'u16', 'uint64': 'u64', 'int64': 'int', 'TokenType': 'int', 'TrailerType': 'int', 'entrypoint': 'int', 'rune': 'rune'}

# ------------------------------------------------------------------ what is transcribed
F = {k: File(*v) for k, v in dict(
  fun=('common/functions.go', 'common'), fac=('common/facility.go', 'common'), sev=('common/severity.go', 'common'),
  base=('syslog.go', 'syslog'), opt=('options.go', 'syslog'),
  m5=('rfc5424/syslog_message.go', 'rfc5424'), bld=('rfc5424/builder.go', 'rfc5424'), p5=('rfc5424/parser.go', 'rfc5424'),
  o5=('rfc5424/options.go', 'rfc5424'), k5=('rfc5424/machine.go', 'rfc5424'),
  m3=('rfc3164/syslog_message.go', 'rfc3164'), p3=('rfc3164/parser.go', 'rfc3164'), o3=('rfc3164/options.go', 'rfc3164'),
  k3=('rfc3164/machine.go', 'rfc3164'), y3=('rfc3164/year.go', 'rfc3164'),
  sc=('octetcounting/scanner.go', 'octetcounting'), tk=('octetcounting/tokens.go', 'octetcounting'), po=('octetcounting/parser.go', 'octetcounting'),
  pn=('nontransparent/parser.go', 'nontransparent'), tt=('nontransparent/trailer_type.go', 'nontransparent'), te=('testing/testing.go', 'testing')).items()}

# struct types: Lean name -> (file, Go name); embedded structs are flattened
STRUCT = {'rfc5424_syslogMessage': ('m5', 'syslogMessage'), 'rfc5424_SyslogMessage': ('m5', 'SyslogMessage'), 'rfc3164_syslogMessage': ('m3', 'syslogMessage'),
  'rfc3164_SyslogMessage': ('m3', 'SyslogMessage'), 'rfc5424_machine': ('k5', 'machine'), 'rfc3164_machine': ('k3', 'machine'),
  'rfc5424_parser': ('p5', 'parser'), 'rfc3164_parser': ('p3', 'parser'), 'octetcounting_Scanner': ('sc', 'Scanner'), 'octetcounting_Token': ('tk', 'Token'),
  'octetcounting_parser': ('po', 'parser'), 'nontransparent_machine': ('pn', 'machine'), 'syslog_Result': ('base', 'Result'), 'syslog_Base': ('base', 'Base'),
  'rfc3164_YearOperation': ('y3', 'YearOperation'), 'rfc3164_Year': ('y3', 'Year'), 'rfc3164_CurrentYear': ('y3', 'CurrentYear')}
def styp(pkg, t):
    k = t.replace('.', '_') if '.' in t else pkg + '_' + t
    return k if k in STRUCT else None
def zero(pkg, t):
    if t in INT: return '.int .%s 0' % INT[t]
    if t in ('YearOperator', 'error', 'syslog.Machine', 'syslog.ParserListener', 'Message') or t[0] == '*' or t.startswith('[]') or t.startswith('map['): return '.nil'
    if t == 'bool': return '.bool false'
    if t == 'string': return '.str []'
    if t == 'time.Time': return '.ext (.time Rfc5424.zeroTime)'
    if t == 'bytes.Buffer': return '.str []'
    if t == 'sync.Mutex': return '.bool false'
    if styp(pkg, t): return 'Zero.' + styp(pkg, t)
    raise Exception((pkg, t))
def fields(key):
    f, n = STRUCT[key]; out = []
    for x, t in F[f].struct(n):
        if x is None and t == 'syslog.Base': out += fields('syslog_Base')
        elif x is None and t == '*machine': out.append(('machine', '.nil'))
        elif x is None and t == 'sync.Mutex': out.append(('Mutex', '.bool false'))
        else: out.append((x, zero(F[f].pkg, t)))
    return out

# package level names that are never assigned: constants and tables, inlined
def const_int(f, name): return int(re.search(r'\b%s(?: int)? = (?:byte\()?(\d+)' % name, F[f].src).group(1))
CONST = {}
for n in ('eof', 'ws', 'lt'): CONST['octetcounting', n] = '(.lit (.int .u8 %d))' % const_int('sc', n)
def iota(f, ty):
    m = re.search(r'const \(\n((?:(?!\n\)).)*?\b%s = iota.*?)\n\)' % ty, F[f].src, re.S)
    ns = [re.sub(r'//.*', '', l).strip() for l in m.group(1).split('\n')]
    return [l.split()[0] for l in ns if l]
for f, ty in (('tk', 'TokenType'), ('tt', 'TrailerType'), ('bld', 'entrypoint')):
    for i, n in enumerate(iota(f, ty)): CONST[F[f].pkg, n] = '(.lit (.int .int %d))' % i
for n in re.findall(r'^const (builder\w+) int', F['bld'].src, re.M): CONST['rfc5424', n] = '(.lit (.int .int %d))' % const_int('bld', n)
CONST['octetcounting', 'tokentypename'] = '(.lit (.str (ascii "%s")))' % re.search(r'tokentypename = "(\w+)"', F['tk'].src).group(1)
CONST['octetcounting', 'tokentypeindex'] = '(.lit (.arr [%s]))' % ', '.join('.int .u8 ' + x for x in re.search(r'tokentypeindex = \[\.\.\.\]uint8\{(.*?)\}', F['tk'].src).group(1).split(', '))
CONST['nontransparent', 'names'] = '(.lit (.arr [%s]))' % ', '.join('.str (ascii %s)' % x for x in re.search(r'names = \[\.\.\.\]string\{(.*?)\}', F['tt'].src).group(1).split(', '))
CONST['nontransparent', 'bytes'] = '(.lit (.arr [%s]))' % ', '.join('.int .int ' + x for x in re.search(r'bytes = \[\]int\{(.*?)\}', F['tt'].src).group(1).split(', '))
TABLES = {}
for f in ('fac', 'sev'):
    for n, b in re.findall(r'^var (\w+) = map\[uint8\]string\{\n(.*?)^\}', F[f].src, re.S | re.M):
        TABLES[n] = (f, re.findall(r'(\d+):\s+"([^"]*)"', b))
        CONST['common', n] = '(.lit (.tbl Table.%s))' % n
CONST['testing', 'letterBytes'] = '(.lit (.str (ascii "%s")))' % re.search(r'letterBytes   = "(\w+)"', F['te'].src).group(1)
CONST['testing', 'letterIdxBits'] = '(.lit (.int .const 6))'; CONST['testing', 'letterIdxMask'] = '(.lit (.int .const 63))'; CONST['testing', 'letterIdxMax'] = '(.lit (.int .const 10))'
assert 'letterIdxBits = 6  ' in F['te'].src and 'letterIdxMask = 1<<letterIdxBits - 1' in F['te'].src and 'letterIdxMax  = 63 / letterIdxBits' in F['te'].src
GLOB = {('rfc5424', 'currentid'), ('rfc5424', 'currentparamname')}

def text(e):
    k = e[0]
    if k == 'id': return e[1]
    if k == 'sel': return text(e[1]) + '.' + e[2]
    if k == 'call': return text(e[1]) + '()'
    if k == 'lit': return e[1] + '{}'
    if k == 'assert': return text(e[1])
    if k == 'un': return e[1] + text(e[2])
    return '?'
# callee text, per package -> (function, how the receiver is passed: None, 'ptr' (value of the expression), 'addr' (&field), 'box' (&local))
EXT = {}
def x(n): EXT[n] = 1; return n
CALLS = {
 'common': {'InBetween': ('common_InBetween', None)},
 'syslog': {'common.ValidPriority': ('common_ValidPriority', None)},
 'rfc5424': {'common.ValidPriority': ('common_ValidPriority', None), 'common.ValidVersion': ('common_ValidVersion', None), 'common.EscapeBytes': ('common_EscapeBytes', None),
   'out.ComputeFromPriority': ('syslog_Base_ComputeFromPriority', 'ptr'), 'sm.ComputeFromPriority': ('syslog_Base_ComputeFromPriority', 'ptr'),
   'sm.Base.Valid': ('syslog_Base_Valid', 'base'), 'sm.Valid': ('rfc5424_SyslogMessage_Valid', 'ptr'), 'sm.set': (x('rfc5424_SyslogMessage_set'), 'ptr'),
   'fmt.Errorf': (x('fmt_Errorf'), None), 'fmt.Sprintf': (x('fmt_Sprintf'), None), 'sort.Strings': (x('sort_Strings'), None), 'sm.Timestamp.Format': (x('time_Format'), 'ptr'),
   'NewMachine': ('rfc5424_NewMachine', None), 'p.machine.Parse': (x('rfc5424_machine_Parse'), 'ptr'), 'p.Lock': (x('sync_Lock'), 'mutex'), 'p.Unlock': (x('sync_Unlock'), 'mutex')},
 'rfc3164': {'common.ValidPriority': ('common_ValidPriority', None), 'out.ComputeFromPriority': ('syslog_Base_ComputeFromPriority', 'ptr'),
   'NewMachine': ('rfc3164_NewMachine', None), 'p.machine.Parse': (x('rfc3164_machine_Parse'), 'ptr'), 'p.Lock': (x('sync_Lock'), 'mutex'), 'p.Unlock': (x('sync_Unlock'), 'mutex'),
   'm.WithYear': ('rfc3164_machine_WithYear', 'ptr'), 'm.WithTimezone': ('rfc3164_machine_WithTimezone', 'ptr'), 'm.WithLocaleTimezone': ('rfc3164_machine_WithLocaleTimezone', 'ptr'),
   'm.WithRFC3339': ('rfc3164_machine_WithRFC3339', 'ptr'), 'YearOperation{}.Operate': ('rfc3164_YearOperation_Operate', 'ptr'), 'time.Now': (x('time_Now'), None), 'time.Now().Year': (x('time_Year'), 'ptr')},
 'octetcounting': {'bufio.NewReaderSize': (x('bufio_NewReaderSize'), None), 's.r.ReadByte': (x('bufio_ReadByte'), 'ptr'), 's.r.UnreadByte': (x('bufio_UnreadByte'), 'ptr'),
   's.r.Peek': (x('bufio_Peek'), 'ptr'), 's.r.Discard': (x('bufio_Discard'), 'ptr'), 's.read': ('octetcounting_Scanner_read', 'ptr'), 's.unread': ('octetcounting_Scanner_unread', 'ptr'),
   's.scanMsgLen': ('octetcounting_Scanner_scanMsgLen', 'ptr'), 's.scanSyslogMsg': ('octetcounting_Scanner_scanSyslogMsg', 'ptr'), 'isDigit': ('octetcounting_isDigit', None),
   'isNonZeroDigit': ('octetcounting_isNonZeroDigit', None), 'buf.WriteByte': (x('bytes_WriteByte'), 'box'), 'buf.String': (x('bytes_String'), 'box'), 'buf.Bytes': (x('bytes_Bytes'), 'box'),
   'strconv.ParseUint': (x('strconv_ParseUint'), None), 'strconv.FormatInt': (x('strconv_FormatInt'), None), 'NewScanner': ('octetcounting_NewScanner', None), 'p.run': ('octetcounting_parser_run', 'ptr'), 'p.scan': ('octetcounting_parser_scan', 'ptr'),
   'p.unscan': ('octetcounting_parser_unscan', 'ptr'), 'p.parse': ('octetcounting_parser_parse', 'ptr'), 'p.s.Scan': ('octetcounting_Scanner_Scan', 'addr'),
   'p.internal.Parse': (x('rfc5424_machine_Parse'), 'ptr'), 'fmt.Errorf': (x('fmt_Errorf'), None), 't.typ.String': ('octetcounting_TokenType_String', 'ptr'),
   'rfc5424.NewMachine': ('rfc5424_NewMachine', None), 'rfc5424.WithBestEffort': ('rfc5424_WithBestEffort', None)},
 'nontransparent': {'m.process': ('nontransparent_machine_process', 'ptr'), 'm.internal.Parse': (x('rfc5424_machine_Parse'), 'ptr'), 't.Value': ('nontransparent_TrailerType_Value', 'ptr'),
   'm.trailertyp.Value': ('nontransparent_TrailerType_Value', 'ptr'), 'rfc5424.NewMachine': ('rfc5424_NewMachine', None), 'rfc5424.WithBestEffort': ('rfc5424_WithBestEffort', None),
   'fmt.Errorf': (x('fmt_Errorf'), None), 'strings.ToUpper': (x('strings_ToUpper'), None), 'TrailerTypeFromString': ('nontransparent_TrailerTypeFromString', None),
   't.UnmarshalText': ('nontransparent_TrailerType_UnmarshalText', 'ptr'), 't.String': ('nontransparent_TrailerType_String', 'ptr'),
   'parser.ArbitraryReader': (x('ragel_ArbitraryReader'), None), 'parser.New': (x('ragel_New'), None), 'parser.WithStart': (x('ragel_WithStart'), None), 'parser.New().Parse': (x('ragel_Parse'), 'ptr')},
 'testing': {'strings.Repeat': (x('strings_Repeat'), None), 'rand.NewSource': (x('rand_NewSource'), None), 'time.Now': (x('time_Now'), None), 'time.Now().UnixNano': (x('time_UnixNano'), 'ptr'),
   'src.Int63': (x('rand_Int63'), 'ptr'), 'time.Parse': (x('time_Parse'), None), 'time.Date': (x('time_Date'), None), 'time.Now().Year': (x('time_Year'), 'ptr'), 'time.Month': (x('time_Month'), None)},
}
# calls of function values, and calls through interfaces
VALUES = {('octetcounting', 'p.emit'), ('nontransparent', 'm.emit'), ('octetcounting', 'opt'), ('nontransparent', 'opt'), ('rfc5424', 'opt'), ('rfc3164', 'opt')}
DYN = {('syslog', 'p.WithListener'), ('syslog', 'p.WithBestEffort'), ('syslog', 'p.WithMaxMessageLength'), ('rfc5424', 'm.WithBestEffort'), ('rfc3164', 'm.WithBestEffort'), ('rfc3164', 'y.Operator.Apply')}
NONLOCAL = {'UTC': "(.lit (.ext .utc))"}

class Em:
    def __init__(s, d, name, captured=()):
        s.d = d; s.pkg = d['file'].pkg; s.name = name; s.used = set(); s.scopes = [{}]; s.extra = []; s.tmp = 0
        s.boxed = set(); s.find(d['body'])
    def find(s, t):
        """variables whose address is taken, and bytes.Buffer variables"""
        if isinstance(t, tuple):
            if t[:2] == ('un', '&') and t[2][0] == 'id': s.boxed.add(t[2][1])
            if t[0] == 'var' and t[2] == 'bytes.Buffer': s.boxed.add(t[1])
        if isinstance(t, (tuple, list)):
            for y in t: s.find(y)
    def declare(s, x):
        n = x; k = 2
        while n in s.used: n = '%s_%d' % (x, k); k += 1
        s.used.add(n); s.scopes[-1][x] = n; return n
    def look(s, x):
        for sc in reversed(s.scopes):
            if x in sc: return sc[x]
    # expressions
    def e(s, a):
        k = a[0]
        if k == 'num': return '(.lit (.int .const %d))' % a[1]
        if k == 'str': return '(.lit (.str %s))' % (byts(a[1]) if a[1] else '[]')
        if k == 'id':
            x = a[1]; n = s.look(x)
            if n: return '(.deref (.var %s))' % nm(n) if x in s.boxed else '(.var %s)' % nm(n)
            if x == 'nil': return '(.lit .nil)'
            if x in ('true', 'false'): return '(.lit (.bool %s))' % x
            if (s.pkg, x) in CONST: return CONST[s.pkg, x]
            if (s.pkg, x) in GLOB: return '(.glob %s)' % nm(x)
            raise Exception(('name', s.name, x))
        if k == 'sel':
            if a[1][0] == 'id' and not s.look(a[1][1]):
                if (a[1][1], a[2]) in CONST: return CONST[a[1][1], a[2]]
                if a[1][1] == 'time' and a[2] in NONLOCAL: return NONLOCAL[a[2]]
                raise Exception(('sel', s.name, a))
            if s.pkg in ('rfc5424', 'rfc3164') and s.d['recv'] and s.d['recv'][1] == '*parser' and a[2] == 'bestEffort': # promoted through *machine
                return '(.field (.field %s %s) %s)' % (s.e(a[1]), nm('machine'), nm(a[2]))
            return '(.field %s %s)' % (s.e(a[1]), nm(a[2]))
        if k == 'un':
            o, b = a[1], a[2]
            if o == '*': return '(.deref %s)' % s.e(b)
            if o == '!': return '(.not %s)' % s.e(b)
            if o == '-' and b[0] == 'num': return '(.lit (.int .const (-%d)))' % b[1]
            if o == '&':
                if b[0] == 'id': assert s.look(b[1]); return '(.var %s)' % nm(s.look(b[1]))
                if b[0] == 'sel': return '(.addr %s %s)' % (s.e(b[1]), nm(b[2]))
                if b[0] == 'lit': return '(.new %s)' % s.e(b)
            raise Exception(a)
        if k == 'bin':
            o = a[1]
            if o == '&&': return '(.and %s %s)' % (s.e(a[2]), s.e(a[3]))
            if o == '||': return '(.or %s %s)' % (s.e(a[2]), s.e(a[3]))
            return '(.bin .%s %s %s)' % ({'+': 'add', '-': 'sub', '*': 'mul', '/': 'div', '%': 'mod', '==': 'eq', '!=': 'ne', '<': 'lt', '<=': 'le', '>': 'gt', '>=': 'ge', '&': 'band', '>>': 'shr'}[o], s.e(a[2]), s.e(a[3]))
        if k == 'assert': return s.e(a[1])
        if k == 'index': return '(.index %s %s)' % (s.e(a[1]), s.e(a[2]))
        if k == 'slice': return '(.sub %s %s %s)' % (s.e(a[1]), s.e(a[2]) if a[2] else '(.lit .nil)', s.e(a[3]) if a[3] else '(.lit .nil)')
        if k == 'conv':
            if a[1] == '[]byte' and a[2] == ('id', 'nil'): return '(.lit .nil)'
            if a[1] == '[]byte': return '(.toBytes %s)' % s.e(a[2])
            raise Exception(a)
        if k == 'lit':
            if a[1] == '[]byte': return '(.byteLit %s)' % s.args([v for _, v in a[2]])
            t = styp(s.pkg, a[1]); assert t, a
            fs = fields(t); key = []
            for i, (kk, v) in enumerate(a[2]): key.append(kk[1] if kk else fs[i][0])
            assert all(q in [z for z, _ in fs] for q in key), a
            if not a[2]: return '(.lit Zero.%s)' % t
            return '(.mk Zero.%s [%s] %s)' % (t, ', '.join(nm(q) for q in key), s.args([v for _, v in a[2]]))
        if k == 'func':
            caps = []
            def go(t, bound):
                if isinstance(t, tuple) and t and t[0] == 'id' and t[1] not in bound and s.look(t[1]) and t[1] not in caps: caps.append(t[1])
                if isinstance(t, (tuple, list)):
                    for y in t: go(y, bound)
            go(a[2], {n for n, _ in a[1]})
            f = s.name + '_fn' + (str(len(s.extra) + 1) if s.extra else '')
            d = dict(s.d); d['recv'] = None; d['params'] = [(c, None) for c in caps] + a[1]; d['results'] = []; d['body'] = a[2]
            assert not any(c in s.boxed for c in caps)
            s.extra.append((f, d)); return '(.clo %s %s)' % (nm(f), s.args([('id', c) for c in caps]))
        if k == 'call': return s.call(a)
        raise Exception(a)
    def args(s, l):
        return '.unit' if not l else '(.cons %s %s)' % (s.e(l[0]), s.args(l[1:]))
    def call(s, a):
        f, args, ell = a[1], a[2], a[3]; t = text(f)
        if t == 'len': return '(.len %s)' % s.e(args[0])
        if t == 'append':
            assert len(args) == 2; return '(.%s %s %s)' % ('appendAll' if ell else 'append', s.e(args[0]), s.e(args[1]))
        if t == 'make':
            if args[0] == ('type', '[]string'): assert args[1] == ('num', 0); return '(.lit (.slice 0 0 0 0))'
            if args[0] == ('type', '[]byte'): return '(.makeBytes %s)' % s.e(args[1])
        if t in INT and len(args) == 1: return '(.conv .%s %s)' % (INT[t], s.e(args[0]))
        if t == 'string': return '(.toStr %s)' % s.e(args[0])
        if (s.pkg, t) in VALUES: return '(.callVal %s %s)' % (s.e(f), s.args(args))
        if (s.pkg, t) in DYN: return '(.dyn %s %s %s)' % (s.e(f[1]), nm(f[2]), s.args(args))
        g, how = CALLS[s.pkg][t]
        if g in ('syslog_WithListener',): pass
        if ell: assert g.endswith('NewMachine')
        elif g.endswith('NewMachine'): # variadic
            return '(.call %s (.cons (.sliceLit %s) .unit))' % (nm(g), s.args(args))
        r = {None: [], 'ptr': lambda: s.e(f[1]), 'base': lambda: s.e(f[1][1]), 'addr': lambda: '(.addr %s %s)' % (s.e(f[1][1]), nm(f[1][2])),
             'box': lambda: '(.var %s)' % nm(s.look(f[1][1])), 'mutex': lambda: '(.addr %s .Mutex)' % s.e(f[1])}[how]
        if how == 'mutex': nm('Mutex')
        al = s.args(args)
        return '(.call %s %s)' % (nm(g), '(.cons %s %s)' % (r(), al) if how else al)
    # statements: a list of Lean terms
    def assign(s, l, v):
        """assignment of the Lean expression v to the Go lvalue l"""
        if l[0] == 'id':
            x = l[1]; n = s.look(x)
            if n: return '.store (.var %s) %s' % (nm(n), v) if x in s.boxed else '.assign %s %s' % (nm(n), v)
            assert (s.pkg, x) in GLOB, x; return '.setGlob %s %s' % (nm(x), v)
        if l[0] == 'sel': return '.store (.addr %s %s) %s' % (s.e(l[1]), nm(l[2]), v)
        if l[0] == 'un' and l[1] == '*': return '.store %s %s' % (s.e(l[2]), v)
        if l[0] == 'index': return '.setIdx %s %s %s' % (s.e(l[1]), s.e(l[2]), v)
        raise Exception(l)
    def fresh(s): s.tmp += 1; return s.declare('tmp%d' % s.tmp)
    def multi(s, k, l, r):
        out = []
        if len(r) == len(l) and len(l) > 1:
            ts = [s.fresh() for _ in l]
            dflt = lambda v: v.replace('.const', '.int') if v.startswith('(.lit (.int .const') else v
            out += ['.assign %s %s' % (nm(t), dflt(s.e(v))) for t, v in zip(ts, r)]
            for a, t in zip(l, ts):
                if k == 'def' and a[1] not in s.scopes[-1]: s.declare(a[1]); assert a[1] not in s.boxed
                out.append(s.assign(a, '(.var %s)' % nm(t)))
            return out
        assert len(r) == 1; r = r[0]
        if r[0] == 'index': v = '(.indexOk %s %s)' % (s.e(r[1]), s.e(r[2]))
        else: v = s.e(r)
        names = []; after = []
        for a in l:
            if a == ('id', '_'): names.append('none'); continue
            if a[0] == 'id':
                if k == 'def' and a[1] not in s.scopes[-1]: s.declare(a[1])
                if s.look(a[1]) and a[1] not in s.boxed: names.append('some ' + nm(s.look(a[1]))); continue
                if k == 'def':
                    t = s.fresh(); names.append('some ' + nm(t)); after.append('.assign %s (.new (.var %s))' % (nm(s.look(a[1])), nm(t))); continue
            t = s.fresh(); names.append('some ' + nm(t)); after.append(s.assign(a, '(.var %s)' % nm(t)))
        return ['.multi [%s] %s' % (', '.join(names), v)] + after
    def st(s, a, ind):
        k = a[0]
        if k == 'def' and len(a[1]) == 1 and a[1][0][1] != '_':
            v = s.e(a[2][0]); x = a[1][0][1]; n = s.declare(x)
            if '.int .const' in v and v.startswith('(.lit '): v = v.replace('.const', '.int')
            return ['.assign %s (.new %s)' % (nm(n), v) if x in s.boxed else '.assign %s %s' % (nm(n), v)]
        if k == 'var':
            n = s.declare(a[1]); z = '(.lit (%s))' % zero(s.pkg, a[2])
            return ['.assign %s (.new %s)' % (nm(n), z) if a[1] in s.boxed else '.assign %s %s' % (nm(n), z)]
        if k == 'set' and len(a[1]) == 1:
            if a[1][0] == ('id', '_'): return ['.expr ' + s.e(a[2][0])]
            return [s.assign(a[1][0], s.e(a[2][0]))]
        if k in ('def', 'set'): return s.multi(k, a[1], a[2])
        if k == 'opset': return [s.assign(a[2], s.e(('bin', a[1], a[2], a[3])))]
        if k == 'expr': return ['.expr ' + s.e(a[1])]
        if k == 'ret':
            if not a[1]: return ['.ret (.lit (.tuple []))']
            if len(a[1]) == 1: return ['.ret ' + s.e(a[1][0])]
            return ['.ret ' + s.args(a[1])]
        if k == 'brk': return ['.brk']
        if k == 'block':
            s.scopes.append({}); r = [y for z in a[1] for y in s.st(z, ind)]; s.scopes.pop(); return r
        if k == 'if':
            c = s.e(a[1]); return ['.ifs %s %s %s' % (c, s.blk(a[2], ind + 1), s.blk(a[3], ind + 1))]
        if k == 'for':
            s.scopes.append({}); pre = s.st(a[1], ind) if a[1] else []
            c = s.e(a[2]) if a[2] else '(.lit (.bool true))'
            b = s.blk(a[4], ind + 1); p = s.seq(s.st(a[3], ind + 1), ind + 1) if a[3] else '.skip'
            s.scopes.pop(); return pre + ['.forc %s %s %s' % (c, p, b)]
        if k == 'rangefor':
            e = s.e(a[2]); s.scopes.append({}); v = []
            for q in a[1] + [('id', '_')] * (2 - len(a[1])): v.append('none' if q[1] == '_' else '(some %s)' % nm(s.declare(q[1])))
            b = s.blk(a[3], ind + 1); s.scopes.pop(); return ['.range %s %s %s %s' % (v[0], v[1], e, b)]
        if k == 'switch':
            t = s.fresh(); pre = ['.assign %s %s' % (nm(t), s.e(a[1]))]; cs = []; acc = []
            for vs, b in a[2]:
                acc = None if vs is None else acc + vs
                if b == [('fall',)]: continue
                assert ('fall',) not in b and not any(y[0] == 'brk' for y in b); cs.append((acc, b)); acc = []
            r = '.skip'
            for vs, b in reversed(cs):
                body = s.blk(b, ind + 1)
                if vs is None: assert r == '.skip'; r = body; continue
                cond = None
                for v in vs:
                    q = '(.bin .eq (.var %s) %s)' % (nm(t), s.e(v)); cond = q if cond is None else '(.or %s %s)' % (cond, q)
                r = '(.ifs %s %s %s)' % (cond, body, r)
            return pre + [r[1:-1] if r.startswith('(') else r]
        raise Exception(a)
    def blk(s, l, ind):
        s.scopes.append({}); out = []
        r = s.stmts(l, ind); s.scopes.pop(); return r
    def stmts(s, l, ind):
        out = []
        for i, a in enumerate(l):
            if a[0] == 'defer':
                return s.seq(out + ['.deferd %s %s' % (s.e(a[1]), s.stmts(l[i+1:], ind))], ind)
            out += s.st(a, ind)
        return s.seq(out, ind)
    def seq(s, out, ind):
        if not out: return '.skip'
        if len(out) == 1: return '(%s)' % out[0] if ' ' in out[0] else out[0]
        nl = '\n' + '  ' * ind
        return '(.block [' + (',' + nl).join(out) + '])' if False else '(' + nl.join('.seq (%s) <|' % y for y in out[:-1]) + nl + out[-1] + ')'
    def fn(s):
        d = s.d; ps = ([d['recv']] if d['recv'] else []) + d['params']; pre = []; names = []
        for n, t in ps:
            n = n or '_'
            m = s.declare(n if n != '_' else 'unused'); names.append(nm(m))
            if n in s.boxed: pre.append('.assign %s (.new (.var %s))' % (nm(m), nm(m)))
        for n, t in d['results']:
            if n: m = s.declare(n); pre.append('.assign %s (.lit (%s))' % (nm(m), zero(s.pkg, t)))
        s.scopes.append({})
        b = s.stmts(d['body'], 1)
        if pre: b = '(' + '\n  '.join('.seq (%s) <|' % y for y in pre) + '\n  ' + b.strip() + ')'
        return '⟨[%s],\n  %s⟩' % (', '.join(names), b)

# ------------------------------------------------------------------ the functions
FUNCS = [
 ('common_UnsafeUTF8DecimalCodePointsToInt', 'fun', 'UnsafeUTF8DecimalCodePointsToInt('), ('common_RemoveBytes', 'fun', 'RemoveBytes('), ('common_EscapeBytes', 'fun', 'EscapeBytes('),
 ('common_InBetween', 'fun', 'InBetween('), ('common_ValidPriority', 'fun', 'ValidPriority('), ('common_ValidVersion', 'fun', 'ValidVersion('),
 ('syslog_Base_Valid', 'base', '(m *Base) Valid('), ('syslog_Base_ComputeFromPriority', 'base', '(m *Base) ComputeFromPriority('),
] + [('syslog_Base_' + n, 'base', '(m *Base) %s(' % n) for n in ('FacilityMessage', 'FacilityLevel', 'SeverityMessage', 'SeverityLevel', 'SeverityShortLevel')] + [
 ('syslog_' + n, 'opt', n + '(') for n in ('WithListener', 'WithBestEffort', 'WithMaxMessageLength')] + [
 ('rfc5424_syslogMessage_minimal', 'm5', '(sm *syslogMessage) minimal('), ('rfc5424_syslogMessage_export', 'm5', '(sm *syslogMessage) export('), ('rfc5424_SyslogMessage_Valid', 'm5', '(sm *SyslogMessage) Valid('),
 ('rfc5424_entrypoint_translate', 'bld', '(e entrypoint) translate(')] + [
 ('rfc5424_SyslogMessage_' + n, 'bld', '(sm *SyslogMessage) %s(' % n) for n in ('SetPriority', 'SetVersion', 'SetTimestamp', 'SetHostname', 'SetAppname', 'SetProcID', 'SetMsgID', 'SetElementID', 'SetParameter', 'SetMessage', 'String')] + [
 ('rfc5424_NewMachine', 'k5', 'NewMachine(')] + [('rfc5424_machine_' + n, 'k5', '(m *machine) %s(' % n) for n in ('WithBestEffort', 'HasBestEffort', 'Err', 'text')] + [
 ('rfc5424_WithBestEffort', 'o5', 'WithBestEffort('), ('rfc5424_WithCompliantMsg', 'o5', 'WithCompliantMsg('), ('rfc5424_NewParser', 'p5', 'NewParser('), ('rfc5424_parser_HasBestEffort', 'p5', '(p *parser) HasBestEffort('), ('rfc5424_parser_Parse', 'p5', '(p *parser) Parse('),
 ('rfc3164_syslogMessage_minimal', 'm3', '(sm *syslogMessage) minimal('), ('rfc3164_syslogMessage_export', 'm3', '(sm *syslogMessage) export('), ('rfc3164_NewMachine', 'k3', 'NewMachine(')] + [
 ('rfc3164_machine_' + n, 'k3', '(m *machine) %s(' % n) for n in ('WithBestEffort', 'HasBestEffort', 'WithYear', 'WithTimezone', 'WithLocaleTimezone', 'WithRFC3339', 'Err', 'text')] + [
 ('rfc3164_' + n, 'o3', n + '(') for n in ('WithBestEffort', 'WithYear', 'WithTimezone', 'WithLocaleTimezone', 'WithRFC3339')] + [
 ('rfc3164_YearOperation_Operate', 'y3', '(y YearOperation) Operate('), ('rfc3164_CurrentYear_Apply', 'y3', '(CurrentYear) Apply('), ('rfc3164_Year_Apply', 'y3', '(y Year) Apply('),
 ('rfc3164_NewParser', 'p3', 'NewParser('), ('rfc3164_parser_HasBestEffort', 'p3', '(p *parser) HasBestEffort('), ('rfc3164_parser_Parse', 'p3', '(p *parser) Parse('),
 ('octetcounting_Token_String', 'tk', '(t Token) String('), ('octetcounting_TokenType_String', 'tk', '(i TokenType) String('),
 ('octetcounting_isDigit', 'sc', 'isDigit('), ('octetcounting_isNonZeroDigit', 'sc', 'isNonZeroDigit('), ('octetcounting_NewScanner', 'sc', 'NewScanner(')] + [
 ('octetcounting_Scanner_' + n, 'sc', '(s *Scanner) %s(' % n) for n in ('read', 'unread', 'Scan', 'scanMsgLen', 'scanSyslogMsg')] + [('octetcounting_NewParser', 'po', 'NewParser(')] + [
 ('octetcounting_parser_' + n, 'po', '(p *parser) %s(' % n) for n in ('WithMaxMessageLength', 'HasBestEffort', 'WithBestEffort', 'WithListener', 'Parse', 'run', 'parse', 'scan', 'unscan')] + [
 ('nontransparent_NewParser', 'pn', 'NewParser('), ('nontransparent_WithTrailer', 'pn', 'WithTrailer(')] + [
 ('nontransparent_machine_' + n, 'pn', '(m *machine) %s(' % n) for n in ('OnErr', 'OnEOF', 'OnCompletion', 'WithMaxMessageLength', 'HasBestEffort', 'WithBestEffort', 'WithListener', 'Parse', 'process')] + [
 ('nontransparent_TrailerType_' + n, 'tt', '(t %sTrailerType) %s(' % ('*' if n.startswith('Un') else '', n)) for n in ('String', 'Value', 'UnmarshalTOML', 'UnmarshalText', 'MarshalText')] + [
 ('nontransparent_TrailerTypeFromString', 'tt', 'TrailerTypeFromString('),
 ('testing_RandomBytes', 'te', 'RandomBytes('), ('testing_RightPad', 'te', 'RightPad('), ('testing_StringAddress', 'te', 'StringAddress('), ('testing_Uint8Address', 'te', 'Uint8Address('), ('testing_TimeParse', 'te', 'TimeParse('), ('testing_YearTime', 'te', 'YearTime('),
]
DYNAMIC = [('octetcounting_parser', n, 'octetcounting_parser_' + n) for n in ('WithListener', 'WithBestEffort', 'WithMaxMessageLength')] + \
  [('nontransparent_machine', n, 'nontransparent_machine_' + n) for n in ('WithListener', 'WithBestEffort', 'WithMaxMessageLength')] + \
  [('rfc5424_machine', 'WithBestEffort', 'rfc5424_machine_WithBestEffort'), ('rfc3164_machine', 'WithBestEffort', 'rfc3164_machine_WithBestEffort'),
   ('rfc3164_Year', 'Apply', 'rfc3164_Year_Apply'), ('rfc3164_CurrentYear', 'Apply', 'rfc3164_CurrentYear_Apply')]

def main():
    defs = []; todo = []
    for name, f, head in FUNCS:
        d = F[f].func(head); todo.append((name, d, head))
    table = []
    while todo:
        name, d, head = todo.pop(0); em = Em(d, name); body = em.fn(); nm(name)
        for n, dd in em.extra: todo.insert(0, (n, dd, 'func in ' + head))
        table.append(name)
        defs.append('/-- `%s` (%s:%d-%d) -/\ndef %s : Fn := %s\n' % (('func ' + head.rstrip('(')) if not head.startswith('func') else 'the closure in ' + head[8:].rstrip('('), d['file'].path, d['l0'], d['l1'], name, body))
    zs = []
    for k, (f, n) in STRUCT.items():
        nm(k); fs = fields(k)
        src = F[f].src; i = src.index('\ntype %s struct' % n) + 1; l0 = src.count('\n', 0, i) + 1; l1 = l0 if '{}' in src[i:src.index('\n', i)] else src.count('\n', 0, src.index('\n}', i) + 1) + 1
        zs.append((k, '/-- `%s{}` (%s:%d-%d) -/\ndef %s : Val := .struct .%s [%s]\n' % (n, F[f].path, l0, l1, k, k, ', '.join('(%s, %s)' % (nm(a), b) for a, b in fs))))
    order = ['octetcounting_Token', 'octetcounting_Scanner']; zs.sort(key=lambda z: 0 if z[0] in order else 1)
    for g in GLOB: nm(g[1])
    for t in ('syslog_Base',): nm(t)
    for a, b, c in DYNAMIC: nm(a); nm(b); nm(c)
    for n in EXT: nm(n)
    with open('/verif/lean/Verif/Gen/MiniNames.lean', 'w') as o:
        o.write('/-!\n# Names of the hand-written functions, their variables, fields and types\n\nGenerated by tools/gomini.py; do not edit.\n-/\n\nnamespace Verif.Mini\n\n/-- names -/\ninductive Nm where\n')
        ns = sorted(NAMES)
        for i in range(0, len(ns), 8): o.write('  ' + ' '.join('| ' + ('«%s»' % n if n in LEANKW else n) for n in ns[i:i+8]) + '\n')
        o.write('  deriving DecidableEq, Repr\n\nend Verif.Mini\n')
    with open('/verif/lean/Verif/Gen/Mini.lean', 'w') as o:
        o.write('import Verif.Mini.Lang\n\n/-!\n# The hand-written functions of the packages\n\nGenerated by tools/gomini.py from the Go sources; do not edit. The syntax is that of `Verif/Mini/Lang.lean`.\n-/\n\nnamespace Verif.Gen.Mini\nopen Verif.Mini\n\nnamespace Zero\n\n')
        for _, z in zs: o.write(z + '\n')
        o.write('end Zero\n\nnamespace Table\n\n')
        for n, (f, kv) in TABLES.items():
            src = F[f].src; i = src.index('\nvar %s ' % n) + 1; l0 = src.count('\n', 0, i) + 1; l1 = src.count('\n', 0, src.index('\n}', i) + 1) + 1
            o.write('/-- `%s` (%s:%d-%d) -/\ndef %s : List (Int × Bytes) := [\n  %s]\n\n' % (n, F[f].path, l0, l1, n, ',\n  '.join('(%s, ascii "%s")' % q for q in kv)))
        o.write('end Table\n\n')
        for d in defs: o.write(d + '\n')
        o.write('/-- all functions; the names that are not here are those of other packages and of the functions that Ragel writes -/\ndef prog : Nm → Option Fn\n')
        for n in table: o.write('  | .%s => some %s\n' % (n, n))
        o.write('  | _ => none\n\n/-- methods called through an interface, by the type of the receiver -/\ndef meth : Nm → Nm → Option Nm\n')
        for a, b, c in DYNAMIC: o.write('  | .%s, .%s => some .%s\n' % (a, b, c))
        o.write('  | _, _ => none\n\n')
        for n in table: o.write('theorem prog_%s : prog .%s = some %s := rfl\n' % (n, n, n))
        for n in EXT: o.write('theorem prog_%s : prog .%s = none := rfl\n' % (n, n))
        o.write('theorem prog_emit : prog .emit = none := rfl\n')
        for a, b, c in DYNAMIC: o.write('theorem meth_%s_%s : meth .%s .%s = some .%s := rfl\n' % (a, b, a, b, c))
        o.write('\nend Verif.Gen.Mini\n')
    print(len(table), 'functions', len(NAMES), 'names')
main()
