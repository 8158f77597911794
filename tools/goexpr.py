"""A parser and evaluator for the Go expressions in the repository's test tables (composite literals, calls, method chains)."""
import re

TOK = re.compile(r'''
  (?P<ws>\s+|//[^\n]*|/\*.*?\*/)
 |(?P<raw>`[^`]*`)
 |(?P<str>"(?:\\.|[^"\\])*")
 |(?P<chr>'(?:\\.|[^'\\])+')
 |(?P<num>0[xX][0-9a-fA-F]+|\d+)
 |(?P<id>[A-Za-z_]\w*)
 |(?P<op>:=|==|!=|<=|>=|&&|\|\||\+\+|\+=|\.\.\.|[-+*/%&|<>=!(){}\[\],.;:])
''', re.X | re.S)

def tokenize(s):
    out, i, line = [], 0, 1
    while i < len(s):
        m = TOK.match(s, i)
        if not m: raise SyntaxError('line %d: %r' % (line, s[i:i+40]))
        k = m.lastgroup
        if k != 'ws': out.append((k, m.group(), line))
        line += m.group().count('\n')
        i = m.end()
    return out

ESC = {'n': 10, 't': 9, 'r': 13, '\\': 92, '"': 34, "'": 39, 'a': 7, 'b': 8, 'f': 12, 'v': 11}
def unquote(s):
    b, i = bytearray(), 1
    s = s[1:-1]; i = 0
    while i < len(s):
        c = s[i]
        if c != '\\': b += c.encode('utf-8'); i += 1; continue
        d = s[i+1]
        if d == 'x': b.append(int(s[i+2:i+4], 16)); i += 4
        elif d == 'u': b += chr(int(s[i+2:i+6], 16)).encode('utf-8', 'surrogatepass'); i += 6
        elif d == 'U': b += chr(int(s[i+2:i+10], 16)).encode('utf-8'); i += 10
        elif d in '01234567': b.append(int(s[i+1:i+4], 8)); i += 4
        else: b.append(ESC[d]); i += 2
    return bytes(b)

class P:
    def __init__(self, toks, pos=0): self.t, self.i = toks, pos
    def peek(self, k=0): return self.t[self.i + k][1] if self.i + k < len(self.t) else None
    def kind(self, k=0): return self.t[self.i + k][0] if self.i + k < len(self.t) else None
    def line(self): return self.t[self.i][2]
    def next(self): self.i += 1; return self.t[self.i - 1][1]
    def eat(self, s):
        if self.peek() != s: raise SyntaxError('line %d: expected %r, found %r' % (self.line(), s, self.peek()))
        self.i += 1
    def type_(self):
        p = self.peek()
        if p == '[':
            self.eat('[')
            if self.peek() != ']': self.next()
            self.eat(']'); return ('slice', self.type_())
        if p == 'map':
            self.next(); self.eat('['); k = self.type_(); self.eat(']'); return ('map', k, self.type_())
        if p == '*': self.next(); return ('ptr', self.type_())
        n = self.next()
        while self.peek() == '.': self.next(); n += '.' + self.next()
        return ('name', n)
    def expr(self):
        e = self.unary()
        while self.peek() in ('+', '-', '*', '<', '>', '=='):
            op = self.next(); e = ('bin', op, e, self.unary())
        return e
    def unary(self):
        if self.peek() in ('&', '*', '-', '!'): op = self.next(); return ('un', op, self.unary())
        return self.postfix(self.primary())
    def primary(self):
        k, p = self.kind(), self.peek()
        if k == 'raw': self.next(); return ('lit', p[1:-1].replace('\r', '').encode('utf-8'))
        if k == 'str': self.next(); return ('lit', unquote(p))
        if k == 'chr':
            self.next(); b = unquote(p); return ('lit', b[0] if len(b) == 1 else ord(b.decode('utf-8')))
        if k == 'num': self.next(); return ('lit', int(p, 0))
        if p == '(':
            self.next(); e = self.expr(); self.eat(')'); return e
        if p == '{': return self.composite(None)
        if p in ('[', 'map'):
            t = self.type_()
            if self.peek() == '{': return self.composite(t)
            self.eat('('); e = self.expr(); self.eat(')'); return ('conv', t, e)
        if k == 'id': self.next(); return ('id', p)
        raise SyntaxError('line %d: unexpected %r' % (self.line(), p))
    def composite(self, t):
        line = self.line()
        self.eat('{'); items = []
        while self.peek() != '}':
            e = self.expr()
            if self.peek() == ':': self.next(); items.append((e, self.expr()))
            else: items.append((None, e))
            if self.peek() == ',': self.next()
        self.eat('}')
        return ('comp', t, items, line)
    def postfix(self, e):
        while True:
            p = self.peek()
            if p == '.':
                self.next()
                if self.peek() == '(':
                    self.next(); t = self.type_(); self.eat(')'); e = ('assert', e, t)
                else: e = ('sel', e, self.next())
            elif p == '(':
                self.next(); args = []
                while self.peek() != ')':
                    args.append(self.expr())
                    if self.peek() == '...': self.next()
                    if self.peek() == ',': self.next()
                self.eat(')'); e = ('call', e, args)
            elif p == '{' and self.istype(e): e = self.composite(('name', self.name(e)))
            elif p == '[':
                self.next()
                a = None if self.peek() == ':' else self.expr()
                if self.peek() == ':':
                    self.next(); b = None if self.peek() == ']' else self.expr(); self.eat(']'); e = ('slice', e, a, b)
                else: self.eat(']'); e = ('index', e, a)
            else: return e
    def name(self, e): return e[1] if e[0] == 'id' else self.name(e[1]) + '.' + e[2]
    def istype(self, e):
        return e[0] == 'id' and e[1][0].isupper() or e[0] == 'sel' and e[1][0] == 'id' and e[2][0].isupper()

def find(toks, *seq):
    """position after the first occurrence of the token sequence"""
    for i in range(len(toks) - len(seq)):
        if all(toks[i + j][1] == seq[j] for j in range(len(seq))): return i + len(seq)
    raise KeyError(seq)
