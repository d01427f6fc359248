"""Parser for the C++ subset used by SM/*.cpp (class methods only; tests are read separately)."""
import re

TOK = re.compile(r'''
  (?P<ws>\s+)
 |(?P<num>(?:\d+\.\d*|\.\d+|\d+)(?:[eE][+-]?\d+)?)
 |(?P<str>"(?:\\.|[^"\\])*")
 |(?P<id>[A-Za-z_]\w*(?:::[A-Za-z_]\w*)*)
 |(?P<op>\+\+|--|\+=|-=|\*=|/=|<=|>=|==|!=|&&|\|\||<<|>>|[-+*/%<>=!&|(){}\[\];:,.?])
''', re.X)


def strip_comments(s):
    def rep(m):
        t = m.group(0)
        if t.startswith('"'):
            return t
        return re.sub(r'[^\n]', ' ', t)
    return re.sub(r'"(?:\\.|[^"\\])*"|//[^\n]*|/\*.*?\*/', rep, s, flags=re.S)


class Tok:
    __slots__ = ('k', 'v', 'line')

    def __init__(self, k, v, line):
        self.k, self.v, self.line = k, v, line

    def __repr__(self):
        return f'{self.v}@{self.line}'


def tokenize(s):
    out, i, line = [], 0, 1
    while i < len(s):
        m = TOK.match(s, i)
        if not m:
            raise SyntaxError(f'line {line}: {s[i:i+30]!r}')
        k = m.lastgroup
        v = m.group(0)
        if k != 'ws':
            out.append(Tok(k, v, line))
        line += v.count('\n')
        i = m.end()
    out.append(Tok('eof', '', line))
    return out


TYPES = {'int', 'ldouble', 'cdouble', 'void', 'particle', 'sproduct', 'propagator', 'double', 'bool'}


class Parser:
    def __init__(self, toks):
        self.t, self.i = toks, 0

    @property
    def cur(self):
        return self.t[self.i]

    def peek(self, k=1):
        return self.t[self.i + k]

    def at(self, v):
        return self.cur.v == v

    def take(self, v=None):
        t = self.cur
        if v is not None and t.v != v:
            raise SyntaxError(f'line {t.line}: expected {v!r}, found {t.v!r}')
        self.i += 1
        return t

    def opt(self, v):
        if self.at(v):
            self.i += 1
            return True
        return False

    # expressions; nodes are tuples (kind, ...)
    def expr(self):
        return self.assign()

    def assign(self):
        l = self.orr()
        if self.cur.v in ('=', '+=', '-=', '*=', '/='):
            op = self.take().v
            return ('asg', op, l, self.assign())
        if self.at('?'):
            self.take()
            a = self.assign()
            self.take(':')
            return ('cond', l, a, self.assign())
        return l

    def binl(self, ops, sub):
        l = sub()
        while self.cur.v in ops:
            op = self.take().v
            l = ('bin', op, l, sub())
        return l

    def orr(self):
        return self.binl({'||'}, self.andd)

    def andd(self):
        return self.binl({'&&'}, self.eqq)

    def eqq(self):
        return self.binl({'==', '!='}, self.rel)

    def rel(self):
        return self.binl({'<', '>', '<=', '>='}, self.shift)

    def shift(self):
        return self.binl({'<<', '>>'}, self.add)

    def add(self):
        return self.binl({'+', '-'}, self.mul)

    def mul(self):
        return self.binl({'*', '/', '%'}, self.unary)

    def unary(self):
        if self.cur.v in ('-', '+', '!', '&'):
            op = self.take().v
            return ('un', op, self.unary())
        if self.cur.v in ('++', '--'):
            op = self.take().v
            return ('inc', op, self.unary())
        return self.postfix()

    def postfix(self):
        e = self.primary()
        while True:
            if self.at('('):
                e = ('call', e, self.args())
            elif self.at('['):
                self.take()
                i = self.expr()
                self.take(']')
                e = ('idx', e, i)
            elif self.at('.'):
                self.take()
                e = ('mem', e, self.take().v)
            elif self.cur.v in ('++', '--'):
                e = ('inc', self.take().v, e)
            else:
                return e

    def args(self):
        self.take('(')
        a = []
        if not self.at(')'):
            a.append(self.expr())
            while self.opt(','):
                a.append(self.expr())
        self.take(')')
        return a

    def primary(self):
        t = self.cur
        if t.k == 'num':
            self.take()
            return ('num', t.v)
        if t.k == 'str':
            self.take()
            return ('str', t.v)
        if t.k == 'id':
            self.take()
            return ('id', t.v, t.line)
        if t.v == '(':
            self.take()
            e = self.expr()
            self.take(')')
            return ('par', e)
        raise SyntaxError(f'line {t.line}: unexpected {t.v!r}')

    # statements
    def block(self):
        self.take('{')
        out = []
        while not self.at('}'):
            s = self.stmt()
            if s is not None:
                out.append(s)
        self.take('}')
        return out

    def stmt(self):
        t = self.cur
        line = t.line
        if t.v == '{':
            return ('block', self.block(), line)
        if t.v == ';':
            self.take()
            return None
        if t.v == 'if':
            self.take()
            self.take('(')
            c = self.expr()
            self.take(')')
            a = self.stmt()
            b = None
            if self.opt('else'):
                b = self.stmt()
            return ('if', c, a, b, line)
        if t.v == 'for':
            self.take()
            self.take('(')
            init = self.simple()
            self.take(';')
            c = self.expr()
            self.take(';')
            inc = self.expr()
            self.take(')')
            return ('for', init, c, inc, self.stmt(), line)
        if t.v == 'return':
            self.take()
            e = None if self.at(';') else self.expr()
            self.take(';')
            return ('ret', e, line)
        if t.v == 'throw':
            self.take()
            e = self.expr()
            self.take(';')
            return ('throw', e, line)
        s = self.simple()
        self.take(';')
        return s

    def simple(self):
        line = self.cur.line
        cst = False
        while self.cur.v in ('const', 'constexpr', 'static'):
            cst = True
            self.take()
        if self.cur.v in TYPES and self.peek().k == 'id':
            ty = self.take().v
            ds = []
            while True:
                n = self.take().v
                if self.at('['):
                    dims = []
                    while self.opt('['):
                        dims.append(self.expr())
                        self.take(']')
                    init = None
                    if self.opt('='):
                        init = self.braces()
                    ds.append((n, 'arr', dims, init))
                elif self.at('('):
                    ds.append((n, 'ctor', self.args()))
                elif self.opt('='):
                    ds.append((n, 'init', self.assign()))
                else:
                    ds.append((n, 'none'))
                if not self.opt(','):
                    break
            return ('decl', ty, ds, cst, line)
        return ('expr', self.expr(), line)

    def braces(self):
        self.take('{')
        a = [self.expr()]
        while self.opt(','):
            a.append(self.expr())
        self.take('}')
        return a

    def params(self):
        self.take('(')
        ps = []
        while not self.at(')'):
            ref = False
            cst = self.opt('const')
            ty = self.take().v
            if self.opt('&'):
                ref = True
            n = self.take().v
            arr = False
            if self.opt('['):
                self.take()
                self.take(']')
                arr = True
            ps.append((ty, n, cst, ref, arr))
            self.opt(',')
        self.take(')')
        return ps


def parse_class(path, cls):
    src = open(path).read()
    toks = tokenize(strip_comments(re.sub(r'(?m)^[ \t]*#.*$', '', src)))
    p = Parser(toks)
    methods = []
    while p.cur.k != 'eof':
        if p.cur.k == 'id' and p.cur.v.startswith(cls + '::'):
            name = p.cur.v.split('::')[1]
            line = p.cur.line
            ret = None if name == cls else p.t[p.i - 1].v
            p.take()
            ps = p.params()
            inits = []
            if p.opt(':'):
                while True:
                    n = p.take().v
                    inits.append((n, p.args()))
                    if not p.opt(','):
                        break
            body = p.block()
            methods.append(dict(name=name, ret=ret, params=ps, inits=inits, body=body, line=line, end=p.t[p.i - 1].line))
        else:
            p.take()
    return methods


def parse_header(path, cls):
    src = open(path).read()
    s = strip_comments(re.sub(r'(?m)^[ \t]*#.*$', '', src))
    m = re.search(r'class\s+' + cls + r'\b[^{]*\{', s)
    start = m.end()
    depth, i = 1, start
    while depth:
        c = s[i]
        depth += (c == '{') - (c == '}')
        i += 1
    body = s[start:i - 1]
    line0 = s[:start].count('\n') + 1
    mem = []
    for dm in re.finditer(r'([^;{}]*)(;|\{)', body):
        d = re.sub(r'\b(public|private|protected)\s*:', '', dm.group(1)).strip()
        if not d or '(' in d:
            continue
        t = d.split(None, 1)
        if len(t) != 2:
            continue
        line = line0 + body[:dm.start(1) + len(dm.group(1)) - len(dm.group(1).lstrip())].count('\n')
        for n in t[1].split(','):
            mem.append((t[0], n.strip(), line))
    return mem
