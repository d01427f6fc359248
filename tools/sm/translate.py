"""Translate the classes of SM/*.cpp into Lean data (lean/Verif/SM/Proc/*.lean).

usage: translate.py REPO OUTDIR
Every construct outside the supported subset is an error.  Left out, with a note: statements that only print to std::cout,
and the overloads amp2(mom1,..,mom4)."""
import sys, os, glob, re
sys.path.insert(0, os.path.dirname(os.path.abspath(__file__)))
from cxx import parse_class, parse_header


class Err(Exception):
    pass


def show(e):
    k = e[0]
    if k in ('num', 'str', 'id'): return e[1]
    if k == 'par': return '(' + show(e[1]) + ')'
    if k == 'bin': return show(e[2]) + e[1] + show(e[3])
    if k == 'un': return e[1] + show(e[2])
    if k == 'asg': return show(e[2]) + e[1] + show(e[3])
    if k == 'call': return show(e[1]) + '(' + ','.join(map(show, e[2])) + ')'
    if k == 'mem': return show(e[1]) + '.' + e[2]
    if k == 'idx': return show(e[1]) + '[' + show(e[2]) + ']'
    if k == 'inc': return show(e[2]) + e[1]
    return repr(e)


class Cls:
    def __init__(self, repo, name):
        self.name = name
        self.path = f'{repo}/SM/{name}.cpp'
        self.header = f'{repo}/SM/include/{name}.h'
        self.methods = parse_class(self.path, name)
        self.decl = parse_header(self.header, name)
        self.mem = {}
        cnt = {}
        for ty, n, line in self.decl:
            if ty not in ('ldouble', 'cdouble', 'particle', 'sproduct', 'propagator'):
                raise Err(f'{name}: member {ty} {n}')
            self.mem[n] = (ty, cnt.get(ty, 0))
            cnt[ty] = cnt.get(ty, 0) + 1
        if [n for t, n, _ in self.decl if t == 'particle'] != ['p1', 'p2', 'p3', 'p4']:
            raise Err(f'{name}: particles')


def P(s):
    return '(' + s + ')' if ' ' in s else s


# an expression is (type, lean) with type i | r | c; for i the value may also be a python int
class Scope:
    """names visible in a method: ints, reals, complexes, inlined constants"""

    def __init__(self, cls, setup=False):
        self.cls, self.setup = cls, setup
        self.loc = {}      # name -> ('i'|'r'|'c', number)
        self.inl = {}      # name -> typed expression
        self.n = {'i': 0, 'r': 0, 'c': 0}
        self.vec = {}      # local momentum arrays -> VExp

    def new(self, ty, name):
        if name in self.loc:
            if self.loc[name][0] != ty:
                raise Err('redeclared with another type: ' + name)
            return self.loc[name][1]
        self.loc[name] = (ty, self.n[ty])
        self.n[ty] += 1
        return self.loc[name][1]


def real(x):
    ty, s = x
    if ty == 'r': return s
    if ty == 'i':
        if isinstance(s, int):
            return f'.lit {s}' if s >= 0 else f'.neg (.lit {-s})'
        raise Err('int variable used as real')
    raise Err('complex used as real: ' + s)


def cplx(x):
    ty, s = x
    if ty == 'c': return s
    return f'.ofR {P(real(x))}'


def iexp(x):
    ty, s = x
    if ty != 'i': raise Err('int expected: ' + str(s))
    if isinstance(s, int): return f'.lit {s}' if s >= 0 else f'.lit ({s})'
    return s


def num(v):
    if re.fullmatch(r'\d+', v): return ('i', int(v))
    m = re.fullmatch(r'(\d*)\.(\d*)(?:[eE]([+-]?\d+))?', v) or re.fullmatch(r'(\d+)()[eE]([+-]?\d+)', v)
    if not m: raise Err('number ' + v)
    ip, fp, ex = m.group(1), m.group(2).rstrip('0'), int(m.group(3) or 0)
    mant, e10 = int((ip + fp) or '0'), len(fp) - ex
    if e10 <= 0: return ('r', f'.lit {mant * 10 ** -e10}')
    return ('r', f'.dec {mant} {e10}')


class Tr:
    def __init__(self, cls, sc, methods=None):
        self.c, self.sc, self.m = cls, sc, methods

    def ex(self, e):
        k = e[0]
        if k == 'par': return self.ex(e[1])
        if k == 'num': return num(e[1])
        if k == 'id':
            n = e[1]
            if n in self.sc.inl: return self.sc.inl[n]
            if n in self.sc.loc:
                ty, i = self.sc.loc[n]
                if ty == 'i': return ('i', f'.var {i}')
                return (ty, f'.loc .{ty} {i}')
            if n in self.c.mem:
                ty, i = self.c.mem[n]
                if ty == 'ldouble': return ('r', f'.mem .r {i}')
                if ty == 'cdouble': return ('c', f'.mem .c {i}')
            raise Err('unknown name ' + n)
        if k == 'un':
            a = self.ex(e[2])
            if e[1] == '+': return a
            if e[1] == '-':
                if a[0] == 'i':
                    if isinstance(a[1], int): return ('i', -a[1])
                    raise Err('negated int variable')
                return (a[0], f'.neg {P(a[1])}')
            raise Err('unary ' + e[1])
        if k == 'bin':
            op = e[1]
            a, b = self.ex(e[2]), self.ex(e[3])
            if op not in '+-*/': raise Err('operator ' + op)
            if a[0] == 'i' and b[0] == 'i':
                if op == '*': return ('i', f'.mul {P(iexp(a))} {P(iexp(b))}')
                raise Err('integer arithmetic: ' + show(e))
            nm = {'+': 'add', '-': 'sub', '*': 'mul', '/': 'div'}[op]
            if 'c' not in (a[0], b[0]):
                return ('r', f'.{nm} {P(real(a))} {P(real(b))}')
            if 'i' in (a[0], b[0]): raise Err('int op complex: ' + show(e))
            if a[0] == 'c' and b[0] == 'c': return ('c', f'.{nm} {P(a[1])} {P(b[1])}')
            if op == '*':
                r, c = (a, b) if a[0] == 'r' else (b, a)
                return ('c', f'.smul {P(r[1])} {P(c[1])}')
            if op == '/' and a[0] == 'c': return ('c', f'.divr {P(a[1])} {P(b[1])}')
            return ('c', f'.{nm} {P(cplx(a))} {P(cplx(b))}')
        if k == 'call':
            f, args = e[1], e[2]
            if f[0] == 'id':
                n = f[1]
                if n == 'std::sqrt': return ('r', f'.sqrt {P(real(self.ex(args[0])))}')
                if n == 'std::pow':
                    x = self.ex(args[1])
                    if x[0] != 'i' or not isinstance(x[1], int) or x[1] < 0: raise Err('pow ' + show(e))
                    return ('r', f'.pow {P(real(self.ex(args[0])))} {x[1]}')
                if n == 'std::abs': return ('r', f'.abs {P(self.only_c(args[0]))}')
                if n == 'std::real': return ('r', f'.re {P(self.only_c(args[0]))}')
                if n == 'std::conj': return ('c', f'.conj {P(self.only_c(args[0]))}')
                if n == 'cdouble':
                    if args[1] != ('num', '0'): raise Err('cdouble ' + show(e))
                    return ('c', f'.ofR {P(real(self.ex(args[0])))}')
                if n == 'get_spin_normalization': return ('r', f'.norm {self.ivars(args)}')
                if n == 'get_num_spin_loops': return ('i', f'.loops {self.ivars(args)}')
                if self.m is not None and n in self.m:
                    num_, ar = self.m[n]
                    if len(args) != ar: raise Err('arity ' + show(e))
                    return ('c', f'.call {num_} [{", ".join(iexp(self.ex(a)) for a in args)}]')
                raise Err('call ' + show(e))
            if f[0] == 'mem' and f[2] == 'v' and f[1][0] == 'id':
                ty, i = self.c.mem[f[1][1]]
                if ty != 'sproduct' or self.sc.setup: raise Err('v ' + show(e))
                return ('c', f'.v {i} [{", ".join(iexp(self.ex(a)) for a in args)}]')
        raise Err('expression ' + show(e))

    def only_c(self, a):
        x = self.ex(a)
        if x[0] != 'c': raise Err('complex expected: ' + show(a))
        return x[1]

    def ivar(self, a):
        x = self.ex(a)
        m = re.fullmatch(r'\.var (\d+)', str(x[1]))
        if x[0] != 'i' or not m: raise Err('int variable expected: ' + show(a))
        return int(m.group(1))

    def ivars(self, args):
        return '[' + ', '.join(str(self.ivar(a)) for a in args) + ']'

    # conditions
    def cond(self, e):
        k = e[0]
        if k == 'par': return self.cond(e[1])
        if k == 'bin':
            op = e[1]
            if op == '&&': return f'.and {P(self.cond(e[2]))} {P(self.cond(e[3]))}'
            if op == '||': return f'.or {P(self.cond(e[2]))} {P(self.cond(e[3]))}'
            a, b = P(iexp(self.ex(e[2]))), P(iexp(self.ex(e[3])))
            if op == '<': return f'.lt {a} {b}'
            if op == '>': return f'.lt {b} {a}'
            if op == '==': return f'.eq {a} {b}'
        raise Err('condition ' + show(e))

    # statements of the amplitude methods -> list of (source line, source, lean)
    def stmts(self, ss, ind):
        out = []
        for s in ss:
            out += self.stmt(s, ind)
        return out

    def seq(self, items, ind):
        """items: list of (comment, lean)"""
        pad = ' ' * ind
        if not items: return pad + '.skip'
        s = ''
        for i, (cm, l) in enumerate(items):
            c = f'{pad}-- {cm}\n' if cm else ''
            if i + 1 < len(items):
                s += f'{c}{pad}.seq ({l.strip()}) <|\n'
            else:
                s += f'{c}{pad}{l.strip()}'
        return s

    def setv(self, name, x):
        ty, i = self.sc.loc[name]
        if ty == 'i': return f'.seti {i} {P(iexp(x))}'
        return f'.set .{ty} {i} {P(real(x) if ty == "r" else cplx(x))}'

    def stmt(self, s, ind):
        if s is None: return []
        k = s[0]
        ln = f'{s[-1]}: '
        if k == 'block': return self.stmts(s[1], ind)
        if k == 'decl':
            ty = {'int': 'i', 'ldouble': 'r', 'cdouble': 'c'}[s[1]]
            out = []
            for d in s[2]:
                n = d[0]
                if d[1] == 'init':
                    x = self.ex(d[2])
                elif d[1] == 'ctor' and ty == 'c':
                    if len(d[2]) != 2 or d[2][1] != ('num', '0'): raise Err('cdouble ctor')
                    x = ('c', f'.ofR {P(real(self.ex(d[2][0])))}')
                elif d[1] == 'none':
                    x = ('c', '.ofR (.lit 0)') if ty == 'c' else None
                else:
                    raise Err('decl ' + repr(d))
                if s[3] and d[1] == 'init' and x is not None and 'loc' not in str(x[1]) and 'mem' not in str(x[1]) and 'norm' not in str(x[1]):
                    self.sc.inl[n] = ('c', cplx(x)) if ty == 'c' else (('r', real(x)) if ty == 'r' else x)
                    continue
                if n in self.sc.inl: raise Err('shadows a constant: ' + n)
                self.sc.new(ty, n)
                if x is not None: out.append((f'{ln}{s[1]} {n}', self.setv(n, x)))
            return out
        if k == 'expr':
            e = s[1]
            if show(e).startswith('std::cout<<') and not calls(e, None):
                self.log.append(f'{self.c.name}: output at line {s[2]} left out')
                return []
            if e[0] == 'asg' and e[2][0] == 'id':
                n = e[2][1]
                if n not in self.sc.loc: raise Err('assignment to ' + n)
                x = self.ex(e[3])
                if e[1] != '=':
                    x = self.ex(('bin', e[1][0], e[2], ('par', e[3])))
                return [(ln + show(e), self.setv(n, x))]
            if e[0] == 'call' and e[1][1] == 'get_spinor_spins':
                a = e[2]
                if len(a) % 3 != 1: raise Err('get_spinor_spins')
                tr = [f'({self.ivar(a[j])}, {self.ivar(a[j + 1])}, {self.ivar(a[j + 2])})' for j in range(0, len(a) - 1, 3)]
                return [(ln + show(e), f'.spins [{", ".join(tr)}] {P(iexp(self.ex(a[-1])))}')]
            raise Err('statement ' + show(e))
        if k == 'if':
            c = self.cond(s[1])
            a = self.seq(self.stmt(s[2], ind + 2), ind + 2)
            b = self.seq(self.stmt(s[3], ind + 2), ind + 2)
            pad = ' ' * ind
            return [(f'{ln}if({show(s[1])})', f'.ite {P(c)} (\n{a}) (\n{b})')]
        if k == 'for':
            init, cnd, inc = s[1], s[2], s[3]
            if init[0] != 'decl' or init[1] != 'int' or len(init[2]) != 1 or init[2][0][1] != 'init': raise Err('for')
            n = init[2][0][0]
            lo = self.ex(init[2][0][2])
            if lo[0] != 'i' or not isinstance(lo[1], int): raise Err('for lo')
            self.sc.new('i', n)
            if cnd[0] != 'bin' or cnd[1] not in ('<', '<=') or cnd[2][:2] != ('id', n): raise Err('for cond')
            hi = iexp(self.ex(cnd[3]))
            if inc[0] == 'inc' and inc[1] == '++' and inc[2][:2] == ('id', n): st = 1
            elif inc[0] == 'asg' and inc[1] == '+=' and inc[2][:2] == ('id', n) and inc[3][0] == 'num': st = int(inc[3][1])
            else: raise Err('for inc')
            if self.assigned(s[4], n): raise Err('loop variable assigned')
            body = self.seq(self.stmt(s[4], ind + 2), ind + 2)
            incl = 'true' if cnd[1] == '<=' else 'false'
            lo_ = f'({lo[1]})' if lo[1] < 0 else str(lo[1])
            return [(f'{ln}for(int {n}={show(init[2][0][2])};{show(cnd)};{show(inc)})',
                     f'.loop {self.sc.loc[n][1]} {lo_} {incl} {P(hi)} {st} (\n{body})')]
        if k == 'ret':
            x = self.ex(s[1])
            ty = self.ret
            return [(f'{ln}return {show(s[1])}', f'.ret .{ty} {P(real(x) if ty == "r" else cplx(x))}')]
        if k == 'throw':
            return [(f'{ln}throw', '.throw .gluonHelicity')]
        raise Err('statement ' + k)

    def assigned(self, s, n):
        if s is None: return False
        if s[0] == 'block': return any(self.assigned(x, n) for x in s[1])
        if s[0] == 'if': return self.assigned(s[2], n) or self.assigned(s[3], n)
        if s[0] == 'for': return s[1][2][0][0] == n or self.assigned(s[4], n)
        if s[0] == 'expr': return s[1][0] in ('asg', 'inc') and s[1][2][:2] == ('id', n)
        return False

    # set-up code
    def part(self, e):
        m = re.fullmatch(r'p([1-4])', show(e).lstrip('&'))
        if not m: raise Err('particle ' + show(e))
        return int(m.group(1)) - 1

    def mk(self, n, args, line, src):
        """member n gets the value constructed from args"""
        ty, i = self.c.mem[n]
        cm = f'{line}: {src}'
        if len(args) == 1 and args[0][0] == 'call' and args[0][1][:2] == ('id', ty) and ty not in ('ldouble', 'cdouble'):
            args = args[0][2]
        if ty in ('ldouble', 'cdouble'):
            if len(args) != 1: raise Err('init ' + n)
            x = self.ex(args[0])
            t = 'r' if ty == 'ldouble' else 'c'
            return (cm, f'.set .{t} {i} {P(real(x) if t == "r" else cplx(x))}')
        if ty == 'particle':
            if len(args) != 1: raise Err('particle ctor')
            return (cm, f'.part {i} {P(real(self.ex(args[0])))}')
        if ty == 'propagator':
            if len(args) == 0: return None
            if len(args) != 2: raise Err('propagator ctor')
            return (cm, f'.prop {i} {P(real(self.ex(args[0])))} {P(real(self.ex(args[1])))}')
        if ty == 'sproduct':
            ang = {'ANGLE': 'true', 'SQUARE': 'false'}[show(args[0])]
            ps = [self.part(a) for a in args[1:]]
            if not 2 <= len(ps) <= 4: raise Err('sproduct')
            return (cm, f'.sprod {i} ⟨{ang}, {ps[0]}, true, {ps[1:-1]}, {ps[-1]}, true⟩')
        raise Err('mk')

    def setup(self, m, moms):
        out = []
        if m['inits']:
            order = {n: i for i, (_, n, _) in enumerate(self.c.decl)}
            for n, args in sorted(m['inits'], key=lambda x: order[x[0]]):
                r = self.mk(n, args, m['line'], f'{n}({",".join(map(show, args))})')
                if r: out.append(r)
        for s in m['body']:
            out += self.sstmt(s, moms)
        return out

    def vexp(self, e, moms, j):
        if e[0] != 'bin' or e[1] not in '+-': raise Err('momentum ' + show(e))
        r = []
        for x in (e[2], e[3]):
            if x[0] != 'idx' or x[1][0] != 'id' or x[1][1] not in moms or x[2][:2] != ('id', j): raise Err('momentum ' + show(e))
            r.append(moms.index(x[1][1]))
        return f'.{"add" if e[1] == "+" else "sub"} {r[0]} {r[1]}'

    def sstmt(self, s, moms):
        k = s[0]
        if k == 'block':
            return sum((self.sstmt(x, moms) for x in s[1]), [])
        if k == 'decl':
            if all(d[1] == 'arr' for d in s[2]): return []
            for d in s[2]:
                if d[1] != 'init': raise Err('set-up decl ' + repr(d))
                x = self.ex(d[2])
                if '.mem' in str(x[1]): raise Err('set-up constant uses members')
                self.sc.inl[d[0]] = ('r', real(x))
            return []
        if k == 'for':
            n = s[1][2][0][0]
            if show(s[2]) != f'{n}<4' or show(s[1][2][0][2]) != '0': raise Err('momentum loop')
            body = s[4][1] if s[4][0] == 'block' else [s[4]]
            for b in body:
                if b[0] != 'expr' or b[1][0] != 'asg' or b[1][1] != '=': raise Err('momentum loop')
                l = b[1][2]
                if l[0] != 'idx' or l[2][:2] != ('id', n): raise Err('momentum loop')
                if l[1][1] in self.sc.vec: raise Err('momentum assigned twice')
                self.sc.vec[l[1][1]] = self.vexp(b[1][3], moms, n)
            return []
        if k != 'expr': raise Err('set-up statement ' + k)
        e, line = s[1], s[2]
        src = show(e)
        cm = f'{line}: {src}'
        if e[0] == 'asg':
            if e[1] != '=' or e[2][0] != 'id': raise Err('set-up ' + src)
            n = e[2][1]
            ty, i = self.c.mem[n]
            r = e[3]
            while r[0] == 'par': r = r[1]
            if ty in ('particle', 'propagator', 'sproduct'):
                if r[0] != 'call' or r[1][1] != ty: raise Err('set-up ' + src)
                return [self.mk(n, r[2], line, src)]
            t = 'r' if ty == 'ldouble' else 'c'
            d = r
            if t == 'r' and d[0] == 'call' and d[1][:2] == ('id', 'std::real'): d = d[2][0]
            if d[0] == 'call' and d[1][0] == 'mem' and d[1][2] == 'denominator':
                if (d is r) != (t == 'c'): raise Err('set-up ' + src)
                pk = self.c.mem[d[1][1][1]]
                if pk[0] != 'propagator' or len(d[2]) != 1: raise Err('set-up ' + src)
                v = self.sc.vec[d[2][0][1]]
                return [(cm, f'.den .{t} {i} {pk[1]} ({v})')]
            return [self.mk(n, [r], line, src)]
        if e[0] == 'call' and e[1][0] == 'mem':
            ty, i = self.c.mem[e[1][1][1]]
            f = (ty, e[1][2])
            if f == ('particle', 'set_mass'): return [(cm, f'.setMass {i} {P(real(self.ex(e[2][0])))}')]
            if f == ('particle', 'set_momentum'): return [(cm, f'.setMom {i} {moms.index(e[2][0][1])}')]
            if f == ('propagator', 'set_mass'): return [(cm, f'.propMass {i} {P(real(self.ex(e[2][0])))}')]
            if f == ('sproduct', 'update'): return [(cm, f'.update {i}')]
        raise Err('set-up ' + src)


def calls(s, names):
    out = set()

    def w(x):
        if isinstance(x, tuple):
            if x and x[0] == 'call' and (names is None or x[1][0] == 'id' and x[1][1] in names): out.add(x[1][1])
            for y in x: w(y)
        elif isinstance(x, list):
            for y in x: w(y)
    w(s)
    return out


def ident(n):
    return n


def translate(repo, name, log):
    c = Cls(repo, name)
    by = {}
    for m in c.methods:
        arr = any(p[4] for p in m['params'])
        if m['name'].startswith('amp2') and arr:
            log.append(f'{name}: overload {m["name"]}(momenta) at line {m["line"]} left out')
            continue
        if m['name'] in by: raise Err(f'{name}: overloaded {m["name"]}')
        by[m['name']] = m
    ctor = by.pop(name)
    sets = {k: by.pop(k) for k in ('set_masses', 'set_momenta', 'set_v') if k in by}
    ampn = list(by)
    for n in ampn:
        if not n.startswith('amp'): raise Err(f'{name}: method {n}')
    order = []

    def visit(n, stack):
        if n in order: return
        if n in stack: raise Err('recursion')
        for d in [x for x in ampn if x in calls(by[n]['body'], ampn)]: visit(d, stack + [n])
        order.append(n)
    for n in ampn: visit(n, [])
    nums = {n: (i, len(by[n]['params'])) for i, n in enumerate(order)}

    def par_scope(m):
        sc = Scope(c, True)
        for p in m['params']:
            if p[0] != 'ldouble': raise Err('parameter type')
            if not p[4]: sc.new('r', p[1])
        return sc
    cp = [p[1] for p in ctor['params']]
    L = []

    def cite(m): return f'{m["line"]}-{m["end"]}'
    mems = {}
    for ty, n, _ in c.decl: mems.setdefault(ty, []).append(n)
    hl = [l for _, _, l in c.decl]
    doc = [f'`class {name}` (SM/{name}.cpp, SM/include/{name}.h:{min(hl)}-{max(hl)}).  Members:']
    for ty in ('ldouble', 'cdouble', 'propagator', 'sproduct'):
        if ty in mems: doc.append(f'* {ty}: ' + ', '.join(f'{i} `{n}`' for i, n in enumerate(mems[ty])))

    def slist(ident_, m, what):
        moms = [p[1] for p in m['params'] if p[4]]
        sc = par_scope(m)
        items = Tr(c, sc).setup(m, moms)
        pars = ', '.join(f'{i} `{p[1]}`' for i, p in enumerate(m['params']))
        s = f'/-- {what} (SM/{name}.cpp:{cite(m)}); parameters: {pars} -/\ndef {ident_} : List SInstr := ['
        for i, (cm, l) in enumerate(items):
            s += f'\n  -- {cm}\n  {l}' + (',' if i + 1 < len(items) else '')
        return s + ']\n'
    ns = ident(name)
    L.append(f'namespace {ns}\n')
    L.append(slist('ctor', ctor, 'constructor'))
    massPar = []
    if 'set_masses' in sets:
        m = sets['set_masses']
        L.append(slist('setMasses', m, '`set_masses`'))
        for p in m['params']:
            if p[1] not in cp: raise Err(f'{name}: set_masses parameter {p[1]} is no constructor parameter')
            massPar.append(cp.index(p[1]))
    m = sets['set_momenta']
    if len([p for p in m['params'] if p[4]]) != 4 or len(m['params']) != 4: raise Err('set_momenta')
    L.append(slist('setMomenta', m, '`set_momenta`'))
    if 'set_v' in sets:
        L.append(slist('setV', sets['set_v'], '`set_v`'))
    for n in order:
        m = by[n]
        sc = Scope(c)
        for p in m['params']:
            if p[0] != 'int': raise Err('amp parameter')
            sc.new('i', p[1])
        t = Tr(c, sc, {k: v for k, v in nums.items() if v[0] < nums[n][0]})
        t.log = log
        t.ret = {'cdouble': 'c', 'ldouble': 'r'}[m['ret']]
        body = t.seq(t.stmts(m['body'], 2), 2)
        vs = ', '.join(f'{k} {i} `{v}`' for v, (k, i) in sc.loc.items())
        L.append(f'/-- `{m["ret"]} {n}({",".join(p[1] for p in m["params"])})` (SM/{name}.cpp:{cite(m)}); variables: {vs} -/')
        L.append(f'def m_{n} : Method := ⟨{len(m["params"])}, \n{body}⟩\n')
    oth = [n for n in order if by[n]['ret'] == 'ldouble' and n != 'amp2']
    if nums['amp2'][1] != 0 or any(nums[n][1] for n in oth): raise Err('amp2 arity')
    L.append(f'end {ns}\n')
    L.append('/-- ' + '\n'.join(doc) + ' -/')
    L.append(f'def {ns} : Proc where')
    L.append(f'  name := "{name}"')
    L.append(f'  nPar := {len(cp)}')
    L.append(f'  ctor := {ns}.ctor')
    L.append(f'  setMasses := ' + (f'{ns}.setMasses' if 'set_masses' in sets else '[]'))
    L.append(f'  massPar := {massPar}')
    L.append(f'  setMomenta := {ns}.setMomenta')
    L.append('  methods := [' + ', '.join(f'{ns}.m_{n}' for n in reversed(order)) + ']')
    L.append(f'  amp2 := {nums["amp2"][0]}')
    L.append('  others := [' + ', '.join(f'("{n}", {nums[n][0]})' for n in oth) + ']')
    return '\n'.join(L) + '\n'


GROUP = 12


def main():
    repo, out = sys.argv[1], sys.argv[2]
    names = sorted(os.path.basename(p)[:-4] for p in glob.glob(f'{repo}/SM/*.cpp'))
    names.remove('test')
    log, res = [], {}
    bad = 0
    for n in names:
        try:
            res[n] = translate(repo, n, log)
        except (Err, KeyError, ValueError) as ex:
            bad += 1
            print('ERROR', n, type(ex).__name__, ex)
    for l in log: print('note:', l)
    if bad: sys.exit(1)
    os.makedirs(out, exist_ok=True)
    for f in glob.glob(f'{out}/G*.lean'): os.remove(f)
    groups = [names[i:i + GROUP] for i in range(0, len(names), GROUP)]
    for gi, g in enumerate(groups, 1):
        with open(f'{out}/G{gi:02d}.lean', 'w') as f:
            f.write('import Verif.SM.Lang\n\n/-! Generated by tools/sm/translate.py from SM/*.cpp: ' + ', '.join(g) + '. -/\n\n')
            f.write('namespace Spinas.SM.Cls\n\n')
            f.write('\n'.join(res[n] for n in g))
            f.write('\nend Spinas.SM.Cls\n')
    with open(f'{out}/All.lean', 'w') as f:
        for gi in range(1, len(groups) + 1): f.write(f'import Verif.SM.Proc.G{gi:02d}\n')
        f.write('\n/-! Generated by tools/sm/translate.py. -/\n\nnamespace Spinas.SM\n\n/-- every class in SM/ -/\ndef all : List Proc := [')
        f.write(', '.join('Cls.' + ident(n) for n in names))
        f.write(']\n\nend Spinas.SM\n')
    print(len(names), 'classes')


main()
