#!/usr/bin/env python3
"""Writes lean/Verif/SM/Bosons/Textbook*.lean: the squared amplitude of a fermion line with two massless vector bosons in closed form, for each class.

The brackets of each class are taken from the files written by photons.py, light.py and gluons.py."""
import re, sys, os
ROOT = os.path.join(os.path.dirname(os.path.abspath(__file__)), '..', '..', 'lean', 'Verif', 'SM', 'Bosons')
# class: (file, partner with the brackets, flavour, arrangement, charge, formula)
CLASSES = {
 'AAee': ('in', 'e', 'e', 'c.e ^ 4 * breitWheeler'),
 'AAuu': ('in', 'u', 'q', '3 * (2 / 3 * c.e) ^ 4 * breitWheeler'),
 'AAdd': ('in', 'd', 'q', '3 * (1 / 3 * c.e) ^ 4 * breitWheeler'),
 'eeAA': ('out', 'e', 'e', 'c.e ^ 4 / 2 * breitWheeler'),
 'uuAA': ('out', 'u', 'q', '(2 / 3 * c.e) ^ 4 / 6 * breitWheeler'),
 'ddAA': ('out', 'd', 'q', '(1 / 3 * c.e) ^ 4 / 6 * breitWheeler'),
 'eAAe': ('ends', 'e', 'e', 'c.e ^ 4 * kleinNishina'),
 'uAAu': ('ends', 'u', 'q', '(2 / 3 * c.e) ^ 4 * kleinNishina'),
 'dAAd': ('ends', 'd', 'q', '(1 / 3 * c.e) ^ 4 * kleinNishina'),
 'gAuu': ('in', 'u', 'q', '(2 / 3 * c.e) ^ 2 * c.gs ^ 2 / 2 * breitWheeler'),
 'gAdd': ('in', 'd', 'q', '(1 / 3 * c.e) ^ 2 * c.gs ^ 2 / 2 * breitWheeler'),
 'dAgd': ('ends', 'd', 'q', '4 / 3 * (1 / 3 * c.e) ^ 2 * c.gs ^ 2 * kleinNishina'),
 'guAu': ('second', 'u', 'q', '(2 / 3 * c.e) ^ 2 * c.gs ^ 2 / 6 * kleinNishina'),
 'gguu': ('in', 'u', 'g', 'quarkPair c.gs'),
 'ggdd': ('in', 'd', 'g', 'quarkPair c.gs'),
 'dggd': ('ends', 'd', 'g', 'quarkCompton c.gs'),
 'gugu': ('second', 'u', 'g', 'quarkCompton c.gs'),
}
PARTNER = {'gguu': 'gAuu', 'ggdd': 'gAdd', 'dggd': 'dAgd', 'gugu': 'guAu'}
ARR = {'in': ([0, 1], [2, 3], (0, 2), (0, 3), 1), 'out': ([2, 3], [0, 1], (0, 2), (0, 3), 1), 'ends': ([1, 2], [0, 3], (0, 1), (0, 2), -1), 'second': ([0, 2], [1, 3], (0, 1), (1, 2), -1)}
texts = {}
for f in sorted(os.listdir(ROOT)):
    if f.startswith('Textbook') or not f.endswith('.lean'): continue
    texts[f] = open(os.path.join(ROOT, f)).read()
def home(cls):
    for f, t in texts.items():
        if re.search(r'^theorem %s\.value ' % cls, t, re.M): return f
    raise SystemExit('no ' + cls)

def strip(s):
    """outer parentheses"""
    s = s.strip()
    while s.startswith('('):
        d = 0
        for i, ch in enumerate(s):
            d += (ch == '(') - (ch == ')')
            if d == 0: break
        if i == len(s) - 1: s = s[1:-1].strip()
        else: break
    return s

def split(s, op):
    """last top level ` op `"""
    d = 0
    for i in range(len(s) - 1, -1, -1):
        d += (s[i] == ')') - (s[i] == '(')
        if d == 0 and s[i] == op and s[i - 1] == ' ' and s[i + 1] == ' ': return s[:i].strip(), s[i + 1:].strip()
    return None

def amp(cls, XX, t):
    m = re.search(r'^noncomputable def %s\.term%s \(N : Env\) \(j(\d) j(\d) : Int\) : ℂ :=\s*(.*)$' % (cls, XX), t, re.M)
    js = (int(m.group(1)) - 1, int(m.group(2)) - 1)
    e = strip(m.group(3))
    dens = []
    while split(e, '/'):
        e, d = split(e, '/')
        dens.append(int(re.match(r'N\.c (\d)$', d).group(1)))
        e = strip(e)
    facs = []
    while split(e, '*') :
        e, f = split(e, '*')
        facs.append(strip(f)); e = strip(e)
        if e.endswith(': ℂ'): break
    facs.reverse()
    assert e.endswith(': ℂ'), e
    coup = strip(strip(e[:-len(': ℂ')]).rstrip()[:-len(': ℝ')] if strip(e[:-len(': ℂ')]).rstrip().endswith(': ℝ') else e)
    assert not coup.endswith('ℂ'), coup
    return js, coup, facs, dens

def vlines(cls):
    part = PARTNER.get(cls, cls)
    t = texts[home(part)]
    out = {}
    for m in re.finditer(r'^    have (v(\d+)z\dz\d) : \(%s\.N c p\)\.v (\d+) (\[.*?\]) = (.*?) := (bra.*)$' % part, t, re.M):
        n, args, rhs, prf = int(m.group(3)), m.group(4), m.group(5), m.group(6)
        out.setdefault(n, (args, rhs.replace(part + '.', cls + '.'), prf.replace(part + '.', cls + '.')))
    if part != cls:   # different momentum in the middle
        for m in re.finditer(r'^    have x : \(%s\.N c p\)\.v (\d+) (\[.*?\]) = (.*?) := (bra.*)$' % cls, texts[home(cls)], re.M):
            out[int(m.group(1))] = (m.group(2), m.group(3), m.group(4))
    return out

def kindof(rhs):
    """('ab', i, j) etc. with leg numbers"""
    k = rhs[:2]
    legs = [int(a or b) for a, b in re.findall(r'legA \(p (\d)\) 0 0|codePair c p (\d)', rhs)]
    mid = re.search(r'\.2 \(p (\d)\) \(', rhs)
    return k, legs, (int(mid.group(1)) if mid else None)

def emit(cls):
    arr, fl, typ, formula = CLASSES[cls]
    (x, y), (i, j), A, B, eta = ARR[arr]
    file = home(cls); t = texts[file]
    V = vlines(cls)
    N = f'({cls}.N c p)'
    O = []
    w = O.append
    third = f' ∧ dot (p {x}) (p {y}) ≠ 0' if typ == 'g' else ''
    a, b = f'dot (p {A[0]}) (p {A[1]})', f'dot (p {B[0]}) (p {B[1]})'
    w(f'/-- `{cls}`: the momenta are off the poles -/')
    w(f'def {cls}.Apart (p : Nat → V4 ℝ) : Prop := {a} ≠ 0 ∧ {b} ≠ 0{third}')
    w(f'/-- `{cls}`: the formula of textbooks -/')
    w(f'noncomputable def {cls}.textbook (c : Constants) (p : Nat → V4 ℝ) : ℝ := {formula} (c.mass .{fl}) ({a}) ({b})')
    w('')
    w(f'theorem {cls}.closed {{c : Constants}} {{p : Nat → V4 ℝ}} (hc : c.Physical) (hh : c.Heavy) (h0 : ∀ i, 0 ≤ {cls}.react.mass c i) (hs : ∀ i : Fin 4, OnShell (p i) ({cls}.react.mass c i)) (hb : Balanced p) (ha : {cls}.Apart p) :')
    w(f'    (∀ n, (Ty.r, n) ∈ {cls}.proc.divides → {N}.r n ≠ 0) ∧ (∀ n, (Ty.c, n) ∈ {cls}.proc.divides → {N}.c n ≠ 0) ∧ meaning {N} .r Cls.{cls}.methods Cls.{cls}.amp2 [] = {cls}.textbook c p := by')
    mass = f'c.mass .{fl}'
    for n in range(4):
        w(f'  have q{n} : msq (p {n}) = ' + (f'({mass})' if n in (i, j) else '(0 : ℝ)') + f' ^ 2 := onShell_msq (hs {n})')
    for n in (i, j):
        w(f'  have g{n} : Grams (p {n}) ({mass}) (legA (p {n}) ({mass})) (legS (p {n}) ({mass})) := legs_grams (hs {n}) (h0 {n})')
        w(f'  have m{n} : {cls}.react.mass c {n} ≠ 0 := (leg_pos hc hh (by decide)).ne\'')
    for n in (x, y):
        w(f'  have y{n} : Ray (p {n}) (legA (p {n}) 0 0, legS (p {n}) 0 1) := ray_code (hs {n})')
        w(f'  have m{n} : {cls}.react.mass c {n} = 0 := rfl')
    w(f'  obtain ⟨k1, k2, k3, k4⟩ := dots_{arr} hb q0 q1 q2 q3')
    w('  obtain ⟨z1, z2' + (', z3' if typ == 'g' else '') + '⟩ := ha')
    cm = [f'dot_comm (p {n}) (p {k})' for n in range(4) for k in range(n)]
    K = 'k1, k2, k3, k4'
    w(f'  have KM : ({mass}) ^ 2 + (0 : ℝ) ^ 2 = ({mass}) ^ 2 := by ring')
    w(f'  have KM\' : (0 : ℝ) ^ 2 + ({mass}) ^ 2 = ({mass}) ^ 2 := by ring')
    w(f'  have KM0 : (0 : ℝ) ^ 2 + (0 : ℝ) ^ 2 = ((0 : Nat) : ℝ) ^ 2 := by norm_num')
    def pole(v):
        op, n, k = v
        n, k = int(n), int(k)
        if (op, n, k) == ('sub', 0, 3) and arr == 'ends': return 'pole_ends hb q1 q2', '-(2 * dot (p 1) (p 2))'
        side = 'KM0' if n in (x, y) and k in (x, y) else ('KM\'' if n in (x, y) else 'KM')
        return f'pole_{op} q{n} q{k} {side}', ('' if op == 'add' else '-') + f'(2 * dot (p {n}) (p {k}))'
    if typ != 'g':
        src = re.findall(r'have c(\d) : \(%s\.N c p\)\.c \d = poleDist .*?\(\(VExp\.(\w+) (\d) (\d)\)' % cls, t)
        cs = {}
        for n, op, a1, a2 in src: cs[int(n)] = (op, a1, a2)
        for n in sorted(cs):
            pf, val = pole(cs[n])
            w(f'  have c{n} : {N}.c {n} = (({val} : ℝ) : ℂ) := {pf}')
            w(f'  have n{n} : ({val} : ℝ) ≠ 0 := by')
            w(f'    try simp only [{", ".join(cm)}, {K}]')
            w(f'    first | exact mul_ne_zero two_ne_zero z1 | exact mul_ne_zero two_ne_zero z2 | exact neg_ne_zero.2 (mul_ne_zero two_ne_zero z1) | exact neg_ne_zero.2 (mul_ne_zero two_ne_zero z2)')
    else:
        src = re.findall(r'have e(\d) : \(%s\.N c p\)\.r \d = \(poleDist .*?\(\(VExp\.(\w+) (\d) (\d)\)' % cls, t)
        cs = {}
        for n, op, a1, a2 in src: cs[int(n)] = (op, a1, a2)
        for n in sorted(cs):
            pf, val = pole(cs[n])
            op, a1, a2 = cs[n]
            mm = '((0 : Nat) : ℝ)' if 'KM0' in pf or 'ends' in pf else f'({mass})'
            w(f'  have e{n} : {N}.r {n} = {val} := by')
            w(f'    have : {N}.r {n} = (poleDist {mm} ((0 : Nat) : ℝ) ((VExp.{op} {a1} {a2}).sum p)).re := rfl')
            w(f'    rw [this, {pf}, Complex.ofReal_re]')
            w(f'  have n{n} : ({val} : ℝ) ≠ 0 := by')
            w(f'    try simp only [{", ".join(cm)}, {K}] at z3 ⊢')
            w(f'    first | exact mul_ne_zero two_ne_zero z1 | exact mul_ne_zero two_ne_zero z2 | exact mul_ne_zero two_ne_zero z3 | exact neg_ne_zero.2 (mul_ne_zero two_ne_zero z1) | exact neg_ne_zero.2 (mul_ne_zero two_ne_zero z2) | exact neg_ne_zero.2 (mul_ne_zero two_ne_zero z3)')
    # couplings
    rs = {}
    for n, v in re.findall(r'have [rg](\d) : \(%s\.N c p\)\.r \d = (.*?) := rfl' % cls, t): rs[int(n)] = v
    for n in sorted(rs): w(f'  have r{n} : {N}.r {n} = {rs[n]} := rfl')
    ty = 'r' if typ == 'g' else 'c'
    keys = sorted(cs)
    w(f'  have hd : ∀ v ∈ {cls}.proc.divides, ' + ' ∨ '.join(f'v = (Ty.{ty}, {n})' for n in keys) + ' := by decide +kernel')
    # spin sums
    sums = []
    for XX in ('PP', 'PM', 'MP', 'MM'):
        js, coup, facs, dens = amp(cls, XX, t)
        assert js == (i, j), (cls, js)
        used = sorted(set(int(v) for f in facs for v in re.findall(r'N\.v (\d+)', f)))
        w(f'  have S{XX} : ∑ s, ∑ s\', ‖{cls}.term{XX} {N} (spinOf s) (spinOf s\')‖ ^ 2 = ')
        den = ' * '.join(f'({pole(cs[d])[1]}) ^ 2' for d in dens) if typ != 'g' else '1'
        coupN = coup.replace('N.', f'{N}.')
        kin = {}
        for v in used: kin[v] = kindof(V[v][1])
        def br(v, generic=True):
            k, legs, mid = kin[v]
            def leg(n, num):
                return f'(legA (p {n}) 0 0, legS (p {n}) 0 1).{num}' if n in (x, y) else f'({"legA" if num == 1 else "legS"} (p {n}) ({mass}) {"s" if n == i else "s" + chr(39)})'
            if k == 'mb': return f'mb {leg(legs[0], 2)} (p {mid}) {leg(legs[1], 1)}'
            num = 1 if k == 'ab' else 2
            return f'{k} {leg(legs[0], num)} {leg(legs[1], num)}'
        lines = []
        if XX in ('PP', 'MM'):
            v1, v2, v3 = [int(re.match(r'N\.v (\d+)', f).group(1)) for f in facs]
            assert v1 == v2
            k = kin[v1][0]; k3 = kin[v3][0]
            norm1 = f'2 * dot (p {kin[v1][1][0]}) (p {kin[v1][1][1]})'
            norm3 = f'2 * dot (p {kin[v3][1][0]}) (p {kin[v3][1][1]})'
            w(f'      ({coupN}) ^ 2 * ({norm1}) ^ 2 / ({den}) * ({norm3}) := by')
            l0, l1 = kin[v1][1]
            o0, o1 = kin[v3][1]
            assert (l0 in (x, y)) and (o0, o1) in ((i, j), (j, i))
            w(f'    have a1 := y{l0}.{k}_norm y{l1}')
            if (o0, o1) == (i, j): w(f'    have a3 := g{o0}.{k3}_norm g{o1}')
            else:
                w(f'    have a3 := g{o0}.{k3}_norm g{o1}')
                w('    rw [Finset.sum_comm] at a3')
            w(f'    rw [← a3, Finset.mul_sum]')
            w('    refine Finset.sum_congr rfl fun s _ => ?_')
            w('    rw [Finset.mul_sum]')
            w('    refine Finset.sum_congr rfl fun s\' _ => ?_')
        else:
            inner = [f for f in facs if 'N.v' in f and len(re.findall(r'N\.v', f)) == 4][0]
            midf = [f for f in facs if len(re.findall(r'N\.v', f)) == 1][0]
            vm = int(re.match(r'N\.v (\d+)', midf).group(1))
            assert facs[0] == inner and facs[1] == midf
            k, (l0, l1), mid = kin[vm]
            # canonical bracket: sb of l0 (square) and ab of l1
            vs = [int(v) for v in re.findall(r'N\.v (\d+)', inner)]
            canon = f'sb (legA (p {l0}) 0 0, legS (p {l0}) 0 1).2 (legS (p {i}) ({mass}) s) * ab (legA (p {l1}) 0 0, legS (p {l1}) 0 1).1 (legA (p {j}) ({mass}) s\') + (({eta} : ℝ) : ℂ) * (sb (legA (p {l0}) 0 0, legS (p {l0}) 0 1).2 (legS (p {j}) ({mass}) s\') * ab (legA (p {l1}) 0 0, legS (p {l1}) 0 1).1 (legA (p {i}) ({mass}) s))'
            got = re.sub(r'N\.v (\d+) \[[^\]]*\]', lambda m: '(' + br(int(m.group(1))) + ')', inner)
            norm1 = f'2 * dot (p {l0}) (p {mid}) * (2 * dot (p {l1}) (p {mid})) - msq (p {mid}) * (2 * dot (p {l0}) (p {l1}))'
            norm3 = f'2 * dot (p {l0}) (p {i}) * (2 * dot (p {l1}) (p {j})) + ({eta} : ℝ) ^ 2 * (2 * dot (p {l0}) (p {j}) * (2 * dot (p {l1}) (p {i}))) + 2 * ({eta} : ℝ) * (({mass}) * ({mass})) * (2 * dot (p {l0}) (p {l1}))'
            w(f'      ({coupN}) ^ 2 * ({norm1}) / ({den}) * ({norm3}) := by')
            w(f'    have a1 := y{l0}.mb_norm y{l1} (p {mid})')
            w(f'    have a3 := y{l0}.unlike y{l1} g{i} g{j} ({eta})')
            w(f'    have a2 : ∀ s s\', ‖{got}‖ = ‖{canon}‖ := by')
            w(f'      intro s s\'')
            w('      first')
            w('        | (congr 1; simp only [sb, ab]; push_cast; ring1)')
            w('        | (rw [← norm_neg]; congr 1; simp only [sb, ab]; push_cast; ring1)')
            w(f'    rw [← a3, Finset.mul_sum]')
            w('    refine Finset.sum_congr rfl fun s _ => ?_')
            w('    rw [Finset.mul_sum]')
            w('    refine Finset.sum_congr rfl fun s\' _ => ?_')
        names = []
        for v in used:
            args, rhs, prf = V[v]
            fix = lambda z: re.sub(r'\bs%d\b' % i, 's', re.sub(r'\bs%d\b' % j, "s'", z))
            w(f'    have v{v} : {N}.v {v} {fix(args)} = {br(v)} := {prf}')
            names.append(f'v{v}')
        w(f'    simp only [{cls}.term{XX}, {", ".join(names)}]')
        if typ != 'g': w('    simp only [' + ', '.join(f'c{d}' for d in sorted(set(dens))) + ']')
        if XX in ('PP', 'MM'):
            w('    simp only [norm_mul, norm_div, Complex.norm_real, Real.norm_eq_abs, mul_pow, div_pow, sq_abs] at a1 ⊢')
        else:
            w('    simp only [norm_mul, norm_div, Complex.norm_real, Real.norm_eq_abs, mul_pow, div_pow, sq_abs, a2]')
        w('    rw [a1]')
        w('    ring')
        sums.append(f'S{XX}')
    w('  refine ⟨fun n hn => ?_, fun n hn => ?_, ?_⟩')
    pats = ' | '.join('h' for _ in keys)
    good = [f'    · rw [{"e" if typ == "g" else "c"}{n}]; exact ' + (f'n{n}' if typ == 'g' else f'Complex.ofReal_ne_zero.2 n{n}') for n in keys]
    r1 = f'  · rcases hd _ hn with {pats} <;> cases h'
    if typ == 'g':
        w(r1); O.extend(good); w(r1)
    else:
        w(r1); w(r1); O.extend(good)
    w(f'  rw [{cls}.value]')
    w('  simp only [sumW, sumJ]')
    w(f'  have u0 : spinOf 0 = -1 := rfl')
    w(f'  have u1 : spinOf 1 = 1 := rfl')
    w(f'  rw [Fin.sum_univ_two, Fin.sum_univ_two, Fin.sum_univ_two, u0, u1] at SPP SPM SMP SMM')
    w(f'  simp only [{cls}.ampPP, {cls}.ampPM, {cls}.ampMP, {cls}.ampMM]')
    # weight
    m = re.search(r'^theorem %s\.value .*?:=\n?(.*?)$' % cls, t, re.M | re.S)
    val = re.search(r'^theorem %s\.value (.*?) :=\n' % cls, t, re.M | re.S).group(1)
    D = re.search(r'/ \(\((\d+) : Nat\) : ℝ\)\)$', val).group(1)
    if typ == 'g':
        W = re.search(r'‖ \^ 2 \* \((.*)\)\)\)\) x\)\) x\)\) x\)\) \(\(0', val).group(1).replace('N.', f'{N}.')
    else:
        mm = re.search(r'\(\(\((\d) : Nat\) : ℝ\) \* \(‖', val)
        W = f'(({mm.group(1)} : Nat) : ℝ)' if mm else '(1 : ℝ)'
    rh = []
    w(f'  have T : ∀ {{s0 s1 s2 s3 a0 a1 a2 a3 b0 b1 b2 b3 d0 d1 d2 d3 x y z v W : ℝ}}, s0 + s1 + (s2 + s3) = x → a0 + a1 + (a2 + a3) = y → b0 + b1 + (b2 + b3) = z → d0 + d1 + (d2 + d3) = v →')
    w(f'      s0 * W + s1 * W + s2 * W + s3 * W + a0 * W + a1 * W + a2 * W + a3 * W + b0 * W + b1 * W + b2 * W + b3 * W + d0 * W + d1 * W + d2 * W + d3 * W = (x + y + z + v) * W := by')
    w('    intros; subst_vars; ring')
    w(f'  have T\' := T SPP SPM SMP SMM (W := {W})')
    w(f'  refine (congrArg (· / (({D} : Nat) : ℝ)) (Eq.trans ?_ T\')).trans ?_')
    w('  · push_cast; ring')
    w('  clear T\' SPP SPM SMP SMM')
    w(f'  simp only [{cls}.textbook, ' + ', '.join(f'r{n}' for n in sorted(rs)) + (', ' + ', '.join(f'e{n}' for n in keys) if typ == 'g' else '') + f', q{i}, q{j}]')
    if typ == 'g':
        fn, sg = ('fusion_kernel', '+') if 'quarkPair' in formula else ('compton_kernel', '-')
        w(f'  rw [{fn} c.gs z1 z2 k3.symm z3]')
    w(f'  simp only [kleinNishina, breitWheeler, {", ".join(cm)}, {K}]' + (' at z3 ⊢' if typ == 'g' else ''))
    w(f'  generalize {a} = a at *')
    w(f'  generalize {b} = b at *')
    w(f'  generalize {mass} = m at *')
    w('  push_cast')
    w('  field_simp')
    w('  ring')
    w('')
    w(f'theorem {cls}.returns : {cls}.Returns {cls}.proc.amp2 {cls}.Apart {cls}.textbook :=')
    w(f'  returns_of (by simp [all, {cls}]) (by decide +kernel) (by decide +kernel) (fun _ hc i => {cls}.mass_eq hc i) (by decide +kernel) fun _ _ hc hh h0 hs hb ha => {cls}.closed hc hh h0 hs hb ha')
    w('')
    return '\n'.join(O)

HEAD = '''import Verif.SM.Textbook
%s
/-! Written by tools/bosons/textbook.py: %s in closed form. -/

namespace Spinas
open Spec Spec.Reaction Props Matrix
namespace SM
open XR
variable [FPEnv]
namespace Rows
open BRow
set_option linter.unusedSimpArgs false
set_option linter.unusedVariables false
set_option linter.unreachableTactic false
set_option linter.unusedTactic false
set_option maxHeartbeats 1000000

'''
def main(names, out, what):
    mods = sorted({'import Verif.SM.Bosons.' + home(c)[:-5] for c in names})
    body = HEAD % ('\n'.join(mods) + '\n', what) + '\n'.join(emit(c) for c in names) + '\nend Rows\nend SM\nend Spinas\n'
    open(os.path.join(ROOT, out), 'w').write(body)
if __name__ == '__main__':
    if len(sys.argv) > 1: main(sys.argv[1].split(','), sys.argv[2], 'test')
    else:
        for out, arr, what in (('TextbookIn.lean', ('in',), 'a pair from two massless bosons'), ('TextbookOut.lean', ('out',), 'two photons from a pair'), ('TextbookCompton.lean', ('ends', 'second'), 'Compton scattering')):
            main([c for c in CLASSES if CLASSES[c][0] in arr], out, what)
