"""Writes lean/Verif/SM/Bosons/GluonPairs.lean: the classes with two quarks and two gluons.

The formulas of these classes are those of the classes with a gluon and a photon (without the
denominators), so the proofs use the ones of those classes."""
import os, sys

HERE = os.path.dirname(os.path.abspath(__file__))
OUT = os.path.join(HERE, '..', '..', 'lean', 'Verif', 'SM', 'Bosons', 'GluonPairs.lean')

HEAD = '''import Verif.SM.TwoGluons
import Verif.SM.GluonRows
import Verif.SM.Bosons.GluonPhoton
import Verif.SM.Bosons.GluonPhotonIn

/-! Two quarks and two gluons. Generated by tools/bosons/gluons.py: for each class its amplitude is compared with the one of the class with a photon in place of a gluon, and `amp2` is the squared amplitude of the Feynman rules. -/

set_option linter.unusedSimpArgs false
set_option linter.unusedVariables false
set_option linter.unreachableTactic false
set_option linter.unusedTactic false

namespace Spinas.SM.Rows
open Spec Spec.Reaction Props XR Matrix BRow

/-- the same constants with another charge -/
noncomputable abbrev unit (c : Constants) : Constants := { c with e := 1 }
theorem unit_physical {c : Constants} (h : c.Physical) : (unit c).Physical := ⟨h.MW, h.SW, h.SW_lt, h.neutrino, h.massive⟩
theorem unit_heavy {c : Constants} (h : c.Heavy) : (unit c).Heavy := ⟨h.MW, h.MH⟩
'''

# class, partner, flavour, charge, sign of the formulas, legs (i, j, a, b), gluon pole, weights, denominators (member, mass?, vector), c members, average, loops
D = dict(
    ggdd=dict(part='gAdd', f='d', q='((-((1 : Nat) : ℝ)) / ((3 : Nat) : ℝ))', sg='', legs=(2, 3, 0, 1), s=2, t=3, u=4, cs=(3, 4), av=256),
    gguu=dict(part='gAuu', f='u', q='(((2 : Nat) : ℝ) / ((3 : Nat) : ℝ))', sg='', legs=(2, 3, 0, 1), s=2, t=3, u=4, cs=(3, 4), av=256),
    dggd=dict(part='dAgd', f='d', q='((-((1 : Nat) : ℝ)) / ((3 : Nat) : ℝ))', sg='-', legs=(3, 0, 1, 2), s=4, t=3, u=2, cs=(3, 2), av=96),
    gugu=dict(part='guAu', f='u', q='(((2 : Nat) : ℝ) / ((3 : Nat) : ℝ))', sg='', legs=(3, 1, 0, 2), s=3, t=4, u=2, cs=(2, 4), av=96),
)
EXPR = {2: '(VExp.add 0 1)', 3: '(VExp.sub 0 2)', 4: '(VExp.sub 0 3)'}
NAME = {2: 's', 3: 't', 4: 'u'}
# momentum of a leg, coming in / along the line
def mom(n, back): return f'(backward (p {n}))' if back else f'(p {n})'

def v(n, *js): return f'N.v {n} [{", ".join(js)}]'

def terms(o):
    """formulas of amp_Num at the helicities of the two gluons, as in SM/*.cpp"""
    two = '((2 : Nat) : ℝ)'
    neg = '(-((2 : Nat) : ℝ))'
    def m(k, a, b): return f'((((((({k} * N.r 0) * N.r 0) * N.r 1) : ℝ) : ℂ) * {a}) * {a}) * {b}'
    def x(k, a, b): return f'((((({k} * N.r 0) * N.r 0) : ℝ) : ℂ) * {a}) * {b}'
    if o in ('ggdd', 'gguu'):
        j, k = 'j3', 'j4'
        return (j, k), dict(
            PP=m(two, v(2), v(1, j, k)), MM=m(two, v(3), v(0, j, k)),
            PM=x(neg, f'({v(4, j)} * {v(7, k)} + {v(10, k)} * {v(9, j)})', v(12)),
            MP=x(neg, f'({v(5, j)} * {v(6, k)} + {v(11, k)} * {v(8, j)})', v(13)))
    if o == 'dggd':
        j, k = 'j1', 'j4'
        return (j, k), dict(
            PP=m(neg, v(8), v(11, j, k)), MM=m(two, v(9), v(10, j, k)),
            MP=x(two, f'({v(4, j)} * {v(7, k)} - {v(0, k)} * {v(3, j)})', v(12)),
            PM=x(neg, f'({v(5, j)} * {v(6, k)} - {v(1, k)} * {v(2, j)})', v(13)))
    j, k = 'j2', 'j4'
    return (j, k), dict(
        PP=m(two, v(4), v(7, j, k)), MM=m(neg, v(5), v(6, j, k)),
        PM=x(two, f'({v(10, k)} * {v(9, j)} + {v(2, j)} * {v(1, k)})', v(12)),
        MP=x(neg, f'({v(11, k)} * {v(8, j)} + {v(3, j)} * {v(0, k)})', v(13)))

USED = {  # spinor products in the formulas: (number, spins)
    'ggdd': dict(PP=[(2, ''), (1, 'jk')], MM=[(3, ''), (0, 'jk')], PM=[(4, 'j'), (7, 'k'), (10, 'k'), (9, 'j'), (12, '')], MP=[(5, 'j'), (6, 'k'), (11, 'k'), (8, 'j'), (13, '')]),
    'dggd': dict(PP=[(8, ''), (11, 'jk')], MM=[(9, ''), (10, 'jk')], MP=[(4, 'j'), (7, 'k'), (0, 'k'), (3, 'j'), (12, '')], PM=[(5, 'j'), (6, 'k'), (1, 'k'), (2, 'j'), (13, '')]),
    'gugu': dict(PP=[(4, ''), (7, 'jk')], MM=[(5, ''), (6, 'jk')], PM=[(10, 'k'), (9, 'j'), (2, 'j'), (1, 'k'), (12, '')], MP=[(11, 'k'), (8, 'j'), (3, 'j'), (0, 'k'), (13, '')]),
}
USED['gguu'] = USED['ggdd']
SPIN = dict(P='2', M='(-2)')

def emit(o, d):
    A = d['part']
    i, j, a, b = d['legs']
    (x, y), T = terms(o)
    def args(h, one, two):
        l = [None] * 4
        l[a], l[b] = SPIN[h[0]], SPIN[h[1]]
        rest = sorted([i, j])
        l[rest[0]], l[rest[1]] = one, two
        return '[' + ', '.join(l) + ']'
    L = [f'\n/-! ### {o} -/\n', '/-- what the methods of the class see -/',
         f'noncomputable abbrev {o}.N [FPEnv] (c : Constants) (p : Nat → V4 ℝ) : Env := {o}.proc.env ({o}.rho c) p']
    NMS = dict(P='positive', M='negative')
    for h in ('PP', 'PM', 'MP', 'MM'):
        L.append(f'/-- `amp_Num` for a gluon of {NMS[h[0]]} helicity and one of {NMS[h[1]]} helicity (SM/{o}.cpp) -/')
        L.append(f'noncomputable def {o}.term{h} (N : Env) ({x} {y} : Int) : ℂ := {T[h]}')
    for h in ('PP', 'PM', 'MP', 'MM'):
        L.append('set_option maxRecDepth 8000 in')
        L.append(f'theorem {o}.amp{h} (N : Env) (f : Nat → List Int → ℂ) ({x} {y} : Int) : Cls.{o}.m_amp_Num.mean N f .c {args(h, x, y)} = {o}.term{h} N {x} {y} := by rfl')
    sums = ['sumW' if n in (a, b) else 'sumJ' for n in range(4)]
    def loops(call):
        r2, r3, r4 = f'N.r {d["s"]}', f'N.r {d["t"]}', f'N.r {d["u"]}'
        if o in ('ggdd', 'gguu'): q = ('N.r 2', 'N.r 3'), ('N.r 2', 'N.r 4'), ('N.r 3', 'N.r 4')
        if o == 'dggd': q = ('N.r 4', 'N.r 3'), ('N.r 4', 'N.r 2'), ('N.r 3', 'N.r 2')
        if o == 'gugu': q = ('N.r 3', 'N.r 4'), ('N.r 3', 'N.r 2'), ('N.r 4', 'N.r 2')
        w = f'((((6 : Nat) : ℝ) / ({q[0][0]} * {q[0][1]}) ^ 2 + ((6 : Nat) : ℝ) / ({q[1][0]} * {q[1][1]}) ^ 2) - ((2 : Nat) : ℝ) / ((3 : Nat) : ℝ) / ({q[2][0]} * {q[2][1]}) ^ 2)'
        e = f'(x + (‖{call}‖ ^ 2 * {w}))'
        for n, s in reversed(list(zip('abcd', sums))):
            e = f'({s} (fun x {n} => {e}) x)'
        e = e[:-2] + '((0 : Nat) : ℝ))'
        return f'({e} / (({d["av"]} : Nat) : ℝ))'
    L.append('set_option maxRecDepth 8000 in')
    L.append(f'theorem {o}.amp2_eq (N : Env) (f : Nat → List Int → ℂ) : Cls.{o}.m_amp2.mean N f .r [] =\n    {loops("(f 0 [a, b, c, d])")} := by rfl')
    fey = f'Cls.{o}.m_amp2_Feynman, ' if o[:2] == 'gg' else ''
    L.append('set_option maxRecDepth 8000 in')
    L.append(f'theorem {o}.value (N : Env) : meaning N .r Cls.{o}.methods Cls.{o}.amp2 [] =\n    {loops(f"(Cls.{o}.m_amp_Num.mean N (callMean N []) .c [a, b, c, d])")} :=\n  {o}.amp2_eq N (callMean N [{fey}Cls.{o}.m_amp_Num])')
    L.append(f'''
theorem {o}.mass_eq {{c : Constants}} (hc : c.Physical) (i : Fin 4) : {o}.proc.massNum ({o}.rho c) i = {o}.react.mass c i := by
  fin_cases i <;> first | rfl | exact Nat.cast_zero
''')
    sp = {i: f's{i}', j: f's{j}', a: f'h{a}', b: f'h{b}'}
    am = '[' + ', '.join((f'spinW h{n}' if n in (a, b) else f'spinOf s{n}') for n in range(4)) + ']'
    E = lambda n: f'(lightE (legA (p {n}) 0 0, legS (p {n}) 0 1) h{n}.castSucc)'
    prs = lambda R, c: f'({R}.react.codePair {c} p {i} s{i}) ({R}.react.codePair {c} p {j} s{j}) {E(a)} {E(b)}'
    q0, q1 = sorted([i, j])
    cs = d['cs']
    anti_j = o in ('ggdd', 'gguu')
    back = lambda n: n >= 2
    aj = mom(j, anti_j)
    # order j a b = (msq (along j + k_b) - m²) / msq (k_a + k_b)
    chan = lambda n, m: {frozenset((0, 1)): 2, frozenset((2, 3)): 2, frozenset((0, 2)): 3, frozenset((1, 3)): 3, frozenset((0, 3)): 4, frozenset((1, 2)): 4}[frozenset((n, m))]
    ta, tb, ts = chan(j, b), chan(j, a), chan(a, b)
    assert ts == d['s'] and {ta, tb} == {d['t'], d['u']}
    ka, kb = mom(a, back(a)), mom(b, back(b))
    L.append('variable [FPEnv] in')
    hyp = f'{{c : Constants}} {{p : Nat → V4 ℝ}} {{u : Fin 4 → Fin 3 → Spinor}} {{ε : Fin 4 → Fin 3 → Vec}} (hc : c.Physical) (hh : c.Heavy) (h0 : ∀ i, 0 ≤ {o}.react.mass c i) (hs : ∀ i : Fin 4, OnShell (p i) ({o}.react.mass c i)) (hb : Balanced p) (hr : {o}.react.Regular c p) (hu : ∀ i, {o}.react.Complete c p i (u i) (ε i))'
    res = f'‖Cls.{o}.m_amp_Num.mean ({o}.N c p) (callMean ({o}.N c p) []) .c {am}‖ ^ 2 = (({o}.N c p).r {ta} * ({o}.N c p).r {tb}) ^ 2 * ‖{o}.react.bare c p {i} {j} {a} {b} {prs(o, "c")}‖ ^ 2'
    L.append(f'theorem {o}.amps {hyp} :')
    L.append(f'    ({o}.N c p).r 2 ≠ 0 ∧ ({o}.N c p).r 3 ≠ 0 ∧ ({o}.N c p).r 4 ≠ 0 ∧ ({o}.N c p).r {d["s"]} + ({o}.N c p).r {ta} + ({o}.N c p).r {tb} = 0 ∧')
    L.append(f'    {o}.react.order c p {j} {a} {b} = ({o}.N c p).r {ta} / ({o}.N c p).r {ts} ∧ {o}.react.order c p {j} {b} {a} = ({o}.N c p).r {tb} / ({o}.N c p).r {ts} ∧')
    L.append(f'    ∀ (s{q0} : Fin 2) (s{q1} : Fin 2) (h{a} : Fin 2) (h{b} : Fin 2), {res} := by')
    W = L.append
    W(f'  have he : {o}.react.ends = [{i}] := by decide')
    W(f'  have ht : {o}.react.starts = [{j}] := by decide')
    W(f'  have hB : {o}.react.bosons = [{a}, {b}] := by decide')
    W(f'  obtain ⟨f1, f2, f3⟩ := {o}.react.regular_line he ht hB hr')
    W(f'  have hr\' : {A}.react.Regular (unit c) p := by')
    W(f'    have hA : {A}.react.Regular (unit c) p ↔ {A}.react.Fermionic (unit c) p {i} {j} {a} {b} ∧ {A}.react.Fermionic (unit c) p {i} {j} {b} {a} ∧ {A}.react.Bosonic (unit c) p {i} {j} {a} {b} := Iff.rfl')
    W(f'    refine hA.2 ⟨?_, ?_, ?_⟩')
    W(f'    · intro x hx _; cases hx; exact f1 .{d["f"]} rfl rfl')
    W(f'    · intro x hx _; cases hx; exact f2 .{d["f"]} rfl rfl')
    W(f'    · intro x hx _; cases x <;> cases hx')
    W(f'  have hu\' : ∀ i, {A}.react.Complete (unit c) p i (u i) (ε i) := by intro i; have := hu i; fin_cases i <;> exact this')
    W(f'  have hs\' : ∀ i : Fin 4, OnShell (p i) ({A}.react.mass (unit c) i) := by intro i; have := hs i; fin_cases i <;> exact this')
    W(f'  have h0\' : ∀ i : Fin 4, 0 ≤ {A}.react.mass (unit c) i := by intro i; have := h0 i; fin_cases i <;> exact this')
    W(f'  obtain ⟨n0, n1, -, -, am⟩ := {A}.amps (unit_physical hc) (unit_heavy hh) h0\' hs\' hb hr\' hu\'')
    for k in (2, 3, 4):
        m = '((0 : Nat) : ℝ)' if k == ts else f'(c.mass .{d["f"]})'
        W(f'  have e{k} : ({o}.N c p).r {k} = (poleDist {m} ((0 : Nat) : ℝ) ({EXPR[k]}.sum p)).re := rfl')
        if k == ts: W(f'  rw [Nat.cast_zero, pole_fermion rfl, Complex.ofReal_re, show msq ({EXPR[k]}.sum p) - (0 : ℝ) ^ 2 = msq ({EXPR[k]}.sum p) by ring] at e{k}')
        else: W(f'  rw [Nat.cast_zero, pole_fermion rfl, Complex.ofReal_re] at e{k}')
    for k in (0, 1):
        W(f'  have c{k} : ({A}.N (unit c) p).c {k} = (({o}.N c p).r {cs[k]} : ℂ) := by')
        W(f'    have : ({A}.N (unit c) p).c {k} = poleDist (c.mass .{d["f"]}) ((0 : Nat) : ℝ) ({EXPR[cs[k]]}.sum p) := rfl')
        W(f'    rw [this, Nat.cast_zero, pole_fermion rfl, e{cs[k]}]')
        W(f'  have n{cs[k]}\' : ({o}.N c p).r {cs[k]} ≠ 0 := by have := n{k}; rw [c{k}] at this; exact_mod_cast this')
    ms = {2: 'msq_s', 3: 'msq_t', 4: 'msq_u'}
    W(f'  have n{ts}\' : ({o}.N c p).r {ts} ≠ 0 := by')
    W(f'    rw [e{ts}, ← {ms[ts]} hb (plus {ka} {kb}) (by simp)]')
    W(f'    intro h')
    W(f'    refine f3 .gluon rfl rfl ?_')
    W(f'    show denominator c .gluon (plus {ka} {kb}) = 0')
    W(f'    rw [denominator, breitWigner, h]')
    W(f'    apply Complex.ext <;> simp [Constants.bosonMass]')
    W(f'  have q{a} : msq (p {a}) = 0 := (onShell_msq (hs {a})).trans (by show (0 : ℝ) ^ 2 = 0; norm_num)')
    W(f'  have q{b} : msq (p {b}) = 0 := (onShell_msq (hs {b})).trans (by show (0 : ℝ) ^ 2 = 0; norm_num)')
    W(f'  have q{i} : msq (p {i}) = c.mass .{d["f"]} ^ 2 := onShell_msq (hs {i})')
    W(f'  have q{j} : msq (p {j}) = c.mass .{d["f"]} ^ 2 := onShell_msq (hs {j})')
    W(f'  have d0 : ({o}.N c p).r {d["s"]} + ({o}.N c p).r {ta} + ({o}.N c p).r {tb} = 0 := by')
    W(f'    have := balanced_three hb')
    W(f'    rw [e2, e3, e4]')
    W(f'    simp only [msq, VExp.sum, this, plus, backward] at q0 q1 q2 q3 ⊢')
    W(f'    linarith')
    W(f'  refine ⟨n2\', n3\', n4\', d0, ?_, ?_, ?_⟩')
    W(f'  · show (msq (plus {aj} {kb}) - c.mass .{d["f"]} ^ 2) / msq (plus {ka} {kb}) = _')
    W(f'    rw [e{ta}, e{ts}, {ms[ta]} hb (plus {aj} {kb}) (by simp), {ms[ts]} hb (plus {ka} {kb}) (by simp)]')
    W(f'  · show (msq (plus {aj} {ka}) - c.mass .{d["f"]} ^ 2) / msq (plus {kb} {ka}) = _')
    W(f'    rw [e{tb}, e{ts}, {ms[tb]} hb (plus {aj} {ka}) (by simp), {ms[ts]} hb (plus {kb} {ka}) (by simp)]')
    W(f'  have Q : {d["q"]} ≠ 0 := by norm_num')
    W(f'  have qf : (Flavour.{d["f"]}).charge = {d["q"]} := by norm_num [Flavour.charge, Flavour.{d["f"]}]')
    W(f'  have r0 : ({A}.N (unit c) p).r 0 = 1 := rfl')
    W(f'  have r1 : ({A}.N (unit c) p).r 1 = {d["q"]} := rfl')
    W(f'  have r2 : ({A}.N (unit c) p).r 2 = c.gs := rfl')
    W(f'  have r3 : ({A}.N (unit c) p).r 3 = c.mass .{d["f"]} := rfl')
    W(f'  have g0 : ({o}.N c p).r 0 = c.gs := rfl')
    W(f'  have g1 : ({o}.N c p).r 1 = c.mass .{d["f"]} := rfl')
    W(f'  have sc : ∀ {{x y : ℂ}}, x * ({d["q"]} : ℝ) = {d["sg"]}(c.gs * (({A}.N (unit c) p).c 0 * ({A}.N (unit c) p).c 1) * y) → ‖x‖ * ‖({d["q"]} : ℝ)‖ = ‖c.gs‖ * (‖({A}.N (unit c) p).c 0‖ * ‖({A}.N (unit c) p).c 1‖) * ‖y‖ := by')
    W(f'    intro x y h')
    W(f'    have := congrArg norm h')
    W(f'    simpa only [norm_mul, norm_neg, Complex.norm_real] using this')
    if o == 'dggd':
        W(f'  have m1 : {o}.react.mass c 1 = 0 := rfl')
        W(f'  have m2 : {o}.react.mass c 2 = 0 := rfl')
        W(f'  have m1\' : {A}.react.mass (unit c) 1 = 0 := rfl')
        W(f'  have m2\' : {A}.react.mass (unit c) 2 = 0 := rfl')
        W(f'  obtain ⟨l1, _, _⟩ := {o}.react.code_light hs hu (n := 1) rfl rfl')
        W(f'  obtain ⟨l2, _, _⟩ := {o}.react.code_light hs hu (n := 2) rfl rfl')
        for k, n, m in ((12, 2, 1), (13, 1, 2)):
            W(f'  have w{k} : ({o}.N c p).v {k} [] = ({A}.N (unit c) p).v {k} [] := by')
            W(f'    have x : ({o}.N c p).v {k} [] = mb (legA (p {n}) 0 0, legS (p {n}) 0 1).2 (p 0) (legA (p {m}) 0 0, legS (p {m}) 0 1).1 := bra_mid_square (p := p) (m := {o}.proc.massNum ({o}.rho c)) ({o}.mass_eq hc {n}) ({o}.mass_eq hc {m}) (.inr ⟨m{n}, rfl⟩) (.inr ⟨m{m}, rfl⟩)')
            W(f'    have y : ({A}.N (unit c) p).v {k} [] = mb (legA (p {n}) 0 0, legS (p {n}) 0 1).2 (p 3) (legA (p {m}) 0 0, legS (p {m}) 0 1).1 := bra_mid_square (p := p) (m := {A}.proc.massNum ({A}.rho (unit c))) ({A}.mass_eq (unit_physical hc) {n}) ({A}.mass_eq (unit_physical hc) {m}) (.inr ⟨m{n}\', rfl⟩) (.inr ⟨m{m}\', rfl⟩)')
            W(f'    have z := l{n}.mb_plus (legA (p {m}) 0 0)')
            W(f'    have z\' := l{m}.mb_minus (legS (p {n}) 0 1)')
            W(f'    change mb (legS (p {n}) 0 1) (p {n}) (legA (p {m}) 0 0) = 0 at z')
            W(f'    change mb (legS (p {n}) 0 1) (p {m}) (legA (p {m}) 0 0) = 0 at z\'')
            W(f'    rw [x, y, mb_three hb, z, z\']')
            W(f'    ring')
    jj, kk = f's{q0}', f's{q1}'
    for h in ('PP', 'PM', 'MP', 'MM'):
        W(f'  have s{h} : ∀ ({jj} {kk} : Fin 2), Cls.{o}.m_amp_Num.mean ({o}.N c p) (callMean ({o}.N c p) []) .c {args(h, "spinOf "+jj, "spinOf "+kk)} * ({d["q"]} : ℝ) = {d["sg"]}(c.gs * (({A}.N (unit c) p).c 0 * ({A}.N (unit c) p).c 1) * Cls.{A}.m_amp.mean ({A}.N (unit c) p) (callMean ({A}.N (unit c) p) []) .c {args(h, "spinOf "+jj, "spinOf "+kk)}) := by')
        W(f'    intro {jj} {kk}')
        W(f'    rw [{o}.amp{h}, {A}.amp{h}]')
        names = []
        for n, s in USED[o][h]:
            l = {'': '', 'j': f'spinOf {jj}', 'k': f'spinOf {kk}', 'jk': f'spinOf {jj}, spinOf {kk}'}[s]
            if o == 'dggd' and n in (12, 13):
                names.append(f'w{n}')
                continue
            W(f'    have w{n} : ({o}.N c p).v {n} [{l}] = ({A}.N (unit c) p).v {n} [{l}] := rfl')
            names.append(f'w{n}')
        W(f'    simp only [{o}.term{h}, {A}.term{h}, {", ".join(names)}, r0, r1, r2, r3, g0, g1]')
        W(f'    field_simp')
        W(f'    try push_cast')
        W(f'    try ring1')
    W(f'  have bo : ∀ (z w : Pair) (E F : Vec), ‖{o}.react.bare c p {i} {j} {a} {b} z w E F‖ * ‖({d["q"]} : ℝ)‖ = ‖c.gs‖ * ‖{A}.react.bare (unit c) p {i} {j} {a} {b} z w E F‖ := by')
    W(f'    intro z w E F')
    W(f'    rw [{o}.react.bare_light (i := {i}) (j := {j}) (a := {a}) (b := {b}) rfl rfl rfl rfl rfl, {A}.react.bare_light (i := {i}) (j := {j}) (a := {a}) (b := {b}) rfl rfl rfl rfl rfl]')
    W(f'    have x : {o}.react.shape c p {i} {j} {a} {b} z w E F = {A}.react.shape (unit c) p {i} {j} {a} {b} z w E F := rfl')
    W(f'    have k1 : ‖c.kappa ({o}.react.flavour {j}) ({o}.react.boson {a})‖ = ‖c.gs‖ := rfl')
    W(f'    have k2 : ‖c.kappa ({o}.react.flavour {j}) ({o}.react.boson {b})‖ = ‖c.gs‖ := rfl')
    pa = dict(gAdd=b, gAuu=b, dAgd=a, guAu=b)[A]
    pg = a if pa == b else b
    W(f'    have k3 : ‖(unit c).kappa ({A}.react.flavour {j}) ({A}.react.boson {pg})‖ = ‖c.gs‖ := rfl')
    W(f'    have k4 : ‖(unit c).kappa ({A}.react.flavour {j}) ({A}.react.boson {pa})‖ = ‖({d["q"]} : ℝ)‖ := by rw [← qf]; exact congrArg norm (one_mul _)')
    W(f'    rw [x, k1, k2, k3, k4]')
    W(f'    ring')
    W(f'  have fin : ∀ {{x : ℂ}} {{b b\' : ℝ}}, ‖x‖ * ‖({d["q"]} : ℝ)‖ = ‖c.gs‖ * (‖({A}.N (unit c) p).c 0‖ * ‖({A}.N (unit c) p).c 1‖) * b\' → b * ‖({d["q"]} : ℝ)‖ = ‖c.gs‖ * b\' → ‖x‖ ^ 2 = (({o}.N c p).r {ta} * ({o}.N c p).r {tb}) ^ 2 * b ^ 2 := by')
    W(f'    intro x b b\' h h\'')
    W(f'    have y : ‖x‖ = ‖({A}.N (unit c) p).c 0‖ * ‖({A}.N (unit c) p).c 1‖ * b := by')
    W(f'      have k : ‖({d["q"]} : ℝ)‖ ≠ 0 := norm_ne_zero_iff.2 Q')
    W(f'      apply mul_right_cancel₀ k')
    W(f'      rw [h, mul_assoc _ b, h\']; ring')
    W(f'    rw [y, c0, c1, Complex.norm_real, Complex.norm_real, Real.norm_eq_abs, Real.norm_eq_abs, mul_pow, mul_pow, sq_abs, sq_abs]; ring')
    W(f'  have all : ∀ (s{q0} : Fin 2) (s{q1} : Fin 2) (h{a} : Fin 2) (h{b} : Fin 2), ‖Cls.{o}.m_amp_Num.mean ({o}.N c p) (callMean ({o}.N c p) []) .c {am}‖ * ‖({d["q"]} : ℝ)‖ = ‖c.gs‖ * (‖({A}.N (unit c) p).c 0‖ * ‖({A}.N (unit c) p).c 1‖) * ‖Cls.{A}.m_amp.mean ({A}.N (unit c) p) (callMean ({A}.N (unit c) p) []) .c {am}‖ := by')
    W(f'    intro s{q0} s{q1} h{a} h{b}')
    W(f'    match h{a}, h{b} with')
    for h, m in (('PP', '1, 1'), ('PM', '1, 0'), ('MP', '0, 1'), ('MM', '0, 0')):
        W(f'    | {m} => exact sc (s{h} s{q0} s{q1})')
    W(f'  intro s{q0} s{q1} h{a} h{b}')
    W(f'  have x := all s{q0} s{q1} h{a} h{b}')
    W(f'  rw [am] at x')
    W(f'  exact fin x (bo ..)')
    W('')
    W('variable [FPEnv] in')
    W(f'theorem {o}.agrees : {o}.Agrees := by')
    W(f'  refine agrees_of (D := []) (E := []) (by simp [all, {o}]) (by decide +kernel) (by decide) (by decide +kernel) (fun c hc hh => ⟨List.forall_mem_nil _, List.forall_mem_nil _⟩) (fun c hc i => {o}.mass_eq hc i) (by decide +kernel) ?_')
    W(f'  intro c p u ε hc hh hw h0 hs hb hr hu')
    W(f'  have he : {o}.react.ends = [{i}] := by decide')
    W(f'  have ht : {o}.react.starts = [{j}] := by decide')
    W(f'  have hB : {o}.react.bosons = [{a}, {b}] := by decide')
    W(f'  obtain ⟨n2, n3, n4, d0, o1, o2, am⟩ := {o}.amps hc hh h0 hs hb hr hu')
    W(f'  have hd : ∀ x ∈ {o}.proc.divides, x = (Ty.r, 2) ∨ x = (Ty.r, 3) ∨ x = (Ty.r, 4) := by decide +kernel')
    W(f'  refine ⟨fun n hn => ?_, fun n hn => ?_, ?_⟩')
    W(f'  · rcases hd _ hn with h | h | h <;> cases h')
    W(f'    · exact n2')
    W(f'    · exact n3')
    W(f'    · exact n4')
    W(f'  · rcases hd _ hn with h | h | h <;> cases h')
    W(f'  show meaning ({o}.N c p) .r Cls.{o}.methods Cls.{o}.amp2 [] = _')
    W(f'  have s0 : {o}.react.states 0 = {16 if 0 in (a, b) else 6} := by decide +kernel')
    W(f'  have s1 : {o}.react.states 1 = {16 if 1 in (a, b) else 6} := by decide +kernel')
    W(f'  have sy : {o}.react.symmetry = 1 := by decide')
    for k in range(4): W(f'  have p{k} : {o}.react.spins {k} = {{0, 1}} := rfl')
    for k in (a, b): W(f'  have E{k} : {o}.react.codeE c p {k} = lightE (legA (p {k}) 0 0, legS (p {k}) 0 1) := rfl')
    W(f'  have hG : {o}.react.Gauge c p := ({o}.react.gauge_line he ht hB hh (by decide) (fun n => onShell_msq (hs n)) hb hr (fun n m h h2 => absurd (And.intro h h2) (by revert n m; decide)) (fun _ => ⟨rfl, rfl⟩) (fun _ => ⟨rfl, rfl⟩))')
    W(f'  rw [{o}.value, {o}.react.squared_gluons he ht hB (by decide) rfl rfl rfl rfl hb hr (by decide +kernel) (by decide +kernel) hs h0 (fun _ b _ hb _ => (boson_pos hc hh hb).ne\') hG (E := {o}.react.codeE c p) (fun n b hl => {o}.react.codeE_polarised hs h0 hu (fun b hb => (boson_pos hc hh hb).ne\') n b hl) hu, o1, o2, colour_weights n{ts} n{ta} n{tb} d0, sum_colours, s0, s1, sy]')
    W(f'  simp only [sumJ_sum, sumW_sum, am, p0, p1, p2, p3, E{a}, E{b}, Finset.sum_singleton, sum_two, Matrix.cons_val_zero, Matrix.cons_val_one, Matrix.cons_val, two_castSucc]')
    W(f'  simp only [← Finset.sum_mul, ← Finset.mul_sum]')
    W(f'  push_cast')
    W(f'  ring')
    return '\n'.join(L) + '\n'

if __name__ == '__main__':
    out = HEAD + ''.join(emit(o, d) for o, d in D.items() if len(sys.argv) < 2 or o in sys.argv[1:]) + '\nend Spinas.SM.Rows\n'
    open(OUT, 'w').write(out)
