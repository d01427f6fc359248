#!/usr/bin/env python3
"""Writes lean/Verif/SM/Kinds.lean: what each constructor parameter of the classes is, by its name in SM/*.cpp
(as quoted in the generated files lean/Verif/SM/Proc/G*.lean)."""
import glob, os, re
ROOT = os.path.join(os.path.dirname(os.path.abspath(__file__)), '..', '..', 'lean', 'Verif', 'SM')

def kind(name):
    if name == 'sinW': return 'sine'
    if name == 'vev': return 'vev'
    if name.startswith('mass'): return 'mass'
    if name.startswith('width'): return 'width'
    if name in ('echarge', 'gcharge', 'gscharge'): return 'coupling'
    raise ValueError(name)

rows = {}
for f in sorted(glob.glob(os.path.join(ROOT, 'Proc', 'G*.lean'))):
    parts = re.split(r'\nnamespace (\w+)\n', open(f).read())
    for name, body in zip(parts[1::2], parts[2::2]):
        m = re.search(r'/-- constructor \((.*?)\); parameters: (.*?) -/', body)
        ps = re.findall(r'(\d+) `(\w+)`', m.group(2))
        assert [int(n) for n, _ in ps] == list(range(len(ps)))
        rows.setdefault(tuple(x for _, x in ps), []).append(name)

out = ['/-! Generated by tools/sm/kinds.py: the kinds of the constructor parameters, by their names in SM/*.cpp. -/', '',
'namespace Spinas.SM', '',
'/-- what a parameter stands for -/', 'inductive Kind where',
'  /-- `echarge`, `gcharge`, `gscharge` -/', '  | coupling', '  /-- `mass...` -/', '  | mass', '  /-- `width...` -/', '  | width',
'  /-- `sinW`, the sine of the weak mixing angle -/', '  | sine', '  /-- `vev`, the vacuum expectation value of the Higgs field -/', '  | vev',
'  deriving DecidableEq, Repr', '', 'namespace Kind']
groups = sorted(rows.items(), key=lambda x: x[1])
by = {}
for ps, names in groups:
    by.setdefault(tuple(kind(p) for p in ps), []).append((ps, names))
out += ['', '/-- kinds of the constructor parameters, in order, and the classes with these -/', 'def table : List (List Kind × List String) := [']
items = []
for ks, l in by.items():
    lines = []
    for ps, names in l:
        lines.append('  -- %s: %s' % (', '.join(ps), ' '.join(sorted(names))))
    names = sorted(n for _, ns in l for n in ns)
    lines.append('  ([%s], [%s])' % (', '.join('.' + k for k in ks), ', '.join('"%s"' % n for n in names)))
    items.append('\n'.join(lines))
out.append(',\n'.join(items) + ']')
out += ['', '/-- the kinds of the constructor parameters of the class `name` -/',
'def ofClass (name : String) : List Kind := match table.find? fun x => x.2.contains name with', '  | some x => x.1', '  | none => []', '',
'end Kind', 'end Spinas.SM', '']
open(os.path.join(ROOT, 'Kinds.lean'), 'w').write('\n'.join(out))
