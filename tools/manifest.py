#!/usr/bin/env python3
"""Writes MANIFEST.json: every theorem named Cnn_... under lean/Verif is listed under property Cnn.
Status and notes come from tools/notes.json ({"Cnn": {"status": ..., "note": ...}}); the default status is "proved"."""
import json, re, pathlib
root = pathlib.Path(__file__).resolve().parent.parent
notes = json.load(open(root / 'tools/notes.json'))
thms = {}
for f in sorted((root / 'lean/Verif').rglob('*.lean')):
    ns = []
    for line in f.read_text().split('\n'):
        m = re.match(r'namespace (\S+)', line)
        if m: ns.append(m.group(1)); continue
        m = re.match(r'end (\S+)', line)
        if m and ns and ns[-1] == m.group(1): ns.pop(); continue
        m = re.match(r'theorem (C\d\d\d?)_(\S+)', line)
        if m: thms.setdefault(m.group(1), []).append('.'.join(ns + [m.group(1) + '_' + m.group(2)]))
claims = []
for line in open(root / 'properties.jsonl'):
    pid = json.loads(line)['id']
    n = notes.get(pid, {})
    if pid not in thms and 'status' not in n: continue
    claims.append({'property': pid, 'status': n.get('status', 'proved'), 'theorems': thms.get(pid, []), 'note': n.get('note', '')})
json.dump({'claims': claims}, open(root / 'MANIFEST.json', 'w'), indent=1, ensure_ascii=False)
print(len(claims), 'claims', sum(len(c['theorems']) for c in claims), 'theorems; without claim:',
      [json.loads(l)['id'] for l in open(root / 'properties.jsonl') if json.loads(l)['id'] not in [c['property'] for c in claims]])
