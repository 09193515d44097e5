#!/usr/bin/env python3
"""Regenerate MANIFEST.json from the theorem names in lean/Verif/Props and tools/notes.json."""
import re, json, glob, os
root = os.path.dirname(os.path.dirname(os.path.abspath(__file__)))
by = {}
for f in sorted(glob.glob(root + '/lean/Verif/Props/*.lean')):
    ns = []
    for line in open(f):
        if m := re.match(r'namespace (\S+)', line): ns += m[1].split('.')
        elif m := re.match(r'end (\S+)', line):
            if ns[-len(m[1].split('.')):] == m[1].split('.'): del ns[-len(m[1].split('.')):]
        elif m := re.match(r'theorem ((C\d+)_\w+)', line): by.setdefault(m[2], []).append('.'.join(ns + [m[1]]))
notes = json.load(open(root + '/tools/notes.json'))
claims = []
for line in open(root + '/properties.jsonl'):
    p = json.loads(line)
    i = p['id']
    th = by.get(i, [])
    if not th:
        claims.append(dict(property=i, status='partial', theorems=[], note='Not modelled yet.'))
        continue
    part = any(t.endswith(('_partial', '_fails')) for t in th)
    note = notes.get(i, '')
    if part and not note: print('note missing', i)
    claims.append(dict(property=i, status='partial' if part else 'proved', theorems=th, note=note or 'Full statement.'))
for i in by:
    if not any(c['property'] == i for c in claims): print('no property for', i)
json.dump({'claims': claims}, open(root + '/MANIFEST.json', 'w'), indent=1)
print(sum(c['status'] == 'proved' for c in claims), 'proved', sum(bool(c['theorems']) for c in claims), 'covered', len(claims))
