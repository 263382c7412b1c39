#!/usr/bin/env python3
"""Writes MANIFEST.json from the theorem names Cnn_* in lean/Verif/Props and the status table below."""
import glob, json, os, re
root = os.path.dirname(os.path.dirname(os.path.abspath(__file__)))
th = {}
for f in sorted(glob.glob(root + '/lean/Verif/Props/*.lean')):
    txt = open(f).read()
    ns = []
    for m in re.finditer(r'^(?:namespace ([\w.]+)|end ([\w.]+)|theorem (C(\d\d+)_[\w\']+))', txt, re.M):
        if m.group(1):
            ns.append(m.group(1))
        elif m.group(2):
            if ns and ns[-1] == m.group(2):
                ns.pop()
        else:
            th.setdefault('C' + m.group(4), []).append('.'.join(ns + [m.group(3)]))
notes = json.load(open(root + '/tools/notes.json'))
claims = []
for line in open(root + '/properties.jsonl'):
    pid = json.loads(line)['id']
    st, note = notes.get(pid, [None, ''])
    if st is None or (st != 'not_applicable' and pid not in th):
        continue
    claims.append({'property': pid, 'status': st, 'theorems': th.get(pid, []), 'note': note})
json.dump({'claims': claims}, open(root + '/MANIFEST.json', 'w'), indent=1)
print(len(claims), 'claims,', sum(len(c['theorems']) for c in claims), 'theorems; unlisted:',
      [p for p in th if p not in [c['property'] for c in claims]])
