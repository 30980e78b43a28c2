#!/usr/bin/env python3
"""Writes /verif/MANIFEST.json.  A property's theorems are found by name in lean/Verif/Props
(`theorem Cnn_...`); statuses and notes are below."""
import json, re, glob, os
ROOT = os.path.dirname(os.path.dirname(os.path.abspath(__file__)))
STATUS = {}  # id -> (status, note)
exec(open(os.path.join(ROOT, 'tools', 'manifest_status.py')).read())
thms = {}
for f in sorted(glob.glob(ROOT + '/lean/Verif/Props/*.lean')):
    ns = []
    for line in open(f):
        m = re.match(r'namespace (\S+)', line)
        if m: ns.append(m.group(1))
        m = re.match(r'end (\S+)', line)
        if m and ns and ns[-1] == m.group(1): ns.pop()
        m = re.match(r'theorem (C\d\d+)_(\S+)', line)
        if m: thms.setdefault(m.group(1), []).append('.'.join(ns + [m.group(1) + '_' + m.group(2)]))
claims = []
for l in open(ROOT + '/properties.jsonl'):
    i = json.loads(l)['id']
    if i in STATUS:
        st, note = STATUS[i]
        t = thms.get(i, [])
        if st != 'not_applicable' and not t: raise SystemExit('no theorems for ' + i)
        claims.append({"property": i, "status": st, "theorems": t, "note": note})
    elif i in thms: raise SystemExit('no status for ' + i)
json.dump({"claims": claims}, open(ROOT + '/MANIFEST.json', 'w'), indent=1, ensure_ascii=False)
print(len(claims), 'claims')
