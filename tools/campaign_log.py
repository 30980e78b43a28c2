#!/usr/bin/env python3
"""Append results of the automatic mutation campaign to seeded/LOG.jsonl.

usage: campaign_log.py RESULTS.jsonl BASE ROUND [TIGHTENED.json]
RESULTS: one line per mutant (file, defn, old, new, line, ctx, i, status, where, err); BASE: the scratch copy the
campaign mutated (to name the theorem an error line belongs to); ROUND: prefix of the names.  Mutants that do not
compile (status invalid) are left out.  TIGHTENED maps a number to {"tightened": [...], "note": "..."}.
"""
import json, os, re, sys
here = os.path.dirname(os.path.dirname(os.path.abspath(__file__)))
log = os.path.join(here, 'seeded', 'LOG.jsonl')
done = {json.loads(l)['name'] for l in open(log) if l.strip()}
base, rnd = sys.argv[2], sys.argv[3]
tight = json.load(open(sys.argv[4])) if len(sys.argv) > 4 else {}

def owner(mod, line):
    name = None
    for k, l in enumerate(open(os.path.join(base, mod.replace('.', '/') + '.lean')), 1):
        if k > line:
            break
        m = re.match(r'(?:@\[[^\]]*\] )?(?:private )?(?:noncomputable )?(theorem|lemma|def|abbrev|instance|example)\b\s*(\S*)', l)
        if m:
            name = m.group(2) if m.group(1) != 'example' else 'example'
    return name

with open(log, 'a') as out:
    for l in open(sys.argv[1]):
        r = json.loads(l)
        name = '%s-%d' % (rnd, r['i'])
        if name in done or r['status'] == 'invalid':
            continue
        m = re.match(r'(\d+):', r['err'])
        failed = []
        if r['status'] == 'killed':
            t = owner(r['where'], int(m.group(1))) if m else None
            failed = ['%s (%s)' % (t, r['where'])] if t else [r['where']]
        t = tight.get(str(r['i']), {})
        rec = dict(name=name, definition=r['defn'], file=r['file'], edit=[dict(before=r['old'], after=r['new'], line=r['line'], context=r['ctx'].strip())],
                   claim='single edit at line %d: %s' % (r['line'], t.get('note', 'changes the function')), failed=failed,
                   first_errors={r['where']: r['err'].split('\n')[0][:160]} if r['err'] else {},
                   survived=r['status'] == 'survived', tightened=t.get('tightened', []))
        out.write(json.dumps(rec, ensure_ascii=False) + '\n')
