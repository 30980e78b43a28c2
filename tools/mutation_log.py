#!/usr/bin/env python3
"""Append finished mutation results (scratch results file) to seeded/LOG.jsonl.

usage: mutation_log.py RESULTS.jsonl [TIGHTENED.json]
Results already logged (by name) are skipped.  TIGHTENED maps a mutant name to the list of
theorems that were tightened or added because of it.
"""
import json, os, sys
here = os.path.dirname(os.path.dirname(os.path.abspath(__file__)))
log = os.path.join(here, 'seeded', 'LOG.jsonl')
done = set()
if os.path.exists(log):
    for l in open(log):
        if l.strip():
            done.add(json.loads(l)['name'])
tight = json.load(open(sys.argv[2])) if len(sys.argv) > 2 else {}
with open(log, 'a') as out:
    for l in open(sys.argv[1]):
        r = json.loads(l)
        if r['name'] in done:
            continue
        done.add(r['name'])
        rec = dict(name=r['name'], definition=r['definition'], file=r['file'],
                   edit=[dict(before=a, after=b) for a, b in r['edits']],
                   breaks=r['breaks'], claim=r['claim'], failed=r['failed'],
                   first_errors={k: v.split('\n')[0][:160] for k, v in r['errs'].items()},
                   survived=r['unkilled'], tightened=tight.get(r['name'], []))
        out.write(json.dumps(rec, ensure_ascii=False) + '\n')
