#!/usr/bin/env python3
"""Append the results of tools/mutate.py to seeded/LOG.jsonl (one line per wrong program, none twice).

usage: mutlog.py results.jsonl [tightened.json]
tightened.json: {"definition|edit": {"theorems": [...], "note": "..."}} for programs that made a theorem stronger.
"""
import json, os, sys
LOG = os.path.join(os.path.dirname(os.path.abspath(__file__)), '../seeded/LOG.jsonl')
have = {}
if os.path.exists(LOG):
    for l in open(LOG):
        d = json.loads(l); have[d['definition'], d['edit'], d['survived']] = d
tight = json.load(open(sys.argv[2])) if len(sys.argv) > 2 else {}
out = open(LOG, 'a')
for l in open(sys.argv[1]):
    d = json.loads(l)
    k = (d['definition'], d['edit'], d['survived'])
    if k in have: continue
    have[k] = d
    t = tight.get(d['definition'] + '|' + d['edit'], {})
    rec = dict(definition=d['definition'], edit=d['edit'], claim_broken=d['breaks'], survived=d['survived'],
               theorems_failed=[f for f in d['failed_direct'] if not f.startswith('example@')],
               claims_no_longer_proved=d['failed'], theorems_tightened=t.get('theorems', []))
    if 'note' in t: rec['note'] = t['note']
    out.write(json.dumps(rec, ensure_ascii=False) + '\n')
