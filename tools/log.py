#!/usr/bin/env python3
"""Adds the results of mutate.py to seeded/LOG.jsonl.

usage: log.py OUT.jsonl [TIGHTENED.json]

TIGHTENED.json maps the id of a mutant that survived to the theorems added or strengthened because of
it; such mutants are logged only once they are in the map.  Claims listed in seeded/claims.json replace
those of the mutant.
"""
import json, os, sys

root = os.path.dirname(os.path.dirname(os.path.abspath(__file__)))
log = root + '/seeded/LOG.jsonl'
done = {json.loads(l)['id'] for l in open(log) if l.strip()}
tight = json.load(open(sys.argv[2])) if len(sys.argv) > 2 else {}
cl = root + '/seeded/claims.json'
claims = json.load(open(cl)) if os.path.exists(cl) else {}
with open(log, 'a') as f:
    for l in open(sys.argv[1]):
        r = json.loads(l)
        if r['id'] in done or r['code'] not in (0, 1, 'stopped'):
            continue
        failed = [m + '.' + t if t else m for m, ts in r['failed'].items() for t in ts or ['']]
        if not failed and r['id'] not in tight:
            continue
        f.write(json.dumps({'id': r['id'], 'definition': r['file'][:-5].replace('/', '.') + ': ' + r['definition'],
                            'edit': r['edit'], 'claim': claims.get(r['id'], r['claim']),
                            'failed': failed, 'blocked': r.get('blocked', []),
                            'tightened': tight.get(r['id'], [])}) + '\n')
