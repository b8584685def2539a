#!/usr/bin/env python3
"""Turn mutation results (mutate.py) into /verif/seeded/LOG.jsonl.
usage: log.py <deps.txt> <notes.json> <results.jsonl> ...
deps.txt: one line per constant, `name used used ...` (dumped from the environment); used to list the claim theorems whose
proofs use a declaration that failed.  notes.json: id -> {"tightened": [...], "note": "..."} for survivors."""
import collections, json, os, re, sys
root = os.path.dirname(os.path.dirname(os.path.abspath(__file__)))
rev = collections.defaultdict(set); names = collections.defaultdict(set)
for l in open(sys.argv[1]):
    w = l.split()
    if not w: continue
    n = re.sub(r'\._.*|\.match_\d.*|\.eq_\d.*|\.proof_\d.*', '', w[0])
    names[n.split('.')[-1]].add(n)
    for u in w[1:]:
        u = re.sub(r'\._.*|\.match_\d.*|\.eq_\d.*|\.proof_\d.*', '', u)
        if u != n: rev[u].add(n)
def dependents(ns):
    seen, todo = set(ns), list(ns)
    while todo:
        for v in rev[todo.pop()]:
            if v not in seen: seen.add(v); todo.append(v)
    return seen
notes = json.load(open(sys.argv[2])) if os.path.exists(sys.argv[2]) else {}
out = []
for f in sys.argv[3:]:
    for l in open(f):
        d = json.loads(l)
        if d.get('bad') or (not d['built'] and not d['failed']): continue
        direct = sorted({x for v in d['failed'].values() for x in v})
        full = set()
        for x in direct: full |= names.get(x.split('.')[-1], set())
        claims = sorted({x.split('.')[-1] for x in dependents(full) if re.match(r'C\d+_', x.split('.')[-1])})
        nt = notes.get(d['id'], {})
        if 'prop' not in d:
            d['prop'] = '/'.join(sorted({c.split('_')[0] for c in claims}, key=lambda c: int(c[1:]))[:6]) or 'none'
            d['claim'] = 'automatic edit at %s:%d: the definition no longer follows the cited source; first module to fail recorded' % (d['file'], d['line'])
        out.append(dict(id=d['id'], definition='lean/Verif/Model/' + d['file'] + ':' + d['definition'], edit=d['edit'],
            claim_broken=d['prop'] + ': ' + d['claim'], survived=d['built'], declarations_failed=direct,
            theorems_failed=claims, tightened=nt.get('tightened', []), note=nt.get('note', '')))
with open(os.path.join(root, 'seeded/LOG.jsonl'), 'w') as o:
    for d in out: o.write(json.dumps(d, ensure_ascii=False) + '\n')
print(len(out), 'attempts', sum(d['survived'] for d in out), 'survived', [d['id'] for d in out if not d['survived'] and not d['theorems_failed']])
