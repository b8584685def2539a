#!/usr/bin/env python3
"""Writes AXIOMS.txt: the axioms each manifest theorem depends on (Lean's #print axioms)."""
import json, os, re, subprocess
R = os.path.dirname(os.path.dirname(os.path.abspath(__file__)))
ths = [t for c in json.load(open(R + '/MANIFEST.json'))['claims'] for t in c['theorems']]
src = 'import Verif\n' + ''.join('#print axioms %s\n' % t for t in ths)
open('/tmp/axioms_tmp.lean', 'w').write(src)
out = subprocess.run(['lake', 'env', 'lean', '/tmp/axioms_tmp.lean'], cwd=R + '/lean', capture_output=True, text=True).stdout
out = re.sub(r'\n +', ' ', out)
lines = re.findall(r"'(\S+)' (depends on axioms: \[[^\]]*\]|does not depend on any axioms)", out)
assert len(lines) == len(ths), (len(lines), len(ths))
open(R + '/AXIOMS.txt', 'w').write(''.join('%s: %s\n' % (a, b.replace('depends on axioms: ', '')) for a, b in lines))
used = set(x.strip() for _, b in lines for x in (re.findall(r'\[(.*)\]', b) or [''])[0].split(',') if x.strip())
print(len(lines), 'theorems; axioms used:', sorted(used))
