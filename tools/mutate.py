#!/usr/bin/env python3
"""Mutation runner.  usage: mutate.py <mutants.py> <results.jsonl> [id ...]
Works in the scratch copy /tmp/mut/lean (a copy of /verif/lean with its build).  Each mutant is
(id, file, definition, old text, new text, property it breaks, claim).  Appends one JSON line per mutant."""
import json, os, re, shutil, subprocess, sys
S = '/tmp/mut/lean'
def decl_at(path, line):
    ls = open(path).read().split('\n')
    for i in range(min(line, len(ls)) - 1, -1, -1):
        m = re.match(r'\s*(?:@\[[^\]]*\]\s*)?(?:private |protected |noncomputable )*(theorem|lemma|def|example|instance|abbrev|structure)\b\s*(\S*)', ls[i])
        if m:
            return (m.group(2) if m.group(1) not in ('example',) else 'example@%d' % (i + 1))
    return '?'
def run(mid, f, d, old, new, prop, claim):
    src = os.path.join(S, 'Verif/Model', f) if not f.startswith('/') else os.path.join(S, 'Verif', f[1:])
    text = open(src).read()
    dl = d.split('.')[-1]
    m = re.search(r'(?:def|structure) (?:\w+\.)*%s\b' % re.escape(dl), text)
    assert m, (mid, 'no definition', d)
    start = m.start()
    assert old in text[start:], (mid, 'old text not found')
    new_text = text[:start] + text[start:].replace(old, new, 1)
    open(src, 'w').write(new_text)
    try:
        p = subprocess.run(['lake', 'build'], cwd=S, capture_output=True, text=True, timeout=2400)
        out = p.stdout + p.stderr
    except subprocess.TimeoutExpired:
        out = 'TIMEOUT'
        p = None
    failed, model_err = {}, []
    for m in re.finditer(r'error: (?:\./)?(Verif/[^:\s]+\.lean):(\d+):\d+: ([^\n]*)', out):
        path, ln, msg = m.group(1), int(m.group(2)), m.group(3)
        mod = path[len('Verif/'):-5]
        nm = decl_at(os.path.join(S, path), ln)
        failed.setdefault(mod, [])
        if nm not in failed[mod]: failed[mod].append(nm)
    bad = re.findall(r'^- (Verif\.\S+)', out, re.M)
    open(src, 'w').write(text)
    return dict(id=mid, file=f, definition=d, edit='%s  ->  %s' % (old, new), prop=prop, claim=claim,
                built=bool(p and p.returncode == 0), failed=failed, failed_modules=bad,
                head=(out[:0] if failed else out[-400:]))
def main():
    ns = {}
    exec(open(sys.argv[1]).read(), ns)
    want = set(sys.argv[3:])
    done = set()
    if os.path.exists(sys.argv[2]) and not want:
        done = {json.loads(l)['id'] for l in open(sys.argv[2])}
    for mt in ns['M']:
        if (want and mt[0] not in want) or mt[0] in done: continue
        try:
            r = run(*mt)
        except AssertionError as e:
            print('BAD', e, flush=True); continue
        with open(sys.argv[2], 'a') as o: o.write(json.dumps(r) + '\n')
        print(mt[0], 'SURVIVED' if r['built'] else {k: v for k, v in r['failed'].items()}, flush=True)
    subprocess.run(['lake', 'build'], cwd=S, capture_output=True)
main()
