#!/usr/bin/env python3
"""Automatic mutants.  usage: automutate.py <results.jsonl> <seed> <count> [Model file ...]
Works in the scratch copy /tmp/mut/lean.  Takes random single-token edits of the model definitions (comparison, arithmetic,
boolean, literal, projection, exception, dropped rebinding), builds, and stops at the first module outside Verif/Model that
no longer compiles.  Appends one JSON line per mutant; a mutant whose own file does not compile is skipped."""
import json, os, random, re, subprocess, sys, signal, time
sys.path.insert(0, os.path.dirname(__file__))
S = '/tmp/mut/lean'
FILES = ['Misc', 'Common', 'LiquidIce', 'Rain', 'Dsd', 'Traps', 'Fhc', 'Plot', 'Winter', 'Kdp', 'KdpApi', 'KdpPy',
         'Fundamentals', 'Objects', 'Objects2', 'Objects3', 'Masked', 'Csv', 'RainMixed', 'FirOrder', 'LiquidIceAny', 'DsdAny']
SUB = [(r' <\. ', [' <=. ', ' >. ']), (r' <=\. ', [' <. ', ' >=. ']), (r' >\. ', [' >=. ', ' <. ']),
       (r' >=\. ', [' >. ', ' <=. ']), (r' ==\. ', [' !=. ']), (r' !=\. ', [' ==. ']), (r' < ', [' ≤ ']), (r' ≤ ', [' < ']),
       (r' > ', [' ≥ ']), (r' ≥ ', [' > ']), (r' \+ ', [' - ']), (r' - ', [' + ']), (r' \* ', [' / ']), (r' / ', [' * ']),
       (r' && ', [' || ']), (r' \|\| ', [' && ']), (r'logicalAnd', ['logicalOr']), (r'logicalOr', ['logicalAnd']),
       (r'\btrue\b', ['false']), (r'\bfalse\b', ['true']), (r' = ', [' ≠ ']), (r' ≠ ', [' = ']), (r' == ', [' != ']),
       (r'\.1\b', ['.2']), (r'\.2\b', ['.1']), (r' ∧ ', [' ∨ ']), (r' ∨ ', [' ∧ ']),
       (r'\.valueError', ['.typeError']), (r'\.typeError', ['.valueError']), (r'\.indexError', ['.valueError']),
       (r'\.isNone', ['.isSome']), (r'maskSet', ['maskSetX'])]
def defs(text):
    """(name, start, end) of each definition"""
    out = []
    ms = list(re.finditer(r'^(?:noncomputable |private )?(?:def|structure|inductive) (\S+)', text, re.M))
    stops = [m.start() for m in re.finditer(r'^(?:/--|/-!|end\b|namespace\b|noncomputable section|section\b|open\b|variable\b|@\[|instance\b|theorem\b)', text, re.M)]
    for m in ms:
        e = min([s for s in stops if s > m.start()] + [len(text)] + [x.start() for x in ms if x.start() > m.start()])
        out.append((m.group(1), m.start(), e))
    return out
def cands(f):
    text = open(os.path.join(S, 'Verif/Model', f + '.lean')).read()
    res = []
    for name, a, b in defs(text):
        body = text[a:b]
        if body.startswith('inductive'): continue
        hd = body.find(':=') if not body.startswith('structure') else 0
        if hd < 0: hd = body.find('|')
        # strip comments
        spans = [(m.start(), m.end()) for m in re.finditer(r'/-.*?-/|--[^\n]*|"[^"\n]*"', body, re.S)]
        inc = lambda i: any(x <= i < y for x, y in spans)
        for pat, news in SUB:
            for m in re.finditer(pat, body):
                if m.start() < hd or inc(m.start()): continue
                if pat == ' = ' and body[m.start()-1] in ':': continue
                for n in news:
                    if n == 'maskSetX': continue
                    res.append((f, name, a + m.start(), a + m.end(), n))
        for m in re.finditer(r'(?<![\w.])(\d+)(\.\d+)?(e-?\d+)?(?![\w.])', body):
            if m.start() < hd or inc(m.start()): continue
            if m.start() > 0 and body[m.start()-1] == '.': continue
            i, fr, ex = m.groups()
            if fr:
                dlast = str((int(fr[-1]) + 1) % 10)
                new = i + fr[:-1] + dlast + (ex or '')
            else:
                new = str(int(i) + 1) + (ex or '')
            res.append((f, name, a + m.start(), a + m.end(), new))
        lines = [(m.start(), m.end(), m.group(1), m.group(2)) for m in re.finditer(r'^[ ]+let (\w+) := ([^\n]*)\n', body, re.M)]
        for s, e, v, rhs in lines:
            if re.search(r'\b%s\b' % v, rhs): res.append((f, name, a + s, a + e, ''))
    return text, res
def decl_at(path, line):
    ls = open(path).read().split('\n')
    for i in range(min(line, len(ls)) - 1, -1, -1):
        m = re.match(r'\s*(?:@\[[^\]]*\]\s*)?(?:private |protected |noncomputable )*(theorem|lemma|def|example|instance|abbrev|structure)\b\s*(\S*)', ls[i])
        if m: return m.group(2) if m.group(1) != 'example' else 'example@%d' % (i + 1)
    return '?'
def build(own):
    p = subprocess.Popen(['nice', '-n', '10', 'lake', 'build'], cwd=S, stdout=subprocess.PIPE, stderr=subprocess.STDOUT, text=True, preexec_fn=os.setsid)
    failed, ownerr, t0 = {}, False, time.time()
    for line in p.stdout:
        m = re.match(r'error: (?:\./)?(Verif/[^:\s]+\.lean):(\d+):\d+: ([^\n]*)', line)
        if m:
            path = m.group(1)
            if path.startswith('Verif/Model/'):
                ownerr = True; break
            nm = decl_at(os.path.join(S, path), int(m.group(2)))
            mod = path[len('Verif/'):-5]
            if nm not in failed.setdefault(mod, []): failed[mod].append(nm)
        elif failed and re.match(r'error: Lean exited|✔|✖|⚠|ℹ', line):
            break
    try: os.killpg(p.pid, signal.SIGKILL)
    except ProcessLookupError: pass
    p.wait()
    return failed, ownerr, (p.returncode == 0 and not failed), time.time() - t0
def main():
    out, seed, count = sys.argv[1], int(sys.argv[2]), int(sys.argv[3])
    files = sys.argv[4:] or FILES
    rnd = random.Random(seed)
    pool, texts = {}, {}
    for f in files:
        texts[f], c = cands(f)
        rnd.shuffle(c); pool[f] = c
    print({f: len(c) for f, c in pool.items()}, flush=True)
    # without replacement, files weighted by the number of candidates left
    done = {json.loads(l)['key'] for l in open(out)} if os.path.exists(out) else set()
    n = 0
    order = [(f, c) for f in files for c in pool[f]]
    rnd.shuffle(order)
    seen = {}
    order.sort(key=lambda fc: (seen.__setitem__((fc[1][0], fc[1][1]), seen.get((fc[1][0], fc[1][1]), 0) + 1), seen[(fc[1][0], fc[1][1])])[1])
    for f, (f_, name, s, e, new) in order:
        if n >= count: break
        text = texts[f]
        key = '%s:%d:%s' % (f, s, new)
        if key in done: continue
        n += 1
        src = os.path.join(S, 'Verif/Model', f + '.lean')
        ln = text.count('\n', 0, s) + 1
        ls, le = text.rfind('\n', 0, s) + 1, text.find('\n', e - 1 if new == '' else e)
        oldl = text[ls:le]; newl = (text[:s] + new + text[e:])[ls:le + len(new) - (e - s)]
        open(src, 'w').write(text[:s] + new + text[e:])
        failed, ownerr, ok, dt = build(f)
        open(src, 'w').write(text)
        r = dict(key=key, id='auto%d-%d' % (seed, n), file=f + '.lean', line=ln, definition=name,
                 edit='%s  ->  %s' % (oldl.strip(), newl.strip() if new else '(line dropped)'), bad=ownerr, built=ok, failed=failed, secs=round(dt))
        with open(out, 'a') as o: o.write(json.dumps(r, ensure_ascii=False) + '\n')
        print(r['id'], f, name, ln, 'BAD' if ownerr else 'SURVIVED' if ok else failed or 'UNKNOWN', round(dt), flush=True)
main()
