#!/usr/bin/env python3
"""Mutation runner.  usage: mutate.py SCRATCH MUTATIONS.json OUT.jsonl [from to]
SCRATCH: copy of /verif/lean outside /verif.  Each mutation: {file, def, old, new, claim}.
Applies it to the scratch copy, builds, maps errors to the enclosing declarations, reverts."""
import json, re, subprocess, sys, os, time
scratch, muts, out = sys.argv[1:4]
lo, hi = (int(sys.argv[4]), int(sys.argv[5])) if len(sys.argv) > 5 else (0, 10**9)
M = json.load(open(muts))
decl = re.compile(r'^(?:@\[[^\]]*\]\s*)?(?:private |protected |noncomputable )*(theorem|lemma|def|example|instance|structure|inductive|abbrev)\s+(\S+)?')
def enclosing(path, line):
    L = open(path).read().split('\n')
    for i in range(min(line, len(L)) - 1, -1, -1):
        m = decl.match(L[i])
        if m: return (m.group(1), m.group(2) if m.group(1) != 'example' else 'example@%d' % (i + 1))
    return ('?', '?')
FAST = float(os.environ.get('FAST', '0'))  # seconds to go on after the first failing property; 0: to the end
def build(cwd):
    import signal
    log = open(os.path.join(cwd, 'build.log'), 'w+')
    p = subprocess.Popen(['lake', 'build'], cwd=cwd, stdout=log, stderr=subprocess.STDOUT, start_new_session=True)
    seen = None
    while p.poll() is None:
        time.sleep(1)
        if FAST and seen is None and re.search(r'error: (?:\./)?Verif/Props/\S+?\.lean:\d+', open(log.name).read()): seen = time.time()
        if seen and time.time() - seen > FAST:
            os.killpg(p.pid, signal.SIGKILL); p.wait(); time.sleep(1)
    return open(log.name).read()
for n, m in enumerate(M):
    if n < lo or n >= hi: continue
    p = os.path.join(scratch, 'Verif', m['file'])
    src = open(p).read()
    if src.count(m['old']) < 1:
        print(n, 'NOT FOUND', m['file'], m['old'], flush=True); continue
    if src.count(m['old']) > 1 and not m.get('nth'):
        print(n, 'AMBIGUOUS', m['file'], m['old'], flush=True); continue
    k = m.get('nth', 1); pos = -1
    for _ in range(k): pos = src.index(m['old'], pos + 1)
    new = src[:pos] + m['new'] + src[pos + len(m['old']):]
    t = time.time()
    try:
        open(p, 'w').write(new)
        o = build(scratch)
        failed, model_err = [], []
        for e in re.finditer(r'error: (?:\./)?(Verif/\S+?\.lean):(\d+):\d+: (.*)', o):
            kind, name = enclosing(os.path.join(scratch, e.group(1)), int(e.group(2)))
            if '/Model/' in e.group(1): model_err.append(e.group(0)[:200])
            elif name not in failed: failed.append(name)
        blocked = sorted(set(re.findall(r'- (Verif\.\S+)', o)))
    finally:
        open(p, 'w').write(src)
    rec = dict(definition=m['def'], file='lean/Verif/' + m['file'], edit='%s  ==>  %s' % (m['old'], m['new']),
               claim=m['claim'], failed=failed, model_err=model_err, seconds=round(time.time() - t))
    open(out, 'a').write(json.dumps(rec, ensure_ascii=False) + '\n')
    print(n, m['def'], 'MODEL ERROR ' + str(model_err[:1]) if model_err else ('SURVIVED' if not failed else 'killed by ' + ', '.join(failed[:6])), rec['seconds'], flush=True)
