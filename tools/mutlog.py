#!/usr/bin/env python3
"""Build seeded/LOG.jsonl from the outputs of tools/mutate.py.
usage: mutlog.py OUT.jsonl... -- RERUN.jsonl...     (reruns: survivors after tightening)"""
import json, re, sys, glob, os
here = os.path.dirname(os.path.abspath(__file__))
args = sys.argv[1:]; k = args.index('--') if '--' in args else len(args)
first, rerun = args[:k], args[k + 1:]
decl = re.compile(r'^(?:@\[[^\]]*\]\s*)?(?:private |protected |noncomputable )*(theorem|lemma|def|abbrev|example)\s+(\S+)?', re.M)
text = {}
for f in glob.glob(here + '/../lean/Verif/P*/*.lean'):
    s = open(f).read(); ms = list(decl.finditer(s))
    for i, m in enumerate(ms):
        if m.group(1) == 'example': continue
        text[m.group(2)] = s[m.start():ms[i + 1].start() if i + 1 < len(ms) else len(s)]
names = set(text)
tok = re.compile(r"[\w'?₁₂₃σ.]+")
dotted = {}
for n in names:
    if '.' in n: dotted.setdefault(n.split('.')[-1], set()).add(n)
uses = {n: {w for w in tok.findall(t) if w in names or w.split('.')[-1] in names} - {n} for n, t in text.items()}
users = {}
for n, u in uses.items():
    for w in u | {re.sub(r"(\.\d+)+$", "", x) for x in tok.findall(text[n])} & names | {d for w in tok.findall(text[n]) if '.' in w for d in dotted.get(w.split('.')[-1], ())} - {n}:
        for x in {w, w.split('.')[-1]}: users.setdefault(x, set()).add(n)
def depending(failed):
    seen, todo = set(), list(failed) + [x.split('.')[-1] for x in failed]
    while todo:
        x = todo.pop()
        for y in users.get(x, ()):
            if y not in seen: seen.add(y); todo.append(y)
    return sorted(n for n in seen | set(failed) if re.match(r'C\d+_', n))
T = json.load(open(here + '/tightened.json'))
EQ = json.load(open(here + '/equivalent.json'))
re2 = {}
for f in rerun:
    for l in open(f):
        r = json.loads(l); re2[(r['definition'], r['edit'])] = r
n = 0
with open(here + '/../seeded/LOG.jsonl', 'w') as out:
    for f in first:
        for l in open(f):
            r = json.loads(l)
            if r['model_err']: continue
            key = r['definition'] + ' | ' + r['edit']
            e = dict(definition=r['definition'], file=r['file'], edit=r['edit'], claim=r['claim'],
                     failed=r['failed'], depending=depending(r['failed'])[:12], tightened=[])
            eq = next((v for kk, v in EQ.items() if key.startswith(kk)), None)
            if not r['failed'] and eq: e['note'] = eq
            elif not r['failed']:
                a = re2.get((r['definition'], r['edit']))
                t = next((v for kk, v in T.items() if key.startswith(kk)), None)
                if t is None: print('no tightening recorded for', key)
                e['tightened'] = t or []
                if a: e['failed_after_tightening'] = a['failed']
                else: print('no rerun for', key)
            elif not e['depending']: print('no claim depends on', r['failed'], key)
            out.write(json.dumps(e, ensure_ascii=False) + '\n'); n += 1
print(n, 'entries')
