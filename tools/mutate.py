#!/usr/bin/env python3
"""Seeded-bug testing. Copies /verif/lean to a scratch directory, applies one edit to the model, rebuilds, and records which
theorems fail. usage: mutate.py SCRATCH MUTATIONS.py [names...]; appends to SCRATCH/results.jsonl"""
import sys, os, re, json, subprocess, shutil, glob
scratch, mfile = sys.argv[1], sys.argv[2]
only = set(sys.argv[3:])
ns = {}
exec(open(mfile).read(), ns)
L = scratch + '/lean'
src = os.environ.get('SRC', '/verif/lean') + '/Verif'
def reset():
    shutil.rmtree(L + '/Verif', ignore_errors=True); shutil.copytree(src, L + '/Verif')
    shutil.copy(src + '.lean', L + '/Verif.lean')
    shutil.rmtree(L + '/.lake', ignore_errors=True); shutil.copytree(scratch + '/pristine.lake', L + '/.lake', symlinks=True)
def theorem_at(path, line):
    best = None
    for i, t in enumerate(open(path).read().split('\n')[:line], 1):
        m = re.match(r'(?:private |protected |@\[\w+\] )*(theorem|lemma|def|example|instance|inductive|structure|abbrev)\b\s*([\w.\']*)', t)
        if m: best = m.group(2) if m.group(2) else '%s@%d' % (m.group(1), i)
    return best
imports = {}
for f in glob.glob(src + '/**/*.lean', recursive=True):
    mod = 'Verif.' + os.path.relpath(f, src)[:-5].replace('/', '.')
    imports[mod] = re.findall(r'^import (Verif\.\S+)', open(f).read(), re.M)
done = set()
res = scratch + '/results.jsonl'
if os.path.exists(res): done = {json.loads(l)['name'] for l in open(res)}
for m in ns['M']:
    name, file, old, new, claim = m['name'], m['file'], m['old'], m['new'], m['claim']
    if (only and name not in only) or (not only and name in done): continue
    reset()
    p = L + '/Verif/' + file
    t = open(p).read()
    if t.count(old) < 1: print(name, 'PATTERN NOT FOUND'); continue
    k = m.get('nth', 0)
    parts = t.split(old)
    t = old.join(parts[:k+1]) + new + old.join(parts[k+1:])
    open(p, 'w').write(t)
    stem = os.path.basename(file)[:-5]
    two = stem in ('Pointers', 'IO', 'CommandLine')
    r = subprocess.run(['lake', 'build', 'Verif.Model.Memory', 'Verif.' + file[:-5].replace('/', '.')] + (['Verif.Model.Pointers', 'Verif.Model.IO', 'Verif.Model.CommandLine'] if two else []), cwd=L, capture_output=True, text=True)
    if r.returncode != 0:
        print(name, 'MODEL DOES NOT COMPILE', (r.stdout + r.stderr)[-1500:]); continue
    c = subprocess.run(['lake', 'env', 'lean', 'Corpus2.lean' if two else 'Corpus.lean'], cwd=L, capture_output=True, text=True)
    base = open(scratch + ('/base2.txt' if two else '/base.txt')).read().split('\n'); got = c.stdout.split('\n')
    diff = [(a[:160], b[:200]) for a, b in zip(base, got) if a != b]
    r = subprocess.run(['nice', '-n', '5', 'lake', 'build'], cwd=L, capture_output=True, text=True)
    out = r.stdout + r.stderr
    failed = {}
    for e in re.finditer(r'^error: (Verif/\S+?\.lean):(\d+):', out, re.M):
        th = theorem_at(L + '/' + e.group(1), int(e.group(2)))
        failed.setdefault('Verif.' + e.group(1)[6:-5].replace('/', '.'), [])
        lst = failed['Verif.' + e.group(1)[6:-5].replace('/', '.')]
        if th not in lst: lst.append(th)
    bad = set(failed)
    ch = True
    while ch:
        ch = False
        for mod, im in imports.items():
            if mod not in bad and any(x in bad for x in im): bad.add(mod); ch = True
    fails = []; ok = []
    for f in sorted(glob.glob(src + '/Props/*.lean')):
        mod = 'Verif.Props.' + os.path.basename(f)[:-5]
        ths = re.findall(r'^theorem (C\d\d_\w+)', open(f).read(), re.M)
        for th in ths:
            if mod in failed and th in failed[mod]: fails.append(th)
            elif mod in bad: pass
            else: ok.append(th)
    d = dict(name=name, definition=m['definition'], edit=m['edit'], claim=claim, direct=failed,
             blocked=sorted(x for x in bad if x not in failed and '.Props.' in x), still=ok, diff=diff[:6], ndiff=len(diff))
    open(res, 'a').write(json.dumps(d) + '\n')
    print(name, 'direct', failed, '| still:', [x for x in ok if x[:3] in claim], '| ndiff', len(diff), flush=True)
