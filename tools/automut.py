#!/usr/bin/env python3
"""Systematic seeded bugs: for each definition of the model, small textual edits (constants, comparisons, connectives, branches,
constructors). Each edit is built in a scratch copy until the first error outside of the edited module's own text.
usage: SRC=dir automut.py SCRATCH [max-per-definition] [seed]; appends to SCRATCH/auto.jsonl. SCRATCH/pristine.lake: the build of SRC."""
import sys, os, re, json, subprocess, shutil, random, signal, time
scratch = sys.argv[1]; per = int(sys.argv[2]) if len(sys.argv) > 2 else 1; seed = int(sys.argv[3]) if len(sys.argv) > 3 else 1
src = os.environ.get('SRC', '/verif/lean')
L = scratch + '/lean'
files = os.environ.get('FILES', 'Base Error Opcode Lexer Prime SymTab Parser ForwardRef Generator Main Memory CommandLine IO Pointers Links').split()
rnd = random.Random(seed)
def blank_comments(t):
    t = re.sub(r'/-.*?-/', lambda m: re.sub(r'[^\n]', ' ', m.group(0)), t, flags=re.S)
    return re.sub(r'--[^\n]*', lambda m: ' ' * len(m.group(0)), t)
OPS = [
  (r'(?<![\w.!#])(\d+)(?![\w.])', lambda m: [str(int(m.group(1)) + 1)] + ([str(int(m.group(1)) - 1)] if int(m.group(1)) else [])),
  (r' ≤ ', lambda m: [' < ']), (r' < ', lambda m: [' ≤ ']), (r' ≥ ', lambda m: [' > ']), (r' > ', lambda m: [' ≥ ']),
  (r' == ', lambda m: [' != ']), (r' != ', lambda m: [' == ']), (r' && ', lambda m: [' || ']), (r' \|\| ', lambda m: [' && ']),
  (r' ∧ ', lambda m: [' ∨ ']), (r' ∨ ', lambda m: [' ∧ ']),
  (r'\btrue\b', lambda m: ['false']), (r'\bfalse\b', lambda m: ['true']),
  (r' \+ 1\b', lambda m: ['']), (r' - 1\b', lambda m: ['']),
  (r' \+ ', lambda m: [' - ']), (r' \* ', lambda m: [' + ']), (r' / ', lambda m: [' * ']), (r' % ', lambda m: [' / ']),
  (r'\.illegalChar\b', lambda m: ['.illegalSequence']), (r'\.illegalSequence\b', lambda m: ['.illegalChar']),
  (r'\bif ([^\n]*?) then', lambda m: ['if ¬ (%s) then' % m.group(1)]),
  (r'\.isSome\b', lambda m: ['.isNone']), (r'\.isNone\b', lambda m: ['.isSome']),
  (r'\bpc\b', lambda m: ['lineNum']), (r'\bsrcName\b', lambda m: ['outName']), (r'\boutName\b', lambda m: ['srcName']),
  (r'(?<=[^\w.])some (\w+)', lambda m: ['none']), (r'\bnone\b', lambda m: ['(some 0)']),
  (r'\n  (?:do )?(?:store|free|setCell|writeChars|modifyS|closeFile)[^\n]*', lambda m: ['']),
]
muts = []
for f in files:
    t = open('%s/Verif/Model/%s.lean' % (src, f)).read()
    b = blank_comments(t)
    defs = [(m.start(), m.group(1)) for m in re.finditer(r'^(?:@\[\w+\] )?(?:private )?(?:partial )?def ([\w.\']+)', b, re.M)]
    ends = sorted([m.start() for m in re.finditer(r'^(?:@\[|private|partial|def|theorem|structure|inductive|abbrev|instance|end|namespace|open|example|lemma|/)', b, re.M)] + [len(b)])
    for s, name in defs:
        e = min(x for x in ends if x > s)
        hdr = b.find(':=', s, e); hdr2 = b.find('\n  |', s, e)
        body = min(x for x in (hdr, hdr2, e) if x != -1)
        cand = []
        for pat, fn in OPS:
            for m in re.finditer(pat, b[body:e]):
                for new in fn(m):
                    cand.append((body + m.start(), body + m.end(), t[body + m.start():body + m.end()], new))
        rnd.shuffle(cand)
        muts.append((f, name, cand))
done = set(); cnt = {}
res = scratch + '/auto.jsonl'
if os.path.exists(res):
    for l in open(res):
        d = json.loads(l); done.add((d['file'], d['definition'], d['pos'], d['new']))
        if d['outcome'] != 'does not compile': cnt[(d['file'], d['definition'])] = cnt.get((d['file'], d['definition']), 0) + 1
def theorem_at(path, line):
    best = None
    for i, t in enumerate(open(path).read().split('\n')[:line], 1):
        m = re.match(r'(?:private |protected |@\[\w+\] )*(theorem|lemma|def|example|instance|inductive|structure|abbrev)\b\s*([\w.\']*)', t)
        if m: best = m.group(2) if m.group(2) else '%s@%d' % (m.group(1), i)
    return best
os.makedirs(L, exist_ok=True)
for x in ('lakefile.toml', 'lake-manifest.json'): shutil.copy(src + '/' + x, L)
def sync(a, b):
    keep = set()
    for d, ds, fs in os.walk(a):
        rel = os.path.relpath(d, a); os.makedirs(os.path.join(b, rel), exist_ok=True)
        for f in fs:
            x, y = os.path.join(d, f), os.path.join(b, rel, f); keep.add(os.path.normpath(y))
            s = os.lstat(x)
            try:
                q = os.lstat(y)
                if (q.st_size, q.st_mtime_ns) == (s.st_size, s.st_mtime_ns): continue
                os.remove(y)
            except FileNotFoundError: pass
            shutil.copy2(x, y, follow_symlinks=False)
    for d, ds, fs in os.walk(b):
        for f in fs:
            y = os.path.normpath(os.path.join(d, f))
            if y not in keep: os.remove(y)
def reset():
    sync(src + '/Verif', L + '/Verif'); shutil.copy2(src + '/Verif.lean', L + '/Verif.lean'); sync(scratch + '/pristine.lake', L + '/.lake')
order = []
for k in range(per):
    for f, name, cand in muts:
        order.append((f, name, cand, k))
rnd.shuffle(order)
for f, name, cand, k in order:
    tries = 0
    for (a, z, old, new) in cand:
        while os.path.exists(scratch + '/PAUSE'): time.sleep(5)
        if os.path.exists(scratch + '/STOP'): sys.exit()
        if cnt.get((f, name), 0) > k or tries >= 4: break
        if (f, name, a, new) in done: continue
        done.add((f, name, a, new)); tries += 1
        reset()
        p = L + '/Verif/Model/%s.lean' % f
        t = open(p).read()
        t2 = t[:a] + new + t[z:]
        line = t.count('\n', 0, a) + 1
        open(p, 'w').write(t2)
        t0 = time.time()
        r = subprocess.run(['nice', 'lake', 'build', 'Verif.Model.' + f], cwd=L, capture_output=True, text=True)
        d = dict(file=f, definition=name, pos=a, line=line, old=old, new=new, context=t2[max(0, a - 70):a + len(new) + 50])
        if r.returncode != 0: d['outcome'] = 'does not compile'
        else:
            proc = subprocess.Popen(['nice', 'lake', 'build'], cwd=L, stdout=subprocess.PIPE, stderr=subprocess.STDOUT, text=True, start_new_session=True)
            err = None
            for ln in proc.stdout:
                m = re.match(r'error: (Verif/\S+?\.lean):(\d+):', ln)
                if m: err = (m.group(1), int(m.group(2))); break
            if err:
                os.killpg(proc.pid, signal.SIGKILL); proc.wait()
                d['outcome'] = 'killed'; d['module'] = err[0]; d['theorem'] = theorem_at(L + '/' + err[0], err[1])
            else:
                proc.wait(); d['outcome'] = 'survived' if proc.returncode == 0 else 'broken build'
        d['seconds'] = round(time.time() - t0)
        open(res, 'a').write(json.dumps(d) + '\n')
        if d['outcome'] != 'does not compile': cnt[(f, name)] = cnt.get((f, name), 0) + 1; break
