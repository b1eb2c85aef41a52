#!/usr/bin/env python3
"""Second kind of seeded-bug test, for the theorems proved about the reference assembler (C58-C68): the bug is put into
Spec/Reference.lean, and the scratch copy pretends that gaia has the same bug, by turning the theorems that connect the two
(Proofs/Reference*.lean, the theorems of C57) into axioms of the scratch copy. Every proof that then fails is cut out and the build goes on,
so that the result is the list of all theorems that can no longer be proved, those that depend on a failed proof included.
A mutations file with ASSUME = True is for bugs in the two-pass assembler (Spec/Assembler.lean, Spec/Truncate.lean) instead: there every theorem
outside the tested properties becomes an axiom if its statement speaks of the model (it then says that gaia has the bug, too); if it speaks of
the two-pass assembler only it is cut out when its proof fails.
usage: mutref.py SCRATCH MUTATIONS.py [names...] (SCRATCH/pristine.lake: a built .lake; SRC: the sources it was built from)"""
import sys, os, re, json, subprocess, shutil, glob
scratch, mfile = sys.argv[1], sys.argv[2]
only = set(sys.argv[3:])
ns = {}; exec(open(mfile).read(), ns)
L = scratch + '/lean'; src = os.environ.get('SRC', '/verif/lean') + '/Verif'
CUT = 'so' + 'rry'
PROPS = ns.get('PROPS') or ['C58_Relocate', 'C59_Append', 'C60_Modules', 'C63_Origins', 'C66_Forms', 'C67_Characters', 'C68_Prefix', 'C29_AnyText', 'C35_Limit', 'C53_Size', 'C55_AnyText', 'C70_Edit']
KW = re.compile(r'^(?:/--|/-!|@\[|open |section|namespace|end |end$|variable|set_option|attribute|local |scoped |instance|inductive|structure|abbrev|example|def |private |protected |theorem |lemma |axiom |macro|syntax|import|noncomputable|mutual|deriving|universe)')
def blocks(t):
    """(start, end) line ranges of top-level commands"""
    ls = t.split('\n'); st = [i for i, l in enumerate(ls) if KW.match(l)] + [len(ls)]
    return ls, list(zip(st, st[1:]))
def split_stmt(text):
    """offset of the := or | that ends a theorem's statement"""
    d = 0; i = 0
    while i < len(text):
        c = text[i]
        if text.startswith('b! "', i) or c == '"':
            i = text.index('"', i) + 1
            while text[i] != '"': i += 2 if text[i] == '\\' else 1
        elif c in '([{⟨': d += 1
        elif c in ')]}⟩': d -= 1
        elif d == 0 and text.startswith(':=', i): return i
        elif d == 0 and text.startswith('\n  | ', i): return i
        elif text.startswith('--', i):
            i = text.find('\n', i) - 1
        i += 1
    return None
def is_thm(b): return re.match(r'((?:private |protected |@\[[^\]]*\] ?)*)(theorem|lemma)\b', b)
def axiomatise(path, which=lambda path, name, stmt: True):
    ls, bs = blocks(open(path).read()); out = ls[:bs[0][0]] if bs else ls
    for a, b in bs:
        t = '\n'.join(ls[a:b]); m = is_thm(t)
        if m:
            k = split_stmt(t[m.end():])
            w = re.search(r'\bwhere\n', t[m.end():])
            if w and (k is None or w.start() < k): k = w.start()
            stmt = t[m.end():m.end() + k]
            if which(path, '', stmt): t = 'axiom' + stmt.rstrip() + '\n'
        elif t.startswith('example') and which(path, '', t): t = 'example : True := trivial\n'
        out.append(t)
    open(path, 'w').write('\n'.join(out))
LINK = set()
if ns.get('ASSUME'):
    for f in glob.glob(src + '/Model/*.lean') + glob.glob(src + '/Proofs/*.lean') + [src + '/Spec/' + x + '.lean' for x in ('Program', 'WriteLog', 'Equivalence', 'Diagnostic', 'Check')]:
        if os.path.basename(f)[:-5] in ('Base', 'Opcode', 'SpecFacts', 'Relocate', 'Append', 'Modules', 'Bytes'): continue
        LINK |= {x.split('.')[-1] for x in re.findall(r"^(?:@\[[^\]]*\] ?|private |noncomputable )*(?:def|structure|inductive|abbrev) ([\w.']+)", open(f).read(), re.M)}
    LINK -= {'lookup', 'length', 'init', 'append', 'bytes', 'define', 'op', 'map', 'tail', 'value', 'empty', 'size', 'start', 'step', 'bind', 'plus', 'line', 'word', 'words', 'put', 'more', 'Opd'}
assumed = []
def is_link(path, name, stmt):
    return ns.get('ASSUME') and os.path.basename(path)[:-5] not in PROPS + ns.get('KEEP', []) and bool(LINK & set(re.findall(r"[A-Za-z_][\w']*", stmt)))
def cut(path, lines):
    """removes the proofs of the commands at the lines; their names"""
    ls, bs = blocks(open(path).read()); names = []
    for a, b in reversed(bs):
        if not any(a <= line - 1 < b for line in lines): continue
        t = '\n'.join(ls[a:b]); m = is_thm(t)
        if m:
            k = split_stmt(t[m.end():])
            w = re.search(r'\bwhere\n', t[m.end():])
            if w and (k is None or w.start() < k): k = w.start()
            nm = re.match(r"\s*([\w.']+)", t[m.end():]).group(1); stmt = t[m.end():m.end() + k]
            if is_link(path, nm, stmt) or nm in ns.get('BRIDGE', []):
                assumed.append(nm); ls[a:b] = ['axiom' + stmt.rstrip() + '\n']; continue
            names.append(nm)
            ls[a:b] = [t[:m.end() + k].rstrip() + ' := by ' + CUT + '\n']
        elif t.startswith('example'):
            ls[a:b] = ['example : True := trivial\n']; names.append('example')
    open(path, 'w').write('\n'.join(ls)); return names
res = scratch + '/results.jsonl'
done = {json.loads(l)['name'] for l in open(res)} if os.path.exists(res) else set()
for m in ns['M']:
    name = m['name']
    if (only and name not in only) or (not only and name in done): continue
    shutil.rmtree(L, ignore_errors=True); os.makedirs(L)
    for f in glob.glob(os.path.dirname(src) + '/*'):
        if os.path.isfile(f): shutil.copy(f, L)
    shutil.copytree(src, L + '/Verif'); shutil.copytree(scratch + '/pristine.lake', L + '/.lake', symlinks=True)
    p = L + '/Verif/' + m['file']; t = open(p).read()
    if t.count(m['old']) < 1: print(name, 'PATTERN NOT FOUND'); continue
    open(p, 'w').write(t.replace(m['old'], m['new'], 1))
    for f in [] if ns.get('ASSUME') else glob.glob(L + '/Verif/Proofs/Reference*.lean') + [L + '/Verif/Props/C57_Reference.lean']: axiomatise(f)
    if ns.get('ASSUME'):
        for f in glob.glob(L + '/Verif/Pro*/*.lean'):
            if os.path.basename(f)[:-5] not in PROPS + ns.get('KEEP', []): axiomatise(f, is_link)
    failed = []; ok = False; assumed.clear()
    for _ in range(60):
        r = subprocess.run(['nice', '-n', '5', 'lake', 'build'] + ['Verif.Props.' + x for x in PROPS], cwd=L, capture_output=True, text=True)
        if r.returncode == 0: ok = True; break
        errs = sorted({(e.group(1), int(e.group(2))) for e in re.finditer(r'^error: (Verif/\S+?\.lean):(\d+):', r.stdout + r.stderr, re.M)}, reverse=True)
        got = False; na = len(assumed)
        for f in sorted({f for f, _ in errs}):
            for n in cut(L + '/' + f, [ln for g, ln in errs if g == f]): failed.append(f[6:-5] + ':' + n); got = True
        if not got and na == len(assumed): print((r.stdout + r.stderr)[-600:]); break
    failed = list(dict.fromkeys(failed))
    lost = []; kept = []
    if ok:
        ths = []
        for x in PROPS: ths += re.findall(r'^theorem (C\d\d_\w+)', open(src + '/Props/' + x + '.lean').read(), re.M)
        open(L + '/Ax.lean', 'w').write('\n'.join('import Verif.Props.' + x for x in PROPS) + '\nopen Gaia\n' + '\n'.join('#print axioms ' + x for x in ths))
        r = subprocess.run(['lake', 'env', 'lean', 'Ax.lean'], cwd=L, capture_output=True, text=True)
        for b in re.split(r"(?m)^(?=')", r.stdout):
            g = re.match(r"'([\w.]+)'", b)
            if g: (lost if CUT + 'Ax' in b else kept).append(g.group(1).split('.')[-1])
    d = dict(name=name, definition=m['definition'], edit=m['edit'], claim=m['claim'], complete=ok, assumed=len(assumed), failed=failed, lost=lost,
             still=[x for x in kept if x[:3] in m['claim']])
    open(res, 'a').write(json.dumps(d) + '\n')
    print(name, 'complete' if ok else 'INCOMPLETE', '| failed', failed, '| lost', lost, '| still', d['still'], flush=True)
